import Verif.Blt.Model

/-!
What a baseline-time record is, and what it means for records to be sorted by named keys.
-/
namespace Verif.Blt
open Verif.BltAxis (Key)

variable {R V D F N : Type} [LinearOrder R]

/-- One baseline-time record: all fields of row `i`. -/
structure Rec (R V D F N : Type) where
  ant1 : Nat
  ant2 : Nat
  bl : Nat
  uvw : V
  time : R
  lst : R
  integ : R
  appRa : R
  appDec : R
  framePa : R
  pcId : Nat
  vis : Option (D × F × N)
  deriving DecidableEq

/-- The object is the struct-of-arrays form of a list of records: every array has one entry per record. -/
def Obj.IsTable (o : Obj R V D F N) (rs : List (Rec R V D F N)) : Prop :=
  o.ant1 = rs.map Rec.ant1 ∧ o.ant2 = rs.map Rec.ant2 ∧ o.bl = rs.map Rec.bl ∧ o.uvw = rs.map Rec.uvw ∧
  o.time = rs.map Rec.time ∧ o.lst = rs.map Rec.lst ∧ o.integ = rs.map Rec.integ ∧
  o.appRa = rs.map Rec.appRa ∧ o.appDec = rs.map Rec.appDec ∧ o.framePa = rs.map Rec.framePa ∧
  o.pcId = rs.map Rec.pcId ∧
  (match o.vis with
    | none => ∀ r ∈ rs, r.vis = none
    | some (d, f, n) => ∃ vs : List (D × F × N), rs.map Rec.vis = vs.map some ∧
        d = vs.map (fun v => v.1) ∧ f = vs.map (fun v => v.2.1) ∧ n = vs.map (fun v => v.2.2))

/-- Comparison of two records by one named key. -/
def recLe : SKey → Rec R V D F N → Rec R V D F N → Prop
  | .time, p, q => p.time ≤ q.time
  | .baseline, p, q => p.bl ≤ q.bl
  | .ant1, p, q => p.ant1 ≤ q.ant1
  | .ant2, p, q => p.ant2 ≤ q.ant2
  | .integ, p, q => p.integ ≤ q.integ

/-- Lexicographic comparison by named keys, most significant first. -/
def lexLe : List SKey → Rec R V D F N → Rec R V D F N → Prop
  | [], _, _ => True
  | k :: ks, p, q => recLe k p q ∧ (recLe k q p → lexLe ks p q)

/-- Name of a minor order as a sort key. -/
def skey : Key → SKey
  | .time => .time | .baseline => .baseline | .ant1 => .ant1 | .ant2 => .ant2

/-- The keys the documentation promises for a named order and a minor order: the two names; with no (or the
same) minor order the documented default; "bda" sorts by integration time, then baseline, then time. -/
def promised : Order → Option Key → List SKey
  | .time, m => [.time, match m with | none | some .time => .baseline | some k => skey k]
  | .baseline, _ => [.baseline, .time]
  | .ant1, m => [.ant1, match m with | none | some .ant1 => .ant2 | some k => skey k]
  | .ant2, m => [.ant2, match m with | none | some .ant2 => .ant1 | some k => skey k]
  | .bda, _ => [.integ, .baseline, .time]
  | .index _, _ => []

/-- Sorted by keys. -/
def SortedBy (ks : List SKey) (rs : List (Rec R V D F N)) : Prop := rs.Pairwise (lexLe ks)

end Verif.Blt
