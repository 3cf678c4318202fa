import Verif.Norm.Model
import Mathlib.Algebra.Order.AbsoluteValue.Basic

/-! What normalization is meant to do: autocorrelations of a row, and roots. -/

namespace Verif.Norm

/-- Feeds. -/
inductive Feed
  | x | y | r | l
deriving DecidableEq

/-- The feeds of the two antennas for a polarization number (AIPS Memo 117). -/
def feeds : Int → Option (Feed × Feed)
  | -1 => some (.r, .r)
  | -2 => some (.l, .l)
  | -3 => some (.r, .l)
  | -4 => some (.l, .r)
  | -5 => some (.x, .x)
  | -6 => some (.y, .y)
  | -7 => some (.x, .y)
  | -8 => some (.y, .x)
  | _ => none

/-- Positions `p`, `q` on the polarization axis hold the autocorrelations of the two feeds of position `j`; quantities
that do not belong to feeds go with themselves. -/
def AutoPols (pols : List Int) (j p q : Nat) : Prop :=
  ∃ c, pols[j]? = some c ∧
    ((∃ u v cp cq, feeds c = some (u, v) ∧ pols[p]? = some cp ∧ feeds cp = some (u, u) ∧
        pols[q]? = some cq ∧ feeds cq = some (v, v)) ∨
      (feeds c = none ∧ pols[p]? = some c ∧ pols[q]? = some c))

variable {K V : Type} [Field K] [LinearOrder K] [AddCommGroup V] [Module K V]

/-- Row `x` is the autocorrelation of an antenna at a time. -/
def Auto (o : Obj K V) (ant : Nat) (t : K) (x : Nat) : Prop :=
  x < o.n ∧ o.a x = ant ∧ o.b x = ant ∧ o.time x = t

/-- It can be used: not flagged and positive. -/
def Good (re : V → K) (o : Obj K V) (x f p : Nat) : Prop := o.flag x f p = false ∧ 0 < re (o.data x f p)

/-- Times are equal or further apart than the tolerance. -/
def Apart (tol : K) (o : Obj K V) : Prop :=
  ∀ r < o.n, ∀ s < o.n, o.time r = o.time s ∨ tol < o.time r - o.time s ∨ tol < o.time s - o.time r

/-- An antenna has one autocorrelation at a time. -/
def OneAuto (o : Obj K V) : Prop := ∀ ant t x y, Auto o ant t x → Auto o ant t y → x = y

/-- The positive root of a positive number. -/
def IsRoot (sqrt : K → K) (v : K) : Prop := 0 < sqrt v ∧ sqrt v * sqrt v = v

/-- Roots of the positive autocorrelations and of their reciprocals. -/
def Roots (sqrt : K → K) (re : V → K) (o : Obj K V) : Prop :=
  ∀ x < o.n, o.a x = o.b x → ∀ f p, 0 < re (o.data x f p) →
    IsRoot sqrt (re (o.data x f p)) ∧ IsRoot sqrt (re (o.data x f p))⁻¹

/-- The rows are in the order of time. -/
def InTime (o : Obj K V) : Prop := ∀ r s, r ≤ s → s < o.n → o.time r ≤ o.time s

end Verif.Norm
