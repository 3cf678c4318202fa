import Verif.Conj.Model

/-!
What conjugating a set of rows means, record by record.
-/
namespace Verif.Conj
open Verif.Pol (conjNum)

variable {R C : Type} [AddCommGroup R] [LinearOrder R] [IsOrderedAddMonoid R]

/-- Entry (row, channel, polarization position) of a three-dimensional array. -/
def at3 {β : Type} (d : List (List (List β))) (i f k : Nat) : Option β :=
  ((d[i]?).bind (fun r => r[f]?)).bind (fun r => r[k]?)

/-- All arrays have one entry per row and every channel has one entry per polarization; polarizations are
distinct. -/
def Shaped (o : Obj R C) : Prop :=
  o.ant2.length = o.ant1.length ∧ o.bl.length = o.ant1.length ∧ o.uvw.length = o.ant1.length ∧ o.pols.Nodup ∧
  ∀ d, o.data = some d → d.length = o.ant1.length ∧ ∀ r ∈ d, ∀ ch ∈ r, ch.length = o.pols.length

/-- Row `i` of `o'` is row `i` of `o` with the baseline reversed: antennas exchanged, uvw negated, and the
visibility of polarization `p` now stored, conjugated, under the conjugate polarization `q`. -/
def RowReversed (cj : C → C) (o o' : Obj R C) (i : Nat) : Prop :=
  o'.ant1[i]? = o.ant2[i]? ∧ o'.ant2[i]? = o.ant1[i]? ∧
  (∀ u v w, o.uvw[i]? = some (u, v, w) → o'.uvw[i]? = some (-u, -v, -w)) ∧
  (∀ d, o.data = some d → ∃ d', o'.data = some d' ∧ ∀ f k k' p q, o.pols[k]? = some p → o'.pols[k']? = some q →
    conjNum p = some q → at3 d' i f k' = (at3 d i f k).map cj)

/-- Row `i` is untouched. -/
def RowSame (o o' : Obj R C) (i : Nat) : Prop :=
  o'.ant1[i]? = o.ant1[i]? ∧ o'.ant2[i]? = o.ant2[i]? ∧ o'.bl[i]? = o.bl[i]? ∧ o'.uvw[i]? = o.uvw[i]? ∧
  ∀ d, o.data = some d → ∃ d', o'.data = some d' ∧ d'[i]? = d[i]?

/-- Which rows the arguments ask to be reversed (independent of the code's expression): rows violating the
convention; rows listed. -/
def Violates (o : Obj R C) (useEnu : Bool) (tol : R) (i : Nat) : Convention → Prop
  | .ant1LtAnt2 => o.ant1[i]?.getD 0 > o.ant2[i]?.getD 0
  | .ant2LtAnt1 => o.ant2[i]?.getD 0 > o.ant1[i]?.getD 0
  | .uNeg => let x := uvwUse o useEnu i; tol < x.1 ∨ (|x.1| ≤ tol ∧ tol < x.2.1) ∨ (|x.1| ≤ tol ∧ |x.2.1| ≤ tol ∧ tol < x.2.2)
  | .uPos => let x := uvwUse o useEnu i; x.1 < -tol ∨ (|x.1| ≤ tol ∧ x.2.1 < -tol) ∨ (|x.1| ≤ tol ∧ |x.2.1| ≤ tol ∧ x.2.2 < -tol)
  | .vNeg => let x := uvwUse o useEnu i; tol < x.2.1 ∨ (|x.2.1| ≤ tol ∧ tol < x.1) ∨ (|x.1| ≤ tol ∧ |x.2.1| ≤ tol ∧ tol < x.2.2)
  | .vPos => let x := uvwUse o useEnu i; x.2.1 < -tol ∨ (|x.2.1| ≤ tol ∧ x.1 < -tol) ∨ (|x.1| ≤ tol ∧ |x.2.1| ≤ tol ∧ x.2.2 < -tol)
  | .index l => i ∈ l

end Verif.Conj
