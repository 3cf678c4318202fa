import Verif.Check.Model
import Mathlib.Data.Finset.Card

/-! What a consistent object is. -/

namespace Verif.Check

variable {K : Type} [Field K] [LinearOrder K]

/-- Statements about numbers, antennas, windows, phase centers and polarizations. -/
structure Meta (o : Obj K) : Prop where
  conv : ¬ (o.uncalib = true ∧ o.polConv = true)
  spw : ∀ s ∈ o.flexId, s ∈ o.spws
  faster : o.timeFaster = true → o.rect = true ∧ (1 < o.ntimes → o.time[1]? ≠ o.time[0]?)
  nants : o.nants = (o.ant1.toFinset ∪ o.ant2.toFinset).card
  nbls : o.nbls = o.bl.toFinset.card
  ntimes : o.ntimes = o.time.toFinset.card
  centers : ∀ c ∈ o.centers, c ∈ o.cat
  flex : ∀ l, o.flexPol = some l → o.npols = 1 ∧ ∀ p ∈ o.pols, p = 0
  noFlex : o.flexPol = none → 0 ∉ o.pols
  ant1 : ∀ a ∈ o.ant1, a ∈ o.tel
  ant2 : ∀ a ∈ o.ant2, a ∈ o.tel

/-- The baseline vectors are `sign` times the expected ones, but for the tolerances. -/
def Near (rtol atol : K) (expd : Nat → Nat → K) (o : Obj K) (sign : K) : Prop :=
  ∀ r < o.ant1.length, ∀ c < 3, |sign * expd r c - o.uvw r c| ≤ atol + rtol * |o.uvw r c|

/-- A row with both antennas the same. -/
def Auto (o : Obj K) (r : Nat) : Prop := ∃ a, o.ant1[r]? = some a ∧ o.ant2[r]? = some a

/-- A row with different antennas. -/
def Cross (o : Obj K) (r : Nat) : Prop := ∃ a b, o.ant1[r]? = some a ∧ o.ant2[r]? = some b ∧ a ≠ b

/-- The polarization of the data in a channel and position on the polarization axis. -/
def PolAt (o : Obj K) (f p : Nat) (q : Int) : Prop :=
  match o.flexPol with
  | none => o.pols[p]? = some q
  | some l => ∃ s i : Nat, o.flexId[f]? = some s ∧ o.spws[i]? = some s ∧ l[i]? = some q

/-- Autocorrelations are real for these: parallel hands and Stokes parameters (AIPS memo 117). -/
def RealPol (q : Int) : Prop := q = -1 ∨ q = -2 ∨ q = -5 ∨ q = -6 ∨ q = 1 ∨ q = 2 ∨ q = 3 ∨ q = 4

/-- Every autocorrelation that should be real is. -/
def AutosReal (o : Obj K) : Prop :=
  ∀ d, o.data = some d → ∀ r f p q, Auto o r → f < o.nf → p < o.npols → PolAt o f p q → RealPol q → (d r f p).2 = 0

/-- Arrays have the lengths that the check of each parameter asks for, and window numbers are different. -/
structure Shaped (o : Obj K) : Prop where
  ants : o.ant1.length = o.ant2.length
  pols : o.pols.length = o.npols
  ids : o.flexId.length = o.nf
  flex : ∀ l, o.flexPol = some l → l.length = o.spws.length
  spws : o.spws.Nodup

/-- An absolute value. -/
def IsMag (m : K) (z : K × K) : Prop := 0 ≤ m ∧ m * m = z.1 * z.1 + z.2 * z.2

end Verif.Check
