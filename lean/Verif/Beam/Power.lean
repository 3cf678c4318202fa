import Verif.Pol.Model
import Mathlib.Analysis.Complex.Norm

/-!
Model of the conversion of an electric-field beam to a power beam, `UVBeam.efield_to_power`, `src/pyuvdata/uvbeam/uvbeam.py` lines 856–1020,
with `_check_auto_power` and `_fix_auto_power`, lines 686–762.

The axes for frequencies and pixels are one axis here, since nothing in these lines tells them apart; its length is `points`. Arrays are
functions of positions. Numbers are real or complex numbers, without rounding, so the small imaginary parts that the code takes care of do
not arise, and the branch that takes care of them is modelled all the same. Left out: the history, the final `check`, warnings, and the
bookkeeping of which attributes are required. The copy made with `inplace=False` is the object the model returns.
-/
namespace Verif.Beam
open Verif.Pol (Str)

/-- The attributes of a beam that the conversions read or set. `data` takes an axis of the vectors, a feed or polarization, and a point;
`basis` takes an axis of the vectors, a component and a point. -/
structure EBeam where
  power : Bool
  phased : Bool
  feeds : Option (List Str)
  npols : Option Nat
  pols : Option (List Int)
  nvec : Nat
  ncomp : Option Nat
  points : Nat
  data : Nat → Nat → Nat → ℂ
  basis : Option (Nat → Nat → Nat → ℝ)

inductive PErr where
  | notEfield | phased | feedName | threeVectors | attr | index
deriving DecidableEq

/-- Lines 905–907: with one feed there are no cross polarizations. -/
def crossUsed (nfeeds : Nat) (cross : Bool) : Bool := if nfeeds = 1 then false else cross

/-- `feed_pol_order`, lines 912–921, `cross` after line 907. -/
def feedPairs (nfeeds : Nat) (cross : Bool) : List (Nat × Nat) :=
  [(0, 0)] ++ (if 1 < nfeeds then [(1, 1)] else []) ++ (if cross then [(0, 1), (1, 0)] else [])

/-- The number of one polarization, lines 923–933. `none` is an exception. -/
def pairLabel (xo : Option Str) (feeds : List Str) (p : Nat × Nat) : Option Int :=
  match feeds[p.1]?, feeds[p.2]? with
  | some a, some b => Pol.polstr2num xo ((a ++ b).map Char.toUpper)
  | _, _ => none

/-- The product for one pair of feeds, two axes and two components, lines 952–971. -/
noncomputable def projected (E : Nat → Nat → Nat → ℂ) (b : Nat → Nat → Nat → ℝ) (f g pt : Nat) : ℂ :=
  ((List.range 2).map fun c =>
    (E 0 f pt * (starRingEnd ℂ) (E 0 g pt)) * (b 0 c pt : ℂ) ^ 2
      + (E 1 f pt * (starRingEnd ℂ) (E 1 g pt)) * (b 1 c pt : ℂ) ^ 2
      + (E 0 f pt * (starRingEnd ℂ) (E 1 g pt) + E 1 f pt * (starRingEnd ℂ) (E 0 g pt))
        * ((b 0 c pt : ℂ) * (b 1 c pt : ℂ))).sum

/-- `POL_NUM2STR_DICT[pol] in auto_pol_list`, lines 695–701 and 735–741: the polarizations xx, yy, rr, ll and the four Stokes parameters. -/
def isAutoPol (p : Int) : Bool :=
  match Pol.polNum2Str.get p with
  | some s => decide (s ∈ [['x','x'], ['y','y'], ['r','r'], ['l','l'], ['p','I'], ['p','Q'], ['p','U'], ['p','V']])
  | none => false

open Classical in
/-- `_check_auto_power(fix_auto_power=True)`, lines 733–756 with 703–708: when some value of an auto polarization is not real, every value of
every auto polarization is replaced by its absolute value. -/
noncomputable def fixAutos (pols : List Int) (nvec points : Nat) (D : Nat → Nat → Nat → ℂ) : Nat → Nat → Nat → ℂ :=
  if ∃ v i pt p, v < nvec ∧ pt < points ∧ pols[i]? = some p ∧ isAutoPol p = true ∧ (D v i pt).im ≠ 0 then
    fun v i pt => match pols[i]? with
      | some p => if isAutoPol p then (‖D v i pt‖ : ℂ) else D v i pt
      | none => D v i pt
  else D

/-- The values of the power beam, lines 940–994. -/
noncomputable def powerData (cross keep : Bool) (pairs : List (Nat × Nat)) (nvec : Nat) (E : Nat → Nat → Nat → ℂ)
    (basis : Option (Nat → Nat → Nat → ℝ)) : Except PErr (Nat → Nat → Nat → ℂ) :=
  if keep then
    .ok fun v i pt => match pairs[i]? with
      | some (f, g) => if cross then E v f pt * (starRingEnd ℂ) (E v g pt) else ((E v f pt * (starRingEnd ℂ) (E v g pt)).re : ℂ)
      | none => 0
  else if nvec = 2 then
    match basis with
    | none => .error .attr
    | some b =>
      .ok fun v i pt => match pairs[i]? with
        | some (f, g) => if v = 0 then (if cross then projected E b f g pt else ((projected E b f g pt).re : ℂ)) else 0
        | none => 0
  else .error .threeVectors

/-- `efield_to_power`, lines 892–1020: the object after the call and the exception, if any. -/
noncomputable def efieldToPower (xo : Option Str) (cross keep : Bool) (o : EBeam) : EBeam × Option PErr :=
  if o.power then (o, some .notEfield)
  else if o.phased then (o, some .phased)
  else
    match o.feeds with
    | none => (o, some .attr)
    | some feeds =>
      let cross := crossUsed feeds.length cross
      let pairs := feedPairs feeds.length cross
      let o1 := { o with npols := some (if cross then feeds.length ^ 2 else feeds.length) }
      match pairs.mapM (pairLabel xo feeds) with
      | none => (o1, some .feedName)
      | some labels =>
        let o2 := { o1 with pols := some labels, nvec := if keep then o.nvec else 1, power := true }
        match powerData cross keep pairs o.nvec o.data o.basis with
        | .error e => (o2, some e)
        | .ok D =>
          ({ o2 with
              data := if cross then fixAutos labels o2.nvec o.points D else D
              feeds := none
              basis := if keep then o.basis else none
              ncomp := if keep then o.ncomp else none }, none)

end Verif.Beam
