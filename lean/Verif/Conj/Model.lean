import Verif.Baseline.Model
import Verif.Pol.Model
import Mathlib.Algebra.Order.Group.Abs
import Mathlib.Algebra.Order.Ring.Int

/-!
Model of `UVData.conjugate_bls` (src/pyuvdata/uvdata/uvdata.py 3574–3701).

Coordinates are values of a linearly ordered additive group `R` (real numbers); visibilities are values of a
type `C` with an operation `cj` (complex conjugation).  `np.isclose(x, 0, atol=tol)` is `|x| ≤ tol` (the
relative term vanishes because the second argument is 0).
-/
namespace Verif.Conj
open Verif.Np
open Verif.Baseline (antnumsToBaseline)
open Verif.Pol (reorderConjPols)

/-- The attributes read or written by `conjugate_bls` (uvdata.py 3621–3701); `data`, `flags`, `nsamples` have
axes (blt, freq, pol) and are `none` for a metadata-only object. -/
structure Obj (R C : Type) where
  ant1 : List Nat
  ant2 : List Nat
  bl : List Nat
  uvw : List (R × R × R)
  pols : List Int
  data : Option (List (List (List C)))
  flags : Option (List (List (List Bool)))
  nsamples : Option (List (List (List R)))
  nbls : Nat
  /-- `telescope.Nants` -/
  nants : Nat
  /-- East-north-up position of an antenna number (`enu[anum.index(a)]`, uvdata.py 3624–3629; an unknown
  antenna number raises there and is not modelled). -/
  enu : Nat → R × R × R

variable {R C : Type} [AddCommGroup R] [LinearOrder R] [IsOrderedAddMonoid R]

/-- The `convention` argument, uvdata.py 3601–3619. -/
inductive Convention
  | ant1LtAnt2 | ant2LtAnt1 | uNeg | uPos | vNeg | vPos
  | index (l : List Nat)
  deriving DecidableEq

/-- Exceptions: bad index array (3608), polarizations not closed under conjugation (3682), baseline numbering
(3697). -/
inductive Err | badIndex | pols | numbering
  deriving DecidableEq

/-- `np.isclose(x, 0, atol=tol)`, used at uvdata.py 3642–3676. -/
def near (tol x : R) : Bool := decide (|x| ≤ tol)

/-- `uvw_array_use`, uvdata.py 3622–3632. -/
def uvwUse (o : Obj R C) (useEnu : Bool) (i : Nat) : R × R × R :=
  if useEnu then
    let p1 := o.enu (o.ant1[i]?.getD 0)
    let p2 := o.enu (o.ant2[i]?.getD 0)
    (p2.1 - p1.1, p2.2.1 - p1.2.1, p2.2.2 - p1.2.2)
  else o.uvw[i]?.getD (0, 0, 0)

/-- Is row `i` selected, uvdata.py 3634–3679. -/
def selected (o : Obj R C) (c : Convention) (useEnu : Bool) (tol : R) (i : Nat) : Bool :=
  let x := uvwUse o useEnu i
  match c with
  | .ant1LtAnt2 => decide (o.ant1[i]?.getD 0 > o.ant2[i]?.getD 0)
  | .ant2LtAnt1 => decide (o.ant2[i]?.getD 0 > o.ant1[i]?.getD 0)
  | .uNeg => decide (x.1 > tol) || (decide (x.2.1 > tol) && near tol x.1) ||
      (decide (x.2.2 > tol) && near tol x.1 && near tol x.2.1)
  | .uPos => decide (x.1 < -tol) || (decide (x.2.1 < -tol) && near tol x.1) ||
      (decide (x.2.2 < -tol) && near tol x.1 && near tol x.2.1)
  | .vNeg => decide (x.2.1 > tol) || (decide (x.1 > tol) && near tol x.2.1) ||
      (decide (x.2.2 > tol) && near tol x.1 && near tol x.2.1)
  | .vPos => decide (x.2.1 < -tol) || (decide (x.1 < -tol) && near tol x.2.1) ||
      (decide (x.2.2 < -tol) && near tol x.1 && near tol x.2.1)
  | .index l => decide (i ∈ l)

/-- `index_array`: the increasing positions for the named conventions; for an index array the positions it
contains (repetitions have no further effect because all writes are assignments). -/
def indexArray (o : Obj R C) (c : Convention) (useEnu : Bool) (tol : R) : List Nat :=
  (List.range o.ant1.length).filter (selected o c useEnu tol)

/-- `arr[index_array] = f(arr)[index_array]`. -/
def updAt {β : Type} (idx : List Nat) (f : Nat → β → β) (xs : List β) : List β :=
  xs.mapIdx (fun i x => if i ∈ idx then f i x else x)

/-- `-uvw`, uvdata.py 3684. -/
def neg3 (x : R × R × R) : R × R × R := (-x.1, -x.2.1, -x.2.2)

/-- One iteration of the polarization loop, uvdata.py 3689–3691. -/
def conjStep (cj : C → C) (newPol : List Nat) (orig row : List C) (p : Nat) : List C :=
  match newPol[p]?, orig[p]? with
  | some q, some v => row.set q (cj v)
  | _, _ => row

/-- The polarization loop for one row and channel, uvdata.py 3687–3691: starting from the original values,
`row[new_pol_inds[p]] = conj(orig[p])` for each `p` in order. -/
def conjRow (cj : C → C) (newPol : List Nat) (orig : List C) : List C :=
  (List.range orig.length).foldl (conjStep cj newPol orig) orig

/-- The rejected index arrays, uvdata.py 3603–3612 (`np.max([])` raises). -/
def badIndex (n : Nat) : Convention → Bool
  | .index l => l.isEmpty || l.any (fun i => decide (i ≥ n))
  | _ => false

/-- `conjugate_bls`, uvdata.py 3574–3701. -/
def conjugateBls (cj : C → C) (o : Obj R C) (c : Convention) (useEnu : Bool) (tol : R) : Except Err (Obj R C) :=
  if badIndex o.ant1.length c then .error .badIndex
  else
    let idx := indexArray o c useEnu tol
    if idx.isEmpty then .ok o                                           -- 3681
    else
      match reorderConjPols o.pols with                                 -- 3682
      | none => .error .pols
      | some newPol =>
        let uvw := updAt idx (fun _ x => neg3 x) o.uvw                  -- 3684
        let data := o.data.map (updAt idx (fun _ row => row.map (conjRow cj newPol)))   -- 3686–3691
        let ant1 := updAt idx (fun i _ => o.ant2[i]?.getD 0) o.ant1     -- 3693–3696
        let ant2 := updAt idx (fun i _ => o.ant1[i]?.getD 0) o.ant2
        match antnumsToBaseline (some o.nants) false false              -- 3697–3699
            (idx.map (fun i => ((ant1[i]?.getD 0 : Nat) : Int))) (idx.map (fun i => ((ant2[i]?.getD 0 : Nat) : Int))) with
        | .error _ => .error .numbering
        | .ok new =>
          let bl := updAt idx (fun i b => ((idx.zip new).find? (fun p => p.1 == i)).elim b Prod.snd) o.bl
          .ok { o with uvw, data, ant1, ant2, bl, nbls := (unique bl).length }          -- 3700

end Verif.Conj
