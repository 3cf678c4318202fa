import Verif.Phase.Model
import Verif.Np

/-!
# Apparent positions of all rows from the catalog

Model of `UVData._set_app_coords_helper` (`src/pyuvdata/uvdata/uvdata.py` lines 1541-1613), which reading of files
(uvfits, uvh5, measurement sets, Miriad, MIR, FHD, MWA), `UVData.new` and resampling in time (line 7383) call to fill
in the apparent positions and position angles of rows.  The object and the sky are those of `Verif.Phase`.
-/

namespace Verif.AppSet

open Verif.Phase (Obj Env Err Epoch maskSet)
open Verif.Phasing (pick)
open Verif.PhaseCat (Entry get altaz)

noncomputable section

/-- `self.phase_center_id_array == cat_id` (lines 1564, 1597) -/
def idMask (o : Obj) (k : Int) : List Bool := o.st.ids.map fun i => decide (i = k)

/-- The arguments that are taken from an entry (lines 1565-1574): the key for the velocity is "vrad", which entries
do not have (theirs is "cat_vrad"). -/
def asked (e : Entry) : Entry := { e with vrad := none }

/-- Lines 1562-1590. -/
def places (env : Env) (o : Obj) : List Int → List ℝ × List ℝ → Except Err (List ℝ × List ℝ)
  | [], acc => .ok acc
  | k :: ks, acc =>
    match get o.st.cat k with
    | none => .error .key
    | some e =>
      match env.app (asked e) (pick (idMask o k) o.time) (pick (idMask o k) o.lst) with
      | .error err => .error err
      | .ok (r, d) =>
        if r.length ≠ (idMask o k).count true ∨ d.length ≠ (idMask o k).count true then .error .shape
        else places env o ks (maskSet (idMask o k) acc.1 r, maskSet (idMask o k) acc.2 d)

/-- The epoch of an entry is a number. -/
def epochOf : Option Rat → Epoch
  | none => .none
  | some q => .num q

/-- Lines 1595-1610. -/
def angles (env : Env) (o : Obj) (ra dec : List ℝ) : List (Int × Entry) → List ℝ → Except Err (List ℝ)
  | [], pa => .ok pa
  | (k, e) :: c, pa =>
    if true ∉ idMask o k then angles env o ra dec c pa
    else if e.frame = some altaz then angles env o ra dec c pa
    else
      match env.angle e.frame (epochOf e.epoch) (pick (idMask o k) o.time) (pick (idMask o k) ra)
          (pick (idMask o k) dec) with
      | .error err => .error err
      | .ok q =>
        if q.length ≠ (idMask o k).count true then .error .shape
        else angles env o ra dec c (maskSet (idMask o k) pa q)

/-- `_set_app_coords_helper` (lines 1556-1613). -/
def setApp (env : Env) (paOnly : Bool) (o : Obj) : Except Err Obj :=
  let zeros := List.replicate o.st.ids.length (0 : ℝ)
  match (if paOnly then .ok (o.ra, o.dec) else places env o (Np.unique o.st.ids) (zeros, zeros)) with
  | .error err => .error err
  | .ok (ra, dec) =>
    match angles env o ra dec o.st.cat zeros with
    | .error err => .error err
    | .ok pa => .ok { o with ra := ra, dec := dec, pa := pa }

end

end Verif.AppSet
