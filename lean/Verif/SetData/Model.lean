import Verif.GetData.Model
import Verif.Hdf5.Model

/-!
Model of `set_data`, `set_flags` and `set_nsamples`, `src/pyuvdata/uvdata/uvdata.py` lines 3453–3457, 3498–3502 and 3545–3549, with
`_set_method_helper`, lines 3375–3412, on top of the models of `_key2inds`, `_convert_to_slices` and `_index_dset`. The three axes of the array are
baseline-time, frequency and polarization.
-/
namespace Verif.SetData
open Verif.Np Verif.Slices Verif.Hdf5
open Verif.GetData (Obj Key key2inds)

/-- Exceptions: of the key, the key is there conjugated (3384–3388), the shape does not fit (3393–3397), the assignment itself. -/
inductive Err
  | key (e : GetData.Err)
  | conjugated
  | shape
  | index
  deriving DecidableEq

/-- A slice as it is given to `_index_dset`. -/
def toSlc (s : PSlice) : Slc := ⟨some s.start, some s.stop, s.step⟩

def entrySlc : Entry → Option Slc
  | .slice s => some (toSlc s)
  | .inds _ => none

/-- Lines 3399–3410 for one axis: a list of slices if that is short enough, else the indices themselves. -/
def axSel (frac : Rat) : SlicifyOut → Option AxSel
  | .none => none
  | .slice s => some (.slices [toSlc s])
  | .inds l =>
    let c := convert (.list l) frac none false
    some (if c.2 then .slices (c.1.filterMap entrySlc) else .array l)

/-- `set_data` and its like; `nfreqs` is the number of channels. -/
def setData {α : Type} (o : Obj) (data : Arr α) (nfreqs : Nat) (key : Key) (new : Arr α) : Except Err (Arr α) :=
  match key2inds o key with
  | .error e => .error (.key e)
  | .ok i =>
    if i.blt2 ≠ .none then .error .conjugated                                        -- 3384–3388
    else
      match i.blt1.picks o.pairs.nblts, i.pol1.picks o.pols.length with              -- 3390–3391
      | some ls, some ps =>
        if new.shape ≠ [ls.length, nfreqs, ps.length] then .error .shape             -- 3392–3397
        else
          match axSel (1 / 10) i.blt1, axSel (1 / 2) i.pol1 with                     -- 3399–3412
          | some a, some b =>
            match writeDset data new [a, .slice {}, b] with
            | some d => .ok d
            | none => .error .index
          | _, _ => .error .index
      | _, _ => .error .index

end Verif.SetData
