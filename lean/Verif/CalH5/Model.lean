import Verif.CalSelect.Kept
import Verif.Slices.Props

/-!
# Parts of calibration files in HDF5

Model of what `src/pyuvdata/uvcal/calh5.py` does with arrays: `write_calh5` (810-887), `_get_data` (307-611) and the choice between them in
`read_calh5` (614-693). Objects are those of `Verif.CalAdd`: arrays are functions of positions, their shape is that of the label lists; the
contents of a file are such an object too. A gain or delay and its flag are one value, since the code treats them alike.

* `_select_preprocess` and `_select_by_index` are those of `Verif.CalSelect`, `_convert_to_slices` that of `Verif.Slices`. The labels are cut when the
  object has no arrays yet (436-445).
* `_index_dset` (modelled in `Verif.Hdf5`) is here: the positions that one axis is read at. `h5py` refuses an empty list; a list with
  channels counted from the end is refused here too if it is handed to `h5py` (what is read then is not modelled).
* The rounding of qualities to 32 bits is a parameter.
* A fraction with no positions at all (`0/0`, an exception) is 0 here.
* Left out: the header (`Verif.CalHead`), compression, `check`, history, warnings.
-/

namespace Verif.CalH5
open Verif.Np Verif.CalAdd Verif.CalSelect

variable {K R V Q α : Type}

/-- Lines 849-885: gains or delays and flags as they are, qualities as 32-bit numbers. -/
def write (rd : Q → Q) (o : Obj K R V Q) : Obj K R V Q :=
  { o with
    quality := o.quality.map (fun x a f t j => rd (x a f t j))
    total := o.total.map (fun x f t j => rd (x f t j)) }

inductive Axis
  | ant | freq | spw | time | jones
  deriving DecidableEq

inductive Err
  | select (e : CalSelect.Err)
  | h5
  deriving DecidableEq

/-- A length over the length of the axis, lines 386-409. -/
def ratio {β : Type} (n : Nat) : Option (List β) → ℚ
  | none => 1
  | some l => (l.length : ℚ) / n

/-- Lines 386-409. -/
def fracs (o : Obj K R V Q) (i : Inds) : Axis → ℚ
  | .ant => ratio o.ants.length i.ants
  | .time => ratio o.times.length i.times
  | .freq => if o.wide then 1 else ratio o.ids.length i.chans
  | .spw => if o.wide then ratio o.spws.length i.spws else 1
  | .jones => ratio o.jones.length i.jones

/-- Line 411. -/
def minFrac (fr : Axis → ℚ) : ℚ := min (fr .ant) (min (fr .time) (min (fr .freq) (min (fr .jones) (fr .spw))))

/-- The axis that is cut in the file, lines 503-554. -/
def first (fr : Axis → ℚ) : Axis :=
  if fr .ant = minFrac fr then .ant
  else if fr .freq = minFrac fr then .freq
  else if fr .spw = minFrac fr then .spw
  else if fr .time = minFrac fr then .time
  else .jones

/-- The length of an axis. -/
def axisLen (o : Obj K R V Q) : Axis → Nat
  | .ant => o.ants.length
  | .time => o.times.length
  | .freq => o.ids.length
  | .spw => o.spws.length
  | .jones => o.jones.length

/-- The positions on an axis as numpy takes them. -/
def lists (o : Obj K R V Q) (i : Inds) : Axis → List Nat
  | .ant => eff o.ants.length i.ants
  | .time => eff o.times.length i.times
  | .freq => match i.chans with
    | none => List.range o.ids.length
    | some l => (l.mapM (pos o.ids.length)).getD []
  | .spw => eff o.spws.length i.spws
  | .jones => eff o.jones.length i.jones

/-- The largest number of slices for one position, lines 451-489. -/
def sliceFrac : Axis → ℚ
  | .jones => 1 / 2
  | _ => 1 / 10

/-- Lines 451-489 and 503-563 for the axis that is cut in the file: slices, or the list. -/
def readAt (n : Nat) (fr : ℚ) (l : List Nat) : Option (List Nat) :=
  if l = [] then none
  else
    let r := Slices.convert (.list l) fr none false
    if r.2 then Slices.allPicks n r.1 else Slices.picks n (.list l)

/-- A list for `h5py` has no channels counted from the end. -/
def fileList (o : Obj K R V Q) (i : Inds) (x : Axis) : Option (List Nat) :=
  match x, i.chans with
  | .freq, some l => if l.all (fun k => 0 ≤ k) then some (lists o i x) else none
  | _, _ => some (lists o i x)

/-- Positions on one axis of an array. -/
def at4 (x : Axis) (l : List Nat) (a : Arr4 α) : Arr4 α :=
  match x with
  | .ant => fun i f t j => a (via l i) f t j
  | .freq => fun i f t j => a i (via l f) t j
  | .spw => fun i f t j => a i (via l f) t j
  | .time => fun i f t j => a i f (via l t) j
  | .jones => fun i f t j => a i f t (via l j)

/-- The same for the qualities of the whole array, which have no antennas (lines 562, 577, 584, 591, 598). -/
def at3 (x : Axis) (l : List Nat) (a : Add.Arr α) : Add.Arr α :=
  match x with
  | .ant => a
  | .freq => fun f t j => a (via l f) t j
  | .spw => fun f t j => a (via l f) t j
  | .time => fun f t j => a f (via l t) j
  | .jones => fun f t j => a f t (via l j)

/-- Lines 566-598: one axis after the other. -/
def down {β : Type} (at' : Axis → List Nat → β → β) (fr : Axis → ℚ) (L : Axis → List Nat) (a : β) : β :=
  [Axis.ant, .freq, .spw, .time, .jones].foldl (fun a x => if fr x < 1 then at' x (L x) a else a) a

/-- The fraction of the axis that is cut already is set to 1 (lines 511, 522, 533, 544, 554). -/
def done (fr : Axis → ℚ) (x : Axis) : Axis → ℚ := fun y => if y = x then 1 else fr y

/-- Lines 447-609: the arrays, when the labels are those of `o'`. -/
def arrays (o o' : Obj K R V Q) (i : Inds) : Option (Obj K R V Q) :=
  let fr := fracs o i
  let x := first fr
  match (fileList o i x).bind (readAt (axisLen o x) (sliceFrac x)) with
  | none => none
  | some P => some
    { o' with
      data := down at4 (done fr x) (lists o i) (at4 x P o.data)
      quality := o.quality.map (fun a => down at4 (done fr x) (lists o i) (at4 x P a))
      total := o.total.map (fun a => down at3 (done fr x) (lists o i) (at3 x P a)) }

/-- `_get_data`, of a file with the contents `o`. -/
def getData [Field K] [LinearOrder K] (c : Ctx K R) (o : Obj K R V Q) (q : Req K) : Except Err (Obj K R V Q) :=
  match preprocess c o q with
  | .error e => .error (.select e)
  | .ok i =>
    if minFrac (fracs o i) = 1 then .ok o
    else
      match byIndex o i with
      | (_, some e) => .error (.select e)
      | (o', none) =>
        match arrays o o' i with
        | none => .error .h5
        | some r => .ok r

/-- `read_calh5`, lines 665-682: the object, and whether it has arrays. -/
def read [Field K] [LinearOrder K] (c : Ctx K R) (readData : Bool) (o : Obj K R V Q) (q : Req K) : Except Err (Obj K R V Q × Bool) :=
  if readData then (getData c o q).map (fun r => (r, true)) else .ok (o, false)

end Verif.CalH5
