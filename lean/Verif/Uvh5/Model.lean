import Verif.Hdf5.Props
import Verif.Slices.Props

/-!
# Reading and writing parts of uvh5 files

Model of `src/pyuvdata/uvdata/uvh5.py`: the array part of `_get_data` (lines 758-984), `initialize_uvh5_file`
(1493-1523), `_check_header` (1527-1602) and `write_uvh5_part` (1740-1959), and of the arrays written by `write_uvh5`
(1358-1397).  The selections are what `_select_preprocess` returns: `None` or a list of positions for each axis.

Simplifications.  Reading is done through the model of `_index_dset` (`Verif.Hdf5`); fractions are exact.  Storing a
value in a dataset may change it (`cast`: single precision, integers), in the same way wherever it is done.  The
header of the file and the metadata of the object are opaque values apart from the history; comparing them is a
parameter.  Files are values, not paths: a file that does not exist is `none`.  Chunks and compression are left out.
-/

namespace Verif.Uvh5

open Verif.Np Verif.Hdf5

/-- What `_select_preprocess` returns for the three axes. -/
structure Req where
  blt : Option (List Nat)
  freq : Option (List Nat)
  pol : Option (List Nat)

/-- Fraction of an axis that is selected, uvh5.py 759-772. -/
def fracOf (n : Nat) : Option (List Nat) → Rat
  | some l => (l.length : Rat) / n
  | none => 1

/-- A slice as h5py is given it. -/
def slcOf (s : PSlice) : Slc := ⟨some s.start, some s.stop, s.step⟩

/-- The slices among the entries returned by `_convert_to_slices` (without `return_index_on_fail` there is nothing
else). -/
def slcsOf (es : List Slices.Entry) : List Slc :=
  es.filterMap (fun e => match e with
    | .slice s => some (slcOf s)
    | .inds _ => none)

/-- `blt_slices, blt_sliceable` and the same for the other axes, uvh5.py 824-846. -/
def slicesOf (frac : Rat) : Option (List Nat) → AxSel × Bool
  | some l => (.slices (slcsOf (Slices.convert (.list l) frac none false).1),
      (Slices.convert (.list l) frac none false).2)
  | none => (.slice {}, true)

/-- `blt_inds` and so on after line 846: `None` has become `np.s_[:]`. -/
def indsOf : Option (List Nat) → AxSel
  | some l => .list l
  | none => .slice {}

/-- The selection of one axis: the slices if there are few enough, otherwise the positions, uvh5.py 863-864, 866-869. -/
def selOf (frac : Rat) (o : Option (List Nat)) : AxSel :=
  if (slicesOf frac o).2 then (slicesOf frac o).1 else indsOf o

/-- The selection of an axis that is only used if several axes are indexed at once, uvh5.py 862, 865-869. -/
def selIf (multi : Bool) (frac : Rat) (o : Option (List Nat)) : AxSel :=
  if multi then selOf frac o else .slice {}

/-- `multidim_index` after the check, uvh5.py 854-857. -/
def multiOf (multidim : Bool) (r : Req) : Bool :=
  multidim && decide (2 ≤ (slicesOf (1/10) r.blt).2.toNat + (slicesOf (1/10) r.freq).2.toNat
    + (slicesOf (1/2) r.pol).2.toNat)

/-- Fancy indexing of one axis of an array in memory, uvh5.py 890, 894, 929, 933, 967, 971. -/
def takeAx {β : Type} (ax : Nat) (l : List Nat) (a : Arr (Option β)) : Option (Arr (Option β)) :=
  if ∀ i ∈ l, i < a.shape.getD ax 0 then
    some ⟨a.shape.set ax l.length, fun ix => match l[ix.getD ax 0]? with
      | some p => a.get (ix.set ax p)
      | none => none⟩
  else none

/-- Selecting along an axis afterwards, if it was not done while reading, uvh5.py 889-896.  Indexing with `np.s_[:]`
does not happen: its fraction is 1. -/
def later {β : Type} (multi : Bool) (n ax : Nat) (o : Option (List Nat)) (a : Arr (Option β)) :
    Option (Arr (Option β)) :=
  if multi = false ∧ fracOf n o < 1 then
    match o with
    | some l => takeAx ax l a
    | none => some a
  else some a

/-- `np.squeeze(…, axis=1)` of arrays with a former window axis, uvh5.py 980-984. -/
def squeeze {β : Type} (a : Arr β) : Option (Arr β) :=
  match a.shape with
  | [_, _, _] => some a
  | [x, 1, y, z] => some ⟨[x, y, z], fun ix => a.get (ix.take 1 ++ [0] ++ ix.drop 1)⟩
  | _ => none

/-- One of the three arrays of `_get_data`, uvh5.py 758-984.  `nb`, `nf`, `np` are the numbers of rows, channels and
polarizations of the header.  Axes are counted from the end for channels and polarizations. -/
def getData {β : Type} (nb nf np : Nat) (multidim : Bool) (r : Req) (dset : Arr β) : Option (Arr (Option β)) :=
  let fb := fracOf nb r.blt
  let ff := fracOf nf r.freq
  let fp := fracOf np r.pol
  let m := multiOf multidim r
  let nd := dset.shape.length
  if min fb (min ff fp) = 1 then                                              -- 799-809
    (readDset dset [.slice {}, .slice {}, .slice {}]).bind squeeze
  else if fb = min fb (min ff fp) then                                        -- 860-896
    ((readDset dset [selOf (1/10) r.blt, selIf m (1/10) r.freq, selIf m (1/2) r.pol]).bind
      (later m nf (nd - 2) r.freq)).bind (later m np (nd - 1) r.pol) |>.bind squeeze
  else if ff = min fb (min ff fp) then                                        -- 898-935
    ((readDset dset [selIf m (1/10) r.blt, selOf (1/10) r.freq, selIf m (1/2) r.pol]).bind
      (later m nb 0 r.blt)).bind (later m np (nd - 1) r.pol) |>.bind squeeze
  else                                                                        -- 937-973
    ((readDset dset [selIf m (1/10) r.blt, selIf m (1/10) r.freq, selOf (1/2) r.pol]).bind
      (later m nb 0 r.blt)).bind (later m nf (nd - 2) r.freq) |>.bind squeeze

/-! ### Writing -/

/-- A cell of the three axes. -/
abbrev Cell := Nat × Nat × Nat

/-- What one axis is indexed with when a part is written. -/
inductive Ix
  | slice (s : PSlice)
  | full
  | list (l : List Nat)

/-- Regular spacing becomes a slice, uvh5.py 1780-1798: `len(set(np.ediff1d(inds))) <= 1`.  The second component is
`…_reg_spaced`. -/
def ixOf : Option (List Nat) → Ix × Bool
  | none => (.full, true)
  | some l =>
    if ((l.zip l.tail).map (fun p => (p.2 : Int) - p.1)).dedup.length ≤ 1 then
      (.slice ⟨l.headD 0, l.getLastD 0 + 1,
        some (if l.length = 1 then 1 else (l.tail.headD 0 : Int) - l.headD 0)⟩, true)
    else (.list l, false)

/-- `Nblts`, `Nfreqs`, `Npols`, uvh5.py 1781, 1796. -/
def countOf (n : Nat) : Option (List Nat) → Nat
  | none => n
  | some l => l.length

/-- The positions h5py stores to; positions outside of the dataset raise. -/
def ixPos (n : Nat) : Ix → Option (List Nat)
  | .full => some (List.range n)
  | .slice s => s.sel n
  | .list l => if ∀ i ∈ l, i < n then some l else none

/-- The elements of a list with their positions: `enumerate`. -/
def enum (l : List Nat) : List (Nat × Nat) := (List.range l.length).zip l

/-- The list that a loop runs over (only reached for lists). -/
def listOf : Ix → List Nat
  | .list l => l
  | _ => []

/-- All triples of pairs of positions, in the array and in the dataset, in row-major order. -/
def triples (a b c : List (Nat × Nat)) : List (Cell × Cell) :=
  a.flatMap (fun x => b.flatMap (fun y => c.map (fun z => ((x.1, y.1, z.1), (x.2, y.2, z.2)))))

/-- Positions in an array axis of length `m` and in the dataset axis, for an assignment of a whole axis. -/
def whole (n m : Nat) (i : Ix) : Option (List (Nat × Nat)) :=
  (ixPos n i).bind (fun ps => (pairUp ps (List.range m)).map (List.map Prod.swap))

/-- One position of an axis in a loop: `visdata_dset[…, freq_idx, …] = data_array[…, ifreq, …]`. -/
def single (n : Nat) (p : Nat × Nat) : Option (List (Nat × Nat)) := if p.2 < n then some [p] else none

/-- The assignments of `write_uvh5_part` in the order in which they are made, uvh5.py 1859-1949: pairs of a cell of
the given array and a cell of the dataset. -/
def stores (sh : Cell) (r : Req) : Option (List (Cell × Cell)) :=
  let b := ixOf r.blt
  let f := ixOf r.freq
  let p := ixOf r.pol
  let (nb, nf, np) := sh
  let n := b.2.toNat + f.2.toNat + p.2.toNat
  let wb := whole nb (countOf nb r.blt) b.1
  let wf := whole nf (countOf nf r.freq) f.1
  let wp := whole np (countOf np r.pol) p.1
  if 2 ≤ n then                                                               -- 1865-1872
    wb.bind fun x => wf.bind fun y => wp.map fun z => triples x y z
  else if n = 1 then
    if b.2 then                                                               -- 1875-1892
      ((enum (listOf f.1)).mapM fun j => ((enum (listOf p.1)).mapM fun k =>
        wb.bind fun x => (single nf j).bind fun y => (single np k).map fun z => triples x y z).map List.flatten).map
          List.flatten
    else if f.2 then                                                          -- 1893-1910
      ((enum (listOf b.1)).mapM fun i => ((enum (listOf p.1)).mapM fun k =>
        (single nb i).bind fun x => wf.bind fun y => (single np k).map fun z => triples x y z).map List.flatten).map
          List.flatten
    else                                                                      -- 1911-1928
      ((enum (listOf b.1)).mapM fun i => ((enum (listOf f.1)).mapM fun j =>
        (single nb i).bind fun x => (single nf j).bind fun y => wp.map fun z => triples x y z).map List.flatten).map
          List.flatten
  else                                                                        -- 1929-1949
    ((enum (listOf b.1)).mapM fun i => ((enum (listOf f.1)).mapM fun j => ((enum (listOf p.1)).mapM fun k =>
      (single nb i).bind fun x => (single nf j).bind fun y => (single np k).map fun z =>
        triples x y z).map List.flatten).map List.flatten).map List.flatten

/-- The contents of a dataset after a sequence of assignments. -/
def apply {α β : Type} (cast : α → β) (d : Cell → β) (v : Cell → α) (w : List (Cell × Cell)) : Cell → β :=
  w.foldl (fun g c => fun x => if x = c.2 then cast (v c.1) else g x) d

/-- An array in memory: its shape and its elements. -/
structure Block (α : Type) where
  shape : Cell
  at_ : Cell → α

/-- The three arrays of a file; the header of a file with its history; `Nblts`, `Nfreqs`, `Npols` of the datasets. -/
structure File (H S α β γ : Type) where
  shape : Cell
  vis : Cell → α
  flags : Cell → β
  nsamp : Cell → γ
  header : H
  history : S

/-- The object that is written: its arrays, if it has them, its metadata and history. -/
structure Obj (H S α β γ : Type) where
  shape : Cell
  data : Option (Block α)
  flags : Option (Block β)
  nsamp : Option (Block γ)
  header : H
  history : S

/-- Ways in which writing fails. -/
inductive Err
  | missing | header | shape | store
deriving DecidableEq

section
variable {H S α α' β γ γ' : Type}

/-- `_check_header`, uvh5.py 1565-1602.  `same` compares the metadata of the object with those of the file.  The
result holds the object as the method leaves it. -/
def checkHeader (same : H → S → H → S → Bool) (o : Obj H S α β γ) (f : File H S α' β γ') :
    Option Err × Obj H S α β γ :=
  if same o.header o.history f.header f.history then (none, o)
  else (some .header, { o with data := none, flags := none, nsamp := none })

/-- The arrays are stored, uvh5.py 1770-1776 and 1838-1949. -/
def storePart (castV : α → α') (castN : γ → γ') (shape : Cell) (r : Req) (v : Block α) (g : Block β) (n : Block γ)
    (f : File H S α' β γ') : Except Err (File H S α' β γ') :=
  if v.shape ≠ g.shape then .error .shape
  else if v.shape ≠ n.shape then .error .shape
  else if v.shape ≠ (countOf shape.1 r.blt, countOf shape.2.1 r.freq, countOf shape.2.2 r.pol) then .error .shape
  else match stores f.shape r with
    | none => .error .store
    | some w => .ok { f with vis := apply castV f.vis v.at_ w, flags := apply id f.flags g.at_ w,
                             nsamp := apply castN f.nsamp n.at_ w }

/-- `add_to_history`, uvh5.py 1951-1957: the history of the object and the addition replace that of the file. -/
def addHistory (app : S → S → S) (hist : S) (add : Option S) (f : File H S α' β γ') : File H S α' β γ' :=
  match add with
  | none => f
  | some s => { f with history := app hist s }

/-- `write_uvh5_part`, uvh5.py 1740-1959.  The result is the error if there is one, the object and the file
afterwards.  (An error while storing may leave some values stored; `_select_preprocess` only returns positions that
exist, so it does not happen.) -/
def writePart (same : H → S → H → S → Bool) (app : S → S → S) (castV : α → α') (castN : γ → γ')
    (check : Bool) (r : Req) (v : Block α) (g : Block β) (n : Block γ) (add : Option S)
    (o : Obj H S α β γ) (file : Option (File H S α' β γ')) :
    Option Err × Obj H S α β γ × Option (File H S α' β γ') :=
  match file with
  | none => (some .missing, o, none)                                          -- 1741-1745
  | some f =>
    let c := if check then checkHeader same o f else (none, o)                -- 1747-1750
    match c.1 with
    | some e => (some e, c.2, some f)
    | none =>
      match storePart castV castN o.shape r v g n f with
      | .error e => (some e, c.2, some f)
      | .ok f' => (none, c.2, some (addHistory app o.history add f'))

/-- `initialize_uvh5_file`, uvh5.py 1487-1523: datasets of zeros (h5py's fill value). -/
def initFile (z : α') (z' : γ') (o : Obj H S α Bool γ) : File H S α' Bool γ' :=
  { shape := o.shape, vis := fun _ => z, flags := fun _ => false, nsamp := fun _ => z',
    header := o.header, history := o.history }

/-- The arrays of `write_uvh5`, uvh5.py 1352-1397. -/
def writeFile (castV : α → α') (castN : γ → γ') (o : Obj H S α β γ) : Option (File H S α' β γ') :=
  match o.data, o.flags, o.nsamp with
  | some v, some g, some n =>
    some { shape := o.shape, vis := fun c => castV (v.at_ c), flags := g.at_, nsamp := fun c => castN (n.at_ c),
           header := o.header, history := o.history }
  | _, _, _ => none

end

end Verif.Uvh5
