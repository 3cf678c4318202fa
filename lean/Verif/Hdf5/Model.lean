import Verif.Np

/-!
Model of `src/pyuvdata/utils/io/hdf5.py` lines 74–258: `_get_slice_len`, `_get_dset_shape`, `_index_dset`.

An n-dimensional array is its shape and a function from multi-indices (`List Nat`).  Exceptions are `none`.
Simplifications: slice bounds are non-negative or `None`; exceptions raised by an individual block
assignment are reported without the blocks already stored (only matters for the write direction).
h5py refuses more than one index list per selection ("Only one indexing vector or array is currently
allowed"), so such requests are `none`; (numpy arrays, which `set_data` passes, would pair the lists
element by element instead: not modelled).
-/
namespace Verif.Hdf5
open Verif.Np

/-- Python `slice` with optional non-negative bounds. -/
structure Slc where
  start : Option Nat := none
  stop : Option Nat := none
  step : Option Int := none
  deriving DecidableEq, Repr

/-- Positions selected by a slice from an axis of length `n` (h5py and numpy: `range(*s.indices(n))`);
h5py and the modelled length formula only support positive steps, others are `none`. -/
def Slc.sel (n : Nat) (s : Slc) : Option (List Nat) :=
  if s.step.getD 1 > 0 then PSlice.sel n ⟨s.start.getD 0, s.stop.getD n, s.step⟩ else none

/-- Selection for one axis: `int`, `slice`, list of integers, list of slices, or an integer `ndarray`
(hdf5.py 206–231). -/
inductive AxSel where
  | int (i : Nat)
  | slice (s : Slc)
  | list (l : List Nat)
  | slices (l : List Slc)
  | array (l : List Nat)
  deriving DecidableEq

/-- `_get_slice_len`, hdf5.py 74–103 (`//` is floor division; step 0 is `ZeroDivisionError`, never
reached for the positive steps considered). -/
def sliceLen (s : Slc) (axlen : Nat) : Int :=
  let start : Int := (s.start.getD 0 : Nat)
  let stop : Int := match s.stop with
    | none => (axlen : Int)
    | some x => min (x : Int) axlen
  let step : Int := s.step.getD 1
  (stop - 1 - start) / step + 1

/-- One axis of `_get_dset_shape`, hdf5.py 134–147.  `none`: empty list (`inds[0]` is `IndexError`).
An `ndarray` is not a `list`, so it leaves the full axis length (no branch matches). -/
def axShape (n : Nat) : AxSel → Option Int
  | .int _ => some 1
  | .slice s => some (sliceLen s n)
  | .list l => if l = [] then none else some l.length
  | .slices l => if l = [] then none else some (l.map (fun s => sliceLen s n)).sum
  | .array _ => some n

/-- The old-shape insertion, hdf5.py 131–132: a 4-dimensional dataset indexed with three selections gets a
full slice for its second axis. -/
def fixInds (shape : List Nat) (inds : List AxSel) : List AxSel :=
  match shape.length, inds with
  | 4, [a, b, c] => [a, .slice {}, b, c]
  | _, l => l

/-- `_get_dset_shape`, hdf5.py 106–149, together with the `np.empty` it is used for (line 197), which
raises on a negative size.  The code requires as many selections as axes (line 244–245). -/
def dsetShape (shape : List Nat) (inds : List AxSel) : Option (List Nat) :=
  if inds.length = shape.length then
    (List.zipWith axShape shape inds).mapM (fun o => o.bind (fun z => if 0 ≤ z then some z.toNat else none))
  else none

/-- Right-hand side of a block assignment along one axis is paired with the left-hand side: equal
lengths pair up, a length-one right-hand side is broadcast, anything else is `ValueError`. -/
def pairUp (lhs rhs : List Nat) : Option (List (Nat × Nat)) :=
  if lhs.length = rhs.length then some (lhs.zip rhs)
  else match rhs with
    | [r] => some (lhs.map (fun l => (l, r)))
    | _ => none

/-- Python `slice(s, s + l)` on an axis of length `m`, for non-negative `s`, `l`. -/
def arrSlice (m s l : Nat) : List Nat := (List.range m).filter (fun i => decide (s ≤ i) && decide (i < s + l))

/-- Arr-side and dset-side positions of each block along one axis, hdf5.py 205–231.  `n` is the length of
the dataset axis, `m` of the array axis.  Out-of-range positions raise (`none`); slices whose computed
length is negative are `none`. -/
def axBlocks (n m : Nat) : AxSel → Option (List (List Nat × List Nat))
  | .int i => if i < n then some [(List.range m, [i])] else none            -- 206–210
  | .slice s => (s.sel n).map (fun p => [(List.range m, p)])                -- 212–216
  | .list l => if l ≠ [] ∧ ∀ i ∈ l, i < n then some [(List.range m, l)] else none   -- 218–223
  | .array l => if l ≠ [] ∧ ∀ i ∈ l, i < n then some [(List.range m, l)] else none
  | .slices l =>                                                            -- 224–231
    if l = [] ∨ ∃ s ∈ l, sliceLen s n < 0 then none
    else
      let slens := l.map (fun s => (sliceLen s n).toNat)
      let ssums := (List.range slens.length).map (fun j => (slens.take j).sum)
      (l.mapM (fun s : Slc => s.sel n)).map (fun ds => (List.zipWith (fun s l => arrSlice m s l) ssums slens).zip ds)

/-- Cartesian product in row-major order (last axis fastest). -/
def prod {β : Type*} : List (List β) → List (List β)
  | [] => [[]]
  | l :: ls => l.flatMap (fun x => (prod ls).map (x :: ·))

/-- Swap of the first two entries. -/
def swap12 {β : Type*} : List β → List β
  | a :: b :: l => b :: a :: l
  | l => l

/-- `np.meshgrid(*axis_arrays)` flattened, hdf5.py 235–240: numpy's default `indexing="xy"` exchanges the
first two axes, so the second axis varies slowest. -/
def meshProd {β : Type*} (ls : List (List β)) : List (List β) := (prod (swap12 ls)).map swap12

/-- Does a selection reach h5py as an index list (an integer is passed as `[i]`, line 209)? -/
def isListSel : AxSel → Bool
  | .int _ => true
  | .list _ => true
  | .array _ => true
  | _ => false

/-- Direction of `_index_dset`: read into `arr` (line 250) or write from it (line 253). -/
inductive Dir | read | write deriving DecidableEq

/-- Pairs `(arr position, dset position)` of one block along one axis; the assigned-to side is the
left-hand side for broadcasting. -/
def blockPairs (d : Dir) (b : List Nat × List Nat) : Option (List (Nat × Nat)) :=
  match d with
  | .read => pairUp b.1 b.2
  | .write => (pairUp b.2 b.1).map (List.map Prod.swap)

/-- All `(arr index, dset index)` cell assignments in program order, as per-axis pairs, hdf5.py 201–253. -/
def cellPairs (d : Dir) (shape ashape : List Nat) (inds : List AxSel) : Option (List (List (Nat × Nat))) :=
  if inds.length = shape.length ∧ ashape.length = shape.length ∧ (inds.filter isListSel).length ≤ 1 then do
    let blocks ← (List.zipWith (fun nm s => axBlocks nm.1 nm.2 s) (shape.zip ashape) inds).mapM (fun o => o)
    let pairs ← blocks.mapM (fun bs => bs.mapM (blockPairs d))
    some ((meshProd pairs).flatMap prod)
  else none

/-- A dataset or array: shape and contents. -/
structure Arr (α : Type) where
  shape : List Nat
  get : List Nat → α

/-- Store one value. -/
def upd {α : Type} (f : List Nat → α) (ix : List Nat) (v : α) : List Nat → α :=
  fun j => if j = ix then v else f j

/-- `_index_dset(dset, indices)`, hdf5.py 152–256, read direction.  The buffer comes from `np.empty`:
uninitialised cells are `none`. -/
def readDset {α : Type} (dset : Arr α) (inds : List AxSel) : Option (Arr (Option α)) := do
  let inds := fixInds dset.shape inds
  let ashape ← dsetShape dset.shape inds
  let cells ← cellPairs .read dset.shape ashape inds
  some ⟨ashape, cells.foldl (fun f c => upd f (c.map Prod.fst) (some (dset.get (c.map Prod.snd)))) (fun _ => none)⟩

/-- `_index_dset(dset, indices, input_array=arr)`, hdf5.py 152–258, write direction. -/
def writeDset {α : Type} (dset arr : Arr α) (inds : List AxSel) : Option (Arr α) := do
  let inds := fixInds dset.shape inds
  let _ ← if inds.any (fun s => decide (s = .list [] ∨ s = .slices [])) then none else some ()   -- 144
  let cells ← cellPairs .write dset.shape arr.shape inds
  some ⟨dset.shape, cells.foldl (fun f c => upd f (c.map Prod.snd) (arr.get (c.map Prod.fst))) dset.get⟩

end Verif.Hdf5
