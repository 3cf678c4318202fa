import Verif.Slices.Model
import Verif.Baseline.Model

/-!
Model of `UVData.antpair2ind` (src/pyuvdata/uvdata/uvdata.py 2576–2677), `get_baseline_nums` (2927–2942),
`get_antpairs` (2944–2954) and `get_ants` (2907–2925), without the cache (see `Verif.Cache`).
-/
namespace Verif.AntPair
open Verif.Np
open Verif.Slices (SlicifyOut slicify)
open Verif.Baseline (baselineToAntnums)

/-- The attributes of a `UVData` object that these methods read (uvdata.py 2630–2670, 2916–2953). -/
structure Obj where
  ant1 : List Nat
  ant2 : List Nat
  bl : List Nat
  nbls : Nat
  ntimes : Nat
  /-- `telescope.Nants` -/
  nants : Nat
  rect : Bool
  timeFaster : Bool
  deriving DecidableEq

/-- `Nblts`. -/
def Obj.nblts (o : Obj) : Nat := o.ant1.length

/-- `xs[::n]` (`n = 0` raises in Python; `Ntimes` is at least 1). -/
def strided {β : Type} (n : Nat) (xs : List β) : List β :=
  ((List.range xs.length).filter (fun i => i % n == 0)).filterMap (fun i => xs[i]?)

/-- `get_baseline_nums`, uvdata.py 2936–2942. -/
def getBaselineNums (o : Obj) : List Nat :=
  if o.rect then
    if o.timeFaster then strided o.ntimes o.bl else o.bl.take o.nbls
  else unique o.bl

/-- `get_antpairs`, uvdata.py 2953–2954. -/
def getAntpairs (o : Obj) : Except Baseline.Err (List (Nat × Nat)) :=
  match baselineToAntnums o.nants ((getBaselineNums o).map (fun b : Nat => (b : Int))) with
  | .error e => .error e
  | .ok (a, b) => .ok ((a.map Int.toNat).zip (b.map Int.toNat))

/-- `get_ants`, uvdata.py 2916–2925. -/
def getAnts (o : Obj) : List Nat :=
  if o.rect then
    if o.timeFaster then unique (strided o.ntimes o.ant1 ++ strided o.ntimes o.ant2)
    else unique (o.ant1.take o.nbls ++ o.ant2.take o.nbls)
  else unique (o.ant1 ++ o.ant2)

/-- The slice for the `idx`-th antenna pair, uvdata.py 2634–2637 and 2646–2649 (`stop=None` is the axis
length). -/
def pairSlice (o : Obj) (idx : Nat) : PSlice :=
  if o.timeFaster then ⟨o.ntimes * idx, o.ntimes * (idx + 1), none⟩
  else ⟨idx, o.nblts, some o.nbls⟩

/-- `antpairs.index(p)`, `none` is `ValueError`. -/
def indexOf (ps : List (Nat × Nat)) (p : Nat × Nat) : Option Nat := ps.findIdx? (fun q => decide (q = p))

/-- `np.where((ant_1_array == a) & (ant_2_array == b))[0]`, uvdata.py 2664, 2667–2669. -/
def rowsWhere (o : Obj) (a b : Nat) : List Nat :=
  whereIdx (fun p : Nat × Nat => decide (p.1 = a) && decide (p.2 = b)) (o.ant1.zip o.ant2)

/-- `slicify` on `None` (2641), on a slice, and on an index array: the first two are returned unchanged. -/
def ofSlice : Option PSlice → SlicifyOut
  | none => .none
  | some s => .slice s

/-- `antpair2ind`, uvdata.py 2622–2677, cache aside. -/
def antpair2ind (o : Obj) (a b : Nat) (ordered : Bool) : Except Baseline.Err SlicifyOut :=
  let ordered := ordered || decide (a = b)                              -- 2623–2624
  if o.rect then
    match getAntpairs o with
    | .error e => .error e
    | .ok antpairs =>
      let inds := (indexOf antpairs (a, b)).map (pairSlice o)           -- 2632–2641
      if ordered then .ok (ofSlice inds)
      else
        match (indexOf antpairs (b, a)).map (pairSlice o) with          -- 2644–2649, 2659–2661
        | none => .ok (ofSlice inds)
        | some s2 =>
          match inds with
          | none => .ok (.slice s2)                                     -- 2651–2652
          | some s1 =>                                                  -- 2655–2658
            .ok (slicify ((s1.sel o.nblts).getD [] ++ (s2.sel o.nblts).getD []))
  else
    let inds := rowsWhere o a b                                         -- 2664
    let inds := if ordered then inds else inds ++ rowsWhere o b a       -- 2666–2670
    .ok (slicify inds)                                                  -- 2672–2675

end Verif.AntPair
