import Verif.Np
import Mathlib.Algebra.Order.Field.Basic
import Mathlib.Algebra.Order.Ring.Abs
import Mathlib.Algebra.BigOperators.Group.List.Basic

/-!
Model of the search for redundant groups, `src/pyuvdata/utils/redundancy.py`.

* Vectors are lists of coordinates. `cdist(v, w) < tol` is `0 < tol` and squared distance `< tol²` (exact arithmetic).
* `np.argsort` is not stable; the order is a parameter, constrained by `Np.IsArgsort` in the theorems.
* A set of positions is the increasing list of its members; the hash of a `frozenset` is a parameter `hash`.
* `np.round` is a parameter `rnd`, constrained by `|x - rnd x| ≤ 1/2` in the theorems.
-/
namespace Verif.Redund
open Verif.Np

variable {K : Type} [Field K] [LinearOrder K]

/-- Squared distance of two vectors. -/
def sqDist (v w : List K) : K := ((v.zip w).map (fun p => (p.1 - p.2) * (p.1 - p.2))).sum

/-- `cdist(v, w) < tol`, line 39. -/
def near (tol : K) (v w : List K) : Bool := decide (0 < tol ∧ sqDist v w < tol * tol)

/-- `np.array_split(l, nb)`: the first `l.length % nb` parts have one element more. `k` parts are left, `r` of them long. -/
def splitParts {α : Type} (l : List α) (sz r : Nat) : Nat → List (List α)
  | 0 => []
  | k + 1 =>
    let m := if 0 < r then sz + 1 else sz
    l.take m :: splitParts (l.drop m) sz (r - 1) k

def arraySplit {α : Type} (l : List α) (nb : Nat) : List (List α) := splitParts l (l.length / nb) (l.length % nb) nb

/-- First coordinate of vector number `k`. -/
def xOf (vecs : List (List K)) (k : Nat) : K := (vecs.getD k []).headD 0

/-- Lines 32–37: the blocks are too far apart in x. -/
def skipBlocks (tol : K) (vecs : List (List K)) (b1 b2 : List Nat) : Bool :=
  let xmin1 := xOf vecs (b1.headD 0) - tol
  let xmax1 := xOf vecs (b1.getLastD 0) + tol
  let xmin2 := xOf vecs (b2.headD 0) - tol
  let xmax2 := xOf vecs (b2.getLastD 0) + tol
  decide (min xmax1 xmax2 < max xmin1 xmin2)

/-- Lines 28–41: `j` is put into the set of `k` by some pair of blocks. -/
def linked (tol : K) (vecs : List (List K)) (blocks : List (List Nat)) (k j : Nat) : Bool :=
  blocks.any (fun b1 => b1.contains k && blocks.any (fun b2 => !skipBlocks tol vecs b1 b2 && (b2.contains j &&
    near tol (vecs.getD k []) (vecs.getD j []))))

/-- `_adj_list`, lines 14–42: for every item the increasing list of the items near it. -/
def adjList (order : List Nat) (tol : K) (vecs : List (List K)) (nBlocks : Nat) : List (List Nat) :=
  (List.range vecs.length).map (fun k => (List.range vecs.length).filter (fun j => j == k ||
    linked tol vecs (arraySplit order nBlocks) k j))

/-- Loop of `_find_cliques`, lines 50–59, over the items that are left; `seen` are the visited ones. -/
def cliqueLoop (hash : List Nat → Int) (adj : List (List Nat)) : List Nat → List Nat → List (List Nat)
  | [], _ => []
  | k :: ks, seen =>
    if seen.contains k then cliqueLoop hash adj ks seen
    else
      let a0 := adj.getD k []
      if a0.all (fun it => hash (adj.getD it []) == hash a0) then a0 :: cliqueLoop hash adj ks (a0 ++ k :: seen)
      else cliqueLoop hash adj ks (k :: seen)

/-- `_find_cliques`; `none` is the `ValueError` of line 64. -/
def findCliques (hash : List Nat → Int) (adj : List (List Nat)) (strict : Bool) : Option (List (List Nat)) :=
  let gps := cliqueLoop hash adj (List.range adj.length) []
  if strict && !adj.all (fun st => gps.contains st) then none else some gps

/-- `find_clusters`, lines 91–100, for any number of blocks. -/
def findClusters (hash : List Nat → Int) (order : List Nat) (nBlocks : Nat) (ids : List Int) (vecs : List (List K)) (tol : K)
    (strict : Bool) : Option (List (List Int)) :=
  (findCliques hash (adjList order tol vecs nBlocks) strict).map (fun gps =>
    gps.map (fun gp => (gp.map (fun i => ids.getD i 0)).insertionSort (· ≤ ·)))

/-! ### The grid algorithm -/

/-- A cell of the grid. -/
abbrev Cell := Int × Int × Int

/-- Line 145, in the order of the code. -/
def epsilons : List Cell :=
  [0, -1, 1].flatMap (fun dx => [0, -1, 1].flatMap (fun dy => [0, -1, 1].map (fun dz => (dx, dy, dz))))

def cellAdd (a b : Cell) : Cell := (a.1 + b.1, a.2.1 + b.2.1, a.2.2 + b.2.2)

/-- A baseline vector. -/
abbrev V3 (K : Type) := K × K × K

/-- Line 161. -/
def cellOf (rnd : K → Int) (g : K) (v : V3 K) : Cell := (rnd (v.1 / g), rnd (v.2.1 / g), rnd (v.2.2 / g))

/-- The dictionary `bl_gps`, in insertion order. -/
abbrev Dict (α : Type) := List (Cell × List α)

def Dict.has {α : Type} (d : Dict α) (c : Cell) : Bool := d.any (fun e => decide (e.1 = c))

/-- `bl_gps[c].append(x)`. -/
def Dict.app {α : Type} (d : Dict α) (c : Cell) (x : α) : Dict α :=
  d.map (fun e => if e.1 = c then (e.1, e.2 ++ [x]) else e)

/-- `check_neighbors`, lines 147–157. -/
def checkNeighbors {α : Type} (d : Dict α) (c : Cell) : Option Cell :=
  (epsilons.map (cellAdd c)).find? (fun k => d.has k)

/-- One baseline, lines 161–168. -/
def gridStep {α : Type} (rnd : K → Int) (g : K) (d : Dict (α × V3 K)) (b : α × V3 K) : Dict (α × V3 K) :=
  match checkNeighbors d (cellOf rnd g b.2) with
  | some k => d.app k b
  | none => d ++ [(cellOf rnd g b.2, [b])]

/-- The loop of `find_clusters_grid`; members carry their vectors along. -/
def gridDict {α : Type} (rnd : K → Int) (tol : K) (bls : List (α × V3 K)) : Dict (α × V3 K) :=
  bls.foldl (gridStep rnd (tol / 4)) []

/-- `find_clusters_grid`, lines 138–172. -/
def findClustersGrid (rnd : K → Int) (ids : List Int) (vecs : List (V3 K)) (tol : K) : List (List Int) :=
  (gridDict rnd tol (ids.zip vecs)).map (fun e => (e.2.map (·.1)).insertionSort (· ≤ ·))

/-! ### Orientation -/

/-- Lines 229–235: the vector is to be reversed. -/
def conjugated (tol : K) (v : V3 K) : Bool :=
  decide (v.1 < -tol) || (decide (|v.1| ≤ tol) && decide (v.2.1 < -tol)) ||
    (decide (|v.1| ≤ tol) && decide (|v.2.1| ≤ tol) && decide (v.2.2 < -tol))

def neg3 (v : V3 K) : V3 K := (-v.1, -v.2.1, -v.2.2)

/-- Line 238. -/
def orient (tol : K) (v : V3 K) : V3 K := if conjugated tol v then neg3 v else v

end Verif.Redund
