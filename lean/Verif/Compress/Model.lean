import Verif.Redund.Props
import Mathlib.Algebra.Module.LinearMap.Defs

/-!
Model of `UVData.compress_by_redundancy(method="average")`, `src/pyuvdata/uvdata/uvdata.py` lines 8691–8875.

* The redundant groups and the baselines of opposite direction are the result of `get_redundancies` (modelled in `Verif.Redund`) and arguments here, and so
  is `find_clusters` for the times of a group.
* Visibilities are a module over the field of weights with a linear conjugation. The masked weighted average of numpy is zero where all weights are masked
  or their sum is zero; this is the inverse of zero here.
* The arrays of the compressed object are given as functions of the rows of the object it is made from. `select(bls=...)` keeps the rows of the first
  baselines of the groups (C34); data that have a pair of antennas in both directions are left out here.
* Members of a group are taken from a Python set if there are conjugated baselines; the order does not matter for the sums.
* Left out: `check`, warnings (the comparison of integration times only warns), the arrays of metadata, which are those of `select`.
-/
namespace Verif.Compress
open Verif.Np

variable {K V : Type} [Field K] [LinearOrder K] [AddCommGroup V] [Module K V]

/-- Rows with baseline number and time; data, weights and flags by row, channel and polarization. -/
structure Obj (K V : Type) where
  bl : List Int
  time : Nat → K
  nf : Nat
  np : Nat
  data : Nat → Nat → Nat → V
  ns : Nat → Nat → Nat → K
  flag : Nat → Nat → Nat → Bool

/-- Line 8732. -/
def rows (o : Obj K V) (b : Int) : List Nat := whereIdx (fun c => c == b) o.bl

/-- Lines 8720–8741: rows of the group, those of conjugated baselines at the end and marked. -/
def members (o : Obj K V) (conjs gp : List Int) : List (Nat × Bool) :=
  ((gp.filter (fun b => !conjs.contains b)).flatMap (rows o)).map (fun r => (r, false)) ++
  ((gp.filter (fun b => conjs.contains b)).flatMap (rows o)).map (fun r => (r, true))

/-- Line 8763. -/
def avgTime (ts : List K) (g : List Nat) : K := (g.map (fun i => ts.getD i 0)).sum / (g.length : K)

/-- Lines 8752–8754, 8765–8782: the row of the first baseline at this time, if there is exactly one. -/
def target (o : Obj K V) (tol : K) (b0 : Int) (t : K) : Option Nat :=
  match (rows o b0).filter (fun r => decide (|o.time r - t| < tol)) with
  | [r] => some r
  | _ => none

/-- Lines 8788–8801: the rows of one cluster of times. -/
def pick (ms : List (Nat × Bool)) (g : List Nat) : List (Nat × Bool) := g.filterMap (fun i => ms[i]?)

/-- Line 8836. -/
def allFlagged (o : Obj K V) (ms : List (Nat × Bool)) : Bool :=
  ms.all (fun m => (List.range o.nf).all (fun f => (List.range o.np).all (fun p => o.flag m.1 f p)))

/-- Lines 8836–8843: what is not masked. -/
def used (o : Obj K V) (ms : List (Nat × Bool)) (f p : Nat) : List (Nat × Bool) :=
  if allFlagged o ms then ms else ms.filter (fun m => !o.flag m.1 f p)

/-- Lines 8820–8825. -/
def vis (conj : V →ₗ[K] V) (o : Obj K V) (f p : Nat) (m : Nat × Bool) : V := if m.2 then conj (o.data m.1 f p) else o.data m.1 f p

/-- What is stored in one row. -/
structure Out (K V : Type) where
  data : Nat → Nat → V
  ns : Nat → Nat → K
  flag : Nat → Nat → Bool

/-- Line 8848. -/
def weight (o : Obj K V) (ms : List (Nat × Bool)) (f p : Nat) : K := ((used o ms f p).map (fun m => o.ns m.1 f p)).sum

/-- Lines 8845–8847. -/
def mean (conj : V →ₗ[K] V) (o : Obj K V) (ms : List (Nat × Bool)) (f p : Nat) : V :=
  (weight o ms f p)⁻¹ • ((used o ms f p).map (fun m => o.ns m.1 f p • vis conj o f p m)).sum

/-- Lines 8820–8859. -/
def average (conj : V →ₗ[K] V) (o : Obj K V) (ms : List (Nat × Bool)) (fix : Bool) : Out K V where
  data f p := if fix then conj (mean conj o ms f p) else mean conj o ms f p
  ns f p := weight o ms f p
  flag f p := ms.all (fun m => o.flag m.1 f p)

/-- Lines 8719–8859 for one group: what is stored, and in which row. -/
def writes (conj : V →ₗ[K] V) (clusters : List K → List (List Nat)) (o : Obj K V) (tol : K) (conjs gp : List Int) : List (Nat × Out K V) :=
  let ms := members o conjs gp
  let ts := ms.map (fun m => o.time m.1)
  (clusters ts).filterMap (fun g => (target o tol (gp.headD 0) (avgTime ts g)).map (fun r => (r, average conj o (pick ms g) (conjs.contains (gp.headD 0)))))

/-- Lines 8714–8718. -/
def blank : Out K V := ⟨fun _ _ => 0, fun _ _ => 0, fun _ _ => false⟩

/-- The row after all that is stored in it. -/
def lastWrite (ws : List (Nat × Out K V)) (r : Nat) : Out K V := ((ws.reverse.find? (fun w => w.1 == r)).map (·.2)).getD blank

/-- The rows that are kept, and what is in them. -/
def compress (conj : V →ₗ[K] V) (clusters : List K → List (List Nat)) (o : Obj K V) (tol : K) (conjs : List Int) (gps : List (List Int)) : List (Nat × Out K V) :=
  let ws := gps.flatMap (writes conj clusters o tol conjs)
  (whereIdx (fun b => (gps.map (fun gp => gp.headD 0)).contains b) o.bl).map (fun r => (r, lastWrite ws r))

/-- `find_clusters` for times: line 8744–8749. -/
def timeClusters (hash : List Nat → Int) (order : List K → List Nat) (nb : List K → Nat) (tol : K) (ts : List K) : List (List Nat) :=
  ((Redund.findClusters hash (order ts) (nb ts) ((List.range ts.length).map (fun i : Nat => (i : Int))) (ts.map (fun t => [t])) tol false).getD []).map
    (fun g => g.map Int.toNat)

end Verif.Compress
