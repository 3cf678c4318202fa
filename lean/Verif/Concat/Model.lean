import Verif.PhaseCat.ConsProps
import Verif.Add.Model

/-!
Model of `UVData.fast_concat`, uvdata.py 5886–6212, for objects with data.

* The phase center IDs of the objects are those after the catalogs have been made consistent; that step (5988–5999) is
  modelled apart, in `tree`.
* Of the arrays along the baseline-time axis `ant1`, `ant2`, `bl`, `time`, `lst`, `integ`, `uvw`, `pc` are kept; the apparent
  coordinates are treated like `lst`.
* Comparison of two float parameters is a parameter (`Close`), since `UVParameter.__eq__` compares within tolerances.
* Left out: `check`, history, file names, warnings, `vis_units`, `telescope`, objects without data, rectangularity.
-/
namespace Verif.Concat
open Verif.Add (firstAppearance)

variable {K V : Type}

inductive Axis where
  | blt | freq | pol
deriving DecidableEq

structure Obj (K V : Type) where
  ant1 : List Int
  ant2 : List Int
  bl : List Int
  time : List K
  lst : List K
  integ : List K
  uvw : List (K × K × K)
  pc : List Int
  freq : List K
  width : List K
  spwId : List Int
  spws : List Int
  flexPol : Option (List Int)
  pol : List Int
  data : List (List (List V))
  flag : List (List (List Bool))
  nsample : List (List (List V))
  nBlts : Nat
  nBls : Nat
  nTimes : Nat
  nAnts : Nat
  nFreqs : Nat
  nSpws : Nat
  nPols : Nat

/-- `np.concatenate([a] + others, axis=…)` for three-dimensional arrays. -/
def cat3 {α : Type} (ax : Axis) (a : List (List (List α))) (others : List (List (List (List α)))) : List (List (List α)) :=
  match ax with
  | .blt => others.foldl (· ++ ·) a
  | .freq => others.foldl (List.zipWith (· ++ ·)) a
  | .pol => others.foldl (List.zipWith (List.zipWith (· ++ ·))) a

/-- `np.concatenate` along a single axis. -/
def cat1 {α : Type} (a : List α) (others : List (List α)) : List α := others.foldl (· ++ ·) a

/-- Comparison of float parameters, one test for each parameter. -/
structure Close (K : Type) where
  freq : K → K → Bool
  width : K → K → Bool
  integ : K → K → Bool
  uvw : K × K × K → K × K × K → Bool
  lst : K → K → Bool

/-- Arrays match: same shape, all values close. -/
def near {α : Type} (c : α → α → Bool) (a b : List α) : Bool := decide (a.length = b.length) && (a.zip b).all (fun p => c p.1 p.2)

def sameRows (c : Close K) (a b : Obj K V) : Bool :=
  decide (a.ant1 = b.ant1) && decide (a.ant2 = b.ant2) && near c.integ a.integ b.integ && near c.uvw a.uvw b.uvw &&
    near c.lst a.lst b.lst && decide (a.pc = b.pc)

/-- Compatibility parameters, lines 6001–6035 and 6060–6070. -/
def compatible (c : Close K) (ax : Axis) (a b : Obj K V) : Bool :=
  match ax with
  | .freq => decide (a.pol = b.pol) && sameRows c a b
  | .pol => near c.freq a.freq b.freq && near c.width a.width b.width && decide (a.spwId = b.spwId) && sameRows c a b
  | .blt => near c.freq a.freq b.freq && decide (a.pol = b.pol) && decide (a.spwId = b.spwId)

/-- Number of distinct values. -/
def nUnique {α : Type} [DecidableEq α] (l : List α) : Nat := l.dedup.length

section
variable [DecidableEq K]

/-- Lines 6072–6110. -/
def concatFreq (this : Obj K V) (other : List (Obj K V)) : Obj K V :=
  let ids := cat1 this.spwId (other.map (·.spwId))
  { this with
    nFreqs := (this.nFreqs :: other.map (·.nFreqs)).sum
    freq := cat1 this.freq (other.map (·.freq))
    width := cat1 this.width (other.map (·.width))
    spwId := ids
    spws := firstAppearance ids
    nSpws := (firstAppearance ids).length
    data := cat3 .freq this.data (other.map (·.data))
    nsample := cat3 .freq this.nsample (other.map (·.nsample))
    flag := cat3 .freq this.flag (other.map (·.flag)) }

/-- Lines 6121–6142. -/
def concatPol (this : Obj K V) (other : List (Obj K V)) : Obj K V :=
  { this with
    pol := cat1 this.pol (other.map (·.pol))
    nPols := (this.nPols :: other.map (·.nPols)).sum
    data := cat3 .pol this.data (other.map (·.data))
    nsample := cat3 .pol this.nsample (other.map (·.nsample))
    flag := cat3 .pol this.flag (other.map (·.flag)) }

/-- Lines 6143–6193. -/
def concatBlt (this : Obj K V) (other : List (Obj K V)) : Obj K V :=
  let ant1 := cat1 this.ant1 (other.map (·.ant1))
  let ant2 := cat1 this.ant2 (other.map (·.ant2))
  let time := cat1 this.time (other.map (·.time))
  let bl := cat1 this.bl (other.map (·.bl))
  { this with
    nBlts := (this.nBlts :: other.map (·.nBlts)).sum
    ant1, ant2, time, bl
    nAnts := nUnique (ant1 ++ ant2)
    uvw := cat1 this.uvw (other.map (·.uvw))
    nTimes := nUnique time
    lst := cat1 this.lst (other.map (·.lst))
    nBls := nUnique bl
    integ := cat1 this.integ (other.map (·.integ))
    pc := cat1 this.pc (other.map (·.pc))
    data := cat3 .blt this.data (other.map (·.data))
    nsample := cat3 .blt this.nsample (other.map (·.nsample))
    flag := cat3 .blt this.flag (other.map (·.flag)) }

/-- Lines 6072–6193. -/
def combine (ax : Axis) (this : Obj K V) (other : List (Obj K V)) : Obj K V :=
  match ax with
  | .freq => concatFreq this other
  | .pol => concatPol this other
  | .blt => concatBlt this other

/-- `fast_concat`; `none` is `ValueError`. -/
def fastConcat (c : Close K) (ax : Axis) (this : Obj K V) (other : List (Obj K V)) : Option (Obj K V) :=
  if other.all (compatible c ax this) then some (combine ax this other) else none

end

/-! ### Phase center catalogs -/

open Verif.PhaseCat

/-- One pair, lines 5993–5996: the object at `i` takes over the catalog of the object at `i + d`. -/
def mergePair (c : Consts) (pop : Pop) (ign : Bool) (d : Nat) (l : List St) (i : Nat) : Except Verif.PhaseCat.Err (List St) :=
  match l[i]?, l[i + d]? with
  | some a, some b => (consolidate c pop ign b.cat a).map (fun a' => l.set i a')
  | _, _ => .ok l

/-- One round, lines 5992–5997: `d` is the distance of neighbours in `uv_list`. -/
def mergeRound (c : Consts) (pop : Pop) (ign : Bool) (l : List St) (d : Nat) : Except Verif.PhaseCat.Err (List St) :=
  ((List.range l.length).filter (fun i => i % (2 * d) = 0)).foldlM (mergePair c pop ign d) l

/-- Distances of the rounds: 1, 2, 4, … as long as two objects are left. -/
def strides (n : Nat) : List Nat := (List.range n).filterMap (fun k => if 2 ^ k < n then some (2 ^ k) else none)

/-- Lines 5991–5999; the list holds this object and then the others. -/
def tree (c : Consts) (pop : Pop) (ign : Bool) (l : List St) : Except Verif.PhaseCat.Err (List St) :=
  (strides l.length).foldlM (mergeRound c pop ign) l

/-- Catalog and phase center IDs of the result along the baseline-time axis, 6180–6183. -/
def concatCat (c : Consts) (pop : Pop) (ign : Bool) (this : St) (other : List St) : Except Verif.PhaseCat.Err St :=
  (tree c pop ign (this :: other)).map (fun l =>
    let cat := (l.headD this).cat
    { cat, ids := (l.map (·.ids)).flatten, nphase := cat.length })

end Verif.Concat
