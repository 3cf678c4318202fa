import Verif.CalAdd.Model
import Verif.TimeSel.Model
import Verif.Pol.Model

/-!
Model of `UVCal.select`, `src/pyuvdata/uvcal/uvcal.py` lines 4380–4521, with `_select_preprocess` (3898–4274) and `_select_by_index` (4276–4378).

* Objects are those of `Verif.CalAdd`: arrays are functions of positions. Channels of a narrow-band object are its second axis, windows that of a wide-band object.
* The choice of times is that of `Verif.TimeSel` (`_select_times_helper`); the functions from strings of Jones components to numbers are a parameter.
* Channels may be given as negative numbers, as in Python.
* `_select_by_index` changes one axis after the other; if it raises, the axes before are changed already. So its result is an object and perhaps an error.
  `take` with an empty Python list raises, since the list becomes an array of floating-point numbers.
* Left out: `check`, history, warnings, numbers given as single values.
-/
namespace Verif.CalSelect
open Verif.Np Verif.FreqSort Verif.CalAdd
open Verif.Pol (Str)

variable {K R V Q : Type} [Field K] [LinearOrder K]

inductive JReq
  | num (n : Int)
  | str (s : Str)
  deriving DecidableEq

/-- The selection keywords. -/
structure Req (K : Type) where
  antNums : Option (List Int) := none
  antNames : Option (List Str) := none
  freqs : Option (List K) := none
  chans : Option (List Int) := none
  spws : Option (List Int) := none
  times : TimeSel.Req K := ⟨none, none, none, none⟩
  jones : Option (List JReq) := none
  pcIds : Option (List Int) := none
  catNames : Option (List Str) := none

/-- What does not change, and how sidereal times are read from the rest of a row. -/
structure Ctx (K R : Type) where
  antNames : List (Str × Int)
  catalog : Option (List (Int × Str))
  timeTols : K × K
  lstTols : K × K
  P : K
  lst : R → K
  lstStop : R → K
  jonesNum : Str → Option Int

inductive Err
  | both | antName | antNum | noCatalog | time (e : TimeSel.Err) | spw | noFreqs | freq | index | spacing | jonesName | jones | noData | take
  deriving DecidableEq

/-- Line 4004–4009 for one name. -/
def antNum (c : Ctx K R) (s : Str) : Except Err Int :=
  match c.antNames.find? (fun p => p.1 == s) with
  | none => .error .antName
  | some p => .ok p.2

/-- Lines 3995–4009. -/
def antReq (c : Ctx K R) (q : Req K) : Except Err (Option (List Int)) :=
  match q.antNames, q.antNums with
  | some _, some _ => .error .both
  | none, nums => .ok nums
  | some names, none => (names.mapM (antNum c)).map some

/-- Lines 4011–4027. -/
def antStage (o : Obj K R V Q) (nums : Option (List Int)) : Except Err (Option (List Nat)) :=
  match nums with
  | none => .ok none
  | some nums =>
    if nums.all (fun a => o.ants.contains a) then .ok (some (whereIdx (fun a => nums.contains a) o.ants)) else .error .antNum

/-- Lines 4029–4043. An object has `phase_center_id_array` if its rows have a center. -/
def pcReq (c : Ctx K R) (o : Obj K R V Q) (q : Req K) : Except Err (Option (List Int)) :=
  match q.pcIds, q.catNames with
  | some _, some _ => .error .both
  | none, none => .ok none
  | ids, names =>
    match c.catalog with
    | none => .error .noCatalog
    | some cat =>
      if o.times.all (fun r => r.center.isSome) then
        match names with
        | none => .ok ids
        | some names => .ok (some ((cat.filter (fun p => names.contains p.2)).map (·.1)))
      else .error .noCatalog

/-- The times as `_select_times_helper` sees them, lines 4050–4053. -/
def axis (c : Ctx K R) (o : Obj K R V Q) : TimeSel.Axis K :=
  if o.ranged then ⟨o.keys, some o.timeRanges, o.times.map (fun r => c.lst r.rest), some (o.times.map (fun r => (c.lst r.rest, c.lstStop r.rest)))⟩
  else ⟨o.keys, none, o.times.map (fun r => c.lst r.rest), none⟩

/-- `_sorted_unique_intersection`, tools.py 348. -/
def meet {α : Type} [LinearOrder α] (l : List α) (m : Option (List α)) : List α :=
  match m with
  | none => unique l
  | some m => (unique l).filter (fun i => m.contains i)

/-- `_sorted_unique_union`, tools.py 325. -/
def union {α : Type} [LinearOrder α] (l : List α) (m : Option (List α)) : List α :=
  match m with
  | none => unique l
  | some m => unique (l ++ m)

/-- Lines 4074–4078. -/
def pcStage (o : Obj K R V Q) (ids : Option (List Int)) (inds : Option (List Nat)) : Option (List Nat) :=
  match ids with
  | none => inds
  | some ids => some (meet (whereIdx (fun r : Row K R => r.center.any (fun x => ids.contains x)) o.times) inds)

/-- Lines 4029–4078. -/
def timeStage (c : Ctx K R) (o : Obj K R V Q) (q : Req K) : Except Err (Option (List Nat)) :=
  match pcReq c o q with
  | .error e => .error e
  | .ok ids =>
    match TimeSel.selectTimes c.P (axis c o) c.timeTols c.lstTols q.times with
    | .error e => .error (.time e)
    | .ok t => .ok (pcStage o ids (t.map unique))

/-- Lines 4101–4131: the channels so far, and the windows. -/
def spwStage (o : Obj K R V Q) (q : Req K) : Except Err (Option (List Int) × Option (List Nat)) :=
  match q.spws with
  | none => .ok (q.chans, none)
  | some ws =>
    if o.spws.length = 1 then .ok (q.chans, none)
    else if o.wide then
      if ws.all (fun w => o.spws.contains w) then .ok (q.chans, some (whereIdx (fun w => ws.contains w) o.spws)) else .error .spw
    else .ok (some (union ((whereIdx (fun w => ws.contains w) o.ids).map (fun i : Nat => (i : Int))) q.chans), none)

/-- Lines 4133–4154. -/
def freqReq (o : Obj K R V Q) (q : Req K) (chans : Option (List Int)) : Except Err (Option (List Int)) :=
  if o.wide ∧ (chans ≠ none ∨ q.freqs ≠ none) then .error .noFreqs
  else
    match q.freqs with
    | none => .ok chans
    | some fs =>
      if fs.all (fun f => o.freq.contains f) then
        .ok (some (union ((whereIdx (fun f => fs.contains f) o.freq).map (fun i : Nat => (i : Int))) chans))
      else .error .freq

/-- Position that Python means by an index into `n` values. -/
def pos (n : Nat) (i : Int) : Option Nat :=
  if 0 ≤ i then if i < n then some i.toNat else none
  else if -(n : Int) ≤ i then some (i + n).toNat else none

/-- Lines 4170–4174 for the chosen positions: the pairs of neighbours in one window. -/
def steps (o : Obj K R V Q) (l : List Nat) : List (Nat × Nat) := (l.zip l.tail).filter (fun p => o.ids[p.1]? == o.ids[p.2]?)

/-- Lines 4156–4190. With more than one channel and no neighbours in one window, `np.min` of an empty array raises (tools.py 222). -/
def freqStage (o : Obj K R V Q) (chans : Option (List Int)) : Except Err (Option (List Int)) :=
  match chans with
  | none => .ok none
  | some ch =>
    let l := ch.insertionSort (· ≤ ·)
    if 1 < l.length then
      match l.mapM (pos o.ids.length) with
      | none => .error .index
      | some ps => if steps o ps = [] then .error .spacing else .ok (some (unique ch))
    else .ok (some (unique ch))

/-- Lines 4205–4210. -/
def jonesCode (c : Ctx K R) : JReq → Except Err Int
  | .num n => .ok n
  | .str s => match c.jonesNum s with
    | some n => .ok n
    | none => .error .jonesName

/-- Lines 4211–4224 for one component: positions on the Jones axis and on that of windows. -/
def jonesWhere (o : Obj K R V Q) (n : Int) : Except Err (List Nat × List Nat) :=
  if o.jones.contains n then .ok (whereIdx (fun p => p == n) o.jones, [])
  else match o.flexJones with
    | none => .error .jones
    | some fj => if fj.contains n then .ok ([], whereIdx (fun p => p == n) fj) else .error .jones

/-- What is to be kept on each axis; `none` is everything. -/
structure Inds where
  ants : Option (List Nat)
  times : Option (List Nat)
  spws : Option (List Nat)
  chans : Option (List Int)
  jones : Option (List Nat)

/-- Lines 4225–4245: components that windows have. -/
def flexStage (o : Obj K R V Q) (js : List Nat) (chans : Option (List Int)) (spws : Option (List Nat)) : Except Err (Option (List Int) × Option (List Nat)) :=
  let sp := meet js spws
  let ch := if o.wide then chans
    else some (meet ((whereIdx (fun w => (fancy o.spws js).contains w) o.ids).map (fun i : Nat => (i : Int))) chans)
  if sp = [] ∨ (o.wide = false ∧ ch = some []) then .error .noData else .ok (ch, some sp)

/-- Lines 4192–4260. -/
def jonesStage (c : Ctx K R) (o : Obj K R V Q) (q : Req K) (chans : Option (List Int)) (spws : Option (List Nat)) :
    Except Err (Option (List Int) × Option (List Nat) × Option (List Nat)) :=
  match q.jones with
  | none => .ok (chans, spws, none)
  | some js => do
    let ns ← js.mapM (jonesCode c)
    let ws ← ns.mapM (jonesWhere o)
    let sp := ws.flatMap (·.2)
    if sp ≠ [] then (flexStage o sp chans spws).map (fun r => (r.1, r.2, none))
    else .ok (chans, spws, some (unique (ws.flatMap (·.1))))

/-- `_select_preprocess`. -/
def preprocess (c : Ctx K R) (o : Obj K R V Q) (q : Req K) : Except Err Inds := do
  let nums ← antReq c q
  let a ← antStage o nums
  let t ← timeStage c o q
  let s ← spwStage o q
  let f ← freqReq o q s.1
  let f ← freqStage o f
  let j ← jonesStage c o q f s.2
  .ok ⟨a, t, j.2.1, j.1, j.2.2⟩

/-- Position in the old object of a position in the new one. -/
def via (l : List Nat) (i : Nat) : Nat := l.getD i 0

/-- Antennas, lines 4350–4358. -/
def takeAnts (o : Obj K R V Q) (l : List Nat) : Obj K R V Q :=
  { o with
    ants := fancy o.ants l
    data := fun a f t j => o.data (via l a) f t j
    quality := o.quality.map (fun x a f t j => x (via l a) f t j) }

/-- Times, lines 4359–4361. -/
def takeTimes (o : Obj K R V Q) (l : List Nat) : Obj K R V Q :=
  { o with
    times := fancy o.times l
    data := fun a f t j => o.data a f (via l t) j
    quality := o.quality.map (fun x a f t j => x a f (via l t) j)
    total := o.total.map (fun x f t j => x f (via l t) j) }

/-- The second axis of the arrays. -/
def takeSecond (o : Obj K R V Q) (l : List Nat) : Obj K R V Q :=
  { o with
    data := fun a f t j => o.data a (via l f) t j
    quality := o.quality.map (fun x a f t j => x a (via l f) t j)
    total := o.total.map (fun x f t j => x (via l f) t j) }

/-- Windows, lines 4373–4375. -/
def takeSpws (o : Obj K R V Q) (l : List Nat) : Obj K R V Q :=
  let o' := { o with
    spws := fancy o.spws l
    ranges := fancy o.ranges l
    flexJones := o.flexJones.map (fun x => fancy x l) }
  if o.wide then takeSecond o' l else o'

/-- Channels, and the windows that are left, lines 4362–4369. -/
def takeChans (o : Obj K R V Q) (l : List Nat) : Obj K R V Q :=
  let o' := takeSecond { o with freq := fancy o.freq l, ids := fancy o.ids l, width := fancy o.width l } l
  takeSpws o' (whereIdx (fun w => o'.ids.contains w) o'.spws)

/-- Jones components, lines 4370–4372. -/
def takeJones (o : Obj K R V Q) (l : List Nat) : Obj K R V Q :=
  { o with
    jones := fancy o.jones l
    data := fun a f t j => o.data a f t (via l j)
    quality := o.quality.map (fun x a f t j => x a f t (via l j))
    total := o.total.map (fun x f t j => x f t (via l j)) }

/-- One axis: nothing to select on, an empty list, or positions. -/
def onAxis (f : Obj K R V Q → List Nat → Obj K R V Q) (r : Obj K R V Q × Option Err) (l : Option (List Nat)) : Obj K R V Q × Option Err :=
  match r.2, l with
  | some _, _ => r
  | none, none => r
  | none, some [] => (r.1, some .take)
  | none, some (i :: l) => (f r.1 (i :: l), none)

/-- Windows: positions from `np.where`, or a list that is not empty. -/
def spwAxis (r : Obj K R V Q × Option Err) (l : Option (List Nat)) : Obj K R V Q × Option Err :=
  match r.2, l with
  | none, some l => (takeSpws r.1 l, none)
  | _, _ => r

/-- Positions of the channels; `take` raises if one is out of range. -/
def chanAxis (r : Obj K R V Q × Option Err) (l : Option (List Int)) : Obj K R V Q × Option Err :=
  match l with
  | none => r
  | some ch =>
    match ch.mapM (pos r.1.ids.length) with
    | none => (r.1, some (r.2.getD .index))
    | some ps => onAxis takeChans r (some ps)

/-- `_select_by_index`: the axes in the order of lines 4303–4309. -/
def byIndex (o : Obj K R V Q) (i : Inds) : Obj K R V Q × Option Err :=
  onAxis takeJones (chanAxis (spwAxis (onAxis takeTimes (onAxis takeAnts (o, none) i.ants) i.times) i.spws) i.chans) i.jones

/-- `select` in place: the object afterwards, and the error if there is one. -/
def select (c : Ctx K R) (o : Obj K R V Q) (q : Req K) : Obj K R V Q × Option Err :=
  match preprocess c o q with
  | .error e => (o, some e)
  | .ok i => byIndex o i

end Verif.CalSelect
