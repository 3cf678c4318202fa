import Verif.CalSelect.Model
import Verif.Select.Model

/-!
# Selection from flag objects

Model of `UVFlag.select`, `src/pyuvdata/uvflag/uvflag.py` 2805-2999, with `_select_preprocess` (2374-2744) and
`_select_metadata` (2746-2803).

* A row is a baseline-time of an object of type "baseline" and a time of the other types, whose rows have no antennas.
  Arrays are functions of the positions of antenna, row, channel and polarization; objects that are not of type "antenna"
  use only the antenna position 0.
* `data` are flags, or metric, weights and squares of weights: all are treated alike.
* `list(set(a).intersection(b))` is a filter: its order does not matter as the result is sorted (2669).
* The antenna string is read by a parameter (`parse`, see C130), and so are names of polarizations.
* `select` changes the object itself, so the result is the object afterwards and perhaps an error.
* Left out: checks of types of arguments, single values for lists, history, `check`.
-/

namespace Verif.FlagSel
open Verif.Np Verif.FreqSort
open Verif.Pol (Str)
open Verif.Select (PolReq pyGet wh join joinOpt)
open Verif.CalSelect (via pos)

inductive Ty
  | baseline | antenna | waterfall
deriving DecidableEq

structure Row (K : Type) where
  ant1 : Int
  ant2 : Int
  bl : Int
  time : K
  lst : K
deriving DecidableEq

/-- A polarization of the object is a number, or a text after polarizations were combined. -/
structure Obj (K V : Type) where
  ty : Ty
  rows : List (Row K)
  ants : List Int
  freq : List K
  width : Option (List K)
  ids : Option (List Int)
  spws : List Int
  pols : List PolReq
  data : List (Nat → Nat → Nat → Nat → V)
  nblts : Nat
  nbls : Nat
  nants : Nat
  ntimes : Nat
  nfreqs : Nat
  npols : Nat
  nspws : Nat

/-- A pair of antennas, perhaps with the name of a polarization. -/
abbrev Pair := Int × Int × Option Str

structure Req (K : Type) where
  antNums : Option (List Int) := none
  antInds : Option (List Int) := none
  bls : Option (List Pair) := none
  antStr : Option Str := none
  freqs : Option (List K) := none
  chans : Option (List Int) := none
  times : Option (List K) := none
  pols : Option (List PolReq) := none
  bltInds : Option (List Int) := none

inductive Err
  | type | antStr | both | antNum | blPols | blMissing | pol | time | noRows | tooLarge | negative | chanIndex | freq
  | polMissing | antIndex
deriving DecidableEq

structure Ctx where
  parse : Str → Except Err (Option (List Pair) × Option (List PolReq))
  polNum : Str → Option Int
  conjPol : Str → Option Str

variable {K V : Type} [LinearOrder K]

/-- 2454-2475: pairs and polarizations asked for. -/
def strStage (c : Ctx) (o : Obj K V) (q : Req K) : Except Err (Option (List Pair) × Option (List PolReq)) :=
  if o.ty = .waterfall ∧ (q.antNums.isSome ∨ q.bls.isSome) then .error .type
  else match q.antStr with
    | none => .ok (q.bls, q.pols)
    | some s =>
      if q.antNums.isSome ∨ q.bls.isSome ∨ q.pols.isSome then .error .both
      else if o.ty ≠ .baseline then .error .type
      else match c.parse s with
        | .error e => .error e
        | .ok r => if r.1 = some [] then .error .antStr else .ok r

/-- An antenna in `ant_1_array` or `ant_2_array`. -/
def hasAnt (o : Obj K V) (a : Int) : Bool := o.rows.any (fun r => r.ant1 == a || r.ant2 == a)

/-- 2491-2534: rows for the antennas, and the antenna axis. -/
def antStage (o : Obj K V) (q : Req K) : Except Err (Option (List Int) × Option (List Int)) :=
  match q.antNums with
  | none => .ok (none, q.antInds)
  | some nums =>
    if o.ty = .baseline then
      if nums.all (hasAnt o) then
        .ok (some (wh (fun r : Row K => nums.contains r.ant1 && nums.contains r.ant2) o.rows), q.antInds)
      else .error .antNum
    else if nums.all (fun a => o.ants.contains a) then
      .ok (none, some (nums.flatMap (fun a => wh (fun x => x == a) o.ants)))
    else .error .antNum

/-- 2575-2604 for one pair: its rows and its polarization. -/
def pairRows (c : Ctx) (o : Obj K V) (t : Pair) : Except Err (List Int × List Str) :=
  if !hasAnt o t.1 || !hasAnt o t.2.1 then .error .antNum
  else
    let wh1 := wh (fun r : Row K => r.ant1 == t.1 && r.ant2 == t.2.1) o.rows
    let wh2 := wh (fun r : Row K => r.ant1 == t.2.1 && r.ant2 == t.1) o.rows
    if wh1 ≠ [] then .ok (wh1, t.2.2.toList)
    else if wh2 ≠ [] then
      match t.2.2 with
      | none => .ok (wh2, [])
      | some s => match c.conjPol s with
        | none => .error .pol
        | some s' => .ok (wh2, [s'])
    else .error .blMissing

/-- 2536-2612: rows for antennas and pairs, and polarizations. -/
def blStage (c : Ctx) (o : Obj K V) (bls : Option (List Pair)) (pols : Option (List PolReq)) (ants : Option (List Int)) :
    Except Err (Option (List Int) × Option (List PolReq)) :=
  match bls with
  | none => .ok (ants, pols)
  | some l =>
    if o.ty ≠ .baseline then .error .type
    else if l.all (fun t => t.2.2.isSome) && pols.isSome then .error .blPols
    else match l.mapM (pairRows c o) with
      | .error e => .error e
      | .ok rows =>
        let bp := (rows.flatMap (·.2)).dedup
        .ok (some (join ants (rows.flatMap (·.1))), if bp ≠ [] then some (bp.map PolReq.str) else pols)

/-- 2622-2653. -/
def timeStage (o : Obj K V) (q : Req K) (inds : Option (List Int)) : Except Err (Option (List Int)) :=
  match q.times with
  | none => .ok inds
  | some ts =>
    if ts.all (fun t => o.rows.any (fun r => r.time == t)) then
      .ok (some (join inds (wh (fun r : Row K => ts.contains r.time) o.rows)))
    else .error .time

/-- 2655-2669. -/
def finalRows (o : Obj K V) (inds : Option (List Int)) : Except Err (Option (List Nat)) :=
  match inds with
  | none => .ok none
  | some l =>
    if l = [] then .error .noRows
    else if l.any (fun i => decide ((o.rows.length : Int) ≤ i)) then .error .tooLarge
    else if l.any (fun i => decide (i < 0)) then .error .negative
    else .ok (some ((unique l).map Int.toNat))

/-- 2671-2684: `np.squeeze` makes a single frequency an array without axes, which has no elements to take. -/
def freqReq (o : Obj K V) (q : Req K) : Except Err (Option (List K)) :=
  match q.chans with
  | none => .ok q.freqs
  | some ch =>
    if o.freq.length = 1 then .error .chanIndex
    else match ch.mapM (pyGet o.freq) with
      | none => .error .chanIndex
      | some fs => match q.freqs with
        | none => .ok (some fs)
        | some gs => .ok (some (unique (gs ++ fs)))

/-- 2686-2708. -/
def freqStage (o : Obj K V) (fs : Option (List K)) : Except Err (Option (List Nat)) :=
  match fs with
  | none => .ok none
  | some fs =>
    if fs.all (fun f => o.freq.contains f) then .ok (some (whereIdx (fun f => fs.contains f) o.freq)) else .error .freq

/-- 2722-2736 for one polarization. -/
def polCode (c : Ctx) (o : Obj K V) (p : PolReq) : Except Err Int :=
  match p with
  | .num n => if o.pols.contains (.num n) then .ok n else .error .polMissing
  | .str s => match c.polNum s with
    | none => .error .pol
    | some n => if o.pols.contains (.num n) then .ok n else .error .polMissing

/-- 2710-2740. -/
def polStage (c : Ctx) (o : Obj K V) (pols : Option (List PolReq)) : Except Err (Option (List Nat)) :=
  match pols with
  | none => .ok none
  | some ps => match ps.mapM (polCode c o) with
    | .error e => .error e
    | .ok ns => .ok (some (whereIdx (fun p => (ns.map PolReq.num).contains p) o.pols))

structure Inds where
  rows : Option (List Nat)
  ants : Option (List Int)
  chans : Option (List Nat)
  pols : Option (List Nat)

/-- `_select_preprocess`. -/
def preprocess (c : Ctx) (o : Obj K V) (q : Req K) : Except Err Inds := do
  let s ← strStage c o q
  let a ← antStage o q
  let b ← blStage c o s.1 s.2 a.1
  let t ← timeStage o q (joinOpt q.bltInds b.1)
  let r ← finalRows o t
  let f ← freqReq o q
  let f ← freqStage o f
  let p ← polStage c o b.2
  .ok ⟨r, a.2, f, p⟩

/-- Metadata of rows, 2765-2778. -/
def rowMeta (o : Obj K V) (l : List Nat) : Obj K V :=
  let rs := fancy o.rows l
  let o' := { o with rows := rs, ntimes := (unique (rs.map (·.time))).length }
  if o.ty = .baseline then
    { o' with
      nblts := l.length
      nbls := (unique (rs.map (·.bl))).length
      nants := (unique (rs.map (·.ant1) ++ rs.map (·.ant2))).length }
  else o'

/-- Metadata of channels, 2785-2797. -/
def chanMeta (o : Obj K V) (l : List Nat) : Obj K V :=
  let o' := { o with
    nfreqs := l.length
    freq := fancy o.freq l
    width := o.width.map (fun w => fancy w l)
    ids := o.ids.map (fun w => fancy w l) }
  if 1 < o.nspws then
    let ws := o.spws.filter (fun w => o'.ids.any (fun l => l.contains w))
    { o' with spws := ws, nspws := ws.length }
  else o'

/-- Metadata of polarizations, 2799-2801. -/
def polMeta (o : Obj K V) (l : List Nat) : Obj K V := { o with npols := l.length, pols := fancy o.pols l }

def antMeta (o : Obj K V) (l : List Nat) : Obj K V := { o with ants := fancy o.ants l, nants := l.length }

def rowData (o : Obj K V) (l : List Nat) : Obj K V :=
  { o with data := o.data.map (fun x a r f p => x a (via l r) f p) }

def antData (o : Obj K V) (l : List Nat) : Obj K V :=
  { o with data := o.data.map (fun x a r f p => x (via l a) r f p) }

def chanData (o : Obj K V) (l : List Nat) : Obj K V :=
  { o with data := o.data.map (fun x a r f p => x a r (via l f) p) }

def polData (o : Obj K V) (l : List Nat) : Obj K V :=
  { o with data := o.data.map (fun x a r f p => x a r f (via l p)) }

/-- One axis, or nothing. -/
def onAxis (f : Obj K V → List Nat → Obj K V) (l : Option (List Nat)) (o : Obj K V) : Obj K V :=
  match l with
  | none => o
  | some l => f o l

/-- The antenna axis, 2780-2783 and 2952: only of objects of type "antenna"; `none` if an index is out of range. -/
def antAxis (o : Obj K V) (l : Option (List Int)) : Option (Option (List Nat)) :=
  if o.ty = .antenna then
    match l with
    | none => some none
    | some l => (l.mapM (pos o.ants.length)).map some
  else some none

/-- `_select_metadata` and the arrays, 2925-2990. -/
def byIndex (o : Obj K V) (i : Inds) : Obj K V × Option Err :=
  let o1 := onAxis rowMeta i.rows o
  match antAxis o i.ants with
  | none => (o1, some .antIndex)
  | some a =>
    (onAxis polData i.pols (onAxis chanData i.chans (onAxis antData a (onAxis rowData i.rows
      (onAxis polMeta i.pols (onAxis chanMeta i.chans (onAxis antMeta a o1)))))), none)

/-- `select` in place. -/
def select (c : Ctx) (o : Obj K V) (q : Req K) : Obj K V × Option Err :=
  match preprocess c o q with
  | .error e => (o, some e)
  | .ok i => byIndex o i

end Verif.FlagSel
