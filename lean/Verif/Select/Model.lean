import Verif.TimeSel.Model
import Verif.Pol.Model

/-!
Model of `UVData._select_preprocess` and `UVData._select_by_index`, `src/pyuvdata/uvdata/uvdata.py` lines 6507–7131.

* An attribute with a baseline-time axis is the list of its rows, one with a frequency axis the list of its channels;
  data, flags and sample counts are one array of cells `D`.  `rest` and `chRest` stand for all remaining attributes with
  that axis: `_select_by_index` treats all alike (lines 7065–7093).
* `list(set(a).intersection(b))` is modelled by a filter: its order is irrelevant as the result is sorted (line 6874).
* Not modelled: `ant_str`, type checks of the arguments, warnings, the history text, `keep_all_metadata=False`, and
  lines 7306–7322 of `select` (rectangularity, dropping of the flex-pol axis, `check`).
-/
namespace Verif.Select
open Verif.Np Verif.TimeSel
open Verif.Pol (Str)

variable {K D R C : Type} [Field K] [LinearOrder K]

structure Obj (K D R C : Type) where
  ant1 : List Int
  ant2 : List Int
  bl : List Int
  times : List K
  lsts : List K
  pc : List Int
  rest : List R
  freqs : List K
  ids : List Int
  chRest : List C
  spws : List Int
  flexPol : Option (List Int)
  pols : List Int
  vis : Option (List (List (List D)))
  nblts : Nat
  nfreqs : Nat
  npols : Nat
  nspws : Nat
  nbls : Nat
  ntimes : Nat
  nants : Nat
deriving DecidableEq

/-- What does not change: antenna names and numbers of the telescope, the phase-center catalog, tolerances, `2 * np.pi`,
and the functions between baseline numbers, polarization strings and numbers (modelled elsewhere). -/
structure Ctx (K : Type) where
  antNames : List (Str × Int)
  catalog : List (Int × Str)
  timeTols : K × K
  lstTols : K × K
  P : K
  decode : Int → Int × Int
  polNum : Str → Option Int
  conjPol : Str → Option Str

inductive PolReq where
  | num (n : Int)
  | str (s : Str)
deriving DecidableEq

inductive BlReq where
  | nums (l : List Int)
  | tuples (l : List (Int × Int × Option Str))

/-- The selection keywords. -/
structure Req (K : Type) where
  bltInds : Option (List Int) := none
  pcIds : Option (List Int) := none
  catNames : Option (List Str) := none
  antNums : Option (List Int) := none
  antNames : Option (List Str) := none
  bls : Option BlReq := none
  times : TimeSel.Req K := ⟨none, none, none, none⟩
  freqs : Option (List K) := none
  chans : Option (List Int) := none
  pols : Option (List PolReq) := none

inductive Err where
  | both | antName | antNum | blNum | blEmpty | blPols | blMissing | pol | time (e : TimeSel.Err) | noRows | tooLarge
  | negative | chanIndex | freq | spacing | polMissing | noData
deriving DecidableEq

/-- `np.where(mask)[0]` as integers. -/
def wh {α : Type} (p : α → Bool) (l : List α) : List Int := (whereIdx p l).map (fun i : Nat => (i : Int))

/-- Join a further criterion by intersection: lines 6659–6666, 6803–6819, 6841–6848, 6857–6864. -/
def join (inds : Option (List Int)) (more : List Int) : List Int :=
  match inds with
  | none => more
  | some l => l.filter (fun i => more.contains i)

/-- Lines 6646–6652: the phase-center IDs asked for. -/
def pcReq (c : Ctx K) (q : Req K) : Except Err (Option (List Int)) :=
  match q.pcIds, q.catNames with
  | some _, some _ => .error .both
  | ids, none => .ok ids
  | none, some names => .ok (some ((c.catalog.filter (fun p => names.contains p.2)).map (·.1)))

/-- Lines 6654–6666. -/
def pcStage (o : Obj K D R C) (ids : Option (List Int)) (inds : Option (List Int)) : Option (List Int) :=
  match ids with
  | none => inds
  | some ids => some (join inds (wh (fun x => ids.contains x) o.pc))

/-- Line 6689–6698 for one name. -/
def antNum (c : Ctx K) (s : Str) : Except Err Int :=
  match c.antNames.find? (fun p => p.1 == s) with
  | none => .error .antName
  | some p => .ok p.2

/-- Lines 6677–6698: the antenna numbers asked for. -/
def antReq (c : Ctx K) (q : Req K) : Except Err (Option (List Int)) :=
  match q.antNames, q.antNums with
  | some _, some _ => .error .both
  | none, nums => .ok nums
  | some names, none => (names.mapM (antNum c)).map some

/-- Positions at which two arrays satisfy a condition. -/
def wh2 (o : Obj K D R C) (p : Int → Int → Bool) : List Int := wh (fun x : Int × Int => p x.1 x.2) (o.ant1.zip o.ant2)

/-- Lines 6700–6727. -/
def antStage (o : Obj K D R C) (nums : Option (List Int)) : Except Err (Option (List Int)) :=
  match nums with
  | none => .ok none
  | some nums =>
    if nums.all (fun a => o.ant1.contains a || o.ant2.contains a) then
      .ok (some (wh2 o (fun a b => nums.contains a && nums.contains b)))
    else .error .antNum

/-- Lines 6730–6763: the antenna pairs asked for, with optional polarizations. -/
def blReq (c : Ctx K) (o : Obj K D R C) (b : BlReq) (polsGiven : Bool) : Except Err (List (Int × Int × Option Str)) :=
  match b with
  | .nums l =>
    if l.all (fun n => o.bl.contains n) then
      if l = [] then .error .blEmpty else .ok (l.map (fun n => ((c.decode n).1, (c.decode n).2, none)))
    else .error .blNum
  | .tuples l =>
    if l = [] then .error .blEmpty
    else if l.all (fun t => t.2.2.isSome) && polsGiven then .error .blPols
    else .ok l

/-- Lines 6776–6799 for one pair: its rows and the polarization it asks for. -/
def blRows (c : Ctx K) (o : Obj K D R C) (t : Int × Int × Option Str) : Except Err (List Int × List Str) :=
  let wh1 := wh2 o (fun a b => a == t.1 && b == t.2.1)
  if wh1 ≠ [] then .ok (wh1, t.2.2.toList)
  else
    let wh2 := wh2 o (fun a b => a == t.2.1 && b == t.1)
    if wh2 ≠ [] then
      match t.2.2 with
      | none => .ok (wh2, [])
      | some s => match c.conjPol s with
        | none => .error .pol
        | some s' => .ok (wh2, [s'])
    else .error .blMissing

/-- Lines 6729–6809: the rows that the antennas and baselines allow, and the polarizations. -/
def blStage (c : Ctx K) (o : Obj K D R C) (q : Req K) (ants : Option (List Int)) :
    Except Err (Option (List Int) × Option (List PolReq)) :=
  match q.bls with
  | none => .ok (ants, q.pols)
  | some b => do
    let l ← blReq c o b q.pols.isSome
    let rows ← l.mapM (blRows c o)
    let bp := (rows.flatMap (·.2)).dedup
    .ok (some (join ants (rows.flatMap (·.1))), if bp ≠ [] then some (bp.map PolReq.str) else q.pols)

/-- The time criterion, lines 6821–6864. -/
def timeStage (c : Ctx K) (o : Obj K D R C) (q : Req K) (inds : Option (List Int)) : Except Err (Option (List Int)) :=
  match selectTimes c.P ⟨o.times, none, o.lsts, none⟩ c.timeTols c.lstTols q.times with
  | .error e => .error (.time e)
  | .ok none => .ok inds
  | .ok (some t) => .ok (some (join inds (t.map (fun i : Nat => (i : Int)))))

/-- Lines 6866–6874. -/
def finalRows (o : Obj K D R C) (inds : Option (List Int)) : Except Err (Option (List Nat)) :=
  match inds with
  | none => .ok none
  | some l =>
    if l = [] then .error .noRows
    else if l.any (fun i => decide ((o.nblts : Int) ≤ i)) then .error .tooLarge
    else if l.any (fun i => decide (i < 0)) then .error .negative
    else .ok (some ((unique l).map Int.toNat))

/-- Lines 6811–6819. -/
def joinOpt (inds more : Option (List Int)) : Option (List Int) :=
  match more with
  | none => inds
  | some m => some (join inds m)

/-- Lines 6639–6874: the rows, and the polarizations that the baselines ask for. -/
def rowInds (c : Ctx K) (o : Obj K D R C) (q : Req K) : Except Err (Option (List Nat) × Option (List PolReq)) := do
  let pc ← pcReq c q
  let nums ← antReq c q
  let ants ← antStage o nums
  let bl ← blStage c o q ants
  let t ← timeStage c o q (joinOpt (pcStage o pc q.bltInds) bl.1)
  let r ← finalRows o t
  .ok (r, bl.2)

/-- `arr[i]` with Python's negative indices. -/
def pyGet {α : Type} (l : List α) (i : Int) : Option α :=
  if 0 ≤ i then l[i.toNat]? else if -(l.length : Int) ≤ i then l[(i + l.length).toNat]? else none

/-- Lines 6876–6886: the frequencies asked for. -/
def freqReq (o : Obj K D R C) (q : Req K) : Except Err (Option (List K)) :=
  match q.chans with
  | none => .ok q.freqs
  | some ch =>
    match ch.mapM (pyGet o.freqs) with
    | none => .error .chanIndex
    | some fs => match q.freqs with
      | none => .ok (some fs)
      | some gs => .ok (some (unique (gs ++ fs)))

/-- Lines 6909–6912 for the chosen channels `l`: the separations that are tested, those of neighbouring choices in
one window. -/
def steps (o : Obj K D R C) (l : List Nat) : List (Nat × Nat) :=
  (l.zip l.tail).filter (fun p => o.ids[p.1]? == o.ids[p.2]?)

/-- Lines 6888–6928.  With more than one frequency asked for and no separation to test, `np.min` of an empty array
raises in `_test_array_constant` (utils/tools.py 222). -/
def freqStage (o : Obj K D R C) (fs : Option (List K)) : Except Err (Option (List Nat)) :=
  match fs with
  | none => .ok none
  | some fs =>
    if fs.all (fun f => o.freqs.contains f) then
      let l := whereIdx (fun f => fs.contains f) o.freqs
      if 1 < fs.length ∧ steps o l = [] then .error .spacing else .ok (some l)
    else .error .freq

/-- Lines 6943–6948. -/
def polCode (c : Ctx K) : PolReq → Except Err Int
  | .num n => .ok n
  | .str s => match c.polNum s with
    | some n => .ok n
    | none => .error .pol

/-- Lines 6949–6965 for one polarization: indices on the polarization axis and on the window axis. -/
def polWhere (o : Obj K D R C) (n : Int) : Except Err (List Nat × List Nat) :=
  if o.pols.contains n then .ok (whereIdx (fun p => p == n) o.pols, [])
  else match o.flexPol with
    | none => .error .polMissing
    | some fp => if fp.contains n then .ok ([], whereIdx (fun p => p == n) fp) else .error .polMissing

/-- Lines 6967–6991: a flex-pol selection acts on the channels. -/
def flexChans (o : Obj K D R C) (fi : Option (List Nat)) (spwInds : List Nat) : Except Err (List Nat) :=
  let ws := spwInds.filterMap (fun i => o.spws[i]?)
  let l := (fi.getD (List.range o.ids.length)).filter (fun i => (o.ids[i]?).any (fun w => ws.contains w))
  if l = [] then .error .noData else .ok l

/-- Lines 6930–7011: channels and polarizations. -/
def polStage (c : Ctx K) (o : Obj K D R C) (pols : Option (List PolReq)) (fi : Option (List Nat)) :
    Except Err (Option (List Nat) × Option (List Nat)) :=
  match pols with
  | none => .ok (fi, none)
  | some ps => do
    let ns ← ps.mapM (polCode c)
    let ws ← ns.mapM (polWhere o)
    let spwInds := ws.flatMap (·.2)
    if spwInds ≠ [] then (flexChans o fi spwInds).map (fun l => (some l, none))
    else .ok (fi, some (unique (ws.flatMap (·.1))))

/-- `_select_preprocess`: the indices to keep on the three axes. -/
def preprocess (c : Ctx K) (o : Obj K D R C) (q : Req K) :
    Except Err (Option (List Nat) × Option (List Nat) × Option (List Nat)) := do
  let r ← rowInds c o q
  let f ← freqReq o q
  let f ← freqStage o f
  let p ← polStage c o r.2 f
  .ok (r.1, p.1, p.2)

/-- `arr.take(inds)`; the indices are in range. -/
def pick {α : Type} (l : List α) (inds : List Nat) : List α := inds.filterMap (fun i => l[i]?)

/-- Lines 7065–7101 for the baseline-time axis. -/
def takeRows (o : Obj K D R C) (inds : List Nat) : Obj K D R C :=
  { o with
    ant1 := pick o.ant1 inds
    ant2 := pick o.ant2 inds
    bl := pick o.bl inds
    times := pick o.times inds
    lsts := pick o.lsts inds
    pc := pick o.pc inds
    rest := pick o.rest inds
    vis := o.vis.map (fun v => pick v inds)
    nblts := inds.length
    nbls := (unique (pick o.bl inds)).length
    ntimes := (unique (pick o.times inds)).length
    nants := (unique (pick o.ant1 inds ++ pick o.ant2 inds)).length }

/-- Lines 7112–7119 and the window axis that follows, 7123–7125. -/
def takeChans (o : Obj K D R C) (inds : List Nat) : Obj K D R C :=
  let ids := pick o.ids inds
  let sp := whereIdx (fun w => ids.contains w) o.spws
  { o with
    freqs := pick o.freqs inds
    ids := ids
    chRest := pick o.chRest inds
    vis := o.vis.map (fun v => v.map (fun row => pick row inds))
    nfreqs := inds.length
    spws := pick o.spws sp
    flexPol := o.flexPol.map (fun l => pick l sp)
    nspws := sp.length }

/-- Lines 7120–7122. -/
def takePols (o : Obj K D R C) (inds : List Nat) : Obj K D R C :=
  { o with
    pols := pick o.pols inds
    vis := o.vis.map (fun v => v.map (fun row => row.map (fun ch => pick ch inds)))
    npols := inds.length }

/-- Apply one axis, or nothing. -/
def onAxis (f : Obj K D R C → List Nat → Obj K D R C) (o : Obj K D R C) : Option (List Nat) → Obj K D R C
  | none => o
  | some inds => f o inds

/-- `_select_by_index`. -/
def byIndex (o : Obj K D R C) (i : Option (List Nat) × Option (List Nat) × Option (List Nat)) : Obj K D R C :=
  onAxis takePols (onAxis takeChans (onAxis takeRows o i.1) i.2.1) i.2.2

/-- `select`, lines 7277–7304. -/
def select (c : Ctx K) (o : Obj K D R C) (q : Req K) : Except Err (Obj K D R C) :=
  (preprocess c o q).map (byIndex o)

end Verif.Select
