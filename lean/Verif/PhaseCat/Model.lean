import Mathlib.Data.List.Dedup
import Mathlib.Algebra.Order.Field.Rat
import Verif.Pol.Model

/-!
Model of the phase-center catalog: `src/pyuvdata/utils/phase_center_catalog.py` (`look_in_catalog` 14–211,
`generate_new_phase_center_id` 509–574, `generate_phase_center_cat_entry` 577–796) and the catalog methods of
`UVData` in `src/pyuvdata/uvdata/uvdata.py` 685–1406.

Simplifications.  A catalog is an association list in insertion order.  Floats are rationals; π/2 and the
one-milliarcsecond tolerance are parameters.  Epochs are numbers (strings and `Time` objects are not converted).
Every entry carries every key, as the entries made by `generate_phase_center_cat_entry` do.  Warnings are dropped.
The array with the phase-center IDs of the rows is a list.  Type errors on arguments are not modelled.
-/
namespace Verif.PhaseCat
open Verif.Pol (Str)

/-- A coordinate: a number or a one-dimensional array. -/
inductive Val
  | scalar (x : Rat)
  | vec (l : List Rat)
  deriving DecidableEq

/-- A catalog entry, phase_center_catalog.py 781–794. -/
structure Entry where
  name : Str
  type : Str
  lon : Option Val
  lat : Option Val
  frame : Option Str
  epoch : Option Rat
  times : Option Val
  pmRa : Option Val
  pmDec : Option Val
  dist : Option Val
  vrad : Option Val
  info : Str
  deriving DecidableEq

/-- π/2 and `RADIAN_TOL` (utils/__init__.py 13). -/
structure Consts where
  halfPi : Rat
  radTol : Rat

inductive Err
  | noCatalog | noOldId | idTaken | badType | pmPair | times | coords | frame | unprojected | pmType | shape | float
  | noEntry | ambiguous | index | notPartOf | differ
  deriving DecidableEq

def sidereal : Str := ['s', 'i', 'd', 'e', 'r', 'e', 'a', 'l']
def ephem : Str := ['e', 'p', 'h', 'e', 'm']
def unprojected : Str := ['u', 'n', 'p', 'r', 'o', 'j', 'e', 'c', 't', 'e', 'd']
def driftscan : Str := ['d', 'r', 'i', 'f', 't', 's', 'c', 'a', 'n']
def altaz : Str := ['a', 'l', 't', 'a', 'z']
def user : Str := ['u', 's', 'e', 'r']

/-! ### Comparison of entries, phase_center_catalog.py 152–211 -/

/-- `|a - b| ≤ atol + rtol * |b|`, the element test of `np.allclose`. -/
def closeQ (rtol atol a b : Rat) : Bool := decide (|a - b| ≤ atol + rtol * |b|)

/-- Lines 190–198: same shape and `np.allclose`. -/
def closeV (rtol atol : Rat) : Val → Val → Bool
  | .scalar a, .scalar b => closeQ rtol atol a b
  | .vec a, .vec b => decide (a.length = b.length) && (a.zip b).all (fun p => closeQ rtol atol p.1 p.2)
  | _, _ => false

/-- Lines 180–200 for one key: 1 if the values differ. -/
def fieldDiff {α : Type} (eqv : α → α → Bool) : Option α → Option α → Nat
  | some _, none => 1
  | some a, some b => if eqv a b then 0 else 1
  | none, some _ => 1
  | none, none => 0

/-- `cat_diffs`, lines 179–200; `p` is `phase_dict`, `q` is `check_dict`. -/
def diffs (c : Consts) (p q : Entry) : Nat :=
  fieldDiff (fun a b => decide (a = b)) (some p.type) (some q.type)
    + fieldDiff (closeV 0 c.radTol) p.lon q.lon + fieldDiff (closeV 0 c.radTol) p.lat q.lat
    + fieldDiff (fun a b => decide (a = b)) p.frame q.frame + fieldDiff (fun a b => decide (a = b)) p.epoch q.epoch
    + fieldDiff (closeV (1 / 100000) (1 / 100000000)) p.times q.times
    + fieldDiff (closeV (1 / 100000) (1 / 100000000)) p.pmRa q.pmRa
    + fieldDiff (closeV (1 / 100000) (1 / 100000000)) p.pmDec q.pmDec
    + fieldDiff (closeV (1 / 100000) (1 / 100000000)) p.dist q.dist
    + fieldDiff (closeV (1 / 100000) (1 / 100000000)) p.vrad q.vrad

/-- A dictionary from IDs to entries, in insertion order. -/
abbrev Cat := List (Int × Entry)

def keys (cat : Cat) : List Int := cat.map Prod.fst

def get (cat : Cat) (k : Int) : Option Entry := (cat.find? (fun p => decide (p.1 = k))).map Prod.snd

/-- `cat[k] = e` -/
def put (cat : Cat) (k : Int) (e : Entry) : Cat :=
  if k ∈ keys cat then cat.map (fun p => if p.1 = k then (k, e) else p) else cat ++ [(k, e)]

/-- `del cat[k]` -/
def del (cat : Cat) (k : Int) : Cat := cat.filter (fun p => decide (p.1 ≠ k))

/-- The loop of `look_in_catalog`, lines 174–209, called with a `phase_dict` (118–123: names are compared unless
`ignore_name`). -/
def scan (c : Consts) (p : Entry) (ignoreName : Bool) : Cat → Option Int × Nat → Option Int × Nat
  | [], m => m
  | (k, e) :: rest, m =>
    if p.name ≠ e.name ∧ ¬ignoreName then scan c p ignoreName rest m                     -- 176–177
    else if diffs c p e = 0 ∨ (¬ignoreName ∧ p.name = e.name) then                      -- 201
      if diffs c p e < m.2 then                                                         -- 202–206
        if diffs c p e = 0 then (some k, 0) else scan c p ignoreName rest (some k, diffs c p e)
      else if m.2 = 0 then m else scan c p ignoreName rest m
    else scan c p ignoreName rest m

/-- `look_in_catalog(cat, phase_dict=p, ignore_name=ignoreName)`, lines 14–211. -/
def look (c : Consts) (cat : Cat) (p : Entry) (ignoreName : Bool) : Option Int × Nat :=
  scan c p ignoreName cat (none, 99999)

/-! ### New IDs, phase_center_catalog.py 509–574 -/

/-- `set.pop` on the non-empty set of candidates: Python does not say which element is removed, so every choice is
considered. -/
structure Pop where
  pick : List Int → Int
  mem : ∀ l, l ≠ [] → pick l ∈ l

/-- `set(range(n + 1)).difference(used)`, line 564; uvdata.py 1070. -/
def candidates (n : Nat) (used : List Int) : List Int :=
  ((List.range (n + 1)).map (fun i : Nat => (i : Int))).filter (fun i => decide (i ∉ used))

/-- `used_cat_ids`, lines 544–556, without repetitions. -/
def usedIds (cat : Option (List Int)) (oldId : Option Int) (reserved : List Int) : List Int :=
  (((cat.getD []).filter (fun k => decide (some k ≠ oldId))) ++ reserved).dedup

/-- `generate_new_phase_center_id`, lines 544–574; `cat` is the list of catalog keys. -/
def generateId (pop : Pop) (cat : Option (List Int)) (catId oldId : Option Int) (reserved : List Int) :
    Except Err Int :=
  if cat = none ∧ oldId ≠ none then .error .noCatalog                                    -- 545–547
  else if oldId ≠ none ∧ ∀ k ∈ cat.getD [], some k ≠ oldId then .error .noOldId          -- 551–552
  else
    match catId with
    | none =>
      match oldId with                                                                   -- 558–564
      | some o =>
        if o ∈ usedIds cat oldId reserved then
          .ok (pop.pick (candidates (usedIds cat oldId reserved).length (usedIds cat oldId reserved)))
        else .ok o
      | none => .ok (pop.pick (candidates (usedIds cat oldId reserved).length (usedIds cat oldId reserved)))
    | some k => if k ∈ usedIds cat oldId reserved then .error .idTaken else .ok k        -- 565–572

/-! ### New entries, phase_center_catalog.py 577–796 -/

/-- Lines 699–705. -/
def withDefaults (c : Consts) (e : Entry) : Entry :=
  if e.type = unprojected ∨ e.type = driftscan then
    { e with lon := some (e.lon.getD (.scalar 0)), lat := some (e.lat.getD (.scalar c.halfPi)),
             frame := some (e.frame.getD altaz) }
  else e

/-- The checks of lines 688–746 (after the defaults are filled in; 692 does not depend on them). -/
def entryErr (c : Consts) (e : Entry) : Option Err :=
  if ¬(e.type = sidereal ∨ e.type = ephem ∨ e.type = unprojected ∨ e.type = driftscan) then some .badType   -- 688
  else if e.pmRa.isNone ≠ e.pmDec.isNone then some .pmPair                                                -- 692
  else if e.times.isNone ∧ e.type = ephem then some .times                                                -- 708
  else if e.times.isSome ∧ e.type ≠ ephem then some .times                                                -- 710
  else if e.lon.isNone ∧ (e.type = sidereal ∨ e.type = ephem) then some .coords                           -- 713
  else if e.lat.isNone ∧ (e.type = sidereal ∨ e.type = ephem) then some .coords                           -- 716
  else if e.frame.isNone ∧ (e.type = sidereal ∨ e.type = ephem) then some .frame                          -- 719
  else if e.frame ≠ some altaz ∧ (e.type = driftscan ∨ e.type = unprojected) then some .frame             -- 723
  else if e.type = unprojected ∧ e.lon ≠ some (.scalar 0) then some .unprojected                          -- 729
  else if e.type = unprojected ∧ e.lat ≠ some (.scalar c.halfPi) then some .unprojected                   -- 734
  else if e.type ≠ sidereal ∧ (e.pmRa.isSome ∨ e.pmDec.isSome) then some .pmType                          -- 740
  else none

/-- `np.array(x, dtype=float).reshape(-1)`, line 757. -/
def flat : Val → List Rat
  | .scalar x => [x]
  | .vec l => l

/-- `np.array(x, dtype=float).reshape(cshape)`, lines 760–765. -/
def reshape (n : Nat) : Option Val → Except Err (Option Val)
  | none => .ok none
  | some v => if (flat v).length = n then .ok (some (.vec (flat v))) else .error .shape

/-- `float(x)`, lines 772–779 (arrays are refused). -/
def toFloat : Option Val → Except Err (Option Val)
  | some (.vec _) => .error .float
  | v => .ok v

/-- `generate_phase_center_cat_entry`, lines 683–796; the arguments are given as an `Entry`. -/
def genEntry (c : Consts) (raw : Entry) : Except Err Entry :=
  match entryErr c (withDefaults c raw) with
  | some err => .error err
  | none =>
    let e := withDefaults c raw
    if e.type = ephem then do                                                            -- 756–770
      let times := ((e.times.map flat).getD [])
      let lon ← reshape times.length e.lon
      let lat ← reshape times.length e.lat
      let dist ← reshape times.length e.dist
      let vrad ← reshape times.length e.vrad
      return { e with times := some (.vec times), lon, lat, dist, vrad }
    else do                                                                              -- 771–779
      let lon ← toFloat e.lon
      let lat ← toFloat e.lat
      let pmRa ← toFloat e.pmRa
      let pmDec ← toFloat e.pmDec
      let dist ← toFloat e.dist
      let vrad ← toFloat e.vrad
      return { e with lon, lat, pmRa, pmDec, dist, vrad }

/-! ### The catalog methods of UVData, uvdata.py 685–1406 -/

/-- `phase_center_catalog`, `phase_center_id_array`, `Nphase`. -/
structure St where
  cat : Cat
  ids : List Int
  nphase : Nat
  deriving DecidableEq

/-- The ID of a new entry, uvdata.py 810–813. -/
def addId (pop : Pop) (s : St) (catId : Option Int) (force : Bool) : Except Err Int :=
  match catId with
  | none => generateId pop (some (keys s.cat)) none none []
  | some k => if force then .ok k else generateId pop (some (keys s.cat)) (some k) none []

/-- uvdata.py 820–840. -/
def insert (c : Consts) (s : St) (k : Int) (e : Entry) : St × Int :=
  match look c s.cat e false with                                                        -- 820–834
  | (some t, 0) => (s, t)
  | _ => ({ s with cat := put s.cat k e, nphase := (put s.cat k e).length }, k)          -- 837–840

/-- `_add_phase_center`, uvdata.py 792–840. -/
def add (c : Consts) (pop : Pop) (s : St) (raw : Entry) (catId : Option Int) (force : Bool) : Except Err (St × Int) := do
  let e ← genEntry c raw
  let k ← addId pop s catId force
  return insert c s k e

/-- `_remove_phase_center`, uvdata.py 858–862. -/
def remove (s : St) (k : Int) : Except Err St :=
  if k ∈ keys s.cat then .ok { s with cat := del s.cat k, nphase := (del s.cat k).length } else .error .noEntry

/-- `_clear_unused_phase_centers`, uvdata.py 874–890. -/
def clearUnused (s : St) : Except Err St :=
  let defunct := (keys s.cat).filter (fun k => decide (k ∉ s.ids))
  if (keys s.cat).length - defunct.length = s.nphase then .ok s
  else defunct.foldlM remove s

/-- How the user names a catalog entry. -/
inductive Ident
  | name (n : Str)
  | id (k : Int)
  deriving DecidableEq

/-- The IDs with a given name, uvdata.py 960–962, 1196–1198. -/
def named (cat : Cat) (n : Str) : List Int := (cat.filter (fun p => decide (p.2.name = n))).map Prod.fst

/-- Change one entry. -/
def modifyAt (cat : Cat) (k : Int) (f : Entry → Entry) : Cat :=
  cat.map (fun p => if p.1 = k then (p.1, f p.2) else p)

/-- Change the name of one entry, uvdata.py 987. -/
def renameOne (cat : Cat) (n : Str) (k : Int) : Cat := modifyAt cat k (fun e => { e with name := n })

/-- `rename_phase_center` with a name, uvdata.py 958–966, 979–987. -/
def renameName (s : St) (old new : Str) : Except Err St :=
  if named s.cat old = [] then .error .noEntry
  else if new = old then .ok s
  else .ok { s with cat := (named s.cat old).foldl (fun cat k => renameOne cat new k) s.cat }

/-- `rename_phase_center` with IDs, uvdata.py 967–987. -/
def renameIds (s : St) (ks : List Int) (new : Str) : Except Err St :=
  if ∃ k ∈ ks, k ∉ keys s.cat then .error .noEntry
  else .ok { s with cat := ks.foldl (fun cat k => renameOne cat new k) s.cat }

/-- `_update_phase_center_id`, uvdata.py 1322–1332. -/
def updateId (pop : Pop) (s : St) (k : Int) (newId : Option Int) (reserved : List Int) : Except Err St :=
  match generateId pop (some (keys s.cat)) newId (some k) reserved with
  | .error e => .error e
  | .ok n =>
    match get s.cat k with
    | none => .error .noEntry
    | some e => .ok { s with ids := s.ids.map (fun i => if i = k then n else i), cat := put (del s.cat k) n e }

/-- The entry to split, uvdata.py 1046–1066. -/
def resolve (cat : Cat) : Ident → Except Err Int
  | .name n =>
    match named cat n with
    | [] => .error .noEntry
    | [k] => .ok k
    | _ => .error .ambiguous
  | .id k => if k ∈ keys cat then .ok k else .error .noEntry

/-- The ID of the split-off part, uvdata.py 1068–1079. -/
def splitId (pop : Pop) (s : St) (newId : Option Int) : Except Err Int :=
  let n := newId.getD (pop.pick (candidates s.nphase (keys s.cat)))
  if n ∈ keys s.cat then .error .idTaken else .ok n

/-- Assign an ID to some rows, uvdata.py 1138. -/
def assign (ids : List Int) (rows : List Nat) (k : Int) : List Int :=
  ids.mapIdx (fun i old => if i ∈ rows then k else old)

/-- All rows of the phase center are selected, uvdata.py 1112–1120. -/
def splitAll (pop : Pop) (s : St) (newName : Option Str) (k n : Int) : Except Err St :=
  match updateId pop s k (some n) [] with
  | .error e => .error e
  | .ok s =>
    match newName with
    | none => .ok s
    | some nm => renameIds s [n] nm

/-- Some of the rows are selected, uvdata.py 1122–1138. -/
def splitSome (c : Consts) (pop : Pop) (s : St) (newName : Option Str) (k n : Int) (rows : List Nat) : Except Err St :=
  match get s.cat k with
  | none => .error .noEntry
  | some e =>
    match add c pop s { e with name := newName.getD e.name, info := user } (some n) true with
    | .error err => .error err
    | .ok (s', m) => .ok { s' with ids := assign s'.ids rows m }

/-- Once the selected rows are known to belong to the phase center, uvdata.py 1109–1138. -/
def splitRows (c : Consts) (pop : Pop) (s : St) (newName : Option Str) (k n : Int) (rows : List Nat) : Except Err St :=
  if rows = [] then .ok s                                                                -- 1109–1111
  else if ∀ i < s.ids.length, i ∉ rows → s.ids[i]? ≠ some k then splitAll pop s newName k n
  else splitSome c pop s newName k n rows

/-- `split_phase_center`, uvdata.py 1042–1138; `rows` are the rows that `select_mask` picks. -/
def split (c : Consts) (pop : Pop) (s : St) (which : Ident) (newName : Option Str) (rows : List Nat)
    (newId : Option Int) (downselect : Bool) : Except Err St := do
  let k ← resolve s.cat which
  let n ← splitId pop s newId
  if ∃ i ∈ rows, ¬i < s.ids.length then .error .index                                    -- 1084–1091
  else if (∃ i ∈ rows, s.ids[i]? ≠ some k) ∧ ¬downselect then .error .notPartOf          -- 1095–1106
  else splitRows c pop s newName k n (rows.filter (fun i => decide (s.ids[i]? = some k)))   -- 1098–1100

/-- The IDs to merge, uvdata.py 1192–1208. -/
def mergeList (cat : Cat) : List Ident → Except Err (List Int)
  | [] => .ok []
  | .name n :: rest =>
    if named cat n = [] then .error .noEntry else (mergeList cat rest).map (fun l => named cat n ++ l)
  | .id k :: rest => if k ∈ keys cat then (mergeList cat rest).map (fun l => k :: l) else .error .noEntry

/-- `look_in_catalog(..., target_cat_id=k)` finds no difference, uvdata.py 1219–1225. -/
def agrees (c : Consts) (cat : Cat) (ignoreName : Bool) (k other : Int) : Bool :=
  match get cat k, get cat other with
  | some e, some p => decide (look c [(k, e)] p ignoreName = (some k, 0))
  | _, _ => false

/-- `merge_phase_centers`, uvdata.py 1177–1245. -/
def merge (c : Consts) (s : St) (which : List Ident) (force ignoreName : Bool) : Except Err St := do
  let l ← mergeList s.cat which
  match l with
  | k :: k' :: rest =>
    if (∃ j ∈ k' :: rest, agrees c s.cat ignoreName k j = false) ∧ ¬force then .error .differ   -- 1218–1236
    else (k' :: rest).foldlM remove { s with ids := s.ids.map (fun i => if i ∈ l then k else i) }  -- 1239–1245
  | _ => .ok s                                                                                -- 1211–1215

/-- First loop of `_consolidate_phase_center_catalogs`, uvdata.py 1379–1383. -/
def clearIds (pop : Pop) (reserved : List Int) (s : St) : Except Err St :=
  (keys s.cat).foldlM (fun s k => updateId pop s k none reserved) s

/-- Take over the source of the information, and the name if names are ignored, uvdata.py 1403–1406. -/
def adopt (ignoreName : Bool) (r e : Entry) : Entry :=
  { e with info := r.info, name := if ignoreName then r.name else e.name }

/-- One round of the second loop, uvdata.py 1386–1406. -/
def absorb (c : Consts) (pop : Pop) (ignoreName : Bool) (s : St) (r : Int × Entry) : Except Err St :=
  match look c s.cat r.2 ignoreName with
  | (some m, 0) =>                                                                          -- 1401–1406
    match updateId pop s m (some r.1) [] with
    | .error e => .error e
    | .ok s => .ok { s with cat := modifyAt s.cat r.1 (adopt ignoreName r.2) }
  | _ => (add c pop s r.2 (some r.1) false).map Prod.fst                                    -- 1394–1397

/-- `_consolidate_phase_center_catalogs` with a reference catalog (or with `other`, whose catalog is then the
reference), uvdata.py 1365–1406. -/
def consolidate (c : Consts) (pop : Pop) (ignoreName : Bool) (ref : Cat) (s : St) : Except Err St := do
  let s ← clearIds pop (keys ref) s
  ref.foldlM (absorb c pop ignoreName) s

end Verif.PhaseCat
