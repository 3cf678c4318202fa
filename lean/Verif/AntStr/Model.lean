import Verif.Pol.Model

/-!
Model of `parse_ants`, `src/pyuvdata/utils/bls.py` lines 129–385, used by `UVData.select` (uvdata.py 6617–6633) and `UVFlag.select` (uvflag.py 2471) for
`ant_str`: what is done with the string once it is cut into its parts. The parts that the regular expression of lines 190–191 finds are values of
`Item`; how the text is cut is not modelled. Warnings are not modelled.
-/
namespace Verif.AntStr
open Verif.Pol (Str polstr2num)

/-- Feeds in `ant_re`, line 190. -/
inductive Feed
  | x | y | l | r
  deriving DecidableEq

def Feed.char : Feed → Char
  | .x => 'x'
  | .y => 'y'
  | .l => 'l'
  | .r => 'r'

/-- Lines 275 and 281. -/
def Feed.linear : Feed → Bool
  | .x | .y => true
  | _ => false

/-- `-?\d+[lrxy]?`, line 190. -/
structure Ant where
  neg : Bool
  num : Nat
  feed : Option Feed
  deriving DecidableEq

/-- What may stand before or after `_`: an antenna, or a list in parentheses (line 190). -/
inductive Side
  | ant (a : Ant)
  | list (as : List Ant)
  deriving DecidableEq

/-- `ant_i_list` and `ant_j_list`, lines 241–249. -/
def Side.ants : Side → List Ant
  | .ant a => [a]
  | .list as => as

/-- Parts of the string. -/
inductive Item
  | all | auto | cross
  /-- `pI`, `pQ`, `pU`, `pV` with their numbers, lines 218–225. -/
  | stokes (n : Int)
  /-- An antenna or a list of antennas by itself, lines 237–239. -/
  | bare (a : Side)
  /-- Two antennas or lists of antennas, lines 241–249. -/
  | pair (as bs : Side)
  deriving DecidableEq

/-- What the object gives: `get_ants`, `get_antpairs`, `get_pols` (lines 195–197), and the orientation (184–188). -/
structure Data where
  ants : List Nat
  pairs : List (Nat × Nat)
  pols : List Str
  xo : Option Str

/-- `KeyError` of `polstr2num`, `ValueError` of `remove` (line 333), `AttributeError` where nothing is found (266). -/
inductive Err
  | pol | remove | attr
  deriving DecidableEq

/-- `ant_pairs_nums` and `polarizations`. -/
structure St where
  pairs : List (Nat × Nat)
  pols : List Int
  deriving DecidableEq

/-- The names of polarizations of two antennas, lines 263–287; `none` if neither has a feed. -/
def polNames : Option Feed → Option Feed → Option (List Str)
  | none, none => none
  | none, some g => some (if g.linear then [['x', g.char], ['y', g.char]] else [['l', g.char], ['r', g.char]])      -- 274–279
  | some f, none => some (if f.linear then [[f.char, 'x'], [f.char, 'y']] else [[f.char, 'l'], [f.char, 'r']])      -- 280–285
  | some f, some g => some [[f.char, g.char]]                                                                       -- 286–287

/-- The pair as it is in the object, lines 289–295. -/
def orient (d : Data) (a b : Nat) : Option (Nat × Nat) :=
  if (a, b) ∈ d.pairs then some (a, b) else if (b, a) ∈ d.pairs then some (b, a) else none

/-- One polarization that is asked for, lines 316–323. -/
def addPol (d : Data) (ps : List Int) (name : Str) : Except Err (List Int) :=
  if name ∈ d.pols then
    match polstr2num d.xo name with
    | none => .error .pol
    | some p => .ok (if p ∈ ps then ps else ps ++ [p])
  else .ok ps

/-- One polarization that is excluded, lines 331–340. -/
def dropPol (d : Data) (q : Nat × Nat) (s : St) (name : Str) : Except Err St :=
  if name ∈ d.pols then
    if d.pols = [name] then                                                          -- 332–333
      if q ∈ s.pairs then
        match polstr2num d.xo name with
        | none => .error .pol
        | some p => .ok ⟨s.pairs.erase q, s.pols.erase p⟩
      else .error .remove
    else
      match polstr2num d.xo name with                                                -- 334–340
      | none => .error .pol
      | some p => .ok { s with pols := s.pols.erase p }
  else .ok s

/-- What is done for two antennas, in the inner loop: whether both are included, their numbers, and the polarizations meant by their feeds. -/
structure Act where
  incl : Bool
  i : Nat
  j : Nat
  names : Option (List Str)
  deriving DecidableEq

/-- Two antennas, lines 289–346. -/
def step (d : Data) (s : St) (a : Act) : Except Err St :=
  match orient d a.i a.j with
  | none => .ok s                                                                    -- 296–309
  | some q =>
    if a.incl then                                                                   -- 311
      match a.names with
      | none => .ok { s with pairs := if q ∈ s.pairs then s.pairs else s.pairs ++ [q] }            -- 312–313
      | some names =>
        match names.foldlM (addPol d) s.pols with                                    -- 314–323
        | .error e => .error e
        | .ok ps => .ok ⟨if q ∈ s.pairs then s.pairs else s.pairs ++ [q], ps⟩
    else
      match a.names with
      | some names => names.foldlM (dropPol d q) s                                   -- 329–340
      | none => .ok { s with pairs := s.pairs.erase q }                              -- 345–346

/-- Lines 252–289 for two antennas given in the string. -/
def act (a b : Ant) : Act := ⟨!a.neg && !b.neg, a.num, b.num, polNames a.feed b.feed⟩

/-- Lines 252–289 for a list in parentheses by itself: the text of the whole list is taken for one antenna (line 238); it begins with a parenthesis, so it is not
excluded (253); what is found in it is its first number that has a feed or a comma after it (266, where the comma is among the letters). The number alone
without either is not found. A comma stands for a feed in the names of the polarizations, which are then names that no polarization has (281–284). -/
def groupAct (as : List Ant) (j : Nat) : Except Err Act :=
  match as with
  | [] => .error .attr
  | [⟨_, _, none⟩] => .error .attr
  | a :: as =>
    let c := match a.feed with
      | some f => f.char
      | none => ','
    .ok ⟨true, a.num, j, some (if (a :: as).any (fun b => b.feed.any Feed.linear) then [[c, 'x'], [c, 'y']] else [[c, 'l'], [c, 'r']])⟩

/-- One part of the string that names antennas, as what is done in the order of the loops of lines 251 and 257. -/
def Item.acts (d : Data) : Item → Except Err (List Act)
  | .bare (.ant a) => .ok (d.ants.map (fun j => act a ⟨false, j, none⟩))
  | .bare (.list as) => d.ants.mapM (groupAct as)
  | .pair s t => .ok (s.ants.flatMap (fun a => t.ants.map (act a)))
  | _ => .ok []

/-- One part of the string, lines 204–346; `last` if no comma follows it. -/
def item (d : Data) (last : Bool) (s : St) (t : Item) : Except Err St :=
  match t with
  | .all => .ok (if last then s else { s with pairs := d.pairs })                    -- 207–209
  | .auto => .ok { s with pairs := d.pairs.foldl (fun l p => if p.1 = p.2 ∧ p ∉ l then l ++ [p] else l) s.pairs }      -- 210–213
  | .cross => .ok { s with pairs := d.pairs.foldl (fun l p => if ¬ (p.1 = p.2 ∨ p ∈ l) then l ++ [p] else l) s.pairs } -- 214–217
  | .stokes n => .ok { s with pols := s.pols ++ [n] }                                -- 218–225
  | t =>
    match t.acts d with
    | .error e => .error e
    | .ok as => as.foldlM (step d) s

/-- All parts, lines 204–346. -/
def run (d : Data) (s : St) : List Item → Except Err St
  | [] => .ok s
  | t :: ts =>
    match item d ts.isEmpty s t with
    | .error e => .error e
    | .ok s => run d s ts

/-- Whether the text of a part begins with a minus sign. -/
def Item.minus : Item → Bool
  | .bare (.ant a) => a.neg
  | .pair (.ant a) _ => a.neg
  | _ => false

/-- Lines 201–202: a string that begins with a minus sign. -/
def prefixed (ts : List Item) : List Item :=
  match ts with
  | t :: _ => if t.minus then .all :: ts else ts
  | [] => []

/-- `parse_ants`: the pairs and the polarizations, `none` for `None`. -/
def parse (d : Data) (ts : List Item) : Except Err (Option (List (Nat × Nat)) × Option (List Int)) :=
  match run d ⟨[], []⟩ (prefixed ts) with
  | .error e => .error e
  | .ok s =>
    let pairs := if ts = [.all] then none                                            -- 348–349
      else if s.pairs = [] then if ts = [.auto] ∨ ts = [.cross] then some s.pairs else none        -- 350–352
      else some s.pairs
    let pols := if s.pols = [] then none else some (s.pols.insertionSort (· ≥ ·))     -- 354–357
    .ok (pairs, pols)

/-- The pairs that a selection by `ant_str` keeps: `None` is no restriction, no pairs at all are refused (uvdata.py 6629–6633). -/
def selected (d : Data) (ts : List Item) : Except Err (Option (List (Nat × Nat))) :=
  match parse d ts with
  | .error e => .error e
  | .ok (some [], _) => .ok none
  | .ok (some l, _) => .ok (some l)
  | .ok (none, _) => .ok (some d.pairs)

end Verif.AntStr
