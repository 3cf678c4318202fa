import Verif.FlexPol.Lists

/-!
Model of the conversions of `UVCal` between several Jones components and one Jones component per spectral window: `remove_flex_jones`,
`src/pyuvdata/uvcal/uvcal.py` lines 790–948, `_make_flex_jones`, 950–1026, `convert_to_flex_jones`, 1028–1094.

* Positions of the second axis are called channels. `lab` says what a channel is: frequency and width, or for a wide-band object, in which every
  window has one position, the frequency range. For a wide-band object `ids` stands for `spw_array`, which the code uses in place of
  `flex_spw_id_array` (884, 929, 979); all lines then read alike for both kinds of object.
* `planes` are the arrays of data by channel, as functions of antenna, time and Jones positions. `V` stands for solution, flag and quality of one
  cell, which are handled alike; `blank` is zero, flagged.
* Frequencies are compared exactly; tolerances are left out.
* `total` says whether `total_quality_array` is set. It has one axis less than the other arrays, and the statements that convert an array raise
  an exception on it, after everything else has been set. The state the object is left in is part of the result.
* The order in which Python lists a set of numbers (1049) is a parameter.
* Left out: warnings, objects without data.
-/
namespace Verif.FlexJones
open Verif.Np Verif.FreqSort Verif.FlexPol

/-- The values of one channel by antenna, time and Jones positions. -/
abbrev Plane (V : Type) := Nat → Nat → Nat → V

structure Obj (L V : Type) where
  spws : List Int
  ids : List Int
  lab : List L
  jones : List Int
  flexJones : Option (List Int)
  planes : List (Plane V)
  total : Bool

inductive Err where
  | already | broadcast | identical | multiple | totalQuality
deriving DecidableEq

/-- The object after the call, and the exception, if any. -/
abbrev Result (L V : Type) := Obj L V × Option Err

variable {L V : Type}

/-- The conversion of the arrays ends with an exception if `total_quality_array` is set. -/
def totalFails (o : Obj L V) : Option Err := if o.total then some .totalQuality else none

/-! ### convert_to_flex_jones -/

/-- Lines 1046–1050: the numbers of the windows, old ones first. -/
def allWins (listSet : List Int → List Int) (spws : List Int) (nj : Nat) : List Int :=
  spws ++ (listSet (((List.range (spws.length * nj)).map (fun i : Nat => (i : Int) + 1)).filter (fun i => !spws.contains i))).take (spws.length * (nj - 1))

/-- Lines 1054–1061: `spw_reshape[idx]` for the window at the same place as `w` in `spw_reshape[0]`. -/
def blockWin (spws wins : List Int) (b : Nat) (w : Int) : Int := (wins[spws.idxOf w + spws.length * b]?).getD 0

/-- Lines 1092–1093: transposed and reshaped, channel `f` of component `b` is channel `f + nf * b`. -/
def onePlane (pl : Plane V) (b : Nat) : Plane V := fun i t _ => pl i t b

/-- `convert_to_flex_jones`, lines 1028–1094. -/
def convert (listSet : List Int → List Int) (o : Obj L V) : Result L V :=
  match o.flexJones with
  | some _ => (o, some .already)                                                                  -- 1037–1038
  | none =>
    if o.jones.length = 1 then                                                                    -- 1040–1044
      ({ o with flexJones := some (List.replicate o.spws.length ((o.jones[0]?).getD 0)), jones := [0] }, none)
    else
      let nj := o.jones.length
      let wins := allWins listSet o.spws nj
      ({ spws := wins
         ids := (List.range nj).flatMap (fun b => o.ids.map (blockWin o.spws wins b))             -- 1053–1061
         lab := (List.range nj).flatMap (fun _ => o.lab)                                          -- 1071–1076
         jones := [0]                                                                             -- 1064
         flexJones := some (o.jones.flatMap (fun j => List.replicate o.spws.length j))            -- 1063
         planes := (List.range nj).flatMap (fun b => o.planes.map (fun pl => onePlane pl b))      -- 1084–1094
         total := o.total }, totalFails o)

/-! ### remove_flex_jones -/

section
variable [DecidableEq L]

/-- `np.allclose` of two arrays, with exact comparison; `none` is the `ValueError` for shapes that cannot be broadcast. -/
def sameChans (a b : List L) : Option Bool :=
  if a.length = b.length then some (decide (a = b))
  else if a.length = 1 then some (b.all (fun x => a.contains x))
  else if b.length = 1 then some (a.all (fun x => b.contains x))
  else none

/-- Lines 852–856: the first window seen so far that has the same channels. -/
def findMatch (lab1 : List L) : List (Int × List L) → Option (Option Int)
  | [] => some none
  | (s, l2) :: rest => match sameChans lab1 l2 with
    | none => none
    | some true => some (some s)
    | some false => findMatch lab1 rest

/-- `spw_map`, `spw_freqs`, and `spw_jones_tally` as a list of pairs. -/
structure MSt (L : Type) where
  map : List (Int × Int)
  freqs : List (Int × List L)
  tally : List (Int × Int)

/-- Lines 846–864. -/
def mapStep (ids : List Int) (lab : List L) (st : MSt L) (q : Int × Int) : Option (MSt L) :=
  match findMatch (ofWin ids lab q.2) st.freqs with
  | none => none
  | some (some s) => some { st with map := st.map ++ [(q.2, s)], tally := st.tally ++ [(s, q.1)] }
  | some none => some { map := st.map ++ [(q.2, q.2)], freqs := st.freqs ++ [(q.2, ofWin ids lab q.2)], tally := st.tally ++ [(q.2, q.1)] }

/-- Lines 867–880: an error, or whether windows are combined. -/
def tallyCheck (nj : Nat) (tally : List (Int × Int)) : List Int → Except Err Bool
  | [] => .ok true
  | s :: rest =>
    let js := (tally.filter (fun q => decide (q.1 = s))).map Prod.snd
    if ¬ js.Nodup then .error .identical
    else if js.length ≠ nj then .ok false
    else tallyCheck nj tally rest

/-- Lines 824–885: `spw_map`. -/
def spwMap (combine : Bool) (o : Obj L V) (fj : List Int) (nj : Nat) : Except Err (List (Int × Int)) :=
  let self := o.spws.map (fun s => (s, s))
  if combine then
    match (fj.zip o.spws).foldlM (mapStep o.ids o.lab) ⟨[], [], []⟩ with
    | none => .error .broadcast
    | some st => match tallyCheck nj st.tally (st.freqs.map Prod.fst) with
      | .error e => .error e
      | .ok true => .ok st.map
      | .ok false => .ok self
  else .ok self

/-- `new_param[:, mask, :, p] = src[:, :, :, 0]`, line 944. -/
def assign (p : Nat) : List Bool → List (Plane V) → List (Plane V) → List (Plane V)
  | true :: m, d :: ds, s :: ss => (fun i t q => if q = p then s i t 0 else d i t q) :: assign p m ds ss
  | false :: m, d :: ds, ss => d :: assign p m ds ss
  | _, ds, _ => ds

/-- Lines 938–944: `q` is the old window, the new window, and the Jones component of the old window. -/
def fillStep (o : Obj L V) (newIds jonesArr : List Int) (dst : List (Plane V)) (q : (Int × Int) × Int) : List (Plane V) :=
  assign (jonesArr.idxOf q.2) (newIds.map (fun w => decide (w = q.1.2))) dst (ofWin o.ids o.planes q.1.1)

/-- Lines 887–945. -/
def spread (blank : V) (o : Obj L V) (fj jonesArr : List Int) (m : List (Int × Int)) : Obj L V :=
  let spws := unique (m.map Prod.snd)                                                             -- 888–889
  let newIds := spws.flatMap (fun s => ofWin o.ids o.ids s)                                       -- 897–902
  { spws := spws
    ids := newIds
    lab := spws.flatMap (fun s => ofWin o.ids o.lab s)                                            -- 891–896, 909–911
    jones := jonesArr
    flexJones := some fj
    planes := (m.zip fj).foldl (fillStep o newIds jonesArr) (newIds.map (fun _ => fun _ _ _ => blank))
    total := o.total }

/-- `remove_flex_jones`, lines 790–948. -/
def remove (blank : V) (combine : Bool) (o : Obj L V) : Result L V :=
  match o.flexJones with
  | none => (o, none)                                                                             -- 811–813
  | some fj =>
    let jonesArr := (unique fj).reverse                                                           -- 815
    if jonesArr.length = 1 ∧ (o.spws.length = 1 ∨ combine = false) then
      ({ o with jones := jonesArr, flexJones := none }, none)                                     -- 818–822
    else match spwMap combine o fj jonesArr.length with
    | .error e => (o, some e)
    | .ok m =>
      let o' := spread blank o fj jonesArr m
      match totalFails o with
      | some e => (o', some e)
      | none => ({ o' with flexJones := none }, none)                                             -- 948

end

/-! ### _make_flex_jones -/

/-- Lines 980–994: position of the one component of a window that has data without flag, `none` standing for `-1`; an error if there are two.
`na`, `nt` are the numbers of antennas and times. -/
def winJones (flagged : V → Bool) (na nt nj : Nat) (planes : List (Plane V)) : Except Err (Option Nat) :=
  let good := (List.range nj).filter (fun p => planes.any (fun pl => (List.range na).any (fun i => (List.range nt).any (fun t => !flagged (pl i t p)))))
  match good with
  | [] => .ok none
  | [p] => .ok (some p)
  | _ => .error .multiple

/-- Lines 978–999. -/
def jonesIdx (flagged : V → Bool) (na nt : Nat) (o : Obj L V) : Except Err (List (Option Nat)) :=
  match o.spws.mapM (fun w => winJones flagged na nt o.jones.length (ofWin o.ids o.planes w)) with
  | .error e => .error e
  | .ok l => .ok (match (l.filterMap id).dedup with
    | [p] => l.map (fun _ => some p)
    | _ => l)

/-- `jones_array[jones_idx_arr]`: `-1` is the last one. -/
def pickJones (jones : List Int) : Option Nat → Int
  | some p => (jones[p]?).getD 0
  | none => (jones.getLast?).getD 0

/-- Position of a component, `-1` being the last. -/
def pickPos (nj : Nat) : Option Nat → Nat
  | some p => p
  | none => nj - 1

/-- `_make_flex_jones`, lines 950–1026. Lines 1018–1023 are written as a choice per channel. -/
def make (flagged : V → Bool) (na nt : Nat) (o : Obj L V) : Result L V :=
  if o.jones.length = 1 then                                                                      -- 971–976
    match o.flexJones with
    | some _ => (o, none)
    | none => ({ o with flexJones := some (List.replicate o.spws.length ((o.jones[0]?).getD 0)), jones := [0] }, none)
  else match jonesIdx flagged na nt o with
  | .error e => (o, some e)
  | .ok idx =>
    ({ o with
       flexJones := some (idx.map (pickJones o.jones))
       jones := [0]
       planes := (o.ids.zip o.planes).map (fun q => onePlane q.2 (pickPos o.jones.length (((idx[o.spws.idxOf q.1]?)).getD none))) },
      totalFails o)

end Verif.FlexJones
