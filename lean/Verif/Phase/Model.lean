import Mathlib.Analysis.Complex.Trigonometric
import Verif.Phasing.Uvw
import Verif.PhaseCat.Model

/-!
# Phasing of a data object

Model of the phasing methods of `UVData` (`src/pyuvdata/uvdata/uvdata.py`): `_check_for_cat_type`
(892-922), `_apply_w_proj` (4238-4316), `unproject_phase` (4318-4394), `_phase_dict_helper`
(4396-4594), `phase` (4596-4865), `set_uvws_from_antenna_positions` (4939-4984) and
`update_antenna_positions` (4986-5069).

Numbers are real or complex numbers; positions in the phase-center catalog are rational numbers as
in `Verif.PhaseCat`.  The positions of sources on the sky (`calc_app_coords`), the position angles
of frames (`calc_frame_pos_angle`) and the answers of JPL-Horizons are arbitrary functions.  The
data array is a list of rows of channels of polarizations.  Warnings are dropped.  A failing call
is an error without an object: no method changes the object before its last failing step, except
that `phase` may have added an entry to the catalog.
-/

namespace Verif.Phase

open Verif.Coord (V3)
open Verif.Phasing (M3 Args calcUvw pick)
open Verif.PhaseCat (Entry St Consts Pop Val Cat unprojected driftscan sidereal ephem altaz user)
open Verif.Pol (Str)

noncomputable section

/-- The attributes that the methods read or write. -/
structure Obj where
  /-- `phase_center_catalog`, `phase_center_id_array`, `Nphase` -/
  st : St
  ant1 : List Int
  ant2 : List Int
  time : List ℝ
  lst : List ℝ
  uvw : List V3
  /-- `phase_center_app_ra`, `phase_center_app_dec`, `phase_center_frame_pa` -/
  ra : List ℝ
  dec : List ℝ
  pa : List ℝ
  /-- `data_array`; `none` for an object with metadata only -/
  data : Option (List (List (List ℂ)))
  freqs : List ℝ
  nums : List Int
  pos : List V3
  lat : ℝ
  lon : ℝ

inductive Err
  | uvw (e : Verif.Phasing.Err)
  | cat (e : Verif.PhaseCat.Err)
  | lon | lat | multiple | unknown | horizons | badType | key | ephem | size | mask | shape | index | sky

/-- An epoch as it is passed to `phase`: a number, or a string or `Time` with its value in Julian
and in Besselian years. -/
inductive Epoch
  | none
  | num (q : Rat)
  | text (julian besselian : Rat)

/-- What is not part of the object: tolerances, the choice of new IDs, uninitialised memory, and
the sky seen from the telescope. -/
structure Env where
  c : Consts
  pop : Pop
  junk : M3
  /-- `calc_app_coords` for a source, with times and LSTs -/
  app : Entry → List ℝ → List ℝ → Except Err (List ℝ × List ℝ)
  /-- `calc_frame_pos_angle` for a frame and an epoch, with times and apparent positions -/
  angle : Option Str → Epoch → List ℝ → List ℝ → List ℝ → Except Err (List ℝ)
  /-- `lookup_jplhorizons`: times, longitude, latitude, distance, velocity -/
  jpl : Str → List ℝ → Option (Val × Val × Val × Val × Val)

/-! ## Rows -/

/-- `_check_for_cat_type("unprojected")` (lines 911-922). -/
def unprojMask (s : St) : List Bool :=
  s.ids.map fun i => decide (i ∈ (s.cat.filter fun p => decide (p.2.type = unprojected)).map Prod.fst)

/-- `xs[mask] = vals`, with as many values as the mask has places. -/
def maskSet {α : Type} : List Bool → List α → List α → List α
  | true :: m, _ :: xs, v :: vs => v :: maskSet m xs vs
  | false :: m, x :: xs, vs => x :: maskSet m xs vs
  | _, xs, _ => xs

/-- `xs[mask] = v` for a single value. -/
def maskFill {α : Type} (m : List Bool) (xs : List α) (v : α) : List α :=
  maskSet m xs (List.replicate xs.length v)

/-! ## `_apply_w_proj` -/

/-- A number or a one-dimensional array. -/
inductive W
  | scalar (x : ℝ)
  | array (l : List ℝ)

/-- Lines 4291, 4296. -/
def W.Ok (n : Nat) : W → Prop
  | .scalar _ => True
  | .array l => l.length = 1 ∨ l.length = n

def W.toList : W → List ℝ
  | .scalar x => [x]
  | .array l => l

/-- `new_w_vals - old_w_vals` as a column (line 4303), where arrays of length one are repeated. -/
def W.sub (a b : W) : List ℝ :=
  match a.toList, b.toList with
  | [x], l => l.map (x - ·)
  | l, [y] => l.map (· - y)
  | l, l' => List.zipWith (· - ·) l l'

/-- `const.c.to_value("m/s")` -/
def lightSpeed : ℝ := 299792458

/-- `np.exp((-1j * 2 * np.pi) * delta_w * (1 / c) * freq)` (lines 4308-4316). -/
def phasor (dw f : ℝ) : ℂ :=
  Complex.exp (-1 * Complex.I * 2 * (Real.pi : ℂ) * ((dw * (1 / lightSpeed) * f : ℝ) : ℂ))

/-- Line 4314 for one row. -/
def turn (freqs : List ℝ) (dw : ℝ) (row : List (List ℂ)) : List (List ℂ) :=
  List.zipWith (fun f chan => chan.map (· * phasor dw f)) freqs row

open Classical in
/-- `_apply_w_proj` (lines 4263-4316); the mask is a boolean array. -/
def applyW (o : Obj) (new old : W) (mask : List Bool) : Except Err Obj :=
  match o.data with
  | none => .ok o                                                                    -- 4264
  | some d =>
    if mask.length ≠ o.uvw.length then .error .index                                 -- 4281
    else if true ∉ mask then .ok o                                                   -- 4274
    else if ¬ (old.Ok o.uvw.length ∧ new.Ok o.uvw.length) then .error .index         -- 4291-4300
    else
      let delta := W.sub new old
      let sel := pick mask d
      let dl := if delta.length = 1 then List.replicate sel.length (delta.headD 0) else pick mask delta
      .ok { o with data := some (maskSet mask d (List.zipWith (turn o.freqs) dl sel)) }

/-! ## `unproject_phase` -/

/-- The arguments of `calc_uvw` in lines 4356-4370. -/
def unprojArgs (o : Obj) (useAntPos : Bool) : Args :=
  { lst := some o.lst, useAntPos := useAntPos, uvw := some o.uvw, antPos := some o.pos,
    antNums := some o.nums, ant1 := some o.ant1, ant2 := some o.ant2, oldRa := some o.ra,
    oldDec := some o.dec, oldPa := some o.pa, lat := some o.lat, lon := some o.lon, toEnu := true }

/-- `look_in_catalog(cat, cat_name=name, cat_type="unprojected")` (lines 4378-4380,
phase_center_catalog.py 112-150): the entry that is looked for. -/
def unprojEntry (c : Consts) (name : Str) : Entry :=
  ⟨name, unprojected, some (.scalar 0), some (.scalar c.halfPi), some altaz, none, none, none, none, none, none,
    user⟩

/-- Lines 4381-4386: the ID and the catalog. -/
def unprojId (env : Env) (o : Obj) (name : Str) : Except Err (St × Int) :=
  match Verif.PhaseCat.look env.c o.st.cat (unprojEntry env.c name) false with
  | (some k, 0) => .ok (o.st, k)
  | _ =>
    match Verif.PhaseCat.add env.c env.pop o.st
      ⟨name, unprojected, none, none, none, none, none, none, none, none, none, user⟩ none false with
    | .error e => .error (.cat e)
    | .ok r => .ok r

/-- `select_mask_use` (lines 4344-4351). -/
def unprojUse (o : Obj) (mask : Option (List Bool)) : List Bool :=
  match mask with
  | none => (unprojMask o.st).map (!·)
  | some m => List.zipWith (fun u b => !u && b) (unprojMask o.st) m

/-- `unproject_phase` (lines 4342-4394). -/
def unproject (env : Env) (o : Obj) (useAntPos : Bool) (mask : Option (List Bool)) (name : Str) :
    Except Err Obj :=
  if mask.any (fun m => m.length != o.uvw.length) then .error .mask                  -- 4345
  else
    let use := unprojUse o mask
    match calcUvw env.junk (unprojArgs o useAntPos) with
    | .error e => .error (.uvw e)
    | .ok new =>
      match applyW o (.scalar 0) (.array (o.uvw.map (·.z))) use with
      | .error e => .error e
      | .ok o1 =>
        match unprojId env o1 name with
        | .error e => .error e
        | .ok (s, k) =>
          match Verif.PhaseCat.clearUnused { s with ids := maskFill use s.ids k } with
          | .error e => .error (.cat e)
          | .ok s' =>
            .ok { o1 with uvw := new, st := s', ra := maskSet use o1.ra (pick use o1.lst),
                          dec := maskFill use o1.dec o1.lat, pa := maskFill use o1.pa 0 }

/-! ## `phase` -/

/-- The arguments of `phase` (lines 4596-4616). -/
structure Call where
  name : Str
  lon : Option Val := none
  lat : Option Val := none
  epoch : Epoch := .text 2000 2000
  frame : Option Str := some ['i', 'c', 'r', 's']
  ra : Option Val := none
  dec : Option Val := none
  type : Option Str := none
  times : Option Val := none
  pmRa : Option Val := none
  pmDec : Option Val := none
  dist : Option Val := none
  vrad : Option Val := none
  lookup : Bool := false
  useAntPos : Bool := true
  mask : Option (List Bool) := none
  cleanup : Bool := true

/-- `lon` after lines 4694-4701. -/
def Call.theLon (t : Call) : Option Val :=
  if t.type = some unprojected then t.lon else t.lon.or t.ra

/-- `lat` after lines 4694-4708. -/
def Call.theLat (t : Call) : Option Val :=
  if t.type = some unprojected then t.lat else t.lat.or t.dec

open Verif.PhaseCat (fieldDiff closeV) in
/-- The number of differences between the arguments and a catalog entry (phase_center_catalog.py
128-150, 179-200).  A string or a `Time` is never equal to the number in the catalog. -/
def argDiffs (c : Consts) (t : Call) (q : Entry) : Nat :=
  let dflt := t.type = some unprojected ∨ t.type = some driftscan
  fieldDiff (fun a b => decide (a = b)) t.type (some q.type)
    + fieldDiff (closeV 0 c.radTol) (if dflt then some (t.theLon.getD (.scalar 0)) else t.theLon) q.lon
    + fieldDiff (closeV 0 c.radTol) (if dflt then some (t.theLat.getD (.scalar c.halfPi)) else t.theLat) q.lat
    + fieldDiff (fun a b => decide (a = b)) (if dflt then some (t.frame.getD altaz) else t.frame) q.frame
    + (match t.epoch with
        | .none => fieldDiff (fun a b => decide (a = b)) none q.epoch
        | .num x => fieldDiff (fun a b => decide (a = b)) (some x) q.epoch
        | .text _ _ => 1)
    + fieldDiff (closeV (1 / 100000) (1 / 100000000)) t.times q.times
    + fieldDiff (closeV (1 / 100000) (1 / 100000000)) t.pmRa q.pmRa
    + fieldDiff (closeV (1 / 100000) (1 / 100000000)) t.pmDec q.pmDec
    + fieldDiff (closeV (1 / 100000) (1 / 100000000)) t.dist q.dist
    + fieldDiff (closeV (1 / 100000) (1 / 100000000)) t.vrad q.vrad

/-- The loop of `look_in_catalog` when names are compared (phase_center_catalog.py 174-209). -/
def best (d : Entry → Nat) (name : Str) : Cat → Option Int × Nat → Option Int × Nat
  | [], m => m
  | (k, e) :: rest, m =>
    if name ≠ e.name then best d name rest m
    else if d e < m.2 then if d e = 0 then (some k, 0) else best d name rest (some k, d e)
    else if m.2 = 0 then m else best d name rest m

def fk4 : Str := ['f', 'k', '4']
def fk4noeterms : Str := ['f', 'k', '4', 'n', 'o', 'e', 't', 'e', 'r', 'm', 's']
def icrs : Str := ['i', 'c', 'r', 's']
def jplh : Str := ['j', 'p', 'l', 'h']

/-- Lines 4526-4531. -/
def theEpoch (type : Str) (frame : Option Str) : Epoch → Option Rat
  | .none => if type = unprojected then none
    else if frame = some fk4 ∨ frame = some fk4noeterms then some 1950 else some 2000
  | .num q => some q
  | .text j b => some (if frame = some fk4 ∨ frame = some fk4noeterms then b else j)

/-- Lines 4489-4498, 4515-4531: the source described by the arguments. -/
def userEntry (t : Call) : Entry :=
  ⟨t.name, t.type.getD sidereal, t.theLon, t.theLat, t.frame, theEpoch (t.type.getD sidereal) t.frame t.epoch,
    t.times, t.pmRa, t.pmDec, t.dist, t.vrad, user⟩

/-- Lines 4500-4512, 4526: the source as it is in the catalog. -/
def storedEntry (t : Call) (e : Entry) : Entry :=
  { e with name := t.name, epoch := match e.epoch with
      | some q => some q
      | none => theEpoch e.type e.frame .none }

/-- Lines 4443-4531: the source and the ID. -/
def findSource (env : Env) (cat : Cat) (t : Call) (time : List ℝ) : Except Err (Entry × Option Int) :=
  let named := Verif.PhaseCat.named cat t.name
  if t.lookup = true ∧ named.length > 1 then .error .multiple                       -- 4429-4441
  else if t.lookup = true ∧ named = [] then                                         -- 4443-4461
    if t.type = none ∨ t.type = some ephem then
      match env.jpl t.name time with
      | none => .error .horizons
      | some (times, lon, lat, dist, vrad) =>
        .ok (⟨t.name, ephem, some lon, some lat, some icrs, some 2000, some times, none, none, some dist,
          some vrad, jplh⟩, none)
    else .error .unknown
  else match named.getLast? with
    | none => .ok (userEntry t, none)                                               -- 4513-4524
    | some k =>                                                                     -- 4462-4512
      if t.lookup = true then
        match Verif.PhaseCat.get cat k with
        | some e => .ok (storedEntry t e, some k)
        | none => .error .key
      else if ∃ ty, t.type = some ty ∧ ¬ (ty = sidereal ∨ ty = ephem ∨ ty = unprojected ∨ ty = driftscan) then
        .error .badType
      else match best (argDiffs env.c t) t.name cat (none, 99999) with
        | (some j, 0) =>
          match Verif.PhaseCat.get cat j with
          | some e => .ok (storedEntry t e, some j)
          | none => .error .key
        | (j, _) => .ok (userEntry t, j)

def valList : Val → List Rat
  | .scalar x => [x]
  | .vec l => l

/-- Lines 4539-4544: one-dimensional arrays. -/
def flatEntry (e : Entry) (times : Val) : Entry :=
  { e with lon := e.lon.map (.vec ∘ valList), lat := e.lat.map (.vec ∘ valList),
           times := some (.vec (valList times)) }

open Classical in
/-- Lines 4535-4566: an ephemeris has to cover the times.  (An ephemeris without times, which
becomes one with the time NaN, is refused here.) -/
def coverTimes (env : Env) (time : List ℝ) (r : Entry × Option Int) : Except Err (Entry × Option Int) :=
  if r.1.type ≠ ephem then .ok r
  else match r.1.times with
    | none => .error .ephem
    | some tv =>
      if time = [] ∨ valList tv = [] then .error .ephem
      else
        let e := flatEntry r.1 tv
        if (∃ t ∈ time, ∀ u ∈ valList tv, t < (u : ℝ)) ∨ (∃ t ∈ time, ∀ u ∈ valList tv, (u : ℝ) < t) then
          if e.info = jplh then
            match env.jpl e.name (time ++ (valList tv).map fun u => (u : ℝ)) with
            | none => .error .horizons
            | some (times, lon, lat, dist, vrad) =>
              .ok ({ e with times := some times, lon := some lon, lat := some lat, dist := some dist,
                            vrad := some vrad }, r.2)
          else .error .ephem
        else .ok (e, r.2)

/-- `_phase_dict_helper` (lines 4421-4594). -/
def phaseDict (env : Env) (cat : Cat) (t : Call) (time : List ℝ) : Except Err (Entry × Option Int) :=
  match findSource env cat t time with
  | .error e => .error e
  | .ok r => coverTimes env time r

/-- `np.array(x).size > 1` -/
def big : Option Val → Bool
  | some (.vec l) => decide (l.length > 1)
  | _ => false

/-- The arguments of `calc_uvw` in lines 4804-4820.  The old source positions are not selected. -/
def phaseArgs (o : Obj) (t : Call) (m : List Bool) (ra dec pa : List ℝ) : Args :=
  { appRa := some ra, appDec := some dec, framePa := some pa, lst := some (pick m o.lst),
    useAntPos := t.useAntPos, uvw := some (pick m o.uvw), antPos := some o.pos, antNums := some o.nums,
    ant1 := some (pick m o.ant1), ant2 := some (pick m o.ant2), oldRa := some o.ra, oldDec := some o.dec,
    oldPa := some o.pa, lat := some o.lat, lon := some o.lon }

/-- Lines 4791-4801. -/
def newAngles (env : Env) (t : Call) (time ra dec : List ℝ) : Except Err (List ℝ) :=
  if t.frame = some altaz then .ok (List.replicate time.length 0) else env.angle t.frame t.epoch time ra dec

/-- `old_w_vals` of lines 4748-4749 and 4970-4972. -/
def oldW (o : Obj) : List ℝ :=
  maskFill (unprojMask o.st) (o.uvw.map (·.z)) 0

/-- `new_w_vals` of lines 4841-4847. -/
def newW (o : Obj) (t : Call) (m : List Bool) (uvw : List V3) : W :=
  if t.type = some unprojected then .scalar 0
  else .array (maskSet m (List.replicate o.uvw.length 0) (uvw.map (·.z)))

/-- Lines 4822-4865. -/
def setPhase (env : Env) (o : Obj) (t : Call) (m : List Bool) (e : Entry) (id : Option Int)
    (ra dec pa : List ℝ) (uvw : List V3) : Except Err Obj :=
  match Verif.PhaseCat.add env.c env.pop o.st e id true with
  | .error e => .error (.cat e)
  | .ok (s, k) =>
    if ∃ n ∈ [uvw.length, ra.length, dec.length, pa.length], n ≠ (pick m o.uvw).length then .error .shape
    else match applyW { o with st := s } (newW o t m uvw) (.array (oldW o)) m with
      | .error e => .error e
      | .ok o1 =>
        let s1 : St := { s with ids := maskFill m s.ids k }
        match (if t.cleanup then Verif.PhaseCat.clearUnused s1 else .ok s1) with
        | .error e => .error (.cat e)
        | .ok s2 =>
          .ok { o1 with st := s2, uvw := maskSet m o1.uvw uvw, ra := maskSet m o1.ra ra,
                        dec := maskSet m o1.dec dec, pa := maskSet m o1.pa pa }

/-- `select_mask`, where `None` selects everything (lines 4756-4764). -/
def Call.rows (t : Call) (n : Nat) : List Bool := t.mask.getD (List.replicate n true)

/-- `phase` (lines 4694-4865). -/
def phase (env : Env) (o : Obj) (t : Call) : Except Err Obj :=
  if t.type ≠ some unprojected ∧ t.theLon = none then .error .lon
  else if t.type ≠ some unprojected ∧ t.theLat = none then .error .lat
  else match phaseDict env o.st.cat t o.time with
    | .error e => .error e
    | .ok (e, id) =>
      if ¬ (e.type = ephem ∨ e.type = unprojected) ∧ (big t.theLon ∨ big t.theLat) then .error .size
      else
        let m := t.rows o.uvw.length
        if m.length ≠ o.uvw.length then .error .mask
        else match env.app e (pick m o.time) (pick m o.lst) with
          | .error e => .error e
          | .ok (ra, dec) =>
            match newAngles env t (pick m o.time) ra dec with
            | .error e => .error e
            | .ok pa =>
              match calcUvw env.junk (phaseArgs o t m ra dec pa) with
              | .error e => .error (.uvw e)
              | .ok uvw => setPhase env o t m e id ra dec pa uvw

/-! ## Antenna positions -/

/-- The arguments of `calc_uvw` in lines 4954-4966 and 5033-5045. -/
def antArgs (o : Obj) (pos : List V3) : Args :=
  { appRa := some o.ra, appDec := some o.dec, framePa := some o.pa, lst := some o.lst, useAntPos := true,
    antPos := some pos, antNums := some o.nums, ant1 := some o.ant1, ant2 := some o.ant2,
    lat := some o.lat, lon := some o.lon }

/-- `set_uvws_from_antenna_positions` (lines 4952-4984). -/
def setUvws (env : Env) (o : Obj) (updateVis : Bool) : Except Err Obj :=
  match calcUvw env.junk (antArgs o o.pos) with
  | .error e => .error (.uvw e)
  | .ok new =>
    if false ∈ unprojMask o.st ∧ updateVis = true then
      match applyW o (.array (new.map (·.z))) (.array (oldW o)) (List.replicate o.uvw.length true) with
      | .error e => .error e
      | .ok o1 => .ok { o1 with uvw := new }
    else .ok { o with uvw := new }

/-- Lines 5014-5020: `new_positions` is a dictionary from antenna numbers to positions. -/
def newPos (o : Obj) (new : Int → Option V3) : List V3 :=
  List.zipWith (fun n p => (new n).getD p) o.nums o.pos

def addV (p q : V3) : V3 := ⟨p.x + q.x, p.y + q.y, p.z + q.z⟩

def subV (p q : V3) : V3 := ⟨p.x - q.x, p.y - q.y, p.z - q.z⟩

open Classical in
/-- `update_antenna_positions` (lines 5014-5069). -/
def updateAnts (env : Env) (o : Obj) (new : Int → Option V3) (delta updateVis : Bool) : Except Err Obj :=
  if newPos o new = o.pos then .ok o
  else if delta then
    match calcUvw env.junk (antArgs o (List.zipWith subV (newPos o new) o.pos)) with
    | .error e => .error (.uvw e)
    | .ok duvw =>
      match (if updateVis then applyW o (.scalar 0) (.array (duvw.map (·.z))) (unprojMask o.st) else .ok o) with
      | .error e => .error e
      | .ok o1 => .ok { o1 with pos := newPos o new, uvw := List.zipWith addV o1.uvw duvw }
  else setUvws env { o with pos := newPos o new } updateVis

end

end Verif.Phase
