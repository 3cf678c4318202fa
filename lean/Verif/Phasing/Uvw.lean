import Verif.Phasing.Rot

/-!
# Calculation of baseline coordinates

Model of `calc_uvw` (`src/pyuvdata/utils/phasing.py` lines 462-756).  Numbers are real numbers.
Arrays with one entry per row have to have the same length here; numpy would repeat an array of
length one and refuse other lengths.
-/

namespace Verif.Phasing

open Verif.Coord (V3)

noncomputable section

/-- The arguments of `calc_uvw` (lines 462-481).  `uvw` and `antPos` are lists of three numbers
each. -/
structure Args where
  appRa : Option (List ℝ) := none
  appDec : Option (List ℝ) := none
  framePa : Option (List ℝ) := none
  lst : Option (List ℝ) := none
  useAntPos : Bool := true
  uvw : Option (List V3) := none
  antPos : Option (List V3) := none
  antNums : Option (List Int) := none
  ant1 : Option (List Int) := none
  ant2 : Option (List Int) := none
  oldRa : Option (List ℝ) := none
  oldDec : Option (List ℝ) := none
  oldPa : Option (List ℝ) := none
  lat : Option ℝ := none
  lon : Option ℝ := none
  fromEnu : Bool := false
  toEnu : Bool := false

/-! ## From antenna positions -/

/-- `ant_dict[a]` (line 600): a later antenna with the same number replaces an earlier one. -/
def antIdx (nums : List Int) (a : Int) : Option Nat :=
  nums.zipIdx.foldl (fun d p => if p.1 = a then some p.2 else d) none

/-- `np.array([ant_dict[ant_num] for ant_num in ants])` (lines 601-606). -/
def antIdxs (nums : List Int) : List Int → Except Err (List Nat)
  | [] => .ok []
  | a :: as =>
    match antIdx nums a with
    | none => .error .key
    | some k => (antIdxs nums as).map (k :: ·)

open Classical in
/-- Whether an entry differs from the one before it (lines 621-622), for entries of `lst - ra` and
`dec`. -/
def changes : List (ℝ × ℝ) → List Bool
  | [] => []
  | [_] => []
  | p :: q :: l => decide (p.1 ≠ q.1 ∨ p.2 ≠ q.2) :: changes (q :: l)

/-- `xs[mask]`. -/
def pick {α : Type} (mask : List Bool) (xs : List α) : List α :=
  ((mask.zip xs).filter (·.1)).map (·.2)

/-- `np.cumsum(mask)` with `acc` before it. -/
def cumsum (acc : Nat) : List Bool → List Nat
  | [] => []
  | b :: bs => (acc + if b then 1 else 0) :: cumsum (acc + if b then 1 else 0) bs

/-- Three row arrays as one. -/
def zip3 (lst ra dec : List ℝ) : List (ℝ × ℝ) := (List.zipWith (· - ·) lst ra).zip dec

/-- From projected XYZ to uvw: `new_coords[:, [1, 2, 0]]` (line 756). -/
def toUvw (v : V3) : V3 := ⟨v.y, v.z, v.x⟩

/-- `uvw_array[:, [2, 0, 1]]` (lines 721, 728). -/
def ofUvw (v : V3) : V3 := ⟨v.z, v.x, v.y⟩

/-- Lines 640-667: rotated antenna positions and differences of them.  `mask` is `unique_mask`
with `True` at the start, which line 662 takes away. -/
def fromAnts (junk : M3) (pos : List V3) (gha dec pa : Amount) (mask : List Bool)
    (i1 i2 : List Nat) : Except Err (List V3) :=
  match rotateTwo junk ⟨pos.length, [pos]⟩ gha dec 2 1 with
  | .error e => .error e
  | .ok y =>
    match rotateOne y pa 0 with
    | .error e => .error e
    | .ok z =>
      let flat := z.rows.flatten
      let map := (cumsum 0 (mask.set 0 false)).map (· * pos.length)
      match ((map.zip i2).mapM fun p => flat[p.1 + p.2]?),
          ((map.zip i1).mapM fun p => flat[p.1 + p.2]?) with
      | some c2, some c1 =>
        .ok (List.zipWith (fun a b => toUvw ⟨a.x - b.x, a.y - b.y, a.z - b.z⟩) c2 c1)
      | _, _ => .error .index

/-- Lines 583-667. -/
def calcFromAnts (junk : M3) (a : Args) : Except Err (List V3) :=
  match a.antPos with
  | none => .error .missing
  | some pos =>
    match a.ant1, a.ant2, a.antNums with
    | some ant1, some ant2, some nums =>
      if a.lst.isNone ∧ a.toEnu = false then .error .missing
      else match a.lon with
        | none => .error .missing
        | some lon =>
          match antIdxs nums ant1 with
          | .error e => .error e
          | .ok i1 =>
            match antIdxs nums ant2 with
            | .error e => .error e
            | .ok i2 =>
              if i1.length ≠ i2.length then .error .shape
              else if a.toEnu then
                match a.lat with
                | none => .error .missing
                | some lat =>
                  if i1 = [] then .error .index
                  else fromAnts junk pos (.array [0 - lon]) (.array [0 + lat]) .none
                    (true :: List.replicate (i1.length - 1) false) i1 i2
              else
                match a.lst, a.appRa, a.appDec with
                | some lst, some ra, some dec =>
                  if lst.length ≠ i1.length ∨ ra.length ≠ i1.length ∨ dec.length ≠ i1.length ∨
                      (∃ pa, a.framePa = some pa ∧ pa.length ≠ i1.length) then .error .shape
                  else if i1 = [] then .error .index
                  else
                    let mask := true :: changes (zip3 lst ra dec)
                    fromAnts junk pos
                      (.array ((pick mask (List.zipWith (· - ·) lst ra)).map (· - lon)))
                      (.array (pick mask dec))
                      (match a.framePa with
                        | none => .scalar 0
                        | some pa => .array (pick mask pa))
                      mask i1 i2
                | _, _, _ => .error .type
    | _, _, _ => .error .missing

/-! ## From old baseline coordinates -/

/-- A row array, or `None`, as a rotation angle. -/
def rowAmount : Option (List ℝ) → Amount
  | none => .none
  | some l => .array l

/-- `gha_delta_array` (lines 704-709). -/
def ghaDelta (a : Args) : Except Err Amount :=
  if a.appRa.isNone ∧ a.oldRa.isNone then .ok (.scalar 0)
  else match (if a.fromEnu then a.lst else a.oldRa), (if a.toEnu then a.lst else a.appRa) with
    | some l1, some l2 => .ok (.array (List.zipWith (· - ·) l1 l2))
    | _, _ => .error .type

/-- `np.all(old_app_dec == app_dec)` (line 719), where comparison with `None` is false for every
entry. -/
def AllEq : Option (List ℝ) → Option (List ℝ) → Prop
  | none, none => True
  | some l, none => l = []
  | none, some l => l = []
  | some l, some l' => l = l'

/-- The vectors of an array with one vector per row: `new_coords[:, :, 0]` and line 756. -/
def dropAxis (x : Arr) : List V3 := x.rows.flatten.map toUvw

/-- `frame_pa - (0.0 if old_frame_pa is None else old_frame_pa)` (line 722). -/
def paDiff (pa : List ℝ) : Option (List ℝ) → List ℝ
  | none => pa.map (· - 0)
  | some old => List.zipWith (· - ·) pa old

/-- Lines 719-724: only the position angle changes. -/
def onlyPa (uvw : List V3) (pa oldPa : Option (List ℝ)) : Except Err (List V3) :=
  match pa with
  | none => .error .type
  | some pa =>
    (rotateOne ⟨1, uvw.map fun v => [ofUvw v]⟩
      (.array (paDiff pa oldPa)) 0).map dropAxis

/-- `rot_amount2` of line 732. -/
def oldTilt (a : Args) : Except Err Amount :=
  if a.fromEnu then
    match a.lat with
    | none => .error .type
    | some lat => .ok (.scalar (-lat))
  else match a.oldDec with
    | none => .error .type
    | some l => .ok (.array (l.map (- ·)))

/-- `rot_amount1` of lines 729-731. -/
def oldSpin (a : Args) : Amount :=
  if a.fromEnu then .scalar 0
  else match a.oldPa with
    | none => .scalar 0
    | some l => .array (l.map (- ·))

/-- `rot_amount2` of line 737. -/
def newTilt (a : Args) : Amount :=
  if a.toEnu then
    match a.lat with
    | none => .none
    | some lat => .scalar lat
  else rowAmount a.appDec

/-- Lines 726-751. -/
def rotateAll (junk : M3) (a : Args) (uvw : List V3) (g : Amount) : Except Err (List V3) :=
  match oldTilt a with
  | .error e => .error e
  | .ok tilt =>
    match rotateTwo junk ⟨1, uvw.map fun v => [ofUvw v]⟩ (oldSpin a) tilt 0 1 with
    | .error e => .error e
    | .ok x =>
      match rotateTwo junk x g (newTilt a) 2 1 with
      | .error e => .error e
      | .ok y =>
        if a.toEnu then .ok (dropAxis y)
        else (rotateOne y (rowAmount a.framePa) 0).map dropAxis

/-- Every row array that is given has one entry for each of `n` rows. -/
def Lengths (a : Args) (n : Nat) : Prop :=
  ∀ o ∈ [a.appRa, a.appDec, a.framePa, a.lst, a.oldRa, a.oldDec, a.oldPa],
    ∀ l, o = some l → l.length = n

open Classical in
/-- Lines 668-751. -/
def calcFromUvw (junk : M3) (a : Args) : Except Err (List V3) :=
  match a.uvw with
  | none => .error .missing
  | some uvw =>
    if a.fromEnu ∧ a.toEnu then .ok uvw
    else if a.fromEnu ∧ (a.lat.isNone ∨ a.lst.isNone) then .error .missing
    else if a.fromEnu = false ∧ a.oldPa.isNone ∧ ¬ (a.framePa.isNone ∨ a.toEnu) then
      .error .missing
    else if a.fromEnu = false ∧ (a.oldRa.isNone ∧ ¬ (a.appRa.isNone ∨ a.toEnu) ∨
        a.oldDec.isNone ∧ ¬ (a.appDec.isNone ∨ a.toEnu)) then .error .missing
    else if ¬ Lengths a uvw.length then .error .shape
    else match ghaDelta a with
      | .error e => .error e
      | .ok g =>
        if g.NoRot ∧ AllEq a.oldDec a.appDec then onlyPa uvw a.framePa a.oldPa
        else rotateAll junk a uvw g

/-- `calc_uvw` (lines 462-756). -/
def calcUvw (junk : M3) (a : Args) : Except Err (List V3) :=
  if a.toEnu ∧ (a.lst.isNone ∧ a.useAntPos = false ∨ a.lat.isNone) then .error .missing
  else if a.toEnu = false ∧ (a.appRa.isNone ∨ a.appDec.isNone) ∧ a.framePa.isNone then
    .error .missing
  else if a.useAntPos then calcFromAnts junk a
  else calcFromUvw junk a

end

end Verif.Phasing
