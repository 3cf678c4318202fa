import Mathlib.Data.List.Infix
import Mathlib.Data.List.DropRight
import Mathlib.Algebra.Order.Floor.Semiring
import Mathlib.Algebra.Order.Group.Abs
import Mathlib.Algebra.Order.Field.Basic
import Verif.Np
import Verif.Pol.Model

/-!
# Files of beams from CST

Model of `CSTBeam.name2freq` and `CSTBeam.read_cst_beam` (`src/pyuvdata/uvbeam/cst_beam.py` 26-52, 141-366), of
`UVBeam.read_cst_beam` (`src/pyuvdata/uvbeam/uvbeam.py` 3489-3766) and of `_test_array_constant_spacing` and `_test_array_constant`
(`src/pyuvdata/utils/tools.py` 185-268).

Arithmetic is exact. Lower case is that of ASCII, `\d` in the regular expression is an ASCII digit, and the body of the file (`np.loadtxt`) is a
list of rows of numbers. The check of the object at the end and the parameters that are copied from keywords are left out.
-/

namespace Verif.Cst

open Verif.Pol (Str)

/-! ## The frequency in a name -/

/-- `fname.rfind("Hz")` (44): `none` is -1. -/
def rfind (s : Str) : Option Nat := ((List.range s.length).filter fun i => ['H', 'z'].isPrefixOf (s.drop i)).getLast?

/-- The regular expression `\d*\.\d+|\d+` at the start of a text: digits before and after the point, and what remains. -/
def number (s : Str) : Option ((Str × Str) × Str) :=
  let ds := s.takeWhile Char.isDigit
  let r := s.dropWhile Char.isDigit
  match r with
  | '.' :: r' =>
    if r'.takeWhile Char.isDigit ≠ [] then some ((ds, r'.takeWhile Char.isDigit), r'.dropWhile Char.isDigit)
    else if ds ≠ [] then some ((ds, []), r) else none
  | _ => if ds ≠ [] then some ((ds, []), r) else none

/-- `re.findall` (45) with at most `n` steps. -/
def findall : Nat → Str → List (Str × Str)
  | 0, _ => []
  | n + 1, s =>
    match number s with
    | some (m, r) => m :: findall n r
    | none => findall n (s.drop 1)

def digits (s : Str) : Nat := s.foldl (fun n c => 10 * n + (c.toNat - 48)) 0

/-- `float` of a match. -/
def toNum {K : Type} [Field K] (m : Str × Str) : K := (digits m.1 : K) + (digits m.2 : K) / 10 ^ m.2.length

/-- `si_dict` (48). -/
def si {K : Type} [Field K] (c : Char) : K := if c = 'k' then 1000 else if c = 'M' then 1000000 else if c = 'G' then 1000000000 else 1

/-- `fname[:fi]` (45): without `Hz` this is `fname[:-1]`. -/
def stem (s : Str) : Str := match rfind s with | some fi => s.take fi | none => s.dropLast

/-- `fname[fi - 1]` (47): negative positions count from the end. -/
def prefixChar (s : Str) : Option Char :=
  match rfind s with
  | some 0 => s.getLast?
  | some (fi + 1) => s[fi]?
  | none => if 2 ≤ s.length then s[s.length - 2]? else none

/-- `name2freq` (44-52): `none` is an `IndexError`. -/
def name2freq {K : Type} [Field K] (s : Str) : Option K :=
  ((findall (stem s).length (stem s)).getLast?).bind fun m => (prefixChar s).map fun c => toNum m * si c

/-! ## The header -/

def isSpace (c : Char) : Bool := c = ' ' ∨ c = '\t' ∨ c = '\n' ∨ c = '\r'

/-- `str.strip`. -/
def strip (s : Str) : Str := (s.dropWhile isSpace).rdropWhile isSpace

def lower (s : Str) : Str := s.map Char.toLower

/-- One column (219-222): `none` is the `ValueError` of a text that has not exactly one opening bracket. -/
def column (s : Str) : Option (Str × Str) :=
  match s.splitOn '[' with
  | [n, u] => some (((lower n).filter (fun c => c ≠ ' ')), strip (lower u))
  | _ => none

/-- Names and units of columns from the first line (212-222). -/
def header (line : Str) : Option (List (Str × Str)) := (((strip line).splitOn ']').filter (fun s => s ≠ [])).mapM column

/-- `np.where(np.array(column_names) == name)[0][0]` (226-227, 329-332): `none` is `IndexError`. -/
def colOf (h : List (Str × Str)) (name : Str) : Option Nat := (Np.whereIdx (fun c => c.1 = name) h).head?

/-- The column of the power (298-310): `none` is the `ValueError` of no column or several. -/
def powerCol (h : List (Str × Str)) : Option Nat :=
  match Np.whereIdx (fun c => c.1 = "abs(e)".toList) h ++ Np.whereIdx (fun c => c.1 = "abs(v)".toList) h with
  | [i] => some i
  | _ => none

/-- `"deg" in units[col]` (229, 233, 340, 344). -/
def inDeg (h : List (Str × Str)) (i : Nat) : Bool := (h[i]?).any fun c => decide (['d', 'e', 'g'] <:+: c.2)

/-! ## The grid -/

section grid
variable {K : Type} [Field K] [LinearOrder K]

/-- `np.isclose(a, b, rtol, atol)`. -/
def close (rtol atol a b : K) : Prop := |a - b| ≤ atol + rtol * |b|

instance (rtol atol a b : K) : Decidable (close rtol atol a b) := by unfold close; infer_instance

/-- `np.diff`. -/
def diffs : List K → List K
  | a :: b :: l => (b - a) :: diffs (b :: l)
  | _ => []

/-- `_test_array_constant_spacing` (tools.py 263-268) with `_test_array_constant` (tools.py 211-219). -/
def spaced (rtol atol : K) (l : List K) : Prop :=
  l.length ≤ 2 ∨ (diffs l).foldl min ((diffs l).headD 0) = (diffs l).foldl max ((diffs l).headD 0) ∨
    close rtol atol ((diffs l).foldl min ((diffs l).headD 0)) ((diffs l).foldl max ((diffs l).headD 0))

instance (rtol atol : K) (l : List K) : Decidable (spaced rtol atol l) := by unfold spaced; infer_instance

/-- A row of the file: zenith angle, azimuth and the value. -/
structure Row (K α : Type) where
  za : K
  az : K
  val : α
deriving DecidableEq

/-- Tolerances: of `axis2_array`, of `axis1_array` and those of `np.allclose`. -/
structure Tols (K : Type) where
  za : K × K
  az : K × K
  rot : K × K

inductive Err | grid | za | az | index | rot
deriving DecidableEq

/-- What is read: azimuths, zenith angles, the beam and the one that is rotated, at positions of zenith angle and azimuth. -/
structure Beam (K α : Type) where
  axis1 : List K
  axis2 : List K
  first : Nat → Nat → Option α
  second : Option (Nat → Nat → Option α)

/-- `.reshape((n, m), order="F")` (243-244, 312): the first position changes fastest. -/
def cell {α : Type} (rows : List (Row K α)) (n i j : Nat) : Option (Row K α) := rows[i + n * j]?

/-- Position `j` of `np.roll(x, k)` comes from here, for `m` values (290, 320, 361-362). -/
def rollIdx (m k j : Nat) : Nat := (((j : Int) - (k : Int)) % (m : Int)).toNat

/-- `rot_phi` (288-289) for one azimuth; `q` is a right angle. -/
def turn (q x : K) : K := if 4 * q ≤ x + q then x + q - 4 * q else x + q

/-- The test of the rotation (288-292). -/
def rotOk {α : Type} (t : K × K) (q : K) (rows : List (Row K α)) (n m k : Nat) : Prop :=
  ∀ i < n, ∀ j < m, ∀ r ∈ cell rows n i (rollIdx m k j), ∀ s ∈ cell rows n i j, close t.1 t.2 (turn q r.az) s.az

instance {α : Type} (t : K × K) (q : K) (rows : List (Row K α)) (n m k : Nat) : Decidable (rotOk t q rows n m k) := by
  unfold rotOk; infer_instance

/-- The values at positions. -/
def vals {α : Type} (rows : List (Row K α)) (n i j : Nat) : Option α := (cell rows n i j).map Row.val

/-- Axes, their tests and the values (238-264, 286-292 and the assignments to `data_array`). The step of azimuth needs two of them (259). -/
def readGrid {α : Type} [FloorSemiring K] (t : Tols K) (q : K) (rotate : Bool) (rows : List (Row K α)) : Except Err (Beam K α) :=
  let za := Np.unique (rows.map Row.za)
  let az := Np.unique (rows.map Row.az)
  if za.length * az.length ≠ rows.length then .error .grid
  else if ¬ spaced t.za.1 t.za.2 za then .error .za
  else if ¬ spaced t.az.1 t.az.2 az then .error .az
  else match az with
    | a0 :: a1 :: _ =>
      let k := ⌊q / (a1 - a0)⌋₊
      if rotate = false then .ok ⟨az, za, vals rows za.length, none⟩
      else if rotOk t.rot q rows za.length az.length k then
        .ok ⟨az, za, vals rows za.length, some fun i j => vals rows za.length i (rollIdx az.length k j)⟩
      else .error .rot
    | _ => .error .index

/-! ## The whole file -/

/-- The angle in a column (229-236): `rad` is `np.radians`. -/
def angle (rad : K → K) (h : List (Str × Str)) (i : Nat) (row : List K) : Option K :=
  (row[i]?).map fun x => if inDeg h i then rad x else x

/-- Rows with both angles and a value that is calculated from the row. -/
def rowsOf {α : Type} (rad : K → K) (h : List (Str × Str)) (it ip : Nat) (val : List K → Option α) (data : List (List K)) :
    Option (List (Row K α)) :=
  data.mapM fun row => (angle rad h it row).bind fun t => (angle rad h ip row).bind fun p => (val row).map fun v => ⟨t, p, v⟩

/-- A power beam (226-244, 297-321): squares of the column. `none` is an exception, as in the header; `some (.error _)` one of the grid. -/
def readPower [FloorSemiring K] (t : Tols K) (rad : K → K) (q : K) (rotate : Bool) (line : Str) (data : List (List K)) :
    Option (Except Err (Beam K K)) :=
  (header line).bind fun h =>
  (colOf h "theta".toList).bind fun it =>
  (colOf h "phi".toList).bind fun ip =>
  (powerCol h).bind fun ie =>
  (rowsOf rad h it ip (fun row => (row[ie]?).map fun v => v ^ 2) data).map fun rows => readGrid t q rotate rows

/-- An electric field (329-364): components along azimuth and zenith angle, in this order; `polar` makes a complex number of magnitude and phase. -/
def readField {V : Type} [FloorSemiring K] (t : Tols K) (rad : K → K) (polar : K → K → V) (q : K) (rotate : Bool) (line : Str)
    (data : List (List K)) : Option (Except Err (Beam K (V × V))) :=
  (header line).bind fun h =>
  (colOf h "theta".toList).bind fun it =>
  (colOf h "phi".toList).bind fun ip =>
  (colOf h "abs(theta)".toList).bind fun mt =>
  (colOf h "phase(theta)".toList).bind fun pt =>
  (colOf h "abs(phi)".toList).bind fun mp =>
  (colOf h "phase(phi)".toList).bind fun pp =>
  (rowsOf rad h it ip (fun row => (row[mp]?).bind fun a => (angle rad h pp row).bind fun b => (row[mt]?).bind fun c =>
    (angle rad h pt row).map fun d => (polar a b, polar c d)) data).map fun rows => readGrid t q rotate rows

end grid

/-! ## Labels of polarizations and feeds -/

/-- `rot_pol_dict` (176): `none` is `KeyError`. -/
def rotPol (p : Str) : Option Str :=
  if p = "xx".toList then some "yy".toList else if p = "yy".toList then some "xx".toList
  else if p = "xy".toList then some "yx".toList else if p = "yx".toList then some "xy".toList else none

/-- Polarizations of a power beam (170-182), by name. -/
def powerPols (p : Str) (rotate : Bool) : Option (List Str) :=
  let p := if p = "x".toList then "xx".toList else if p = "y".toList then "yy".toList else p
  if rotate then (rotPol p).map fun r => [p, r] else some [p]

/-- Feeds of an electric field (189-198). -/
def feeds (p : Str) (rotate : Bool) : List Str :=
  if rotate then (if p = "x".toList then ["x".toList, "y".toList] else ["y".toList, "x".toList])
  else (if p = "x".toList then ["x".toList] else ["y".toList])

/-! ## Several files -/

/-- A single value or a list. -/
inductive Arg (α : Type)
  | one (a : α)
  | many (l : List α)
deriving DecidableEq

/-- Lists with a single value are that value (uvbeam.py 3495-3497, 3627-3629, 3635-3637). -/
def Arg.norm {α : Type} : Arg α → Arg α
  | .many [a] => .one a
  | x => x

/-- The value for a file: `none` is a list of another length (3640-3659, 3700-3709). -/
def Arg.spread {α : Type} (n : Nat) : Arg α → Option (List α)
  | .one a => some (List.replicate n a)
  | .many l => if l.length = n then some l else none

/-- The default of `rotate_pol` (3604-3610, 3660-3669, 3741-3742). -/
def rotDefault {P : Type} [DecidableEq P] (pol : Arg P) : Bool :=
  match pol with
  | .one _ => true
  | .many l => l.all fun p => l.head? = some p

/-- A file with its frequency (if given) and its polarization. -/
structure Job (N F P : Type) where
  name : N
  freq : Option F
  pol : P
deriving DecidableEq

/-- The frequencies of files: none is given, or `spread`. -/
def freqs {F : Type} (n : Nat) : Option (Arg F) → Option (List (Option F))
  | none => some (List.replicate n none)
  | some f => ((f.norm).spread n).map fun l => l.map some

/-- Reading the first file and adding the others, one after the other (3674-3735). -/
def readJobs {J B : Type} (readOne : Bool → J → Option B) (add : B → B → Option B) (rotate : Bool) : List J → Option B
  | [] => none
  | j :: l => (readOne rotate j).bind fun b => l.foldlM (fun b j => (readOne rotate j).bind fun b2 => add b b2) b

/-- `read_cst_beam` for text files (3489-3497, 3613-3766). For a single file the frequency and polarization must be single (3737-3740), which is
a `spread` to one file, since lists of length one have become single values. -/
def readFiles {N F P B : Type} [DecidableEq P] (readOne : Bool → Job N F P → Option B) (add : B → B → Option B) (rotate : Option Bool)
    (files : Arg N) (freq : Option (Arg F)) (pol : Arg P) : Option B :=
  let names := match files with | .one a => [a] | .many l => l
  (freqs names.length freq).bind fun fs =>
  (pol.norm.spread names.length).bind fun ps =>
  readJobs readOne add (rotate.getD (rotDefault pol.norm)) ((names.zip (fs.zip ps)).map fun x => ⟨x.1, x.2.1, x.2.2⟩)

/-! ## Settings files -/

/-- Positions of the frequencies that are asked for (3582-3598): `none` is the `ValueError` of a frequency that is not there, or the `IndexError`
of an empty list. -/
def pick {F : Type} (isClose : F → F → Bool) (fs : List F) (sel : List F) : Option (List Nat) :=
  if sel.isEmpty then none
  else (sel.mapM fun f => if Np.whereIdx (fun g => isClose g f) fs = [] then none else some (Np.whereIdx (fun g => isClose g f) fs)).map
    List.flatten

/-- Reading with a settings file (3499-3549, 3581-3611): a keyword that is given replaces the value of the settings. -/
def readSettings {N F P B : Type} [DecidableEq P] (isClose : F → F → Bool) (readOne : Bool → Job N F P → Option B) (add : B → B → Option B)
    (rotate : Option Bool) (names : List N) (freq : List F) (pol : Arg P) (kwFreq : Option (List F)) (kwPol : Option (Arg P))
    (sel : Option (List F)) : Option B :=
  let freq := kwFreq.getD freq
  let pol := kwPol.getD pol
  match sel with
  | none => readFiles readOne add rotate (.many names) (some (.many freq)) pol
  | some sel =>
    (pick isClose freq sel).bind fun inds =>
    (Np.take? freq inds).bind fun freq' =>
    (Np.take? names inds).bind fun names' =>
    match pol with
    | .one _ => readFiles readOne add rotate (.many names') (some (.many freq')) pol
    | .many ps =>
      (Np.take? ps inds).bind fun ps' =>
      readFiles readOne add (some (rotate.getD (rotDefault (.many ps)))) (.many names') (some (.many freq')) (.many ps')

/-- `extra_keywords` (3552-3579): keys of the settings that are not known, one of them under a shorter name, are set in the dictionary that was given. -/
def extraKeywords {V : Type} (known : Str → Bool) (given : List (Str × V)) (settings : List (Str × V)) : List (Str × V) :=
  (settings.filter fun kv => !known kv.1).foldl (fun d kv =>
    let k := if kv.1 = "sim_beam_type".toList then "sim_type".toList else kv.1
    (k, kv.2) :: d.filter (fun x => x.1 ≠ k)) given

end Verif.Cst
