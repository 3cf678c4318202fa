import Mathlib.Algebra.Order.Field.Basic
import Mathlib.Algebra.Group.Basic
import Mathlib.Algebra.Order.Group.Abs
import Verif.Pol.Model

/-!
# Headers of Miriad files

Model of parts of `src/pyuvdata/uvdata/miriad.py`: antennas (lines 1805-1842 and 1930-1942 of `write_miriad`; 392-433, 533-581 and
606-619 of `_load_antpos`), frequencies (1715-1764 of `write_miriad`; 180-213 of `_load_miriad_variables`) and extra keywords
(1885-1928 of `write_miriad`; 70-171 of `_load_miriad_variables` and 675-688 of `_read_miriad_metadata`), and of `_wrvr` and `_get_d_type`
in `src/pyuvdata/uvdata/src/miriad_wrap.pyx` (378-384, 529-565).
-/

namespace Verif.Miriad
open Verif.Pol (Str)

section Antennas

variable {P : Type} [AddCommGroup P] [DecidableEq P]

/-- Positions in a list that is as long as the largest number plus one; numbers that are not there have a zero (1821-1825). -/
def inflate (nums : List Nat) (pos : List P) (n : Nat) : P :=
  ((nums.zip pos).filter (fun x => decide (x.1 = n))).getLast?.elim 0 Prod.snd

/-- `nants` (1815). -/
def nantsOf (nums : List Nat) : Nat := nums.foldr max 0 + 1

/-- What is written about antennas: positions, numbers, names as one text. -/
structure AntFile (P : Type) where
  antpos : List P
  antnums : List Nat
  antnames : Str

/-- 1827-1842: positions from the center of the Earth, rotated by the longitude, with zeros left as they are. Nanoseconds instead of
meters are left out. -/
def writePos (rot : P → P) (loc : P) (nums : List Nat) (pos : List P) : List P :=
  (List.range (nantsOf nums)).map (fun n => if inflate nums pos n = 0 then 0 else rot (inflate nums pos n + loc))

/-- `", ".join(names)`. -/
def joinCS : List Str → Str
  | [] => []
  | [a] => a
  | a :: r => a ++ [',', ' '] ++ joinCS r

/-- `s.split(", ")`. -/
def splitCS : Str → List Str
  | [] => [[]]
  | [c] => [[c]]
  | c :: d :: r => if c = ',' ∧ d = ' ' then [] :: splitCS r
    else match splitCS (d :: r) with
      | [] => [[c]]
      | h :: t => (c :: h) :: t

/-- 1805-1842, 1930-1942. -/
def writeAnts (rot : P → P) (loc : P) (nums : List Nat) (pos : List P) (names : List Str) : AntFile P :=
  ⟨writePos rot loc nums pos, nums, ['['] ++ joinCS names ++ [']']⟩

/-- 406-433: positions relative to the telescope. `absolute` says whether they look like positions from the center of the Earth. -/
def relPos (unrot : P → P) (loc : P) (absolute : List P → Bool) (antpos : List P) : List P :=
  antpos.map (fun x => if absolute antpos then (if x = 0 then unrot x else unrot x - loc) else unrot x)

/-- 392-400, 533-547, 606-614. `none` is an error: a variable with one value is not an array (393-397 and `_get_d_type`). -/
def readAnts (unrot : P → P) (loc : P) (absolute : List P → Bool) (f : AntFile P) : Option (List Nat × List P × List Str) :=
  if f.antnums.length = 1 then none
  else
    let rel := relPos unrot loc absolute f.antpos
    let pos := if f.antpos.length = f.antnums.length then rel else f.antnums.map (fun n => rel.getD n 0)
    some (f.antnums, pos, splitCS (((f.antnames.filter (fun c => decide (c ≠ Char.ofNat 0))).drop 1).dropLast))

end Antennas

section Frequencies

variable {α : Type} [Field α] [LinearOrder α]

/-- A spectral window: its number and frequency and width of all channels. -/
structure Win (α : Type) where
  id : Int
  chans : List (α × α)

/-- First frequency, number of channels, step (1720-1764). -/
structure WinHead (α : Type) where
  sfreq : α
  nschan : Nat
  sdf : α

/-- `np.sign`. -/
def sgn (x : α) : α := if x < 0 then -1 else if x = 0 then 0 else 1

/-- 1735-1746: a window if there are several. `none`: no channels. -/
def headMany (w : Win α) : Option (WinHead α) :=
  match w.chans with
  | [] => none
  | c :: r => some ⟨c.1, (c :: r).length, c.2 * sgn (((c :: r).getLast (by simp)).1 - c.1)⟩

/-- 1747-1764: a single window. `med` is the median. -/
def headOne (med : List α → α) (w : Win α) : Option (WinHead α) :=
  match w.chans with
  | [] => none
  | c :: r => some ⟨c.1, (c :: r).length, med ((c :: r).map Prod.snd) * sgn (((c :: r).getLast (by simp)).1 - c.1)⟩

/-- What is written. GHz instead of Hz is left out. -/
def writeFreqs (med : List α → α) (ws : List (Win α)) : Option (List (WinHead α)) :=
  match ws with
  | [w] => (headOne med w).map (fun h => [h])
  | ws => ws.mapM headMany

/-- 180-213: windows are numbered by their position. -/
def readFreqs (hs : List (WinHead α)) : List (Win α) :=
  hs.zipIdx.map (fun x => ⟨(x.2 : Int), (List.range x.1.nschan).map (fun k : Nat => (x.1.sdf * (k : α) + x.1.sfreq, |x.1.sdf|))⟩)

end Frequencies

section Keywords

variable {F : Type}

/-- Values of keywords: texts, integers, floating point numbers, truth values of python and of numpy, all else. -/
inductive KVal (F : Type) where
  | str (s : Str)
  | int (n : Int)
  | float (x : F)
  | bool (b : Bool)
  | npBool (b : Bool)
  | other
deriving DecidableEq

/-- Values in a file: texts, integers of 32 bits, floating point numbers. -/
inductive FVal (F : Type) where
  | str (s : Str)
  | int (n : Int)
  | float (x : F)
deriving DecidableEq

/-- `astype(np.int32)`. -/
def int32 (n : Int) : Int := (n + 2147483648) % 4294967296 - 2147483648

/-- 1897-1916, 1926-1928: the value that is written; `none` is a `TypeError`. Numbers of numpy are those of python. -/
def writeVal : KVal F → Option (FVal F)
  | .str s => some (.str s)
  | .int n => some (.int (int32 n))
  | .float x => some (.float x)
  | .bool true => some (.str "True".toList)
  | .bool false => some (.str "False".toList)
  | .npBool _ => none
  | .other => none

/-- Whether values have the same type in a file. -/
def sameKind : FVal F → FVal F → Bool
  | .str _, .str _ => true
  | .int _, .int _ => true
  | .float _, .float _ => true
  | _, _ => false

/-- `uvputvr_c` (`uvio.c`, 1719-1721): a new value of a variable, at the front; the type of a variable must not change. -/
def putVar (vars : List (Str × FVal F)) (k : Str) (v : FVal F) : Option (List (Str × FVal F)) :=
  match vars.lookup k with
  | none => some ((k, v) :: vars)
  | some w => if sameKind w v then some ((k, v) :: vars) else none

/-- 1897-1928: all keywords, the latest value first. Variables of other names that `write_miriad` writes are left out. -/
def writeKeys : List (Str × KVal F) → List (Str × FVal F) → Option (List (Str × FVal F))
  | [], vars => some vars
  | (k, v) :: r, vars => (writeVal v).bind (fun w => (putVar vars (k.take 8) w).bind (writeKeys r))

/-- 676-688: the value of a keyword. -/
def readVal : FVal F → KVal F
  | .str s =>
    let v := s.filter (fun c => decide (c ≠ Char.ofNat 0))
    if v = "True".toList then .bool true else if v = "False".toList then .bool false else .str v
  | .int n => .int n
  | .float x => .float x

/-- 165-171, 670-688: what `extra_keywords` has for a name: variables that are not known ones. `none`: no such keyword. -/
def readKey (known : List Str) (vars : List (Str × FVal F)) (k : Str) : Option (KVal F) :=
  if k ∈ known then none else (vars.lookup k).map readVal

end Keywords

end Verif.Miriad
