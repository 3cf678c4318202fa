/-!
# The history in FHD settings files

Model of `/repo/src/pyuvdata/utils/io/fhd.py`, `get_fhd_history` (lines 121–176).

Simplifications: the beginning of a line (`startswith`, lines 150–157) is a parameter that gives one of five kinds, since no two of the four beginnings
fit one line; `line.rstrip().replace("\t", " ")` and the second word of a line are parameters; the lines of the history are a list that is not joined.
-/
namespace Verif.FhdHist

/-- What a line begins with: `##MAIN`, `##COMMAND_LINE`, `##OBS`, `User`, or something else. -/
inductive Begins
  | main | command | obs | user | other
deriving DecidableEq

/-- Lines 145–148. -/
structure St where
  main : Option Nat
  command : Option Nat
  obs : Option Nat
  user : Option Nat
deriving DecidableEq

/-- Lines 150–157. -/
def step (b : Begins) (ind : Nat) (st : St) : St :=
  match b with
  | .main => { st with main := some ind }
  | .command => { st with command := some ind }
  | .obs => { st with obs := some ind }
  | .user => { st with user := some ind }
  | .other => st

/-- Lines 158–163. -/
def full (st : St) : Bool := st.main.isSome && st.command.isSome && st.obs.isSome && st.user.isSome

variable {L W : Type}

/-- Lines 149–164. -/
def loop (begins : L → Begins) : Nat → List L → St → St
  | _, [], st => st
  | ind, l :: t, st => if full (step (begins l) ind st) then step (begins l) ind st else loop begins (ind + 1) t (step (begins l) ind st)

/-- `lines[a:b]`. -/
def slice (lines : List L) (a : Nat) (b : Option Nat) : List L :=
  match b with
  | some b => (lines.take b).drop a
  | none => lines.drop a

/-- Lines 142–176: the lines of the history and the user; `none` is an exception (`None + 1`, `settings_lines[None]`, or no second word). -/
def history (begins : L → Begins) (clean : L → L) (word : L → Option W) (header : L) (lines : List L) : Option (List L × W) :=
  let st := loop begins 0 lines ⟨none, none, none, none⟩
  match st.main, st.command, st.user with
  | some i, some j, some u =>
    match (lines[u]?).bind word with
    | some w => some ((header :: (slice lines (i + 1) (some j) ++ slice lines (j + 1) st.obs)).map clean, w)
    | none => none
  | _, _, _ => none

end Verif.FhdHist
