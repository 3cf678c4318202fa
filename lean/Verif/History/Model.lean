import Mathlib.Data.List.SplitOn
import Verif.Pol.Model

/-!
Model of `src/pyuvdata/utils/history.py`.  Strings are lists of characters.
-/
namespace Verif.History
open Verif.Pol (Str)

/-- `s.replace("\n", "").replace(" ", "")`, lines 9, 17–19. -/
def squash (s : Str) : Str := (s.filter (fun c => c ≠ '\n')).filter (fun c => c ≠ ' ')

/-- `_check_histories`, lines 15–22. -/
def sameHistory (h1 h2 : Str) : Bool := decide (squash h1 = squash h2)

/-- `" " + word + " " not in test_hist1`, lines 50, 55. -/
def missing (test1 word : Str) : Bool := decide (¬([' '] ++ word ++ [' ']) <:+: test1)

/-- The inner `while` loop, lines 52–61: words after the current one are moved to the added history as long as they
are missing too.  Returns the added history and the words that stay in the list. -/
def gobble (test1 : Str) : List Str → Str → Str × List Str
  | [], acc => (acc, [])
  | w :: rest, acc =>
    if w = [' '] ∨ missing test1 w then gobble test1 rest (acc ++ [' '] ++ w) else (acc, w :: rest)

/-- Words that stay are a tail of the list. -/
theorem gobble_length (test1 : Str) (l : List Str) (acc : Str) : (gobble test1 l acc).2.length ≤ l.length := by
  induction l generalizing acc with
  | nil => simp [gobble]
  | cons w l ih =>
    unfold gobble
    split
    · exact (ih _).trans (by simp)
    · simp

/-- The `for` loop, lines 49–61. -/
def scan (test1 : Str) : List Str → Str → Str
  | [], acc => acc
  | w :: rest, acc =>
    if missing test1 w then scan test1 (gobble test1 rest (acc ++ [' '] ++ w)).2 (gobble test1 rest (acc ++ [' '] ++ w)).1
    else scan test1 rest acc
  termination_by l => l.length
  decreasing_by
    · have := gobble_length test1 rest (acc ++ [' '] ++ w); simp only [List.length_cons]; omega
    · simp

/-- `_combine_history_addition`, lines 25–65. -/
def addition (h1 h2 : Str) : Option Str :=
  if sameHistory h1 h2 then none                                             -- 43–44
  else
    let add := scan ([' '] ++ h1 ++ [' ']) (h2.splitOn ' ') []               -- 46–61
    if add = [] then none else some add                                      -- 63–65

/-- `_check_history_version`, lines 7–12. -/
def hasVersion (history version : Str) : Bool :=
  decide ((version.filter (fun c => c ≠ ' ')) <:+: squash history)

end Verif.History
