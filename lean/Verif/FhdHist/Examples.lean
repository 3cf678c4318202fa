import Verif.FhdHist.Props

/-!
# Concrete cases for C232
-/
namespace Verif.FhdHist

/-- Beginnings of the lines of the example. -/
def begins (l : String) : Begins :=
  if l = "##MAIN" then .main else if l = "##COMMAND_LINE" then .command else if l = "##OBS" then .obs else if l = "User a" ∨ l = "User b" then .user else .other

/-- Second words. -/
def word (l : String) : Option String := if l = "User a" then some "a" else if l = "User b" then some "b" else none

example : history begins id word "FHD history" ["x", "##MAIN", "date", "User a", "##COMMAND_LINE", "call", "##OBS", "User b", "##MAIN"] =
    some (["FHD history", "date", "User a", "call"], "a") := by decide +kernel

example := history_of (begins := begins) (clean := id) (word := word) (header := "FHD history") (pre := ["x"]) (m1 := ["date"]) (m2 := []) (c := ["call"])
  (rest := ["User b", "##MAIN"]) (hM := "##MAIN") (hC := "##COMMAND_LINE") (hO := "##OBS") (u := "User a") (w := "a") (by decide) (by decide) (by decide)
  (by decide) (by decide) (by unfold Plain; decide) (by unfold Plain; decide) (by decide) (by decide)

example := history_error begins id word "FHD history" (lines := ["##MAIN", "date", "##COMMAND_LINE", "call", "##OBS"]) (.inr (.inr (by decide)))

example := history_no_obs (begins := begins) (clean := id) (word := word) (header := "FHD history") (pre := []) (m1 := ["User b"]) (m2 := ["date"])
  (c := ["call", "end"]) (hM := "##MAIN") (hC := "##COMMAND_LINE") (u := "User a") (w := "a") (by decide) (by decide) (by decide) (by decide)
  (by unfold Plain; decide) (by unfold Plain; decide) (by decide) (by decide)

end Verif.FhdHist
