import Verif.H5Head.Props

/-! An object that comes back, and what does not come back. -/

namespace Verif.H5Head
open Verif.Pol (Str)

/-- Numbers and arrays are natural numbers; the number of the baselines is computed as 1000. -/
def exBl (_ _ _ : Nat) : Nat := 1000

def exNum (n : Str) : Option Nat :=
  if n = name "baseline_array" then some 1000
  else if n ∈ numNames ∧ n ∉ optional then some n.length
  else if n = name "dut1" then some 5 else none

def exNat (n : Str) : Option Nat := if n ∈ natNames then some (if n = name "Nblts" then 6 else 3) else none

def exTxt (n : Str) : Option Str :=
  if n = name "telescope_frame" then some (name "mcmf")
  else if n = name "ellipsoid" then some (name "GRGM")
  else if n ∈ txtNames ∧ n ∉ optional then some (name "some text") else none

/-- The catalog has the numbers 2 and 10, which are listed in the other order in the file. -/
def exObj : Obj Nat :=
  { num := exNum, nat := exNat, txt := exTxt
    bool := fun n => if n ∈ boolNames then some true else none
    antNames := [name "ant5", name "ant8"]
    bltOrder := some [name "time", name "baseline"]
    catalog := [(2, [(name "cat_name", .text (name "zenith")), (name "cat_epoch", .none)]),
      (10, [(name "cat_name", .text (name "M 31")), (name "cat_lon", .num 3)])]
    keywords := [(name "observer", .text (name "B. C.")), (name "gain", .num 7), (name "comment", .none)] }

theorem exObj_good : Good exBl exObj where
  num := by
    intro n h1 h2
    show (exNum n).isSome
    unfold exNum
    split
    · rfl
    · rw [if_pos ⟨h1, h2⟩]; rfl
  nat := by
    intro n h
    show (exNat n).isSome
    unfold exNat
    rw [if_pos h]
    rfl
  txt := by
    intro n h1 h2
    show (exTxt n).isSome
    unfold exTxt
    split
    · rfl
    · split
      · rfl
      · rw [if_pos ⟨h1, h2⟩]; rfl
  plain := by
    have h1 : Plain (name "mcmf") := by unfold Plain; decide +kernel
    have h2 : Plain (name "GRGM") := by unfold Plain; decide +kernel
    have h3 : Plain (name "some text") := by unfold Plain; decide +kernel
    intro n _ s hs
    have hs : exTxt n = some s := hs
    unfold exTxt at hs
    split at hs
    · rw [← Option.some.inj hs]; exact h1
    · split at hs
      · rw [← Option.some.inj hs]; exact h2
      · split at hs
        · rw [← Option.some.inj hs]; exact h3
        · simp at hs
  names := by unfold Plain; decide +kernel
  frame := Or.inr ⟨by decide +kernel, by decide +kernel⟩
  units := by decide +kernel
  order := by
    intro l hl
    have : l = [name "time", name "baseline"] := (Option.some.inj hl).symm
    subst this
    unfold Plain
    decide +kernel
  catalog := by
    have h1 : Plain (name "zenith") := by unfold Plain; decide +kernel
    have h2 : Plain (name "M 31") := by unfold Plain; decide +kernel
    refine ⟨by decide +kernel, by decide +kernel, ?_⟩
    intro e he
    simp only [exObj, List.mem_cons, List.not_mem_nil, or_false] at he
    rcases he with rfl | rfl
    · refine ⟨by decide +kernel, ?_⟩
      intro f hf
      simp only [List.mem_cons, List.not_mem_nil, or_false] at hf
      rcases hf with rfl | rfl
      · exact ⟨by unfold Simple; decide +kernel, .text h1⟩
      · exact ⟨by unfold Simple; decide +kernel, .none⟩
    · refine ⟨by decide +kernel, ?_⟩
      intro f hf
      simp only [List.mem_cons, List.not_mem_nil, or_false] at hf
      rcases hf with rfl | rfl
      · exact ⟨by unfold Simple; decide +kernel, .text h2⟩
      · exact ⟨by unfold Simple; decide +kernel, .num 3⟩
  keywords := by
    have h1 : Plain (name "B. C.") := by unfold Plain; decide +kernel
    refine ⟨by decide +kernel, ?_⟩
    intro f hf
    simp only [exObj, List.mem_cons, List.not_mem_nil, or_false] at hf
    rcases hf with rfl | rfl | rfl
    · exact ⟨by unfold Simple; decide +kernel, .text h1⟩
    · exact ⟨by unfold Simple; decide +kernel, .num 7⟩
    · exact ⟨by unfold Simple; decide +kernel, .none⟩
  bl := fun _ _ _ _ _ _ => by
    show exObj.num (name "baseline_array") = some 1000
    decide +kernel
  nbls := by
    intro b r t _ _ _ h
    have : ¬ exObj.txt (name "telescope_name") = some (name "HERA") := by decide +kernel
    exact absurd h this
  faster := fun t _ => ⟨true, by decide +kernel, fun _ => rfl⟩

def noKnown (_ : Str) : Known Nat := ⟨none, none⟩

/-- Written and read again. -/
def again (o : Obj Nat) : Option (Obj Nat) :=
  (write o).bind (read (name " v1") (true, none) exBl 0 noKnown)

example : (again exObj).map (fun o => o.keywords) =
    some [(name "comment", .none), (name "gain", .num 7), (name "observer", .text (name "B. C."))] := by
  decide +kernel

example : (again exObj).map (fun o => o.catalog) =
    some [(10, [(name "cat_lon", .num 3), (name "cat_name", .text (name "M 31"))]),
       (2, [(name "cat_epoch", .none), (name "cat_name", .text (name "zenith"))])] := by
  decide +kernel

example : (again exObj).map (fun o => o.txt (name "history")) = some (some (name "some text v1")) ∧
    (again exObj).map (fun o => o.bltOrder) = some (some [name "time", name "baseline"]) ∧
    (again exObj).map (fun o => o.txt (name "ellipsoid")) = some (some (name "GRGM")) ∧
    (again exObj).map (fun o => o.num (name "dut1")) = some (some 5) ∧
    (again exObj).map (fun o => o.num (name "gst0")) = some none := by
  decide +kernel

/-- C148: a keyword that is a byte string comes back as a string. -/
theorem bytes_counterexample : ∃ o : Obj Nat, o.keywords = [(name "k", .raw (name "abc"))] ∧
    (again o).map (fun o' => o'.keywords) = some [(name "k", .text (name "abc"))] :=
  ⟨{ exObj with keywords := [(name "k", .raw (name "abc"))] }, rfl, by decide +kernel⟩

/-- C148: a keyword that is a list of strings comes back as text that was never written. -/
theorem list_counterexample : ∃ o : Obj Nat, o.keywords = [(name "k", .list [name "a", name "b"])] ∧
    (again o).map (fun o' => o'.keywords) = some [(name "k", .junk)] :=
  ⟨{ exObj with keywords := [(name "k", .list [name "a", name "b"])] }, rfl, by decide +kernel⟩

/-- C148: a file with a keyword `a/b` is written and cannot be read. -/
theorem slash_counterexample : ∃ o : Obj Nat, o.keywords = [(name "a/b", .num 1)] ∧ (write o).isSome ∧
    (again o).isNone :=
  ⟨{ exObj with keywords := [(name "a/b", .num 1)] }, rfl, by decide +kernel, by decide +kernel⟩

/-- `slash` applies to it. -/
example : (name "a/b").head? ≠ some '/' ∧ 2 ≤ (parts (name "a/b")).length := by decide +kernel

/-- C148: a keyword whose name begins with a slash is lost. -/
theorem lost_counterexample : ∃ o : Obj Nat, o.keywords = [(name "/a", .num 1)] ∧
    (again o).map (fun o' => o'.keywords) = some [] :=
  ⟨{ exObj with keywords := [(name "/a", .num 1)] }, rfl, by decide +kernel⟩

/-- C148: the name of an observer that is not ASCII cannot be written in a keyword either. -/
example : (write { exObj with keywords := [(name "k", .text ['é'])] }).isNone := by decide +kernel

/-- `not_ascii` is about something. -/
example : (write { exObj with txt := fun n => if n = name "history" then some ['é'] else exTxt n }).isNone := by
  decide +kernel

/-- C148: an object that does not say whether its rows are a grid, but that time is not the faster axis, comes back with
the opposite: the rows (of one baseline, say) are taken to have time as the faster axis. -/
theorem faster_counterexample : ∃ o : Obj Nat, o.bool (name "blts_are_rectangular") = none ∧
    o.bool (name "time_axis_faster_than_bls") = some false ∧
    (((write o).bind (read (name " v1") (true, some true) exBl 0 noKnown)).map
      (fun o' => (o'.bool (name "blts_are_rectangular"), o'.bool (name "time_axis_faster_than_bls")))) =
      some (none, some true) :=
  ⟨{ exObj with bool := fun n => if n = name "time_axis_faster_than_bls" then some false else none },
    by decide +kernel, by decide +kernel, by decide +kernel⟩

/-- C148: data of HERA with three baselines, each at a time of its own (three rows): the number of baselines comes back as
one. -/
theorem hera_counterexample : ∃ o : Obj Nat, o.nat (name "Nbls") = some 3 ∧ o.nat (name "Nblts") = some 3 ∧
    o.nat (name "Ntimes") = some 3 ∧ (again o).map (fun o' => o'.nat (name "Nbls")) = some (some 1) :=
  ⟨{ exObj with
      nat := fun n => if n ∈ natNames then some 3 else none
      txt := fun n => if n = name "telescope_name" then some (name "HERA") else exTxt n },
    by decide +kernel, by decide +kernel, by decide +kernel, by decide +kernel⟩

end Verif.H5Head
