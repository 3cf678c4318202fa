import Verif.CalHead.Props

/-! An object that comes back, and what does not come back. -/

namespace Verif.CalHead
open Verif.Pol (Str)
open Verif.H5Head

def exNum (n : Str) : Option Nat :=
  if n = name "time_range" ∨ n = name "lst_range" then none
  else if n = name "time_array" then some 700
  else if n = name "lst_array" then some 4
  else if n = name "freq_array" then some 12
  else if n ∈ numNames ∧ n ∈ required then some n.length else none

def exNat (n : Str) : Option Nat := if n ∈ natNames then some (if n = name "Nfreqs" then 6 else 3) else none

def exTxt (n : Str) : Option Str :=
  if n = name "telescope_frame" then some (name "itrs")
  else if n = name "ellipsoid" then none
  else if n = name "observer" then some (name "B. C.")
  else if n ∈ txtNames ∧ n ∈ required then some (name "some text") else none

def exObj : Obj Nat :=
  { num := exNum, nat := exNat, txt := exTxt, wide := false
    antNames := [name "ant5", name "ant8"]
    catalog := some [(2, [(name "cat_name", .text (name "zenith")), (name "cat_epoch", .none)])]
    keywords := [(name "observer", .text (name "B. C.")), (name "gain", .num 7)] }

theorem exObj_good : Good exObj where
  num := by
    have : ∀ n ∈ numNames, n ∈ required → (exNum n).isSome := by decide +kernel
    exact this
  nat := by
    have : ∀ n ∈ natNames, n ∈ required → (exNat n).isSome := by decide +kernel
    exact this
  txt := by
    have : ∀ n ∈ txtNames, n ∈ required → (exTxt n).isSome := by decide +kernel
    exact this
  plain := by
    have h1 : Plain (name "itrs") := by unfold Plain; decide +kernel
    have h2 : Plain (name "B. C.") := by unfold Plain; decide +kernel
    have h3 : Plain (name "some text") := by unfold Plain; decide +kernel
    intro n _ s hs
    have hs : exTxt n = some s := hs
    unfold exTxt at hs
    split at hs
    · rw [← Option.some.inj hs]; exact h1
    · split at hs
      · cases hs
      · split at hs
        · rw [← Option.some.inj hs]; exact h2
        · split at hs
          · rw [← Option.some.inj hs]; exact h3
          · cases hs
  names := by unfold Plain; decide +kernel
  frame := Or.inl ⟨by decide +kernel, by decide +kernel⟩
  times := Or.inl (by decide +kernel)
  lst := by decide +kernel
  lstRange := by decide +kernel
  wide := fun h => nomatch h
  catalog := by
    have h1 : Plain (name "zenith") := by unfold Plain; decide +kernel
    intro c hc
    have hc := (Option.some.inj hc).symm
    subst hc
    refine ⟨by decide +kernel, by decide +kernel, ?_⟩
    intro e he
    simp only [List.mem_cons, List.not_mem_nil, or_false] at he
    subst he
    refine ⟨by decide +kernel, ?_⟩
    intro f hf
    simp only [List.mem_cons, List.not_mem_nil, or_false] at hf
    rcases hf with rfl | rfl
    · exact ⟨by unfold Simple; decide +kernel, .text h1⟩
    · exact ⟨by unfold Simple; decide +kernel, .none⟩
  keywords := by
    have h1 : Plain (name "B. C.") := by unfold Plain; decide +kernel
    refine ⟨by decide +kernel, ?_⟩
    intro f hf
    simp only [exObj, List.mem_cons, List.not_mem_nil, or_false] at hf
    rcases hf with rfl | rfl
    · exact ⟨by unfold Simple; decide +kernel, .text h1⟩
    · exact ⟨by unfold Simple; decide +kernel, .num 7⟩

def noKnown (_ : Str) : Known Nat := ⟨none, none⟩

/-- Written and read again. -/
def again (o : Obj Nat) : Option (Obj Nat) := (write o).bind (read (name " v1") (· + 1) noKnown)

/-- A case of `round_trip`. -/
example : (again exObj).map (fun o => o.keywords) = some [(name "gain", .num 7), (name "observer", .text (name "B. C."))] ∧
    (again exObj).bind (fun o => o.catalog) = some [(2, [(name "cat_epoch", .none), (name "cat_name", .text (name "zenith"))])] ∧
    (again exObj).map (fun o => o.txt (name "history")) = some (some (name "some text v1")) ∧
    (again exObj).map (fun o => o.txt (name "observer")) = some (some (name "B. C.")) ∧
    (again exObj).map (fun o => o.num (name "lst_array")) = some (some 4) ∧
    (again exObj).map (fun o => o.nat (name "Nfreqs")) = some (some 6) := by
  refine ⟨?_, ?_, ?_, ?_, ?_, ?_⟩ <;> decide +kernel

/-- A case of `empty_catalog_counterexample`: written, but not read. -/
example : (write { exObj with catalog := some [] }).isSome ∧ (again { exObj with catalog := some [] }).isNone := by
  decide +kernel

/-- A case of `wide_windows_counterexample`. -/
example : (again { exObj with wide := true, num := fun n => if n = name "flex_spw_id_array" then some 5 else exNum n }).map
    (fun o => o.num (name "flex_spw_id_array")) = some none := by
  decide +kernel

/-- C209: without times, a file is written but not read. -/
theorem no_times_counterexample : ∃ o : Obj Nat, (write o).isSome ∧ (again o).isNone :=
  ⟨{ exObj with num := fun n => if n = name "time_array" then none else exNum n }, by decide +kernel, by decide +kernel⟩

end Verif.CalHead
