import Verif.MsHist.Props

/-! Concrete cases. -/

namespace Verif.MsHist

def row1 : Row := [[], "concat".toList, "casa".toList, "taskname=concat".toList, "0".toList, "-1".toList, "casa".toList, "INFO".toList, "5.0".toList]
/-- A message with a semicolon. -/
def row2 : Row := [[], [], "casa".toList, "a;b".toList, "0".toList, "-1".toList, "casa".toList, "INFO".toList, "6.0".toList]

theorem row1_foreign : Foreign row1 := ⟨rfl, by decide +kernel, by decide +kernel, by decide +kernel, by decide +kernel⟩
theorem rows_foreign : ∀ r ∈ [row1], Foreign r := fun r hr => by rw [List.mem_singleton.1 hr]; exact row1_foreign
theorem a_plain : Plain "read".toList := ⟨by decide +kernel, by decide +kernel, by decide +kernel⟩
theorem b_plain : Plain "phased".toList := ⟨by decide +kernel, by decide +kernel, by decide +kernel⟩
theorem one_plain : ∀ l ∈ ["read".toList], Plain l := fun l hl => by rw [List.mem_singleton.1 hl]; exact a_plain
theorem two_plain : ∀ l ∈ ["read".toList, "phased".toList], Plain l := fun l hl => by
  rcases List.mem_cons.1 hl with rfl | hl
  · exact a_plain
  · rw [List.mem_singleton.1 hl]; exact b_plain

example := trip_partial "7.0".toList one_plain rows_foreign two_plain (by simp) (by decide)
example := kept "7.0".toList two_plain rows_foreign one_plain (by simp)
example := plain_trip "7.0".toList (h := ["read".toList]) (fun l hl => (one_plain l hl).header)
example := second_trip "7.0".toList "8.0".toList two_plain
example : read (write "7.0".toList (lines ["read".toList, "phased".toList] [row1] [])) = lines ["phased".toList, "read".toList] [row1] [] :=
  (order_counterexample "7.0".toList two_plain rows_foreign (fun l hl => by cases hl) (by simp) (by decide +kernel)).1
example := empty_counterexample "7.0".toList one_plain two_plain (by simp)
example : parse (join row2) = none := semicolon rfl ⟨"a;b".toList, by decide +kernel, by decide +kernel⟩
example := semicolon_counterexample "7.0".toList one_plain rows_foreign (by simp) (b := join row2) (by decide +kernel) (by decide +kernel) (by decide +kernel) [ends]
example : (read (write [] (lines [] [row1, row2] []))).length = 9 ∧ (lines [] [row1, row2] []).length = 5 := by decide +kernel

end Verif.MsHist
