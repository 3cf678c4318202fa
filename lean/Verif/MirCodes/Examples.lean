import Verif.MirCodes.Props

/-!
# Concrete cases for C233
-/
namespace Verif.MirCodes

/-- Two sources, one of them masked, and a version. -/
def sample : List (Rec String String) :=
  [⟨"source", "3c84", 1, true⟩, ⟨"filever", "3", 1, true⟩, ⟨"source", "mars", 2, false⟩]

/-- The same with one text for both. -/
def twice : List (Rec String String) := [⟨"source", "3c84", 1, true⟩, ⟨"source", "3c84", 2, true⟩]

example : getCodes (fun n => n == "source") "filever" none sample = some (.codes ["3"]) := by decide +kernel
example : getCodes (fun n => n == "source") "source" none sample =
    some (.dict [(.inl "3c84", .inr 1), (.inl "mars", .inr 2), (.inr 1, .inl "3c84"), (.inr 2, .inl "mars")]) := by decide +kernel
example : getCodes (fun n => n == "source") "pol" none sample = none := by decide +kernel

theorem sample_of {r : Rec String String} (h : Of sample "source" r) : r = ⟨"source", "3c84", 1, true⟩ ∨ r = ⟨"source", "mars", 2, false⟩ := by
  obtain ⟨h1, h2⟩ := h
  simp only [sample, List.mem_cons, List.not_mem_nil, or_false] at h1
  rcases h1 with rfl | rfl | rfl
  · exact .inl rfl
  · simp at h2
  · exact .inr rfl

example := number_to_code (recs := sample) (indexed := fun n => n == "source") (name := "source") (rd := none)
  (d := [(.inl "3c84", .inr 1), (.inl "mars", .inr 2), (.inr 1, .inl "3c84"), (.inr 2, .inl "mars")]) (by decide +kernel)
  (fun r s hr hs h => by rcases sample_of hr with rfl | rfl <;> rcases sample_of hs with rfl | rfl <;> first | rfl | simp at h) 2 (.inl "mars")

example := code_to_number_partial (recs := sample) (indexed := fun n => n == "source") (name := "source") (rd := none)
  (d := [(.inl "3c84", .inr 1), (.inl "mars", .inr 2), (.inr 1, .inl "3c84"), (.inr 2, .inl "mars")]) (by decide +kernel)
  (fun r s hr hs h => by rcases sample_of hr with rfl | rfl <;> rcases sample_of hs with rfl | rfl <;> first | rfl | simp at h) "mars" (.inr 2)

example := codes_list (recs := sample) (indexed := fun n => n == "source") (name := "filever") (rd := none) (l := ["3"]) (by decide +kernel)

example := codes_dict (recs := sample) (indexed := fun n => n == "source") (name := "source") (rd := none)
  (d := [(.inl "3c84", .inr 1), (.inl "mars", .inr 2), (.inr 1, .inl "3c84"), (.inr 2, .inl "mars")]) (by decide +kernel)

example := same_text_counterexample (recs := twice) (indexed := fun _ => true) (name := "source") (rd := none)
  (d := [(.inl "3c84", .inr 1), (.inl "3c84", .inr 2), (.inr 1, .inl "3c84"), (.inr 2, .inl "3c84")]) (by decide +kernel)
  (r := ⟨"source", "3c84", 1, true⟩) (s := ⟨"source", "3c84", 2, true⟩) ⟨by decide, rfl⟩ ⟨by decide, rfl⟩ rfl (by decide)

end Verif.MirCodes
