import Verif.CalSort.Order
import Verif.CalSort.Examples

/-! Orders that are refused (C84). -/
namespace Verif.CalSort
open Verif.Np Verif.FreqSort Verif.Pol

variable {K V N : Type} [Field K] [LinearOrder K] [LinearOrder N]

/-- A list of the positions of an axis of length `n`, each once. -/
def Positions (n : Nat) (l : List Int) : Prop := l.length = n ∧ ∀ i : Nat, i < n → (i : Int) ∈ l

theorem positions_iff (l : List Int) (n : Nat) : isIndexPerm l n = true ↔ Positions n l := by
  rw [FreqSort.isIndexPerm_iff]
  have hn : ((List.range n).map (fun i : Nat => (i : Int))).Nodup := List.nodup_range.map (fun a b h => by simpa using h)
  constructor
  · intro h
    refine ⟨by simpa using h.length_eq, fun i hi => ?_⟩
    rw [h.mem_iff, List.mem_map]
    exact ⟨i, List.mem_range.2 hi, rfl⟩
  · rintro ⟨h1, h2⟩
    have hsub : (List.range n).map (fun i : Nat => (i : Int)) ⊆ l := by
      intro x hx
      obtain ⟨i, hi, rfl⟩ := List.mem_map.1 hx
      exact h2 i (List.mem_range.1 hi)
    exact ((List.subperm_of_subset hn hsub).perm_of_length_le (by simp [h1])).symm

theorem choose_ok_iff (n : Nat) (allowed : List Str) (base : Str → Except Err (List Nat)) (o : Order) :
    (∃ idx, choose n allowed base o = .ok idx) ↔ (∃ l, o = .idx l ∧ Positions n l) ∨ ∃ s, o = .str s ∧ s ∈ allowed ∧ ∃ b, base s = .ok b := by
  cases o with
  | none => simp [choose]
  | idx l =>
    simp only [choose]
    by_cases h : isIndexPerm l n = true
    · rw [if_pos h]
      simp [(positions_iff l n).1 h]
    · rw [if_neg h]
      rw [positions_iff] at h
      simp [h]
  | str s =>
    simp only [choose]
    by_cases h : s ∈ allowed
    · rw [if_pos h]
      cases hb : base s <;> simp [h, hb]
    · rw [if_neg h]
      simp [h]

theorem named_ok_iff (so : Sorts K N) (names : Int → Option N) (l : List Int) (n : Nat) (base : Str → Except Err (List Nat))
    (hb : ∀ s, base s = if "number".toList <:+: s then .ok (so.int.run l) else match l.mapM names with
      | none => .error .name
      | some ns => .ok (so.name.run ns)) (o : Order) :
    (∃ idx, choose n numberOrName base o = .ok idx) ↔ (∃ q, o = .idx q ∧ Positions n q) ∨ o = .str "number".toList ∨ o = .str "-number".toList ∨
      ((o = .str "name".toList ∨ o = .str "-name".toList) ∧ ∀ a ∈ l, ∃ x, names a = some x) := by
  have hm : (∃ ns, l.mapM names = some ns) ↔ ∀ a ∈ l, ∃ x, names a = some x := by
    constructor
    · rintro ⟨ns, h⟩ a ha
      rw [mapM_some_iff] at h
      have : names a ∈ l.map names := List.mem_map_of_mem ha
      rw [h, List.mem_map] at this
      obtain ⟨x, -, hx⟩ := this
      exact ⟨x, hx.symm⟩
    · clear hb
      intro h
      refine ⟨l.filterMap names, ?_⟩
      rw [mapM_some_iff]
      induction l with
      | nil => rfl
      | cons a l ih =>
        obtain ⟨x, hx⟩ := h a (by simp)
        rw [List.filterMap_cons_some hx, List.map_cons, List.map_cons, hx, ih (fun a ha => h a (by simp [ha]))]
  have h1 : ∀ s, "number".toList <:+: s → ∃ b, base s = .ok b := fun s hs => ⟨_, by rw [hb, if_pos hs]⟩
  have h2 : ∀ s, ¬"number".toList <:+: s → ((∃ b, base s = .ok b) ↔ ∀ a ∈ l, ∃ x, names a = some x) := by
    intro s hs
    rw [← hm, hb, if_neg hs]
    cases l.mapM names <;> simp
  rw [choose_ok_iff]
  apply or_congr Iff.rfl
  constructor
  · rintro ⟨s, rfl, hs, hbs⟩
    simp only [numberOrName, List.mem_cons, List.not_mem_nil, or_false] at hs
    rcases hs with rfl | rfl | rfl | rfl
    · exact Or.inl rfl
    · exact Or.inr (Or.inr ⟨Or.inl rfl, (h2 _ (by decide)).1 hbs⟩)
    · exact Or.inr (Or.inl rfl)
    · exact Or.inr (Or.inr ⟨Or.inr rfl, (h2 _ (by decide)).1 hbs⟩)
  · rintro (rfl | rfl | ⟨rfl | rfl, h⟩)
    · exact ⟨_, rfl, by decide, h1 _ (by decide)⟩
    · exact ⟨_, rfl, by decide, h1 _ (by decide)⟩
    · exact ⟨_, rfl, by decide, (h2 _ (by decide)).2 h⟩
    · exact ⟨_, rfl, by decide, (h2 _ (by decide)).2 h⟩

/-- Antennas: only the four words and lists of all positions are accepted, and names only if every antenna has one. -/
theorem reorder_antennas_ok_iff (so : Sorts K N) (antName : Int → Option N) (c : Cal K V) (o : Order) :
    (∃ r, reorderAnts so antName c o = .ok r) ↔ (∃ l, o = .idx l ∧ Positions c.ants.length l) ∨ o = .str "number".toList ∨ o = .str "-number".toList ∨
      ((o = .str "name".toList ∨ o = .str "-name".toList) ∧ ∀ a ∈ c.ants, ∃ x, antName a = some x) := by
  rw [← named_ok_iff so antName c.ants c.ants.length (antBase so antName c.ants) (fun _ => rfl) o]
  unfold reorderAnts
  cases choose c.ants.length numberOrName (antBase so antName c.ants) o <;> simp

/-- Jones components likewise. -/
theorem reorder_jones_ok_iff (so : Sorts K N) (jName : Int → Option N) (c : Cal K V) (o : Order) :
    (∃ r, reorderJones so jName c o = .ok r) ↔ (∃ l, o = .idx l ∧ Positions c.jones.length l) ∨ o = .str "number".toList ∨ o = .str "-number".toList ∨
      ((o = .str "name".toList ∨ o = .str "-name".toList) ∧ ∀ a ∈ c.jones, ∃ x, jName a = some x) := by
  rw [← named_ok_iff so jName c.jones c.jones.length (jonesBase so jName c.jones) (fun _ => rfl) o]
  unfold reorderJones
  cases choose c.jones.length numberOrName (jonesBase so jName c.jones) o <;> simp

omit [Field K] in
/-- Times: ascending or descending, or a list of all positions; sorting needs times or time ranges, but not both. -/
theorem reorder_times_ok_iff (so : Sorts K N) (c : Cal K V) (o : Order) :
    (∃ r, reorderTimes so c o = .ok r) ↔ (∃ l, o = .idx l ∧ Positions c.times.integ.length l) ∨
      ((o = .str "time".toList ∨ o = .str "-time".toList) ∧ (c.times.time.isSome ≠ c.times.timeRange.isSome)) := by
  have hb : ∀ s, (∃ b, timeBase so c.times s = .ok b) ↔ c.times.time.isSome ≠ c.times.timeRange.isSome := by
    intro s
    unfold timeBase
    cases c.times.time <;> cases c.times.timeRange <;> simp
  have e : (∃ r, reorderTimes so c o = .ok r) ↔ ∃ idx, choose c.times.integ.length ["time".toList, "-time".toList] (timeBase so c.times) o = .ok idx := by
    unfold reorderTimes
    cases choose c.times.integ.length ["time".toList, "-time".toList] (timeBase so c.times) o <;> simp
  rw [e, choose_ok_iff]
  apply or_congr Iff.rfl
  constructor
  · rintro ⟨s, rfl, hs, hbs⟩
    simp only [List.mem_cons, List.not_mem_nil, or_false] at hs
    rcases hs with rfl | rfl
    · exact ⟨Or.inl rfl, (hb _).1 hbs⟩
    · exact ⟨Or.inr rfl, (hb _).1 hbs⟩
  · rintro ⟨rfl | rfl, h⟩
    · exact ⟨_, rfl, by decide, (hb _).2 h⟩
    · exact ⟨_, rfl, by decide, (hb _).2 h⟩

/-- The equivalences have both sides: sorting by time range is possible, an unknown word is not. -/
example : (∃ r, reorderTimes sorts wideSample (.str "time".toList) = .ok r) ∧ ¬(∃ r, reorderTimes sorts wideSample (.str "rubbish".toList) = .ok r) ∧
    ¬(∃ r, reorderAnts sorts (fun _ => none) wideSample (.str "name".toList) = .ok r) := by
  rw [reorder_times_ok_iff, reorder_times_ok_iff, reorder_antennas_ok_iff]
  refine ⟨Or.inr ⟨Or.inl rfl, by decide⟩, ?_, ?_⟩
  · rintro (⟨l, h, -⟩ | ⟨h | h, -⟩)
    · cases h
    · exact absurd (Order.str.inj h) (by decide)
    · exact absurd (Order.str.inj h) (by decide)
  · rintro (⟨l, h, -⟩ | h | h | ⟨-, h⟩)
    · cases h
    · exact absurd (Order.str.inj h) (by decide)
    · exact absurd (Order.str.inj h) (by decide)
    · obtain ⟨x, hx⟩ := h _ (List.getElem_mem (n := 0) (by decide : 0 < wideSample.ants.length))
      exact (nomatch hx)

end Verif.CalSort
