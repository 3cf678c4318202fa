import Verif.MirCodes.Model
import Mathlib.Data.List.Basic

/-!
# What codes of MIR data are looked up as (C233)
-/
namespace Verif.MirCodes

variable {N C : Type} [DecidableEq N]

/-- The record is one of the code `name`. -/
def Of (recs : List (Rec N C)) (name : N) (r : Rec N C) : Prop := r ∈ recs ∧ r.name = name

/-- No two records of the code have one number. -/
def Numbered (recs : List (Rec N C)) (name : N) : Prop := ∀ r s, Of recs name r → Of recs name s → r.icode = s.icode → r.code = s.code

/-- No two numbers of the code have one text. -/
def Distinct (recs : List (Rec N C)) (name : N) : Prop := ∀ r s, Of recs name r → Of recs name s → r.code = s.code → r.icode = s.icode

/-- A dictionary has a value for a key that is put in, and it is one of those put in. -/
theorem get_some [DecidableEq C] {d : List (Key C × Key C)} {k v : Key C} (h : get d k = some v) : (k, v) ∈ d := by
  unfold get at h
  simp only [Option.map_eq_some_iff] at h
  obtain ⟨⟨a, b⟩, h1, h2⟩ := h
  have hm := List.mem_of_find?_eq_some h1
  have he := List.find?_some h1
  simp only [decide_eq_true_eq] at he
  simp only at h2
  subst he h2
  exact List.mem_reverse.mp hm

theorem get_exists [DecidableEq C] {d : List (Key C × Key C)} {k v : Key C} (h : (k, v) ∈ d) : ∃ v', get d k = some v' := by
  unfold get
  cases hf : d.reverse.find? (fun e => decide (e.1 = k)) with
  | some e => exact ⟨e.2, rfl⟩
  | none =>
    rw [List.find?_eq_none] at hf
    exact absurd (by simp) (hf (k, v) (List.mem_reverse.mpr h))

theorem get_unique [DecidableEq C] {d : List (Key C × Key C)} {k v : Key C} (h : (k, v) ∈ d) (hu : ∀ v', (k, v') ∈ d → v' = v) : get d k = some v := by
  obtain ⟨v', h'⟩ := get_exists h
  rw [h', hu v' (get_some h')]

/-- The pairs of the dictionary. -/
theorem pairs {indexed : N → Bool} {name : N} {rd : Option Bool} {recs : List (Rec N C)} {d : List (Key C × Key C)}
    (h : getCodes indexed name rd recs = some (.dict d)) (k v : Key C) :
    (k, v) ∈ d ↔ ∃ r, Of recs name r ∧ ((k = .inl r.code ∧ v = .inr r.icode) ∨ (k = .inr r.icode ∧ v = .inl r.code)) := by
  unfold getCodes at h
  split at h
  · simp only at h
    split at h
    · simp only [Option.some.injEq, Out.dict.injEq] at h
      rw [← h, List.zip_append (by simp)]
      simp only [List.map_map, List.zip_map', List.mem_append, List.mem_map, List.mem_filter, decide_eq_true_eq, Prod.mk.injEq, Function.comp, Of]
      constructor
      · rintro (⟨r, hr, rfl, rfl⟩ | ⟨r, hr, rfl, rfl⟩)
        · exact ⟨r, hr, .inl ⟨rfl, rfl⟩⟩
        · exact ⟨r, hr, .inr ⟨rfl, rfl⟩⟩
      · rintro ⟨r, hr, ⟨rfl, rfl⟩ | ⟨rfl, rfl⟩⟩
        · exact .inl ⟨r, hr, rfl, rfl⟩
        · exact .inr ⟨r, hr, rfl, rfl⟩
    · simp at h
  · simp at h

/-- **C233**: there is an error exactly if no record that is kept has the code. -/
theorem codes_error (indexed : N → Bool) (name : N) (rd : Option Bool) (recs : List (Rec N C)) :
    getCodes indexed name rd recs = none ↔ ∀ r, Of recs name r → r.keep = false := by
  unfold getCodes
  split
  · rename_i h
    simp only [List.any_eq_true, List.mem_filter, decide_eq_true_eq] at h
    obtain ⟨r, ⟨h1, h2⟩, h3⟩ := h
    constructor
    · intro he; simp only at he; split at he <;> simp at he
    · intro hall; rw [hall r ⟨h1, h3⟩] at h2; simp at h2
  · rename_i h
    simp only [List.any_eq_true, List.mem_filter, decide_eq_true_eq, not_exists, not_and] at h
    refine ⟨fun _ r hr => ?_, fun _ => rfl⟩
    rw [Bool.eq_false_iff]
    exact fun hk => h r ⟨hr.1, hk⟩ hr.2

/-- **C233**: looking up a number gives its code, also for records that are not kept. -/
theorem number_to_code [DecidableEq C] {indexed : N → Bool} {name : N} {rd : Option Bool} {recs : List (Rec N C)} {d : List (Key C × Key C)}
    (h : getCodes indexed name rd recs = some (.dict d)) (hn : Numbered recs name) (i : Int) (v : Key C) :
    get d (.inr i) = some v ↔ ∃ r, Of recs name r ∧ r.icode = i ∧ v = .inl r.code := by
  constructor
  · intro hg
    obtain ⟨r, hr, ⟨h1, _⟩ | ⟨h1, h2⟩⟩ := (pairs h _ _).mp (get_some hg)
    · cases h1
    · exact ⟨r, hr, (Sum.inr.inj h1).symm, h2⟩
  · rintro ⟨r, hr, rfl, rfl⟩
    refine get_unique ((pairs h _ _).mpr ⟨r, hr, .inr ⟨rfl, rfl⟩⟩) (fun v' hv => ?_)
    obtain ⟨s, hs, ⟨h1, _⟩ | ⟨h1, h2⟩⟩ := (pairs h _ _).mp hv
    · cases h1
    · rw [h2, hn s r hs hr (Sum.inr.inj h1).symm]

/-- **C233** (codes without two numbers of one text): looking up a text gives its number. -/
theorem code_to_number_partial [DecidableEq C] {indexed : N → Bool} {name : N} {rd : Option Bool} {recs : List (Rec N C)} {d : List (Key C × Key C)}
    (h : getCodes indexed name rd recs = some (.dict d)) (hd : Distinct recs name) (c : C) (v : Key C) :
    get d (.inl c) = some v ↔ ∃ r, Of recs name r ∧ r.code = c ∧ v = .inr r.icode := by
  constructor
  · intro hg
    obtain ⟨r, hr, ⟨h1, h2⟩ | ⟨h1, _⟩⟩ := (pairs h _ _).mp (get_some hg)
    · exact ⟨r, hr, (Sum.inl.inj h1).symm, h2⟩
    · cases h1
  · rintro ⟨r, hr, rfl, rfl⟩
    refine get_unique ((pairs h _ _).mpr ⟨r, hr, .inl ⟨rfl, rfl⟩⟩) (fun v' hv => ?_)
    obtain ⟨s, hs, ⟨h1, h2⟩ | ⟨h1, _⟩⟩ := (pairs h _ _).mp hv
    · rw [h2, hd s r hs hr (Sum.inl.inj h1).symm]
    · cases h1

/-- **C233**: a list has the codes of all records in order. It is returned if asked for, or by default if there is one record and the code is not that of
an index. -/
theorem codes_list {indexed : N → Bool} {name : N} {rd : Option Bool} {recs : List (Rec N C)} {l : List C}
    (h : getCodes indexed name rd recs = some (.codes l)) :
    l = (recs.filter (fun r => decide (r.name = name))).map (fun r => r.code) ∧
    (rd = some false ∨ (rd = none ∧ indexed name = false ∧ ∃ c, l = [c])) := by
  unfold getCodes at h
  split at h
  · simp only at h
    split at h
    · simp at h
    · rename_i hr
      simp only [Option.some.injEq, Out.codes.injEq] at h
      refine ⟨h.symm, ?_⟩
      cases rd with
      | some b => cases b with
        | false => exact .inl rfl
        | true => simp at hr
      | none =>
        simp only [Option.getD_none, Bool.or_eq_true, decide_eq_true_eq, not_or, not_not] at hr
        refine .inr ⟨rfl, by simpa using hr.2, ?_⟩
        rw [← h]
        exact List.length_eq_one_iff.mp (by rw [List.length_map]; exact hr.1)
  · simp at h

/-- **C233**: a dictionary is returned if asked for, or by default if there are several records or the code is that of an index. -/
theorem codes_dict {indexed : N → Bool} {name : N} {rd : Option Bool} {recs : List (Rec N C)} {d : List (Key C × Key C)}
    (h : getCodes indexed name rd recs = some (.dict d)) :
    rd = some true ∨ (rd = none ∧ (indexed name = true ∨ (recs.filter (fun r => decide (r.name = name))).length ≠ 1)) := by
  unfold getCodes at h
  split at h
  · simp only at h
    split at h
    · rename_i hr
      cases rd with
      | some b => cases b with
        | false => simp at hr
        | true => exact .inl rfl
      | none =>
        simp only [Option.getD_none, Bool.or_eq_true, decide_eq_true_eq] at hr
        exact .inr ⟨rfl, hr.symm⟩
    · simp at h
  · simp at h

/-- **C233 is false** in general: if two numbers have one text, looking up the text of one of them does not give its number. -/
theorem same_text_counterexample [DecidableEq C] {indexed : N → Bool} {name : N} {rd : Option Bool} {recs : List (Rec N C)}
    {d : List (Key C × Key C)} (h : getCodes indexed name rd recs = some (.dict d)) {r s : Rec N C} (hr : Of recs name r) (hs : Of recs name s)
    (hc : r.code = s.code) (hi : r.icode ≠ s.icode) : ∃ x, Of recs name x ∧ get d (.inl x.code) ≠ some (.inr x.icode) ∧ ∃ y, get d (.inl x.code) = some (.inr y) := by
  obtain ⟨v, hv⟩ := get_exists ((pairs h _ _).mpr ⟨r, hr, .inl ⟨rfl, rfl⟩⟩)
  obtain ⟨t, _, ⟨_, h2⟩ | ⟨h1, _⟩⟩ := (pairs h _ _).mp (get_some hv)
  · subst h2
    by_cases ht : t.icode = r.icode
    · refine ⟨s, hs, ?_, t.icode, by rw [← hc]; exact hv⟩
      rw [← hc, hv]
      intro he
      exact hi (ht.symm.trans (Sum.inr.inj (Option.some.inj he)))
    · refine ⟨r, hr, ?_, t.icode, hv⟩
      rw [hv]
      intro he
      exact ht (Sum.inr.inj (Option.some.inj he))
  · cases h1

end Verif.MirCodes
