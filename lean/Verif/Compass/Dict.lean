import Verif.Compass.Model
import Mathlib.Data.List.Induction
import Mathlib.Data.List.Nodup

/-!
# Dictionaries, and the entries for antennas and baselines
-/

namespace Verif.Compass

section
variable {κ β : Type} [DecidableEq κ]

theorem dget_dset (d : List (κ × β)) (k k' : κ) (v : β) : dget (dset d k v) k' = if k = k' then some v else dget d k' := by
  induction d with
  | nil => simp [dset, dget]
  | cons x d ih =>
    unfold dset
    split
    · rename_i h
      simp only [dget, h]
      split <;> rfl
    · rename_i h
      simp only [dget, ih]
      by_cases h1 : k = k'
      · subst h1; simp [h]
      · simp [h1]

theorem fromEntries_concat (es : List (κ × β)) (e : κ × β) : fromEntries (es ++ [e]) = dset (fromEntries es) e.1 e.2 := by
  simp [fromEntries]

/-- The last entry counts. -/
theorem dget_fromEntries (es : List (κ × β)) (k : κ) : dget (fromEntries es) k = (es.reverse.find? fun e => e.1 = k).map (·.2) := by
  induction es using List.reverseRecOn with
  | nil => rfl
  | append_singleton es e ih =>
    rw [fromEntries_concat, dget_dset, ih]
    simp only [List.reverse_append, List.reverse_cons, List.reverse_nil, List.nil_append, List.cons_append, List.find?_cons]
    by_cases h : e.1 = k <;> simp [h]

theorem dget_none (es : List (κ × β)) (k : κ) : dget (fromEntries es) k = none ↔ ∀ e ∈ es, e.1 ≠ k := by
  rw [dget_fromEntries]
  simp

theorem dget_mem (es : List (κ × β)) (k : κ) (v : β) (h : dget (fromEntries es) k = some v) : (k, v) ∈ es := by
  rw [dget_fromEntries, Option.map_eq_some_iff] at h
  obtain ⟨e, h1, h2⟩ := h
  have h3 := List.mem_of_find?_eq_some h1
  have h4 := List.find?_some h1
  simp only [decide_eq_true_eq] at h4
  subst h4; subst h2
  simpa using h3

/-- An entry counts if no other one has its key. -/
theorem dget_eq (es : List (κ × β)) (k : κ) (v : β) (h : (k, v) ∈ es) (hu : ∀ e ∈ es, e.1 = k → e.2 = v) : dget (fromEntries es) k = some v := by
  cases hd : dget (fromEntries es) k with
  | none => exact absurd rfl ((dget_none es k).1 hd _ h)
  | some w =>
    have := hu _ (dget_mem es k w hd) rfl
    simp only at this
    rw [this]

theorem mem_dset {d : List (κ × β)} {k : κ} {v : β} {x : κ} (h : x ∈ (dset d k v).map Prod.fst) : x = k ∨ x ∈ d.map Prod.fst := by
  induction d with
  | nil => simpa [dset] using h
  | cons y d ih =>
    unfold dset at h
    split at h
    · rename_i hy
      simp only [List.map_cons, List.mem_cons] at h ⊢
      tauto
    · simp only [List.map_cons, List.mem_cons] at h ⊢
      rcases h with h | h
      · tauto
      · rcases ih h with h | h <;> tauto

theorem nodup_dset {d : List (κ × β)} (k : κ) (v : β) (h : (d.map Prod.fst).Nodup) : ((dset d k v).map Prod.fst).Nodup := by
  induction d with
  | nil => simp [dset]
  | cons y d ih =>
    rw [List.map_cons, List.nodup_cons] at h
    unfold dset
    split
    · rename_i hy
      rw [List.map_cons, List.nodup_cons]
      exact ⟨by rw [← hy]; exact h.1, h.2⟩
    · rename_i hy
      rw [List.map_cons, List.nodup_cons]
      refine ⟨fun hm => ?_, ih h.2⟩
      rcases mem_dset hm with hm | hm
      · exact hy hm
      · exact h.1 hm

theorem nodup_fromEntries (es : List (κ × β)) : ((fromEntries es).map Prod.fst).Nodup := by
  induction es using List.reverseRecOn with
  | nil => simp [fromEntries]
  | append_singleton es e ih => rw [fromEntries_concat]; exact nodup_dset _ _ ih

theorem dget_some_iff (d : List (κ × β)) (h : (d.map Prod.fst).Nodup) (k : κ) (v : β) : dget d k = some v ↔ (k, v) ∈ d := by
  induction d with
  | nil => simp [dget]
  | cons x d ih =>
    rw [List.map_cons, List.nodup_cons] at h
    unfold dget
    split
    · rename_i hx
      subst hx
      simp only [Option.some.injEq, List.mem_cons]
      constructor
      · rintro rfl; left; rfl
      · rintro (h1 | h1)
        · rw [← h1]
        · exact absurd (List.mem_map.2 ⟨_, h1, rfl⟩) h.1
    · rename_i hx
      rw [ih h.2, List.mem_cons]
      constructor
      · exact Or.inr
      · rintro (h1 | h1)
        · exact absurd (by rw [← h1]) hx
        · exact h1

end

/-- Both loops over a dictionary give for each pair of antennas the combination of what the dictionary has for each of them, if the receivers agree or
cross-hands are wanted; other pairs have no entry. -/
theorem dget_pairs {β γ : Type} (cross : Bool) (es : List (Key × β)) (comb : Key → Key → β → β → γ) (p : Pair) :
    dget (fromEntries (pairEntries cross (fromEntries es) comb)) p =
      if cross = true ∨ p.rx1 = p.rx2 then
        (dget (fromEntries es) ⟨p.ant1, p.rx1, p.sb, p.chunk⟩).bind fun a =>
          (dget (fromEntries es) ⟨p.ant2, p.rx2, p.sb, p.chunk⟩).map fun b =>
            comb ⟨p.ant1, p.rx1, p.sb, p.chunk⟩ ⟨p.ant2, p.rx2, p.sb, p.chunk⟩ a b
      else none := by
  have hn := nodup_fromEntries es
  generalize fromEntries es = d at *
  have mem : ∀ v, (p, v) ∈ pairEntries cross d comb ↔ (cross = true ∨ p.rx1 = p.rx2) ∧
      ∃ a b, dget d ⟨p.ant1, p.rx1, p.sb, p.chunk⟩ = some a ∧ dget d ⟨p.ant2, p.rx2, p.sb, p.chunk⟩ = some b ∧
        v = comb ⟨p.ant1, p.rx1, p.sb, p.chunk⟩ ⟨p.ant2, p.rx2, p.sb, p.chunk⟩ a b := by
    intro v
    simp only [pairEntries, List.mem_flatMap, List.mem_map, List.mem_filter, Prod.mk.injEq, dget_some_iff d hn]
    constructor
    · rintro ⟨⟨⟨a1, r1, s1, c1⟩, a⟩, hx, ⟨⟨⟨a2, r2, s2, c2⟩, b⟩, ⟨hy, hc⟩, hp, hv⟩⟩
      subst hp
      simp only [comparable, Bool.and_eq_true, Bool.or_eq_true, beq_iff_eq] at hc
      obtain ⟨⟨h1, rfl⟩, rfl⟩ := hc
      exact ⟨h1, a, b, hx, hy, hv.symm⟩
    · rintro ⟨h1, a, b, hx, hy, hv⟩
      refine ⟨_, hx, _, ⟨hy, ?_⟩, rfl, hv.symm⟩
      simp only [comparable, Bool.and_eq_true, Bool.or_eq_true, beq_iff_eq]
      exact ⟨⟨h1, trivial⟩, trivial⟩
  cases hd : dget (fromEntries (pairEntries cross d comb)) p with
  | none =>
    rw [dget_none] at hd
    have hno : ∀ v, (p, v) ∉ pairEntries cross d comb := fun v hv => hd _ hv rfl
    symm
    split
    · rename_i h
      cases ha : dget d ⟨p.ant1, p.rx1, p.sb, p.chunk⟩ with
      | none => rfl
      | some a =>
        cases hb : dget d ⟨p.ant2, p.rx2, p.sb, p.chunk⟩ with
        | none => rfl
        | some b => exact absurd ((mem _).2 ⟨h, a, b, ha, hb, rfl⟩) (hno _)
    · rfl
  | some v =>
    obtain ⟨h, a, b, ha, hb, rfl⟩ := (mem v).1 (dget_mem _ _ _ hd)
    rw [if_pos h, ha, hb]
    rfl

section
variable {C K : Type}

/-- Antennas are listed once, and so are receivers, sidebands and windows. -/
structure Plain (f : File C K) : Prop where
  ants : f.ants.Nodup
  cols : (f.cols.map fun c => (c.rx1, c.sb, c.chunk)).Nodup

/-- Where the file has an antenna, receiver, sideband and window. -/
def Has (f : File C K) (a r s c i j : Nat) : Prop :=
  f.ants[i]? = some a ∧ ∃ col, f.cols[j]? = some col ∧ col.rx1 = r ∧ col.sb = s ∧ col.chunk = c

/-- Entries of arrays by antenna and column are found under their own antenna, receiver, sideband and window. -/
theorem dget_ant {β : Type} (f : File C K) (hf : Plain f) (g : Nat → Nat → β) {a r s c i j : Nat} (h : Has f a r s c i j) :
    dget (fromEntries (antEntries f g)) ⟨a, r, s, c⟩ = some (g i j) := by
  obtain ⟨h1, col, h2, rfl, rfl, rfl⟩ := h
  apply dget_eq
  · simp only [antEntries, List.mem_flatMap, List.mem_map, Prod.mk.injEq]
    exact ⟨(a, i), by rw [List.mem_zipIdx_iff_getElem?]; exact h1, (col, j), by rw [List.mem_zipIdx_iff_getElem?]; exact h2, rfl, rfl⟩
  · rintro ⟨k, v⟩ he hk
    simp only [antEntries, List.mem_flatMap, List.mem_map, Prod.mk.injEq] at he
    obtain ⟨⟨a', i'⟩, ha', ⟨col', j'⟩, hc', rfl, rfl⟩ := he
    simp only [List.mem_zipIdx_iff_getElem?] at ha' hc'
    simp only [Key.mk.injEq] at hk
    obtain ⟨rfl, k1, k2, k3⟩ := hk
    have e1 : i' = i := by
      obtain ⟨l1, q1⟩ := List.getElem?_eq_some_iff.1 ha'
      obtain ⟨l2, q2⟩ := List.getElem?_eq_some_iff.1 h1
      exact (List.Nodup.getElem_inj_iff hf.ants).1 (q1.trans q2.symm)
    have e2 : j' = j := by
      obtain ⟨l1, q1⟩ := List.getElem?_eq_some_iff.1 hc'
      obtain ⟨l2, q2⟩ := List.getElem?_eq_some_iff.1 h2
      refine (List.Nodup.getElem_inj_iff hf.cols (hi := by simpa using l1) (hj := by simpa using l2)).1 ?_
      simp only [List.getElem_map, q1, q2, k1, k2, k3]
    simp only [e1, e2]

/-- Without the antenna, or without the receiver, sideband and window, there is no entry. -/
theorem dget_no_ant {β : Type} (f : File C K) (g : Nat → Nat → β) {a r s c : Nat} (h : ∀ i j, ¬ Has f a r s c i j) :
    dget (fromEntries (antEntries f g)) ⟨a, r, s, c⟩ = none := by
  rw [dget_none]
  rintro ⟨k, v⟩ he hk
  simp only [antEntries, List.mem_flatMap, List.mem_map, Prod.mk.injEq] at he
  obtain ⟨⟨a', i'⟩, ha', ⟨col', j'⟩, hc', rfl, rfl⟩ := he
  simp only [List.mem_zipIdx_iff_getElem?] at ha' hc'
  simp only [Key.mk.injEq] at hk
  obtain ⟨rfl, k1, k2, k3⟩ := hk
  exact h i' j' ⟨ha', col', hc', k1, k2, k3⟩

end

end Verif.Compass
