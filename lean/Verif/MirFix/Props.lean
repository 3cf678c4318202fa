import Verif.MirFix.Model

/-! # C226: repaired positions of the integrations of MIR files -/
set_option linter.unusedSectionVars false

namespace Verif.MirFix

variable {E : Type}

theorem lookup_del {α : Type} (d : List (Nat × α)) (k n : Nat) : (del d k).lookup n = if n = k then none else d.lookup n := by
  unfold del
  induction d with
  | nil => simp
  | cons e d ih =>
    obtain ⟨a, b⟩ := e
    by_cases ha : a = k
    · subst ha
      rw [List.filter_cons_of_neg (by simp), ih]
      by_cases h : n = a
      · simp [h]
      · have : (n == a) = false := by simpa using h
        simp [h, List.lookup_cons, this]
    · rw [List.filter_cons_of_pos (by simpa using ha), List.lookup_cons, List.lookup_cons, ih]
      by_cases h : n = a
      · subst h
        simp [ha]
      · have : (n == a) = false := by simpa using h
        simp [this]

theorem lookup_put {α : Type} (d : List (Nat × α)) (k : Nat) (v : α) (n : Nat) :
    (put d k v).lookup n = if n = k then some v else d.lookup n := by
  have h1 : put d k v = del d k ++ [(k, v)] := rfl
  rw [h1, List.lookup_append, lookup_del]
  by_cases h : n = k
  · subst h
    simp
  · have : (n == k) = false := by simpa using h
    simp [h, List.lookup, this]

theorem mem_put {α : Type} {d : List (Nat × α)} {k : Nat} {v : α} {p : Nat × α} :
    p ∈ put d k v ↔ (p ∈ d ∧ p.1 ≠ k) ∨ p = (k, v) := by
  simp [put]

/-- With different numbers in the file, the map has one pair for each integration. -/
theorem mem_map (fileId : E → Nat) : ∀ (ints : List (Nat × E)), (ints.map fun e => fileId e.2).Nodup → ∀ (acc : List (Nat × Nat)),
    (∀ p ∈ acc, p.1 ∉ ints.map fun e => fileId e.2) → ∀ p,
    (p ∈ ints.foldl (fun m e => put m (fileId e.2) e.1) acc ↔ p ∈ acc ∨ ∃ e ∈ ints, p = (fileId e.2, e.1))
  | [], _, _, _, p => by simp
  | e :: ints, hn, acc, ha, p => by
    simp only [List.map_cons, List.nodup_cons] at hn
    rw [List.foldl_cons, mem_map fileId ints hn.2 _ ?_ p, mem_put]
    · have h2 : p ∈ acc → p.1 ≠ fileId e.2 := fun hp he => ha p hp (by simp [he])
      constructor
      · rintro ((⟨h, _⟩ | h) | ⟨x, hx, h⟩)
        · exact Or.inl h
        · exact Or.inr ⟨e, by simp, h⟩
        · exact Or.inr ⟨x, by simp [hx], h⟩
      · rintro (h | ⟨x, hx, h⟩)
        · exact Or.inl (Or.inl ⟨h, h2 h⟩)
        · rcases List.mem_cons.1 hx with rfl | hx
          · exact Or.inl (Or.inr h)
          · exact Or.inr ⟨x, hx, h⟩
    · intro q hq
      rcases mem_put.1 hq with ⟨hq, _⟩ | rfl
      · exact fun hm => ha q hq (by simp only [List.map_cons, List.mem_cons]; exact Or.inr hm)
      · exact hn.1

theorem lookup_drops {α : Type} (l : List (Nat × Nat)) (d : List (Nat × α)) (n : Nat) :
    (l.foldl (fun d p => del d p.2) d).lookup n = if n ∈ l.map Prod.snd then none else d.lookup n := by
  induction l generalizing d with
  | nil => simp
  | cons p l ih =>
    rw [List.foldl_cons, ih, lookup_del]
    by_cases h1 : n ∈ l.map Prod.snd
    · simp [h1]
    · by_cases h2 : n = p.2
      · simp [h2]
      · simp only [h1, h2, if_false, List.map_cons, List.mem_cons, or_self]

theorem lookup_update (scanned : List (Nat × E)) (l : List (Nat × Nat)) (d : List (Nat × E)) (n : Nat)
    (hf : ∀ p ∈ l, ∀ q ∈ l, p.2 = q.2 → p.1 = q.1) :
    (∀ k e, (k, n) ∈ l → scanned.lookup k = some e → (update scanned l d).lookup n = some e) ∧
      ((∀ k, (k, n) ∈ l → scanned.lookup k = none) → (update scanned l d).lookup n = d.lookup n) := by
  unfold update
  induction l generalizing d with
  | nil => simp
  | cons p l ih =>
    obtain ⟨a, b⟩ := p
    have hf' : ∀ p ∈ l, ∀ q ∈ l, p.2 = q.2 → p.1 = q.1 := fun p hp q hq => hf p (by simp [hp]) q (by simp [hq])
    refine ⟨?_, ?_⟩
    · intro k e hk hs
      rw [List.foldl_cons]
      by_cases hl : (k, n) ∈ l
      · exact (ih _ hf').1 k e hl hs
      · have hkab : (k, n) = (a, b) := by simpa [hl] using hk
        simp only [Prod.mk.injEq] at hkab
        obtain ⟨rfl, rfl⟩ := hkab
        rw [(ih _ hf').2 fun k' hk' => absurd hk' (by
          have := hf (k', n) (by simp [hk']) (k, n) (by simp) rfl
          dsimp only at this
          rw [this]
          exact hl)]
        simp only [hs]
        rw [lookup_put, if_pos rfl]
    · intro hk
      rw [List.foldl_cons, (ih _ hf').2 fun k hkl => hk k (by simp [hkl])]
      cases hs : scanned.lookup a with
      | none => rfl
      | some e =>
        dsimp only
        rw [lookup_put, if_neg]
        rintro rfl
        have := hk a (by simp)
        rw [hs] at this
        simp at this

theorem lookup_mem {α : Type} {d : List (Nat × α)} (hn : (d.map Prod.fst).Nodup) {n : Nat} {v : α} :
    (n, v) ∈ d ↔ d.lookup n = some v := by
  induction d with
  | nil => simp
  | cons e d ih =>
    obtain ⟨a, b⟩ := e
    simp only [List.map_cons, List.nodup_cons] at hn
    rw [List.lookup_cons]
    by_cases h : n = a
    · subst h
      have hnot : (n, v) ∉ d := fun hm => hn.1 (List.mem_map.2 ⟨_, hm, rfl⟩)
      simp only [List.mem_cons, hnot, or_false, Prod.mk.injEq, true_and, beq_self_eq_true, Option.some.injEq]
      exact ⟨Eq.symm, Eq.symm⟩
    · have h' : (n == a) = false := by simpa using h
      rw [h', ← ih hn.2]
      simp [h]

/-- **C226.** After the repair each integration of the object has the position that has been found in the file for its number in the
file, and those that have not been found are not there any more; no others are there. -/
theorem fixed (fileId : E → Nat) {ints scanned : List (Nat × E)} (hk : (ints.map Prod.fst).Nodup)
    (hf : (ints.map fun e => fileId e.2).Nodup) (n : Nat) :
    (fix fileId ints scanned).lookup n = (ints.lookup n).bind fun e => scanned.lookup (fileId e) := by
  have hmem : ∀ p, p ∈ inhidMap fileId ints ↔ ∃ e ∈ ints, p = (fileId e.2, e.1) := by
    intro p
    have := mem_map fileId ints hf [] (by simp) p
    simpa [inhidMap] using this
  have hfun : ∀ p ∈ inhidMap fileId ints, ∀ q ∈ inhidMap fileId ints, p.2 = q.2 → p.1 = q.1 := by
    intro p hp q hq he
    obtain ⟨⟨i, x⟩, hx, rfl⟩ := (hmem p).1 hp
    obtain ⟨⟨j, y⟩, hy, rfl⟩ := (hmem q).1 hq
    dsimp only at he ⊢
    subst he
    have h1 := (lookup_mem hk).1 hx
    rw [(lookup_mem hk).1 hy] at h1
    rw [Option.some.inj h1]
  obtain ⟨h1, h2⟩ := lookup_update scanned (inhidMap fileId ints) (drop scanned (inhidMap fileId ints) ints) n hfun
  unfold fix
  dsimp only
  cases hl : ints.lookup n with
  | none =>
    have hno : ∀ k, (k, n) ∉ inhidMap fileId ints := by
      intro k hm
      obtain ⟨⟨i, x⟩, hx, he⟩ := (hmem _).1 hm
      simp only [Prod.mk.injEq] at he
      obtain ⟨_, rfl⟩ := he
      rw [(lookup_mem hk).1 hx] at hl
      simp at hl
    rw [h2 fun k hm => absurd hm (hno k)]
    unfold drop
    rw [lookup_drops]
    simp [hl]
  | some e =>
    have hin := (lookup_mem hk).2 hl
    have hm : (fileId e, n) ∈ inhidMap fileId ints := (hmem _).2 ⟨(n, e), hin, rfl⟩
    cases hs : scanned.lookup (fileId e) with
    | some v =>
      rw [h1 _ v hm hs]
      simp [hs]
    | none =>
      rw [h2 fun k hkm => by
        have := hfun _ hkm _ hm rfl
        dsimp only at this
        rw [this, hs]]
      unfold drop
      rw [lookup_drops, if_pos]
      · simp [hs]
      · exact List.mem_map.2 ⟨(fileId e, n), List.mem_filter.2 ⟨hm, by simp [hs]⟩, rfl⟩

end Verif.MirFix
