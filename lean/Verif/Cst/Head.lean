import Verif.Cst.Name

/-! # The header -/

namespace Verif.Cst

open Verif.Pol (Str)

/-- How a column is written. -/
def part (c : Str × Str) : Str := c.1 ++ '[' :: c.2

/-- How columns are written. -/
def text : List (Str × Str) → Str
  | [] => []
  | c :: l => part c ++ ']' :: text l

/-- A name of a column as it is compared: small letters and no blanks. -/
def plainName (s : Str) : Str := (lower s).filter (fun c => c ≠ ' ')

theorem splitOn_text {l : List (Str × Str)} (h : ∀ c ∈ l, ']' ∉ part c) : (text l).splitOn ']' = l.map part ++ [[]] := by
  induction l with
  | nil => simp [text]
  | cons c l ih =>
    rw [text, List.splitOn_append_cons_self_of_not_mem (h c (by simp)), ih (fun c hc => h c (by simp [hc]))]
    rfl

theorem part_ne (c : Str × Str) : part c ≠ [] := by simp [part]

theorem column_part {c : Str × Str} (h1 : '[' ∉ c.1) (h2 : '[' ∉ c.2) : column (part c) = some (plainName c.1, strip (lower c.2)) := by
  unfold column part
  rw [List.splitOn_append_cons_self_of_not_mem h1, List.splitOn_eq_singleton h2]
  rfl

theorem mapM_map_some {α β γ : Type} {f : β → Option γ} {g : α → β} {k : α → γ} : ∀ {l : List α} (_ : ∀ c ∈ l, f (g c) = some (k c)),
    (l.map g).mapM f = some (l.map k)
  | [], _ => by simp
  | c :: l, h => by
    simp [List.map_cons, List.mapM_cons, h c (by simp), mapM_map_some (l := l) (fun c hc => h c (by simp [hc]))]

theorem dropWhile_stop {p : Char → Bool} {n rest : Str} {c : Char} (hc : p c = false) :
    (n ++ c :: rest).dropWhile p = n.dropWhile p ++ c :: rest := by
  induction n with
  | nil => simp [hc]
  | cons x n ih =>
    by_cases hx : p x <;> simp [hx, ih]

theorem dropWhile_ws {p : Char → Bool} {a b : Str} (h : ∀ c ∈ a, p c = true) : (a ++ b).dropWhile p = b.dropWhile p := by
  induction a with
  | nil => rfl
  | cons x a ih => simp [h x (by simp), ih (fun c hc => h c (by simp [hc]))]

theorem text_last {l : List (Str × Str)} (hl : l ≠ []) : ∃ t, text l = t ++ [']'] := by
  induction l with
  | nil => exact absurd rfl hl
  | cons c l ih =>
    by_cases h : l = []
    · subst h; exact ⟨part c, by simp [text]⟩
    · obtain ⟨t, ht⟩ := ih h
      exact ⟨part c ++ ']' :: t, by simp [text, ht]⟩

theorem rdrop_text {l : List (Str × Str)} (hl : l ≠ []) {ws : Str} (hw : ∀ c ∈ ws, isSpace c = true) :
    (text l ++ ws).rdropWhile isSpace = text l := by
  obtain ⟨t, ht⟩ := text_last hl
  unfold List.rdropWhile
  rw [List.reverse_append, dropWhile_ws (fun c hc => hw c (by simpa using hc)), ht]
  simp [isSpace]

theorem lower_space (s : Str) : (lower (s.dropWhile isSpace)).filter (fun c => c ≠ ' ') = plainName (s.dropWhile isSpace) := rfl

theorem plainName_drop {s : Str} (h : ∀ c ∈ s, isSpace c = true → c = ' ') : plainName (s.dropWhile isSpace) = plainName s := by
  induction s with
  | nil => rfl
  | cons c s ih =>
    by_cases hc : isSpace c = true
    · have : c = ' ' := h c (by simp) hc
      subst this
      simp only [List.dropWhile_cons, hc, if_true]
      rw [ih (fun c hc => h c (by simp [hc]))]
      simp [plainName, lower]
    · simp [hc]

/-- **C185.** Columns of a header are found with their names in small letters without blanks and with their units, for any columns whose texts
contain no brackets and no white space other than blanks in names, with any white space around the line. -/
theorem header_text {ws ws' : Str} {cols : List (Str × Str)} (hne : cols ≠ []) (hw : ∀ c ∈ ws, isSpace c = true) (hw' : ∀ c ∈ ws', isSpace c = true)
    (hb : ∀ c ∈ cols, (∀ x ∈ c.1, x ≠ '[' ∧ x ≠ ']' ∧ (isSpace x = true → x = ' ')) ∧ (∀ x ∈ c.2, x ≠ '[' ∧ x ≠ ']')) :
    header (ws ++ text cols ++ ws') = some (cols.map fun c => (plainName c.1, strip (lower c.2))) := by
  obtain ⟨⟨n, u⟩, l, rfl⟩ := List.exists_cons_of_ne_nil hne
  have hs : strip (ws ++ text ((n, u) :: l) ++ ws') = text ((n.dropWhile isSpace, u) :: l) := by
    unfold strip
    rw [List.append_assoc, dropWhile_ws hw]
    simp only [text, part, List.append_assoc, List.cons_append]
    rw [dropWhile_stop (by decide)]
    have := rdrop_text (l := (n.dropWhile isSpace, u) :: l) (by simp) hw'
    simpa [text, part, List.append_assoc] using this
  have hb' : ∀ c ∈ (n.dropWhile isSpace, u) :: l, '[' ∉ c.1 ∧ '[' ∉ c.2 ∧ ']' ∉ part c := by
    intro c hc
    rcases List.mem_cons.1 hc with rfl | hc
    · have h := hb (n, u) (by simp)
      have hsub : ∀ x ∈ n.dropWhile isSpace, x ∈ n := fun x hx => (List.dropWhile_sublist isSpace).mem hx
      refine ⟨fun hx => (h.1 _ (hsub _ hx)).1 rfl, fun hx => (h.2 _ hx).1 rfl, fun hx => ?_⟩
      simp only [part, List.mem_append, List.mem_cons] at hx
      rcases hx with hx | hx | hx
      · exact (h.1 _ (hsub _ hx)).2.1 rfl
      · exact absurd hx (by decide)
      · exact (h.2 _ hx).2 rfl
    · have h := hb c (by simp [hc])
      refine ⟨fun hx => (h.1 _ hx).1 rfl, fun hx => (h.2 _ hx).1 rfl, fun hx => ?_⟩
      simp only [part, List.mem_append, List.mem_cons] at hx
      rcases hx with hx | hx | hx
      · exact (h.1 _ hx).2.1 rfl
      · exact absurd hx (by decide)
      · exact (h.2 _ hx).2 rfl
  unfold header
  rw [hs, splitOn_text (fun c hc => (hb' c hc).2.2), List.filter_append]
  have hf : (((n.dropWhile isSpace, u) :: l).map part).filter (fun s => s ≠ []) = ((n.dropWhile isSpace, u) :: l).map part := by
    rw [List.filter_eq_self]
    intro s hs
    rw [List.mem_map] at hs
    obtain ⟨c, _, rfl⟩ := hs
    simp [part_ne c]
  rw [hf]
  simp only [ne_eq, not_true_eq_false, decide_false, List.filter_cons, List.filter_nil, Bool.false_eq_true, if_false, List.append_nil]
  rw [mapM_map_some (k := fun c => (plainName c.1, strip (lower c.2))) (fun c hc => column_part (hb' c hc).1 (hb' c hc).2.1)]
  have h1 := plainName_drop (s := n) (fun c hc => ((hb (n, u) (by simp)).1 c hc).2.2)
  simp [h1]

/-- **C185.** The first column of a name is taken, and there is none exactly if no column has this name. -/
theorem colOf_some {h : List (Str × Str)} {name : Str} {i : Nat} (e : colOf h name = some i) :
    (∃ u, h[i]? = some (name, u)) ∧ ∀ (j : Nat) (c : Str × Str), j < i → h[j]? = some c → c.1 ≠ name := by
  unfold colOf at e
  have hs := Np.whereIdx_sorted (fun c => decide (c.1 = name)) h
  obtain ⟨l, hl⟩ : ∃ l, Np.whereIdx (fun c => decide (c.1 = name)) h = i :: l := by
    cases hw : Np.whereIdx (fun c => decide (c.1 = name)) h with
    | nil => simp [hw] at e
    | cons a l => simp [hw] at e; exact ⟨l, by rw [e]⟩
  have hi : i ∈ Np.whereIdx (fun c => decide (c.1 = name)) h := by rw [hl]; simp
  rw [Np.mem_whereIdx] at hi
  refine ⟨?_, ?_⟩
  · obtain ⟨c, hc, hp⟩ := hi
    simp only [decide_eq_true_eq] at hp
    exact ⟨c.2, by rw [hc, ← hp]⟩
  · intro j c hj hc hn
    have : j ∈ Np.whereIdx (fun c => decide (c.1 = name)) h := by
      rw [Np.mem_whereIdx]
      exact ⟨c, hc, by simp [hn]⟩
    rw [hl] at this hs
    rcases List.mem_cons.1 this with rfl | hm
    · omega
    · have := (List.pairwise_cons.1 hs).1 j hm
      omega

theorem colOf_none {h : List (Str × Str)} {name : Str} : colOf h name = none ↔ ∀ c ∈ h, c.1 ≠ name := by
  unfold colOf
  rw [List.head?_eq_none_iff, List.eq_nil_iff_forall_not_mem]
  constructor
  · intro hh c hc hn
    obtain ⟨i, hi⟩ := List.mem_iff_getElem?.1 hc
    exact hh i (by rw [Np.mem_whereIdx]; exact ⟨c, hi, by simp [hn]⟩)
  · intro hh i hi
    rw [Np.mem_whereIdx] at hi
    obtain ⟨c, hc, hp⟩ := hi
    exact hh c (List.mem_of_getElem? hc) (by simpa using hp)

/-- **C185.** A power beam is read from a column `Abs(E)` or `Abs(V)` exactly if there is exactly one column of these names. -/
theorem powerCol_iff {h : List (Str × Str)} {i : Nat} :
    powerCol h = some i ↔ ∀ (j : Nat), (∃ c, h[j]? = some c ∧ (c.1 = "abs(e)".toList ∨ c.1 = "abs(v)".toList)) ↔ j = i := by
  have hm : ∀ (j : Nat), (∃ c, h[j]? = some c ∧ (c.1 = "abs(e)".toList ∨ c.1 = "abs(v)".toList)) ↔
      j ∈ Np.whereIdx (fun c => c.1 = "abs(e)".toList) h ++ Np.whereIdx (fun c => c.1 = "abs(v)".toList) h := by
    intro j
    simp only [List.mem_append, Np.mem_whereIdx, decide_eq_true_eq]
    constructor
    · rintro ⟨c, hc, h1 | h1⟩
      · exact Or.inl ⟨c, hc, h1⟩
      · exact Or.inr ⟨c, hc, h1⟩
    · rintro (⟨c, hc, h1⟩ | ⟨c, hc, h1⟩)
      · exact ⟨c, hc, Or.inl h1⟩
      · exact ⟨c, hc, Or.inr h1⟩
  have hnd : (Np.whereIdx (fun c => c.1 = "abs(e)".toList) h ++ Np.whereIdx (fun c => c.1 = "abs(v)".toList) h).Nodup := by
    rw [List.nodup_append]
    refine ⟨(Np.whereIdx_sorted _ h).imp (fun h => Nat.ne_of_lt h), (Np.whereIdx_sorted _ h).imp (fun h => Nat.ne_of_lt h), ?_⟩
    intro a ha b hb hab
    subst hab
    rw [Np.mem_whereIdx] at ha hb
    obtain ⟨c, hc, h1⟩ := ha
    obtain ⟨d, hd, h2⟩ := hb
    rw [hc] at hd
    obtain rfl := Option.some.inj hd
    simp only [decide_eq_true_eq] at h1 h2
    rw [h1] at h2
    exact absurd h2 (by decide)
  simp only [hm]
  unfold powerCol
  generalize Np.whereIdx (fun c => c.1 = "abs(e)".toList) h ++ Np.whereIdx (fun c => c.1 = "abs(v)".toList) h = l at hnd
  constructor
  · intro e
    match l, e with
    | [k], e =>
      obtain rfl := Option.some.inj e
      simp
  · intro e
    match l, e, hnd with
    | [], e, _ => exact absurd ((e i).2 rfl) (by simp)
    | [k], e, _ => simp [(e k).1 (by simp)]
    | a :: b :: l, e, hnd =>
      have h1 := (e a).1 (by simp)
      have h2 := (e b).1 (by simp)
      simp [h1, h2] at hnd

/-- **C185.** What is read as one of the known columns does not depend on large letters and blanks, but tabs are kept: such a name is not found. -/
theorem tab_counterexample (n : Str) (u : Str) : ∀ h, column (part (n ++ ['\t'], u)) = some h → ∀ x ∈ ["theta", "phi", "abs(e)", "abs(v)"], h.1 ≠ x.toList := by
  intro h e x hx hh
  unfold column at e
  split at e
  · rename_i a b hab
    obtain rfl := Option.some.inj e
    have htab : '\t' ∈ a := by
      unfold part at hab
      by_cases hn : '[' ∈ n
      · exfalso
        have hl := congrArg List.length hab
        obtain ⟨s, t, rfl⟩ := List.append_of_mem hn
        simp only [List.append_assoc, List.cons_append] at hl
        rw [List.splitOn_append_cons_self, List.length_append] at hl
        have h1 := List.length_pos_iff.2 (List.splitOn_ne_nil '[' s)
        have h2 : (List.splitOn '[' (t ++ ['\t'] ++ '[' :: u)).length = (List.splitOn '[' (t ++ ['\t'])).length + (List.splitOn '[' u).length := by
          rw [List.splitOn_append_cons_self, List.length_append]
        have h3 := List.length_pos_iff.2 (List.splitOn_ne_nil '[' (t ++ ['\t']))
        have h4 := List.length_pos_iff.2 (List.splitOn_ne_nil '[' u)
        simp only [List.append_assoc, List.cons_append, List.nil_append, List.length_cons, List.length_nil] at h2 hl h3
        omega
      · have hn' : '[' ∉ n ++ ['\t'] := by simp [hn]
        simp only [] at hab
        rw [List.splitOn_append_cons_self_of_not_mem hn'] at hab
        have := (List.cons.inj hab).1
        rw [← this]
        simp
    have : '\t' ∈ (lower a).filter (fun c => c ≠ ' ') := by
      rw [List.mem_filter]
      refine ⟨?_, by decide⟩
      unfold lower
      rw [List.mem_map]
      exact ⟨'\t', htab, by decide⟩
    simp only [] at hh
    rw [hh] at this
    simp only [List.mem_cons, List.not_mem_nil, or_false] at hx
    rcases hx with rfl | rfl | rfl | rfl <;> exact absurd this (by decide)
  · exact absurd e (by simp)

end Verif.Cst
