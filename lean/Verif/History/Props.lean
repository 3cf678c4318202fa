import Verif.History.Model

/-! C40: the history that is appended. -/
namespace Verif.History
open Verif.Pol (Str)

/-- `ws` are the words of `s`: pieces without blanks that, joined by single blanks, give `s`. -/
def WordsOf (s : Str) (ws : List Str) : Prop := ws ≠ [] ∧ (∀ w ∈ ws, ' ' ∉ w) ∧ [' '].intercalate ws = s

theorem words_unique : ∀ {ws vs : List Str} {s : Str}, WordsOf s ws → WordsOf s vs → ws = vs := by
  intro ws vs s h1 h2
  have a := List.splitOn_intercalate ' ' h1.2.1 h1.1
  have b := List.splitOn_intercalate ' ' h2.2.1 h2.1
  rw [h1.2.2] at a
  rw [h2.2.2] at b
  exact a.symm.trans b

/-- The text in which words are looked for. -/
def frame (ws : List Str) : Str := ' ' :: ws.flatMap (fun w => w ++ [' '])

theorem frame_words {s : Str} {ws : List Str} (h : WordsOf s ws) : [' '] ++ s ++ [' '] = frame ws := by
  obtain ⟨h1, h2, rfl⟩ := h
  clear h2
  unfold frame
  simp only [List.cons_append, List.cons.injEq, true_and]
  induction ws with
  | nil => exact absurd rfl h1
  | cons w ws ih =>
    rcases ws with _ | ⟨v, ws⟩
    · simp [List.intercalate]
    · have := ih (by simp)
      rw [List.flatMap_cons, ← this]
      simp [List.intercalate_cons_cons]

theorem infix_skip {w v t : Str} (hv : ' ' ∉ v) : (' ' :: w) <:+: (v ++ t) ↔ (' ' :: w) <:+: t := by
  induction v with
  | nil => simp
  | cons c v ih =>
    have hc : c ≠ ' ' := fun h => hv (by simp [h])
    have hv' : ' ' ∉ v := fun h => hv (List.mem_cons_of_mem _ h)
    rw [List.cons_append, List.infix_cons_iff, ih hv']
    constructor
    · rintro (h | h)
      · exact absurd ((List.cons_prefix_cons.1 h).1.symm) hc
      · exact h
    · exact Or.inr

theorem prefix_word {w v t : Str} (hw : ' ' ∉ w) (hv : ' ' ∉ v) (h : (w ++ [' ']) <+: (v ++ ' ' :: t)) : w = v := by
  induction w generalizing v with
  | nil =>
    cases v with
    | nil => rfl
    | cons c v =>
      exact absurd (List.cons_prefix_cons.1 h).1 (fun h => hv (by rw [← h]; simp))
  | cons d w ih =>
    have hw' : ' ' ∉ w := fun h => hw (List.mem_cons_of_mem _ h)
    cases v with
    | nil =>
      exact absurd (List.cons_prefix_cons.1 h).1 (fun h => hw (by simp [h]))
    | cons c v =>
      have hv' : ' ' ∉ v := fun h => hv (List.mem_cons_of_mem _ h)
      obtain ⟨h1, h2⟩ := List.cons_prefix_cons.1 h
      rw [h1, ih hw' hv' h2]

theorem mem_frame {w : Str} {ws : List Str} (hw : ' ' ∉ w) (hws : ∀ v ∈ ws, ' ' ∉ v) :
    ([' '] ++ w ++ [' ']) <:+: frame ws ↔ w ∈ ws := by
  induction ws with
  | nil =>
    simp only [frame, List.flatMap_nil, List.not_mem_nil, iff_false]
    intro h
    have := h.length_le
    simp at this
  | cons v ws ih =>
    have hv := hws v (by simp)
    have ih' := ih (fun u hu => hws u (by simp [hu]))
    have e : frame (v :: ws) = ' ' :: (v ++ frame ws) := by simp [frame]
    rw [e, List.infix_cons_iff]
    have e2 : [' '] ++ w ++ [' '] = ' ' :: (w ++ [' ']) := by simp
    rw [e2, infix_skip hv, ← e2, ih', e2, List.mem_cons]
    constructor
    · rintro (h | h)
      · exact Or.inl (prefix_word hw hv (List.cons_prefix_cons.1 h).2)
      · exact Or.inr h
    · rintro (rfl | h)
      · left
        refine List.cons_prefix_cons.2 ⟨rfl, ?_⟩
        exact ⟨ws.flatMap (fun w => w ++ [' ']), by simp [frame]⟩
      · exact Or.inr h

theorem missing_iff {h1 w : Str} {ws1 : List Str} (hs : WordsOf h1 ws1) (hw : ' ' ∉ w) :
    missing ([' '] ++ h1 ++ [' ']) w = decide (w ∉ ws1) := by
  unfold missing
  rw [frame_words hs]
  exact decide_eq_decide.2 (not_congr (mem_frame hw hs.2.1))

/-- The words to be added, each with a blank before it. -/
def glue (ws : List Str) : Str := ws.flatMap (fun w => ' ' :: w)

theorem scan_gobble (test1 : Str) : ∀ (n : Nat) (l : List Str), l.length ≤ n → (∀ w ∈ l, ' ' ∉ w) → ∀ acc,
    scan test1 l acc = acc ++ glue (l.filter (missing test1)) ∧
    scan test1 (gobble test1 l acc).2 (gobble test1 l acc).1 = acc ++ glue (l.filter (missing test1)) := by
  intro n
  induction n with
  | zero =>
    intro l hl _ acc
    have : l = [] := List.length_eq_zero_iff.1 (by omega)
    subst this
    simp [scan, gobble, glue]
  | succ n ih =>
    intro l hl hw acc
    cases l with
    | nil => simp [scan, gobble, glue]
    | cons w l =>
      have hl' : l.length ≤ n := by simpa using hl
      have hw' : ∀ v ∈ l, ' ' ∉ v := fun v hv => hw v (by simp [hv])
      have hblank : w ≠ [' '] := fun h => hw w (by simp) (by simp [h])
      have first : scan test1 (w :: l) acc = acc ++ glue ((w :: l).filter (missing test1)) := by
        unfold scan
        by_cases hm : missing test1 w = true
        · rw [if_pos hm, List.filter_cons_of_pos hm, (ih l hl' hw' _).2]
          simp [glue]
        · rw [if_neg hm, List.filter_cons_of_neg hm, (ih l hl' hw' _).1]
      refine ⟨first, ?_⟩
      unfold gobble
      by_cases hm : missing test1 w = true
      · rw [if_pos (Or.inr hm), (ih l hl' hw' _).2, List.filter_cons_of_pos hm]
        simp [glue]
      · rw [if_neg (by rintro (h | h); exacts [hblank h, hm h])]
        exact first

/-- C40: with `ws1`, `ws2` the words of the two histories, nothing is added when they agree up to blanks and line
breaks or when every word of the second occurs in the first; otherwise exactly the missing words are added, in
order. -/
theorem history_addition (h1 h2 : Str) (ws1 ws2 : List Str) (hs1 : WordsOf h1 ws1) (hs2 : WordsOf h2 ws2) :
    addition h1 h2 =
      if h1.filter (fun c => c ≠ ' ' ∧ c ≠ '\n') = h2.filter (fun c => c ≠ ' ' ∧ c ≠ '\n') then none
      else if ∀ w ∈ ws2, w ∈ ws1 then none
      else some ((ws2.filter (fun w => w ∉ ws1)).flatMap (fun w => ' ' :: w)) := by
  have hsq : ∀ s : Str, squash s = s.filter (fun c => c ≠ ' ' ∧ c ≠ '\n') := by
    intro s
    unfold squash
    rw [List.filter_filter]
    apply List.filter_congr
    intro c _
    simp
  have hsplit : h2.splitOn ' ' = ws2 := by
    rw [← hs2.2.2]; exact List.splitOn_intercalate ' ' hs2.2.1 hs2.1
  have hscan := (scan_gobble ([' '] ++ h1 ++ [' ']) ws2.length ws2 le_rfl hs2.2.1 []).1
  have hfil : ws2.filter (missing ([' '] ++ h1 ++ [' '])) = ws2.filter (fun w => w ∉ ws1) := by
    apply List.filter_congr
    intro w hw
    rw [missing_iff hs1 (hs2.2.1 w hw)]
  rw [hfil, List.nil_append] at hscan
  unfold addition sameHistory
  simp only [hsq, decide_eq_true_eq, hsplit, hscan]
  split
  · rfl
  · by_cases hall : ∀ w ∈ ws2, w ∈ ws1
    · have : ws2.filter (fun w => w ∉ ws1) = [] := by
        rw [List.filter_eq_nil_iff]
        intro w hw
        simpa using hall w hw
      rw [if_pos hall, this]
      simp [glue]
    · have hne : ws2.filter (fun w => w ∉ ws1) ≠ [] := by
        intro h
        apply hall
        intro w hw
        by_contra hc
        have : w ∈ ws2.filter (fun w => w ∉ ws1) := List.mem_filter.2 ⟨hw, by simpa using hc⟩
        rw [h] at this
        exact List.not_mem_nil this
      rw [if_neg hall, if_neg]
      · rfl
      · intro h
        obtain ⟨v, hv⟩ := List.exists_mem_of_ne_nil _ hne
        unfold glue at h
        rw [List.flatMap_eq_nil_iff] at h
        exact absurd (h v hv) (by simp)

/-- Every string has words, so the theorem applies to every pair of histories. -/
theorem words_exist (s : Str) : ∃ ws, WordsOf s ws := by
  induction s with
  | nil => exact ⟨[[]], by simp, by simp, by simp⟩
  | cons c s ih =>
    obtain ⟨ws, h1, h2, h3⟩ := ih
    rcases ws with _ | ⟨w, ws⟩
    · exact absurd rfl h1
    by_cases hc : c = ' '
    · refine ⟨[] :: w :: ws, by simp, ?_, ?_⟩
      · intro v hv
        rcases List.mem_cons.1 hv with rfl | hv
        · simp
        · exact h2 v hv
      · rw [List.intercalate_cons_cons, h3, hc]; rfl
    · refine ⟨(c :: w) :: ws, by simp, ?_, ?_⟩
      · intro v hv
        rcases List.mem_cons.1 hv with rfl | hv
        · intro hm
          rcases List.mem_cons.1 hm with hm | hm
          · exact hc hm.symm
          · exact h2 w (by simp) hm
        · exact h2 v (by simp [hv])
      · rw [← h3]
        rcases ws with _ | ⟨v, ws⟩
        · simp
        · simp [List.intercalate_cons_cons]

/-- After appending, every word of the second history occurs in the result. -/
theorem history_complete (h1 h2 a : Str) (ws1 ws2 : List Str) (hs1 : WordsOf h1 ws1) (hs2 : WordsOf h2 ws2)
    (h : addition h1 h2 = some a) : ∃ ws, WordsOf (h1 ++ a) ws ∧ (∀ w ∈ ws2, w ∈ ws) ∧ (∃ extra, ws = ws1 ++ extra) := by
  rw [history_addition h1 h2 ws1 ws2 hs1 hs2] at h
  split at h
  · simp at h
  split at h
  · simp at h
  simp only [Option.some.injEq] at h
  refine ⟨ws1 ++ ws2.filter (fun w => w ∉ ws1), ⟨?_, ?_, ?_⟩, ?_, _, rfl⟩
  · intro hn
    exact hs1.1 (List.append_eq_nil_iff.1 hn).1
  · intro w hw
    rcases List.mem_append.1 hw with hw | hw
    · exact hs1.2.1 w hw
    · exact hs2.2.1 w (List.mem_filter.1 hw).1
  · rw [← h]
    have : ∀ (us vs : List Str), us ≠ [] →
        [' '].intercalate (us ++ vs) = [' '].intercalate us ++ vs.flatMap (fun w => ' ' :: w) := by
      intro us
      induction us with
      | nil => intro vs h; exact absurd rfl h
      | cons u us ih =>
        intro vs _
        rcases us with _ | ⟨v, us⟩
        · clear ih
          induction vs generalizing u with
          | nil => simp
          | cons v vs ihv =>
            have := ihv v (by simp)
            simp only [List.cons_append, List.nil_append] at this ⊢
            rw [List.intercalate_cons_cons, this]
            simp
        · have := ih vs (by simp)
          simp only [List.cons_append] at this ⊢
          rw [List.intercalate_cons_cons, List.intercalate_cons_cons, this]
          simp
    rw [this ws1 _ hs1.1, hs1.2.2]
  · intro w hw
    by_cases hm : w ∈ ws1
    · exact List.mem_append_left _ hm
    · exact List.mem_append_right _ (List.mem_filter.2 ⟨hw, by simpa using hm⟩)

example : addition "read a b".toList "read b c a d".toList = some " c d".toList := by decide +kernel
example : addition "x y".toList "y x".toList = none := by decide +kernel
example : addition "x y".toList "x\ny".toList = none := by decide +kernel

end Verif.History
