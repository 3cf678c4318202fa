import Verif.NewData.Labels

/-!
C122: integration times and widths of channels that are left out.
-/
namespace Verif.NewData
open Verif.Np

variable {K : Type} [Field K] [LinearOrder K]

/-- The next time is `g` seconds (times are in days) after `t`. -/
def GapAfter (times : List K) (t g : K) : Prop := ∃ s ∈ times, t < s ∧ (∀ u ∈ times, t < u → s ≤ u) ∧ g = (s - t) * 86400

/-- The previous time is `g` seconds before `t`. -/
def GapBefore (times : List K) (t g : K) : Prop := ∃ s ∈ times, s < t ∧ (∀ u ∈ times, u < t → u ≤ s) ∧ g = (t - s) * 86400

/-- The documented integration time of `t`: up to the next time, for the last one as for the one before it, one second for a single time. -/
def Inferred (times : List K) (t g : K) : Prop :=
  GapAfter times t g ∨ ((∀ u ∈ times, u ≤ t) ∧ GapBefore times t g) ∨ ((∀ u ∈ times, u = t) ∧ g = 1)

omit [LinearOrder K] in
theorem diffs_get (l : List K) (k : Nat) : (diffs l)[k]? = (l[k]?).bind (fun a => (l[k + 1]?).map (fun b => b - a)) := by
  unfold diffs
  rw [List.getElem?_zipWith, List.getElem?_tail]
  cases l[k]? <;> cases l[k + 1]? <;> rfl

omit [LinearOrder K] in
theorem diffs_length (l : List K) : (diffs l).length = l.length - 1 := by
  simp [diffs]

omit [LinearOrder K] in
theorem gaps_length {l : List K} (h : 1 < l.length) : (gaps l).length = l.length := by
  unfold gaps
  have : diffs l ≠ [] := by
    intro e
    have := diffs_length l
    rw [e] at this
    simp at this
    omega
  rw [List.length_append, diffs_length, List.getLast?_eq_some_getLast this]
  simp
  omega

omit [LinearOrder K] in
/-- The difference to the next entry, and the last one again. -/
theorem gaps_get {l : List K} (h : 1 < l.length) (k : Nat) (hk : k < l.length) :
    (gaps l)[k]? = if k + 1 < l.length then (l[k]?).bind (fun a => (l[k + 1]?).map (fun b => b - a))
      else (l[k - 1]?).bind (fun a => (l[k]?).map (fun b => b - a)) := by
  unfold gaps
  by_cases c : k + 1 < l.length
  · rw [if_pos c, List.getElem?_append_left (by rw [diffs_length]; omega), diffs_get]
  · rw [if_neg c, List.getElem?_append_right (by rw [diffs_length]; omega), diffs_length]
    have e : k - (l.length - 1) = 0 := by omega
    rw [e, List.getLast?_eq_getElem?, diffs_length, diffs_get]
    have e2 : l.length - 1 - 1 = k - 1 := by omega
    have e3 : k - 1 + 1 = k := by omega
    rw [e2, e3]
    cases l[k - 1]? <;> cases l[k]? <;> rfl

theorem sorted_get {l : List K} (hs : l.Pairwise (· < ·)) {i j : Nat} {a b : K} (hi : l[i]? = some a) (hj : l[j]? = some b) : i < j ↔ a < b := by
  have key : ∀ {i j : Nat} {a b : K}, l[i]? = some a → l[j]? = some b → i < j → a < b := by
    intro i j a b hi hj hij
    obtain ⟨h1, rfl⟩ := List.getElem?_eq_some_iff.1 hi
    obtain ⟨h2, rfl⟩ := List.getElem?_eq_some_iff.1 hj
    exact List.pairwise_iff_getElem.1 hs i j h1 h2 hij
  refine ⟨key hi hj, fun hab => ?_⟩
  rcases Nat.lt_trichotomy i j with h | h | h
  · exact h
  · subst h
    rw [hi] at hj
    injection hj with hj
    exact absurd hab (by rw [hj]; exact lt_irrefl _)
  · exact absurd (key hj hi h) (not_lt.2 hab.le)

/-- In a rising list the gaps are the documented ones. -/
theorem rising_inferred {l : List K} (hs : l.Pairwise (· < ·)) (k : Nat) (t : K) (ht : l[k]? = some t) :
    ∃ g, (if 1 < l.length then gaps (l.map (· * 86400)) else [1])[k]? = some g ∧ Inferred l t g := by
  have hk := (List.getElem?_eq_some_iff.1 ht).1
  by_cases c : 1 < l.length
  · rw [if_pos c, gaps_get (by simpa using c) k (by simpa using hk)]
    simp only [List.length_map, List.getElem?_map, ht, Option.map_some, Option.bind_some]
    by_cases c2 : k + 1 < l.length
    · have hn := List.getElem?_eq_getElem c2
      rw [if_pos c2, hn]
      refine ⟨_, rfl, Or.inl ⟨_, List.getElem_mem c2, (sorted_get hs ht hn).1 (by omega), ?_, by simp [sub_mul]⟩⟩
      intro u hu htu
      obtain ⟨j, hj⟩ := List.getElem?_of_mem hu
      by_contra hlt
      push Not at hlt
      have a1 := (sorted_get hs ht hj).2 htu
      have a2 := (sorted_get hs hj hn).2 hlt
      omega
    · have hp : k - 1 < l.length := by omega
      have hn := List.getElem?_eq_getElem hp
      rw [if_neg c2, hn]
      refine ⟨_, rfl, Or.inr (Or.inl ⟨?_, _, List.getElem_mem hp, (sorted_get hs hn ht).1 (by omega), ?_, by simp [sub_mul]⟩)⟩
      · intro u hu
        obtain ⟨j, hj⟩ := List.getElem?_of_mem hu
        by_contra hlt
        push Not at hlt
        have a1 := (sorted_get hs ht hj).2 hlt
        have a2 := (List.getElem?_eq_some_iff.1 hj).1
        omega
      · intro u hu htu
        obtain ⟨j, hj⟩ := List.getElem?_of_mem hu
        by_contra hlt
        push Not at hlt
        have a1 := (sorted_get hs hn hj).2 hlt
        have a2 := (sorted_get hs hj ht).2 htu
        omega
  · rw [if_neg c]
    have hk0 : k = 0 := by omega
    subst hk0
    refine ⟨1, rfl, Or.inr (Or.inr ⟨?_, rfl⟩)⟩
    intro u hu
    obtain ⟨j, hj⟩ := List.getElem?_of_mem hu
    have a2 := (List.getElem?_eq_some_iff.1 hj).1
    have : j = 0 := by omega
    subst this
    rw [ht] at hj
    exact (Option.some.inj hj).symm

theorem inferred_unique {times : List K} {t g : K} (h : Inferred (unique times) t g) : Inferred times t g := by
  simpa only [Inferred, GapAfter, GapBefore, mem_unique] using h

/-- C122: when integration times can be left out. -/
theorem left_out_iff (lst : K → K) (times : List K) : (∃ r, timeParams lst times .none = .ok r) ↔ times ≠ [] ∧ times.Nodup := by
  unfold timeParams
  by_cases c : 1 < (unique times).length
  · have hl : (inferTimes times .none).length = (unique times).length := by
      simp only [inferTimes, if_pos c]
      rw [gaps_length (by simpa using c), List.length_map]
    rw [hl]
    constructor
    · rintro ⟨r, hr⟩
      split at hr
      · cases hr
      · rename_i h
        refine ⟨?_, unique_full (by simpa using h)⟩
        rintro rfl
        simp [unique] at c
    · rintro ⟨_, hn⟩
      rw [if_neg (by simpa using unique_of_nodup hn)]
      exact ⟨_, rfl⟩
  · have hl : (inferTimes times .none).length = 1 := by simp only [inferTimes, if_neg c]; rfl
    rw [hl]
    constructor
    · rintro ⟨r, hr⟩
      split at hr
      · cases hr
      · rename_i h
        push Not at h
        refine ⟨by rintro rfl; simp at h, ?_⟩
        obtain ⟨x, rfl⟩ := List.length_eq_one_iff.1 h.symm
        simp
    · rintro ⟨hne, hn⟩
      have := unique_of_nodup hn
      have hp := List.length_pos_iff.2 hne
      rw [if_neg (by omega)]
      exact ⟨_, rfl⟩

/-- C122: each row has the documented integration time, if the times rise or are the faster axis. -/
theorem outer_inferred_partial {lst : K → K} {nants : List Nat} {times : List K} {ap : Option (List (Nat × Nat))} {outer rect tf : Option Bool}
    {n : New K} (h : newRows lst nants times ap .none outer rect tf = .ok n) (hw : WantsOuter times ap outer)
    (hs : tf = some true ∨ times.Pairwise (· < ·)) (j : Nat) (t : K) (hj : n.times[j]? = some t) :
    ∃ g, n.intg[j]? = some g ∧ Inferred times t g := by
  obtain ⟨-, hil, -, hsrc⟩ := outer_sources h hw
  obtain ⟨k, hk, g1, -, g3, -⟩ := hsrc j (List.getElem?_eq_some_iff.1 hj).1
  have hu : (if tf = some true then unique times else times) = unique times := by
    by_cases c : tf = some true
    · rw [if_pos c]
    · rw [if_neg c, unique_of_sorted (hs.resolve_left c)]
  rw [hu, hj] at g1
  obtain ⟨g, e1, e2⟩ := rising_inferred (unique_sorted times) k t g1.symm
  exact ⟨g, by rw [g3]; exact e1, inferred_unique e2⟩

/-- C122: widths of channels that are left out: the difference to the next channel, and the last one again; for several channels they are refused never. -/
theorem widths {freqs w : List K} (h : freqParams freqs .none = .ok w) (k : Nat) (f : K) (hf : freqs[k]? = some f) :
    (∀ f', freqs[k + 1]? = some f' → w[k]? = some (f' - f)) ∧
    (k + 1 = freqs.length → (∀ f', 0 < k → freqs[k - 1]? = some f' → w[k]? = some (f - f')) ∧ (k = 0 → w[k]? = some 1)) := by
  have hk := (List.getElem?_eq_some_iff.1 hf).1
  have hw : w = if 1 < freqs.length then gaps freqs else [1] := by
    unfold freqParams at h
    split at h
    · cases h
    · injection h with h
      rw [← h]
      rfl
  by_cases c : 1 < freqs.length
  · rw [if_pos c] at hw
    subst hw
    rw [gaps_get c k hk]
    refine ⟨?_, ?_⟩
    · intro f' hf'
      rw [if_pos (List.getElem?_eq_some_iff.1 hf').1, hf, hf']
      rfl
    · intro hl
      refine ⟨?_, fun e => by omega⟩
      intro f' _ hf'
      rw [if_neg (by omega), hf, hf']
      rfl
  · rw [if_neg c] at hw
    subst hw
    have hk0 : k = 0 := by omega
    subst hk0
    refine ⟨?_, fun _ => ⟨fun _ h0 => absurd h0 (by omega), fun _ => rfl⟩⟩
    intro f' hf'
    have := (List.getElem?_eq_some_iff.1 hf').1
    omega

/-- C122: widths can always be left out. -/
theorem widths_accepted (freqs : List K) (h : freqs ≠ []) : ∃ w, freqParams freqs .none = .ok w ∧ w.length = freqs.length := by
  have hp := List.length_pos_iff.2 h
  unfold freqParams
  by_cases c : 1 < freqs.length
  · have : (inferWidths freqs .none).length = freqs.length := by
      simp only [inferWidths, if_pos c]
      exact gaps_length c
    rw [if_neg (by simpa using this)]
    exact ⟨_, rfl, this⟩
  · have : (inferWidths freqs .none).length = freqs.length := by
      simp only [inferWidths, if_neg c, List.length_singleton]
      omega
    rw [if_neg (by simpa using this)]
    exact ⟨_, rfl, this⟩

/-- C122, the fault: for falling frequencies every width is negative. -/
theorem falling_negative [IsStrictOrderedRing K] {freqs w : List K} (h : freqParams freqs .none = .ok w) (hf : freqs.Pairwise (· > ·)) (h1 : 1 < freqs.length) :
    ∀ x ∈ w, x < 0 := by
  intro x hx
  obtain ⟨w', hw', hl⟩ := widths_accepted freqs (by rintro rfl; simp at h1)
  rw [h] at hw'
  injection hw' with hw'
  subst hw'
  obtain ⟨k, hk⟩ := List.getElem?_of_mem hx
  have hkl : k < freqs.length := by rw [← hl]; exact (List.getElem?_eq_some_iff.1 hk).1
  have hfk := List.getElem?_eq_getElem hkl
  obtain ⟨a1, a2⟩ := widths h k _ hfk
  have mono : ∀ i j (hi : i < freqs.length) (hj : j < freqs.length), i < j → freqs[j] < freqs[i] :=
    fun i j hi hj hij => List.pairwise_iff_getElem.1 hf i j hi hj hij
  by_cases c : k + 1 < freqs.length
  · have := a1 _ (List.getElem?_eq_getElem c)
    rw [hk] at this
    injection this with this
    rw [this]
    have := mono k (k + 1) hkl c (by omega)
    linarith
  · have hp : k - 1 < freqs.length := by omega
    have := (a2 (by omega)).1 _ (by omega) (List.getElem?_eq_getElem hp)
    rw [hk] at this
    injection this with this
    rw [this]
    have := mono (k - 1) k hp hkl (by omega)
    linarith

end Verif.NewData
