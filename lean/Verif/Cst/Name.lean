import Verif.Cst.Model

/-! # The frequency in a name -/

namespace Verif.Cst

open Verif.Pol (Str)

/-- Characters that can be a part of a number. -/
def numeric (c : Char) : Bool := c.isDigit || c = '.'

theorem takeWhile_append_stop {p : Char → Bool} {a b : Str} (h : ∃ c ∈ a, p c = false) :
    (a ++ b).takeWhile p = a.takeWhile p ∧ (a ++ b).dropWhile p = a.dropWhile p ++ b := by
  induction a with
  | nil => simp at h
  | cons c a ih =>
    by_cases hc : p c
    · have h' : ∃ c ∈ a, p c = false := by
        obtain ⟨x, hx, hp⟩ := h
        rcases List.mem_cons.1 hx with rfl | hx
        · simp [hc] at hp
        · exact ⟨x, hx, hp⟩
      simp [hc, ih h']
    · simp [hc]

theorem dropWhile_last {p : Char → Bool} {a : Str} (h : ∃ c ∈ a, p c = false)
    (hl : ∀ c ∈ a.getLast?, numeric c = false) : a.dropWhile p ≠ [] ∧ (∀ c ∈ (a.dropWhile p).getLast?, numeric c = false) := by
  have hne : a.dropWhile p ≠ [] := by
    intro e
    rw [List.dropWhile_eq_nil_iff] at e
    obtain ⟨c, hc, h0⟩ := h
    simp [e c hc] at h0
  refine ⟨hne, fun c hc => hl c ?_⟩
  have hs : a.dropWhile p <:+ a := List.dropWhile_suffix p
  obtain ⟨t, ht⟩ := hs
  rw [← ht, List.getLast?_append_of_ne_nil _ hne]
  exact hc

theorem last_stop {a : Str} (hne : a ≠ []) (hl : ∀ c ∈ a.getLast?, numeric c = false) {p : Char → Bool}
    (hp : ∀ c, p c = true → numeric c = true) : ∃ c ∈ a, p c = false := by
  refine ⟨a.getLast hne, List.getLast_mem hne, ?_⟩
  have := hl (a.getLast hne) (by rw [List.getLast?_eq_some_getLast hne]; rfl)
  by_contra h
  rw [hp _ (by simpa using h)] at this
  exact absurd this (by simp)

theorem digit_numeric (c : Char) : Char.isDigit c = true → numeric c = true := fun h => by simp [numeric, h]

/-- A match does not go beyond a character that cannot be a part of a number. -/
theorem number_append {a b : Str} (hne : a ≠ []) (hl : ∀ c ∈ a.getLast?, numeric c = false) :
    (∃ m a', number (a ++ b) = some (m, a' ++ b) ∧ a'.length < a.length ∧ (∀ c ∈ a'.getLast?, numeric c = false)) ∨
      number (a ++ b) = none := by
  have h1 := last_stop hne hl digit_numeric
  obtain ⟨e1, e2⟩ := takeWhile_append_stop (b := b) h1
  obtain ⟨n1, n2⟩ := dropWhile_last h1 hl
  unfold number
  rw [e1, e2]
  have hlen : (a.takeWhile Char.isDigit).length + (a.dropWhile Char.isDigit).length = a.length := by
    rw [← List.length_append, List.takeWhile_append_dropWhile]
  obtain ⟨c, r, hr⟩ := List.exists_cons_of_ne_nil n1
  rw [hr] at n2 hlen
  simp only [hr, List.cons_append]
  have hdef : ∀ (_ : a.takeWhile Char.isDigit ≠ []), ∃ m a', (some ((a.takeWhile Char.isDigit, ([] : Str)), c :: (r ++ b))) = some (m, a' ++ b) ∧
      a'.length < a.length ∧ (∀ c ∈ a'.getLast?, numeric c = false) := by
    intro hd
    refine ⟨_, c :: r, rfl, ?_, n2⟩
    have : 0 < (a.takeWhile Char.isDigit).length := List.length_pos_iff.2 hd
    simp only [List.length_cons] at hlen ⊢
    omega
  by_cases hc : c = '.'
  · subst hc
    have hrne : r ≠ [] := by
      rintro rfl
      exact absurd (n2 '.' (by simp)) (by decide)
    have n2' : ∀ c ∈ r.getLast?, numeric c = false := by
      intro x hx
      apply n2 x
      obtain ⟨y, s, rfl⟩ := List.exists_cons_of_ne_nil hrne
      simpa [List.getLast?_cons_cons] using hx
    have h2 := last_stop hrne n2' digit_numeric
    obtain ⟨f1, f2⟩ := takeWhile_append_stop (b := b) h2
    obtain ⟨_, m2⟩ := dropWhile_last h2 n2'
    simp only [f1, f2]
    by_cases ht : r.takeWhile Char.isDigit = []
    · by_cases hd : a.takeWhile Char.isDigit = []
      · right; simp [ht, hd]
      · left; simpa [ht, hd] using hdef hd
    · left
      simp only [ne_eq, ht, not_false_eq_true, if_true]
      refine ⟨_, _, rfl, ?_, m2⟩
      have := (List.dropWhile_suffix (l := r) Char.isDigit).length_le
      simp only [List.length_cons] at hlen
      omega
  · by_cases hd : a.takeWhile Char.isDigit = []
    · right
      split
      · rename_i heq; simp at heq; exact absurd heq.1 hc
      · simp [hd]
    · left
      split
      · rename_i heq; simp at heq; exact absurd heq.1 hc
      · simpa [hd] using hdef hd

theorem findall_none {s : Str} (h : ∀ c ∈ s, c.isDigit = false) : ∀ n, findall n s = []
  | 0 => rfl
  | n + 1 => by
    have hn : number s = none := by
      unfold number
      have e1 : s.takeWhile Char.isDigit = [] := by
        cases s with
        | nil => rfl
        | cons c s => simp [h c (by simp)]
      have e2 : s.dropWhile Char.isDigit = s := by
        cases s with
        | nil => rfl
        | cons c s => simp [h c (by simp)]
      rw [e1, e2]
      cases s with
      | nil => simp
      | cons c s =>
        by_cases hc : c = '.'
        · subst hc
          have e3 : s.takeWhile Char.isDigit = [] := by
            cases s with
            | nil => rfl
            | cons c s => simp [h c (by simp)]
          simp [e3]
        · simp only []
          split
          · rename_i heq; simp at heq; exact absurd heq.1 hc
          · simp
    rw [findall]
    simp only [hn]
    exact findall_none (fun c hc => h c (List.mem_of_mem_drop hc)) n

/-- A number as it is written: digits, with a point and further digits or without. -/
def written (ds fr : Str) : Str := if fr = [] then ds else ds ++ '.' :: fr

theorem takeWhile_all {p : Char → Bool} {a b : Str} (h : ∀ c ∈ a, p c = true) (hb : ∀ c ∈ b.head?, p c = false) :
    (a ++ b).takeWhile p = a ∧ (a ++ b).dropWhile p = b := by
  induction a with
  | nil =>
    cases b with
    | nil => simp
    | cons c b => simp [hb c (by simp)]
  | cons c a ih => simp [h c (by simp), ih (fun c hc => h c (by simp [hc]))]

theorem number_written {ds fr gap : Str} (hd : ∀ c ∈ ds, c.isDigit = true) (hf : ∀ c ∈ fr, c.isDigit = true) (hne : ds ≠ [] ∨ fr ≠ [])
    (hg : ∀ c ∈ gap, c.isDigit = false) : number (written ds fr ++ gap) = some ((ds, fr), gap) := by
  have hgh : ∀ c ∈ gap.head?, c.isDigit = false := fun c hc => hg c (List.mem_of_mem_head? hc)
  unfold written number
  by_cases hfr : fr = []
  · subst hfr
    have hds : ds ≠ [] := by rcases hne with h | h; exact h; exact absurd rfl h
    obtain ⟨e1, e2⟩ := takeWhile_all hd hgh
    simp only [if_true, e1, e2]
    split
    · rename_i r'
      have : r'.takeWhile Char.isDigit = [] := by
        cases r' with
        | nil => rfl
        | cons c s => simp [hg c (by simp)]
      simp [this, hds]
    · simp [hds]
  · simp only [hfr, if_false, List.append_assoc, List.cons_append]
    obtain ⟨e1, e2⟩ := takeWhile_all (p := Char.isDigit) (b := '.' :: (fr ++ gap)) hd (by simp)
    obtain ⟨f1, f2⟩ := takeWhile_all hf hgh
    simp [e1, e2, f1, f2, hfr]

theorem findall_written {ds fr gap : Str} (hd : ∀ c ∈ ds, c.isDigit = true) (hf : ∀ c ∈ fr, c.isDigit = true) (hne : ds ≠ [] ∨ fr ≠ [])
    (hg : ∀ c ∈ gap, c.isDigit = false) (n : Nat) :
    ∀ (pre : Str) (_ : pre.length < n) (_ : ∀ c ∈ pre.getLast?, numeric c = false),
      (findall n (pre ++ (written ds fr ++ gap))).getLast? = some (ds, fr) := by
  induction n with
  | zero => intro pre h; omega
  | succ n ih =>
    intro pre hlen hl
    by_cases hp : pre = []
    · subst hp
      rw [findall]
      simp [number_written hd hf hne hg, findall_none hg]
    · rw [findall]
      rcases number_append (b := written ds fr ++ gap) hp hl with ⟨m, a', e, hlt, hl'⟩ | e
      · rw [e]
        dsimp only
        have := ih a' (by omega) hl'
        rw [List.getLast?_cons, this]
        rfl
      · rw [e]
        dsimp only
        obtain ⟨c, s, rfl⟩ := List.exists_cons_of_ne_nil hp
        simp only [List.cons_append, List.drop_one, List.tail_cons]
        apply ih s (by simp at hlen; omega)
        intro x hx
        apply hl x
        have hsn : s ≠ [] := by rintro rfl; simp at hx
        obtain ⟨y, t, rfl⟩ := List.exists_cons_of_ne_nil hsn
        simpa [List.getLast?_cons_cons] using hx

/-! ### Where `Hz` is -/

theorem rfind_append {a b : Str} (hb : ¬ ['H', 'z'] <:+: b) : rfind (a ++ ('H' :: 'z' :: b)) = some a.length := by
  unfold rfind
  have hlen : (a ++ ('H' :: 'z' :: b)).length = a.length + (1 + (b.length + 1)) := by simp; omega
  rw [hlen, List.range_add, List.filter_append, List.range_add]
  simp only [List.map_append, List.filter_append, List.map_map]
  have h0 : (List.map (fun x => a.length + x) (List.range 1)).filter
      (fun i => ['H', 'z'].isPrefixOf ((a ++ ('H' :: 'z' :: b)).drop i)) = [a.length] := by
    have : List.range 1 = [0] := rfl
    rw [this]
    simp
  have h1 : (List.map ((fun x => a.length + x) ∘ fun x => 1 + x) (List.range (b.length + 1))).filter
      (fun i => ['H', 'z'].isPrefixOf ((a ++ ('H' :: 'z' :: b)).drop i)) = [] := by
    rw [List.filter_eq_nil_iff]
    intro i hi
    rw [List.mem_map] at hi
    obtain ⟨x, hx, rfl⟩ := hi
    simp only [Function.comp]
    intro hp
    rw [List.isPrefixOf_iff_prefix] at hp
    have e : (a ++ ('H' :: 'z' :: b)).drop (a.length + (1 + x)) = ('z' :: b).drop x := by
      rw [List.drop_append, List.drop_eq_nil_of_le (by omega)]
      have : a.length + (1 + x) - a.length = x + 1 := by omega
      rw [this, List.drop_succ_cons, List.nil_append]
    rw [e] at hp
    cases x with
    | zero => simp [List.cons_prefix_cons] at hp
    | succ x =>
      rw [List.drop_succ_cons] at hp
      exact hb (hp.isInfix.trans (List.drop_suffix x b).isInfix)
  rw [h0, h1, List.append_nil, List.getLast?_append]
  rfl

/-- **C185.** The frequency in a name is the number before the last `Hz`, in the unit that is written before `Hz`: for any text before the number
that does not end in a digit or point, and any text between number and unit without digits. -/
theorem name2freq_written {K : Type} [Field K] {pre ds fr gap post : Str} (hpre : ∀ c ∈ pre.getLast?, numeric c = false)
    (hd : ∀ c ∈ ds, c.isDigit = true) (hf : ∀ c ∈ fr, c.isDigit = true) (hne : ds ≠ [] ∨ fr ≠ []) (hg : ∀ c ∈ gap, c.isDigit = false)
    (hpost : ¬ ['H', 'z'] <:+: post) :
    name2freq (K := K) (pre ++ written ds fr ++ gap ++ ('H' :: 'z' :: post)) = some (toNum (ds, fr) * (gap.getLast?.map si).getD 1) := by
  have hw : written ds fr ≠ [] := by
    unfold written
    split
    · rename_i h; rcases hne with h' | h'; exact h'; exact absurd h h'
    · simp
  have hr := rfind_append (a := pre ++ written ds fr ++ gap) hpost
  have hst : stem (pre ++ written ds fr ++ gap ++ ('H' :: 'z' :: post)) = pre ++ (written ds fr ++ gap) := by
    unfold stem
    rw [hr]
    dsimp only
    rw [List.take_left' rfl, List.append_assoc]
  unfold name2freq
  rw [hst, findall_written hd hf hne hg _ pre (by
    have := List.length_pos_iff.2 hw
    simp; omega) hpre]
  have hpc : prefixChar (pre ++ written ds fr ++ gap ++ ('H' :: 'z' :: post)) = (written ds fr ++ gap).getLast? := by
    unfold prefixChar
    rw [hr]
    have hl := List.length_pos_iff.2 hw
    have : (pre ++ written ds fr ++ gap).length = ((pre ++ written ds fr ++ gap).length - 1) + 1 := by simp; omega
    rw [this]
    dsimp only
    rw [List.getElem?_append_left (by simp; omega), ← List.getLast?_eq_getElem?, List.append_assoc,
      List.getLast?_append_of_ne_nil _ (by simp [hw])]
  rw [hpc]
  simp only [Option.bind_some]
  by_cases hgap : gap = []
  · subst hgap
    rw [List.append_nil, List.getLast?_eq_some_getLast hw]
    have hdig : si (K := K) ((written ds fr).getLast hw) = 1 := by
      have hmem : ((written ds fr).getLast hw).isDigit = true := by
        unfold written
        by_cases h : fr = []
        · simp only [h, if_true]
          exact hd _ (List.getLast_mem _)
        · simp only [h, if_false]
          rw [List.getLast_append_of_ne_nil _ (by simp), List.getLast_cons h]
          exact hf _ (List.getLast_mem _)
      generalize (written ds fr).getLast hw = c at hmem
      unfold si
      have h1 : c ≠ 'k' := by rintro rfl; exact absurd hmem (by decide)
      have h2 : c ≠ 'M' := by rintro rfl; exact absurd hmem (by decide)
      have h3 : c ≠ 'G' := by rintro rfl; exact absurd hmem (by decide)
      simp [h1, h2, h3]
    simp [hdig]
  · rw [List.getLast?_append_of_ne_nil _ hgap, List.getLast?_eq_some_getLast hgap]
    simp

/-- **C185.** A number that follows digits and a point is taken for their decimals: `v2.150MHz` is 2.150 MHz, not 150 MHz. -/
theorem point_counterexample {K : Type} [Field K] {pre v ds gap post : Str} (hpre : ∀ c ∈ pre.getLast?, numeric c = false)
    (hv : ∀ c ∈ v, c.isDigit = true) (hd : ∀ c ∈ ds, c.isDigit = true) (hne : ds ≠ []) (hg : ∀ c ∈ gap, c.isDigit = false)
    (hpost : ¬ ['H', 'z'] <:+: post) :
    name2freq (K := K) (pre ++ v ++ ['.'] ++ ds ++ gap ++ ('H' :: 'z' :: post)) =
      some (((digits v : K) + (digits ds : K) / 10 ^ ds.length) * (gap.getLast?.map si).getD 1) := by
  have := name2freq_written (K := K) (gap := gap) hpre hv hd (Or.inr hne) hg hpost
  simpa [written, hne, toNum, List.append_assoc] using this

/-- **C185.** Exponents are taken for the number: `1.5e8Hz` is 8 Hz. -/
theorem exponent_counterexample {K : Type} [Field K] {pre ds gap post : Str} (hd : ∀ c ∈ ds, c.isDigit = true) (hne : ds ≠ [])
    (hg : ∀ c ∈ gap, c.isDigit = false) (hpost : ¬ ['H', 'z'] <:+: post) :
    name2freq (K := K) (pre ++ ['e'] ++ ds ++ gap ++ ('H' :: 'z' :: post)) = some ((digits ds : K) * (gap.getLast?.map si).getD 1) := by
  have := name2freq_written (K := K) (pre := pre ++ ['e']) (fr := []) (gap := gap) (by simp [numeric]) hd (by simp) (Or.inl hne) hg hpost
  simpa [written, toNum, digits, List.append_assoc] using this

end Verif.Cst
