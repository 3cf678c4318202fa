import Verif.Fits.Model
import Mathlib.Data.List.Dedup
import Mathlib.Algebra.Order.BigOperators.Group.List
import Mathlib.Tactic.Ring
import Mathlib.Tactic.Linarith
import Mathlib.Tactic.FieldSimp
import Mathlib.Tactic.Positivity

/-!
Lemmas about medians, even lists, runs of equal numbers and windows.
-/
namespace Verif.Fits

variable {K : Type}

theorem getD_get {α : Type} {l : List α} {i : Nat} {d x : α} (h : l[i]? = some x) : l.getD i d = x := by
  rw [List.getD_eq_getElem?_getD, h]; rfl

section order
variable [Field K] [LinearOrder K] [IsStrictOrderedRing K]

theorem median_mem_between {l : List K} (hne : l ≠ []) {a b : K} (h : ∀ x ∈ l, a ≤ x ∧ x ≤ b) : a ≤ median l ∧ median l ≤ b := by
  have hpos : 0 < l.length := List.length_pos_iff.mpr hne
  have key : ∀ i, i < l.length → a ≤ (l.insertionSort (· ≤ ·)).getD i 0 ∧ (l.insertionSort (· ≤ ·)).getD i 0 ≤ b := by
    intro i hi
    have hlt : i < (l.insertionSort (· ≤ ·)).length := by rw [List.length_insertionSort]; exact hi
    rw [getD_get (List.getElem?_eq_getElem hlt)]
    exact h _ ((List.mem_insertionSort _).mp (List.getElem_mem hlt))
  obtain ⟨h1, h2⟩ := key ((l.length - 1) / 2) (by omega)
  obtain ⟨h3, h4⟩ := key (l.length / 2) (by omega)
  simp only [median]
  constructor <;> linarith

theorem median_pos {l : List K} (hne : l ≠ []) (h : ∀ x ∈ l, 0 < x) : 0 < median l := by
  have hpos : 0 < l.length := List.length_pos_iff.mpr hne
  have key : ∀ i, i < l.length → 0 < (l.insertionSort (· ≤ ·)).getD i 0 := by
    intro i hi
    have hlt : i < (l.insertionSort (· ≤ ·)).length := by rw [List.length_insertionSort]; exact hi
    rw [getD_get (List.getElem?_eq_getElem hlt)]
    exact h _ ((List.mem_insertionSort _).mp (List.getElem_mem hlt))
  have h1 := key ((l.length - 1) / 2) (by omega)
  have h3 := key (l.length / 2) (by omega)
  simp only [median]
  linarith

theorem median_neg {l : List K} (hne : l ≠ []) (h : ∀ x ∈ l, x < 0) : median l < 0 := by
  have hpos : 0 < l.length := List.length_pos_iff.mpr hne
  have key : ∀ i, i < l.length → (l.insertionSort (· ≤ ·)).getD i 0 < 0 := by
    intro i hi
    have hlt : i < (l.insertionSort (· ≤ ·)).length := by rw [List.length_insertionSort]; exact hi
    rw [getD_get (List.getElem?_eq_getElem hlt)]
    exact h _ ((List.mem_insertionSort _).mp (List.getElem_mem hlt))
  have h1 := key ((l.length - 1) / 2) (by omega)
  have h3 := key (l.length / 2) (by omega)
  simp only [median]
  linarith

theorem mean_between {l : List K} (hne : l ≠ []) {a b : K} (h : ∀ x ∈ l, a ≤ x ∧ x ≤ b) : a ≤ mean l ∧ mean l ≤ b := by
  have hpos : (0 : K) < l.length := by exact_mod_cast List.length_pos_iff.mpr hne
  have h1 := List.card_nsmul_le_sum l a (fun x hx => (h x hx).1)
  have h2 := List.sum_le_card_nsmul l b (fun x hx => (h x hx).2)
  rw [nsmul_eq_mul] at h1 h2
  unfold mean
  constructor
  · rw [le_div_iff₀ hpos]; linarith
  · rw [div_le_iff₀ hpos]; linarith

theorem isConst_spec {tol : K} (ht : 0 ≤ tol) {l : List K} (h : isConst tol l = true) : ∀ x ∈ l, ∀ y ∈ l, |x - y| ≤ tol := by
  unfold isConst at h
  intro x hx y hy
  split at h
  · rename_i a b ha hb
    obtain ⟨-, h1⟩ := List.min?_eq_some_iff.mp ha
    obtain ⟨hbm, h2⟩ := List.max?_eq_some_iff.mp hb
    have hx1 := h1 x hx
    have hy1 := h1 y hy
    have hx2 := h2 x hx
    have hy2 := h2 y hy
    have hab : b - a ≤ tol := by
      simp only [Bool.or_eq_true, decide_eq_true_eq] at h
      rcases h with h | h
      · rw [h]; simpa using ht
      · rw [abs_le] at h; linarith
    rw [abs_le]
    constructor <;> linarith
  · rename_i hh
    exfalso
    cases ha : l.min? with
    | none => rw [List.min?_eq_none_iff] at ha; subst ha; cases hx
    | some a =>
      cases hb : l.max? with
      | none => rw [List.max?_eq_none_iff] at hb; subst hb; cases hx
      | some b => exact hh a b ha hb

theorem mean_median {tol : K} (ht : 0 ≤ tol) {l : List K} (h : isConst tol l = true) (hne : l ≠ []) : |mean l - median l| ≤ tol := by
  have hc := isConst_spec ht h
  obtain ⟨a, ha⟩ : ∃ a, l.min? = some a := by
    cases ha : l.min? with
    | none => rw [List.min?_eq_none_iff] at ha; exact absurd ha hne
    | some a => exact ⟨a, rfl⟩
  obtain ⟨ham, h1⟩ := List.min?_eq_some_iff.mp ha
  have hb : ∀ x ∈ l, a ≤ x ∧ x ≤ a + tol := by
    intro x hx
    have := hc x hx a ham
    rw [abs_le] at this
    exact ⟨h1 x hx, by linarith⟩
  obtain ⟨m1, m2⟩ := mean_between hne hb
  obtain ⟨n1, n2⟩ := median_mem_between hne hb
  rw [abs_le]
  constructor <;> linarith

theorem median_near {tol : K} (ht : 0 ≤ tol) {l : List K} (h : isConst tol l = true) {x : K} (hx : x ∈ l) : |x - median l| ≤ tol := by
  have hc := isConst_spec ht h
  have hb : ∀ y ∈ l, x - tol ≤ y ∧ y ≤ x + tol := by
    intro y hy
    have := hc x hx y hy
    rw [abs_le] at this
    constructor <;> linarith
  obtain ⟨n1, n2⟩ := median_mem_between (List.ne_nil_of_mem hx) hb
  rw [abs_le]
  constructor <;> linarith

omit [LinearOrder K] [IsStrictOrderedRing K] in
theorem mem_diffs {l : List K} {i : Nat} {a b : K} (ha : l[i]? = some a) (hb : l[i + 1]? = some b) : b - a ∈ diffs l := by
  refine List.mem_map.mpr ⟨(a, b), List.mem_of_getElem? (i := i) ?_, rfl⟩
  rw [List.getElem?_zip_eq_some]
  exact ⟨ha, by rw [List.getElem?_tail]; exact hb⟩

/-- Steps that are all near a number add up to a line. -/
theorem near_line {l : List K} {d e : K} (h : ∀ x ∈ diffs l, |x - d| ≤ e) {f0 : K} (h0 : l[0]? = some f0) :
    ∀ {c : Nat} {f : K}, l[c]? = some f → |(f0 + c * d) - f| ≤ c * e := by
  intro c
  induction c with
  | zero => intro f hf; rw [h0] at hf; cases hf; simp
  | succ c ih =>
    intro f hf
    obtain ⟨g, hg⟩ : ∃ g, l[c]? = some g := ⟨_, List.getElem?_eq_getElem (by have := (List.getElem?_eq_some_iff.mp hf).1; omega)⟩
    have h1 := ih hg
    have h2 := h _ (mem_diffs hg hf)
    rw [abs_le] at h1 h2 ⊢
    push_cast
    constructor <;> linarith

end order

/-! Runs. -/

/-- Run-length encoding. -/
def rle : List Int → List (Int × Nat)
  | [] => []
  | a :: l => match rle l with
    | [] => [(a, 1)]
    | (b, n) :: t => if a = b then (b, n + 1) :: t else (a, 1) :: (b, n) :: t

theorem rle_head : ∀ {a : Int} {l : List Int}, ∃ n t, rle (a :: l) = (a, n) :: t := by
  intro a l
  simp only [rle]
  cases rle l with
  | nil => exact ⟨1, [], rfl⟩
  | cons p t =>
    obtain ⟨b, n⟩ := p
    by_cases h : a = b
    · simp [h]
    · simp [h]

theorem rle_spell : ∀ l : List Int, (rle l).flatMap (fun p => List.replicate p.2 p.1) = l := by
  intro l
  induction l with
  | nil => rfl
  | cons a l ih =>
    simp only [rle]
    cases h : rle l with
    | nil => rw [h] at ih; simp at ih; subst ih; rfl
    | cons p t =>
      obtain ⟨b, n⟩ := p
      rw [h] at ih
      simp only
      split
      · rename_i hab
        subst hab
        rw [← ih]
        simp [List.replicate_succ]
      · rw [← ih]
        simp

theorem rle_pos : ∀ (l : List Int), ∀ p ∈ rle l, 0 < p.2 := by
  intro l
  induction l with
  | nil => intro p hp; cases hp
  | cons a l ih =>
    intro p hp
    simp only [rle] at hp
    cases h : rle l with
    | nil => rw [h] at hp; simp at hp; subst hp; simp
    | cons q t =>
      obtain ⟨b, n⟩ := q
      rw [h] at hp ih
      simp only at hp
      split at hp
      · rcases List.mem_cons.mp hp with rfl | hp
        · simp
        · exact ih p (by simp [hp])
      · rcases List.mem_cons.mp hp with rfl | hp
        · simp
        · exact ih p hp

theorem rle_keys (l : List Int) (x : Int) : x ∈ (rle l).map Prod.fst ↔ x ∈ l := by
  conv_rhs => rw [← rle_spell l]
  simp only [List.mem_map, List.mem_flatMap, List.mem_replicate]
  constructor
  · rintro ⟨p, hp, rfl⟩
    exact ⟨p, hp, (rle_pos l p hp).ne', rfl⟩
  · rintro ⟨p, hp, -, rfl⟩
    exact ⟨p, hp, rfl⟩

/-- The number of runs is one more than the number of breaks. -/
theorem rle_length : ∀ {l : List Int}, l ≠ [] → (rle l).length = ((l.zip l.tail).filter (fun p => decide (p.1 ≠ p.2))).length + 1 := by
  intro l
  induction l with
  | nil => intro h; exact absurd rfl h
  | cons a l ih =>
    intro _
    cases l with
    | nil => rfl
    | cons b l =>
      have ih := ih (by simp)
      obtain ⟨n, t, ht⟩ := @rle_head b l
      rw [rle, ht]
      rw [ht] at ih
      simp only [List.tail_cons, List.zip_cons_cons, List.length_cons] at ih ⊢
      by_cases h : a = b
      · simp only [h, if_true, List.filter_cons, ne_eq, not_true_eq_false, decide_false, Bool.false_eq_true, if_false, List.length_cons]
        exact ih
      · simp only [h, if_false, List.filter_cons, ne_eq, not_false_eq_true, decide_true, if_true, List.length_cons]
        rw [ih]

/-- What the check of the windows means: each window is one block of channels. -/
theorem contiguous_blocks {spws chanSpw : List Int} (hnd : spws.Nodup) (h : contiguous spws chanSpw = .ok ()) :
    ∃ B : List (Int × Nat), (B.map Prod.fst).Perm spws ∧ (B.map Prod.fst).Nodup ∧ (∀ p ∈ B, 0 < p.2) ∧
      chanSpw = B.flatMap fun p => List.replicate p.2 p.1 := by
  unfold contiguous at h
  split at h
  · cases h
  · rename_i hs
    rw [not_not] at hs
    split at h
    · cases h
    · rename_i hl
      rw [not_not] at hl
      have hmem : ∀ x, x ∈ chanSpw ↔ x ∈ spws := by
        intro x
        have : x ∈ chanSpw.dedup.insertionSort (· ≤ ·) ↔ x ∈ spws.dedup.insertionSort (· ≤ ·) := by rw [hs]
        simpa using this
      have hne : chanSpw ≠ [] := by
        rintro rfl
        have : spws ≠ [] := by rintro rfl; simp at hl
        obtain ⟨x, hx⟩ := List.exists_mem_of_ne_nil _ this
        have := (hmem x).mpr hx
        simp at this
      have hlen : ((rle chanSpw).map Prod.fst).length = spws.length := by rw [List.length_map, rle_length hne, hl]
      have hp : ((rle chanSpw).map Prod.fst).dedup.Perm spws := by
        refine (List.perm_ext_iff_of_nodup (List.nodup_dedup _) hnd).mpr fun x => ?_
        rw [List.mem_dedup, rle_keys, hmem]
      have heq : ((rle chanSpw).map Prod.fst).dedup = (rle chanSpw).map Prod.fst :=
        (List.dedup_sublist _).eq_of_length (by rw [hp.length_eq, hlen])
      have hnd' : ((rle chanSpw).map Prod.fst).Nodup := by rw [← heq]; exact List.nodup_dedup _
      rw [heq] at hp
      exact ⟨rle chanSpw, hp, hnd', rle_pos _, (rle_spell _).symm⟩

/-! Windows. -/

theorem winVals_append {α : Type} {l : List α} {n : Nat} {a s : Int} {ids : List Int} (hn : n ≤ l.length) :
    winVals l (List.replicate n a ++ ids) s = (if a = s then l.take n else []) ++ winVals (l.drop n) ids s := by
  unfold winVals
  conv_lhs => rw [← List.take_append_drop n l]
  rw [List.zip_append (by simp [hn]), List.filter_append, List.map_append]
  congr 1
  have key : ∀ {m : Nat} {t : List α}, t.length = m →
      ((t.zip (List.replicate m a)).filter (fun p => decide (p.2 = s))).map Prod.fst = if a = s then t else [] := by
    intro m
    induction m with
    | zero => intro t ht; rw [List.length_eq_zero_iff.mp ht]; simp
    | succ m ih =>
      intro t ht
      cases t with
      | nil => simp at ht
      | cons x t =>
        have := ih (t := t) (by simpa using ht)
        by_cases h : a = s
        · simp only [h, List.replicate_succ, List.zip_cons_cons, List.filter_cons, decide_true, if_true, List.map_cons] at this ⊢
          rw [this]
        · simp only [h, List.replicate_succ, List.zip_cons_cons, List.filter_cons, decide_false, if_false] at this ⊢
          simpa using this
  exact key (by simp [hn])

theorem winVals_none {α : Type} {l : List α} {ids : List Int} {s : Int} (h : s ∉ ids) : winVals l ids s = [] := by
  unfold winVals
  rw [List.map_eq_nil_iff, List.filter_eq_nil_iff]
  intro p hp
  have : p.2 ∈ ids := (List.of_mem_zip hp).2
  simp only [decide_eq_true_eq]
  rintro rfl
  exact h this

/-- The values of the window that has block number `j`, for blocks of the same size. -/
theorem winVals_block {α : Type} {n : Nat} {s : Int} : ∀ {ord : List Int} {l : List α} {j : Nat}, ord.Nodup → ord[j]? = some s →
    l.length = ord.length * n → winVals l (ord.flatMap fun s => List.replicate n s) s = (l.drop (j * n)).take n := by
  intro ord
  induction ord with
  | nil => intro l j _ h; simp at h
  | cons a ord ih =>
    intro l j hnd hj hl
    rw [List.length_cons, Nat.succ_mul] at hl
    rw [List.flatMap_cons, winVals_append (by omega)]
    rw [List.nodup_cons] at hnd
    cases j with
    | zero =>
      simp only [List.getElem?_cons_zero, Option.some.injEq] at hj
      subst hj
      rw [if_pos rfl, winVals_none]
      · simp
      · simp only [List.mem_flatMap, List.mem_replicate, not_exists, not_and]
        intro x hx _ h
        subst h
        exact hnd.1 hx
    | succ j =>
      rw [List.getElem?_cons_succ] at hj
      have hne : a ≠ s := by
        rintro rfl
        exact hnd.1 (List.mem_of_getElem? hj)
      rw [if_neg hne, List.nil_append, ih hnd.2 hj (by rw [List.length_drop]; omega), List.drop_drop]
      congr 2
      rw [Nat.succ_mul]
      omega

theorem winVals_length {ids : List Int} {α : Type} {l : List α} (hl : l.length = ids.length) (s : Int) :
    (winVals l ids s).length = ids.count s := by
  unfold winVals
  rw [List.length_map]
  induction ids generalizing l with
  | nil => simp
  | cons a ids ih =>
    cases l with
    | nil => simp at hl
    | cons x l =>
      have := ih (l := l) (by simpa using hl)
      by_cases h : a = s
      · simp [List.filter_cons, h, this]
      · simp [List.filter_cons, h, this]

/-- The multiplicity of a key of a list of blocks. -/
theorem count_blocks : ∀ {B : List (Int × Nat)} {p : Int × Nat}, (B.map Prod.fst).Nodup → p ∈ B →
    (B.flatMap fun p => List.replicate p.2 p.1).count p.1 = p.2 := by
  intro B
  induction B with
  | nil => intro p _ h; cases h
  | cons q B ih =>
    intro p hnd hp
    rw [List.map_cons, List.nodup_cons] at hnd
    rw [List.flatMap_cons, List.count_append]
    rcases List.mem_cons.mp hp with rfl | hp
    · have h0 : (B.flatMap fun p => List.replicate p.2 p.1).count p.1 = 0 := by
        rw [List.count_eq_zero]
        simp only [List.mem_flatMap, List.mem_replicate, not_exists, not_and]
        intro x hx _ h
        exact hnd.1 (List.mem_map.mpr ⟨x, hx, h.symm⟩)
      rw [h0, List.count_replicate_self]
      rfl
    · have hne : q.1 ≠ p.1 := by
        intro h
        exact hnd.1 (List.mem_map.mpr ⟨p, hp, h.symm⟩)
      rw [ih hnd.2 hp, List.count_replicate]
      simp [hne]

/-- Blocks of the same size. -/
theorem blocks_even {spws chanSpw : List Int} (hnd : spws.Nodup) (h : contiguous spws chanSpw = .ok ()) {n : Nat}
    (hn : ∀ s ∈ spws, chanSpw.count s = n) : ∃ ord : List Int, ord.Perm spws ∧ chanSpw = ord.flatMap fun s => List.replicate n s := by
  obtain ⟨B, hp, hB, -, he⟩ := contiguous_blocks hnd h
  refine ⟨B.map Prod.fst, hp, ?_⟩
  rw [he, List.flatMap_map]
  refine List.flatMap_congr fun p hpB => ?_
  have : p.2 = n := by
    rw [← hn p.1 (hp.mem_iff.mp (List.mem_map.mpr ⟨p, hpB, rfl⟩)), he, count_blocks hB hpB]
  rw [this]

/-- Entries of an even list of whole numbers. -/
theorem evenly_line {l : List Int} (h : evenly l = true) {i : Nat} {x : Int} (hx : l[i]? = some x) :
    x = (if 1 < l.length then l.getD 1 0 - l.getD 0 0 else 1) * i + l.getD 0 0 := by
  have step : ∀ (k : Nat) (a b : Int), l[k]? = some a → l[k + 1]? = some b → b - a = l.getD 1 0 - l.getD 0 0 := by
    intro k a b ha hb
    have hlen := (List.getElem?_eq_some_iff.mp hb).1
    simp only [evenly, Bool.or_eq_true, decide_eq_true_eq, List.all_eq_true] at h
    rcases h with h | h
    · have hk : k = 0 := by omega
      subst hk
      rw [getD_get ha, getD_get hb]
    · have hm : b - a ∈ (l.zip l.tail).map fun p => p.2 - p.1 := by
        refine List.mem_map.mpr ⟨(a, b), List.mem_of_getElem? (i := k) ?_, rfl⟩
        rw [List.getElem?_zip_eq_some]
        exact ⟨ha, by rw [List.getElem?_tail]; exact hb⟩
      have := h _ hm
      rcases l with _ | ⟨u, _ | ⟨v, l⟩⟩
      · simp at hlen
      · simp at hlen
      · simpa using this
  induction i generalizing x with
  | zero =>
    rw [getD_get hx]
    simp
  | succ i ih =>
    have hlen := (List.getElem?_eq_some_iff.mp hx).1
    obtain ⟨y, hy⟩ : ∃ y, l[i]? = some y := ⟨_, List.getElem?_eq_getElem (by omega)⟩
    have h1 := ih hy
    have h2 := step i y x hy hx
    rw [if_pos (by omega)] at h1 ⊢
    push_cast
    linarith

end Verif.Fits
