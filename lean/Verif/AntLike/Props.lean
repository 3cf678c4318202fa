import Verif.AntLike.Model
import Mathlib.Tactic.Ring
import Mathlib.Tactic.Linarith

namespace Verif.AntLike
open Verif.Np Verif.FreqSort
open Verif.Pol (Str)

/-- The numbers differ, and there are as many names and positions. -/
structure Good {P : Type} (t : Tel P) (a : List Int) : Prop where
  nums : t.nums = some a
  once : a.Nodup
  names : ∀ l, t.names = some l → l.length = a.length
  pos : ∀ l, t.pos = some l → l.length = a.length

/-- The two telescopes are the same up to the order of antennas: `i` and `j` are positions of the same antenna, in both
directions. -/
structure SameAntennas {P : Type} (t t' : Tel P) (a a' : List Int) : Prop where
  nums : t'.nums = some a'
  length : a'.length = a.length
  names : t'.names.isSome = t.names.isSome
  pos : t'.pos.isSome = t.pos.isSome
  perm : a'.Perm a
  kept : ∀ (i j : Nat) (n : Int), a[i]? = some n → a'[j]? = some n →
    (∀ l l', t.names = some l → t'.names = some l' → l'.length = l.length ∧ l'[j]? = l[i]?) ∧
    (∀ l l', t.pos = some l → t'.pos = some l' → l'.length = l.length ∧ l'[j]? = l[i]?)

theorem close_iff {a b : Int} (hb : |b| ≤ 99999) : close a b = true ↔ a = b := by
  unfold close
  rw [decide_eq_true_eq]
  constructor
  · intro h
    by_contra hne
    have : 1 ≤ |a - b| := Int.one_le_abs (by omega)
    norm_num at h
    omega
  · rintro rfl
    simp
    positivity

theorem common_le (a b : List Int) : common a b ≤ a.length :=
  (List.length_filter_le _ _).trans (a.dedup_sublist.length_le)

theorem common_iff {a b : List Int} (ha : a.Nodup) : common a b = a.length ↔ ∀ x ∈ a, x ∈ b := by
  unfold common
  rw [ha.dedup, List.length_filter_eq_length_iff]
  simp

theorem zip_all : ∀ (a b : List Int), a.length = b.length → ((∀ x ∈ b, |x| ≤ 99999)) →
    ((a.zip b).all (fun p => close p.1 p.2) = true ↔ a = b) := by
  intro a
  induction a with
  | nil => intro b h _; cases b with
    | nil => simp
    | cons _ _ => simp at h
  | cons x a ih =>
    intro b h hb
    cases b with
    | nil => simp at h
    | cons y b =>
      rw [List.zip_cons_cons, List.all_cons, Bool.and_eq_true,
        ih b (by simpa using h) (fun z hz => hb z (List.mem_cons_of_mem _ hz)), close_iff (hb y List.mem_cons_self), List.cons.injEq]

theorem inverse_length (l : List Nat) : (inverse l).length = l.length := by simp [inverse]

theorem argsort_get {b : List Int} {B : List Nat} (h : IsArgsort b B) : ∀ j ∈ B, j < b.length := by
  intro j hj
  exact List.mem_range.1 (h.1.mem_iff.1 hj)

/-- Sorting. -/
theorem argsort_map {b : List Int} {B : List Nat} (h : IsArgsort b B) :
    (B.map (fun i => b.getD i 0)).Perm b ∧ (B.map (fun i => b.getD i 0)).Pairwise (· ≤ ·) := by
  constructor
  · refine (h.1.map _).trans ?_
    have : (List.range b.length).map (fun i => b.getD i 0) = b := by
      refine List.ext_getElem (by simp) ?_
      intro k h1 h2
      simp [h2]
    rw [this]
  · rw [List.pairwise_map]
    refine List.Pairwise.imp_of_mem ?_ h.2
    intro i j hi hj hij
    have h1 := argsort_get h i hi
    have h2 := argsort_get h j hj
    have := hij b[i] b[j] (List.getElem?_eq_getElem h1) (List.getElem?_eq_getElem h2)
    simpa [List.getD_eq_getElem?_getD, h1, h2] using this

/-- The order that makes the first list like the second. -/
theorem order_spec (srt : Argsort Int) {a b : List Int} (hp : a.Perm b) :
    ∃ order, take? (srt.run a) (inverse (srt.run b)) = some order ∧ order.length = a.length ∧
      order.Nodup ∧ (∀ i ∈ order, i < a.length) ∧
      ∀ (j i : Nat), order[j]? = some i → a[i]? = b[j]? := by
  have hA := srt.sorts a
  have hB := srt.sorts b
  have hAl : (srt.run a).length = a.length := by have := hA.1.length_eq; simpa using this
  have hBl : (srt.run b).length = b.length := by have := hB.1.length_eq; simpa using this
  have hab := hp.length_eq
  have hAn : (srt.run a).Nodup := hA.1.nodup_iff.2 List.nodup_range
  have hBn : (srt.run b).Nodup := hB.1.nodup_iff.2 List.nodup_range
  have heq : (srt.run a).map (fun i => a.getD i 0) = (srt.run b).map (fun i => b.getD i 0) := by
    obtain ⟨p1, s1⟩ := argsort_map hA
    obtain ⟨p2, s2⟩ := argsort_map hB
    refine List.Perm.eq_of_pairwise ?_ s1 s2 (p1.trans (hp.trans p2.symm))
    intro x y _ _ h1 h2
    exact le_antisymm h1 h2
  have hmemB : ∀ j < b.length, j ∈ srt.run b := fun j hj => hB.1.mem_iff.2 (List.mem_range.2 hj)
  have hidx : ∀ j < b.length, (srt.run b).idxOf j < (srt.run a).length := by
    intro j hj
    have := List.idxOf_lt_length_iff.2 (hmemB j hj)
    omega
  have htake : ∃ order, take? (srt.run a) (inverse (srt.run b)) = some order := by
    have : (take? (srt.run a) (inverse (srt.run b))).isSome := by
      rw [take?_isSome_iff]
      intro k hk
      unfold inverse at hk
      obtain ⟨j, hj, rfl⟩ := List.mem_map.1 hk
      rw [List.mem_range, hBl] at hj
      exact hidx j hj
    exact Option.isSome_iff_exists.1 this
  obtain ⟨order, ho⟩ := htake
  obtain ⟨h1, h2⟩ := (take?_eq_some).1 ho
  rw [inverse_length, hBl] at h1
  have hget : ∀ (j : Nat) (hj : j < b.length), order[j]? = some ((srt.run a)[(srt.run b).idxOf j]'(hidx j hj)) := by
    intro j hj
    have hk : (inverse (srt.run b))[j]? = some ((srt.run b).idxOf j) := by
      simp [inverse, hBl, hj]
    rw [← List.getElem?_eq_getElem]
    exact (h2 j _ hk).1
  refine ⟨order, ho, by omega, ?_, ?_, ?_⟩
  · rw [List.nodup_iff_injective_getElem]
    rintro ⟨x, hx⟩ ⟨y, hy⟩ hxy
    simp only at hxy
    have hx' : x < b.length := by omega
    have hy' : y < b.length := by omega
    have e1 := hget x hx'
    have e2 := hget y hy'
    rw [List.getElem?_eq_getElem hx] at e1
    rw [List.getElem?_eq_getElem hy] at e2
    rw [Option.some.injEq] at e1 e2
    have e3 := hAn.getElem_inj_iff.1 (e1.symm.trans (hxy.trans e2))
    have := (List.idxOf_inj (hmemB x hx')).1 e3
    simp [this]
  · intro i hi
    obtain ⟨j, hj, rfl⟩ := List.mem_iff_getElem.1 hi
    have hj' : j < b.length := by omega
    have e1 := hget j hj'
    rw [List.getElem?_eq_getElem hj, Option.some.injEq] at e1
    rw [e1]
    exact argsort_get hA _ (List.getElem_mem _)
  · intro j i hji
    have hj : j < order.length := (List.getElem?_eq_some_iff.1 hji).1
    have hj' : j < b.length := by omega
    have e1 := hget j hj'
    rw [hji, Option.some.injEq] at e1
    have hk := hidx j hj'
    have hk' : (srt.run b).idxOf j < (srt.run b).length := by omega
    have e2 : ((srt.run a).map (fun i => a.getD i 0))[(srt.run b).idxOf j]? =
        ((srt.run b).map (fun i => b.getD i 0))[(srt.run b).idxOf j]? := by rw [heq]
    rw [List.getElem?_map, List.getElem?_map, List.getElem?_eq_getElem hk, List.getElem?_eq_getElem hk',
      ← e1, List.getElem_idxOf] at e2
    simp only [Option.map_some, Option.some.injEq] at e2
    have hi : i < a.length := by
      rw [e1]
      exact argsort_get hA _ (List.getElem_mem _)
    rw [List.getElem?_eq_getElem hi, List.getElem?_eq_getElem hj']
    simpa [List.getD_eq_getElem?_getD, hi, hj'] using e2

/-- The antennas come in the order of the other object, and keep names and positions. -/
theorem sorted {P : Type} (srt : Argsort Int) (t u : Tel P) (a b : List Int) (ht : Good t a) (hu : u.nums = some b)
    (hb : b.Nodup) (hsame : ∀ n, n ∈ a ↔ n ∈ b) :
    ∃ t' a', sortLike srt t u = .ok t' ∧ SameAntennas t t' a a' ∧ ((∀ n ∈ b, |n| ≤ 99999) → a' = b) := by
  have hp : a.Perm b := (List.perm_ext_iff_of_nodup ht.once hb).2 hsame
  have hlen := hp.length_eq
  have hc : common a b = a.length := (common_iff ht.once).2 (fun x hx => (hsame x).1 hx)
  have hall : allclose a b = .ok ((a.zip b).all (fun p => close p.1 p.2)) := by
    unfold allclose
    rw [if_pos hlen]
  have hself : SameAntennas t t a a := by
    refine ⟨ht.nums, rfl, rfl, rfl, List.Perm.refl _, ?_⟩
    intro i j n hi hj
    obtain ⟨hi1, hi2⟩ := List.getElem?_eq_some_iff.1 hi
    obtain ⟨hj1, hj2⟩ := List.getElem?_eq_some_iff.1 hj
    have : i = j := ht.once.getElem_inj_iff.1 (hi2.trans hj2.symm)
    subst this
    constructor
    · intro l l' h1 h2
      rw [h1] at h2
      cases h2
      exact ⟨rfl, rfl⟩
    · intro l l' h1 h2
      rw [h1] at h2
      cases h2
      exact ⟨rfl, rfl⟩
  unfold sortLike
  rw [ht.nums, hu]
  dsimp only
  rw [if_pos hc, hall]
  cases hz : (a.zip b).all (fun p => close p.1 p.2) with
  | true => exact ⟨t, a, rfl, hself, fun hs => (zip_all a b hlen hs).1 hz⟩
  | false =>
    obtain ⟨order, ho, hol, hon, hob, hog⟩ := order_spec srt hp
    have htk : ∀ {A : Type} (x : Option (List A)), (∀ l, x = some l → l.length = a.length) →
        ∃ x', takeOpt x order = .ok x' ∧ x'.isSome = x.isSome ∧ ∀ l l', x = some l → x' = some l' →
          l'.length = l.length ∧ ∀ (j i : Nat), order[j]? = some i → l'[j]? = l[i]? := by
      intro A x hx
      cases x with
      | none => exact ⟨none, rfl, rfl, fun l l' h => nomatch h⟩
      | some l =>
        have hl := hx l rfl
        have : (take? l order).isSome := take?_isSome_iff.2 (fun i hi => by rw [hl]; exact hob i hi)
        obtain ⟨l', hl'⟩ := Option.isSome_iff_exists.1 this
        refine ⟨some l', by simp only [takeOpt, hl'], rfl, ?_⟩
        rintro _ _ ⟨⟩ ⟨⟩
        obtain ⟨h1, h2⟩ := take?_eq_some.1 hl'
        exact ⟨by rw [h1, hol, hl], fun j i hji => (h2 j i hji).1⟩
    obtain ⟨x1, e1, s1, g1⟩ := htk t.nums (fun l hl => by rw [ht.nums] at hl; cases hl; rfl)
    obtain ⟨x2, e2, s2, g2⟩ := htk t.names ht.names
    obtain ⟨x3, e3, s3, g3⟩ := htk t.pos ht.pos
    rw [ht.nums] at e1 s1 g1
    obtain ⟨a', rfl⟩ := Option.isSome_iff_exists.1 s1
    obtain ⟨l1, l2⟩ := g1 a a' rfl rfl
    have hab : a' = b := by
      refine List.ext_getElem? ?_
      intro j
      by_cases hj : j < order.length
      · have hji := List.getElem?_eq_getElem hj
        rw [l2 j _ hji, hog j _ hji]
      · rw [List.getElem?_eq_none (by omega), List.getElem?_eq_none (by omega)]
    refine ⟨⟨some a', x2, x3⟩, a', ?_, ?_, fun _ => hab⟩
    · dsimp only
      rw [ho]
      dsimp only
      rw [e1, e2, e3]
      rfl
    · refine ⟨rfl, l1, s2, s3, by rw [hab]; exact hp.symm, ?_⟩
      intro i j n hi hj
      have hj1 : j < order.length := by
        have := (List.getElem?_eq_some_iff.1 hj).1
        omega
      have hji := List.getElem?_eq_getElem hj1
      have hio : order[j] = i := by
        have h5 := l2 j _ hji
        rw [hj] at h5
        obtain ⟨q1, q2⟩ := List.getElem?_eq_some_iff.1 h5.symm
        obtain ⟨r1, r2⟩ := List.getElem?_eq_some_iff.1 hi
        exact ht.once.getElem_inj_iff.1 (q2.trans r2.symm)
      rw [hio] at hji
      exact ⟨fun l l' h1 h2 => ⟨(g2 l l' h1 h2).1, (g2 l l' h1 h2).2 j i hji⟩,
        fun l l' h1 h2 => ⟨(g3 l l' h1 h2).1, (g3 l l' h1 h2).2 j i hji⟩⟩

/-- An object with an antenna that the other does not have is not changed, and neither is one if one of the two has no
antenna numbers. -/
theorem unchanged {P : Type} (srt : Argsort Int) (t u : Tel P)
    (h : ∀ a b, t.nums = some a → u.nums = some b → a.Nodup ∧ ∃ n ∈ a, n ∉ b) : sortLike srt t u = .ok t := by
  unfold sortLike
  cases ha : t.nums with
  | none => rfl
  | some a =>
    cases hb : u.nums with
    | none => rfl
    | some b =>
      obtain ⟨h1, n, h2, h3⟩ := h a b ha hb
      dsimp only
      rw [if_neg]
      intro hc
      exact h3 ((common_iff h1).1 hc n h2)

/-- If the other object has more antennas there is an error. -/
theorem more {P : Type} (srt : Argsort Int) (t u : Tel P) (a b : List Int) (ht : t.nums = some a) (hu : u.nums = some b)
    (ha : a.Nodup) (hb : b.Nodup) (hne : a ≠ []) (hs : ∀ n ∈ b, |n| ≤ 99999) (hsub : ∀ n ∈ a, n ∈ b) (hmore : ∃ n ∈ b, n ∉ a) :
    ∃ e, sortLike srt t u = .error e := by
  have hsp : a.Subperm b := (List.subperm_of_subset ha hsub)
  have hlt : a.length < b.length := by
    rcases Nat.lt_or_ge a.length b.length with h | h
    · exact h
    · obtain ⟨n, h1, h2⟩ := hmore
      exact absurd ((hsp.perm_of_length_le h).mem_iff.2 h1) h2
  unfold sortLike
  rw [ht, hu]
  dsimp only
  rw [if_pos ((common_iff ha).2 hsub)]
  unfold allclose
  rw [if_neg (by omega)]
  match a, b, hne, hlt, hmore, hsub, hs, hb with
  | [x], b, _, hlt, ⟨n, hn, hx⟩, hsub, hs, hb =>
    have hf : b.all (fun y => close x y) = false := by
      rw [List.all_eq_false]
      refine ⟨n, hn, ?_⟩
      rw [close_iff (hs n hn)]
      simp at hx
      exact fun h => hx h.symm
    dsimp only
    rw [hf]
    have hnone : take? (srt.run [x]) (inverse (srt.run b)) = none := by
      rw [← Option.not_isSome_iff_eq_none, take?_isSome_iff]
      intro hall
      have hB := (srt.sorts b).1
      have hA := (srt.sorts [x]).1.length_eq
      have hBl := hB.length_eq
      simp at hA hBl
      have hBn : (srt.run b).Nodup := hB.nodup_iff.2 List.nodup_range
      have h1 : 1 < (srt.run b).length := by rw [hBl]; simpa using hlt
      have hj : (srt.run b)[1] < (srt.run b).length := by
        have := List.mem_range.1 (hB.mem_iff.1 (List.getElem_mem h1))
        omega
      have h2 := hall ((srt.run b).idxOf ((srt.run b)[1])) (by
        unfold inverse
        exact List.mem_map.2 ⟨_, List.mem_range.2 hj, rfl⟩)
      rw [hBn.idxOf_getElem 1 h1] at h2
      omega
    dsimp only
    rw [hnone]
    exact ⟨_, rfl⟩
  | x :: y :: a, [], _, hlt, _, _, _, _ => simp at hlt
  | x :: y :: a, [z], _, hlt, _, _, _, _ => simp at hlt
  | x :: y :: a, z :: w :: b, _, _, _, _, _, _ => exact ⟨_, rfl⟩

end Verif.AntLike
