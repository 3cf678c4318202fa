import Mathlib.Tactic.IntervalCases
import Mathlib.Tactic.Ring
import Mathlib.Tactic.Linarith
import Verif.Mwa.Model

/-! # Every visibility is that of its antennas -/

namespace Verif.Mwa
open Verif.Np

/-! ## What the correlator does -/

/-- The input that an output of the filter bank comes from. -/
def inputOf (o : Nat) : Nat := o / 64 * 64 + (o % 64 / 4 + o % 64 % 4 * 16)

variable {C : Type} [CommSemigroup C] [StarMul C]

/-- A file of the correlator for signals `u` of the inputs: for outputs `o1 ≥ o2` the product of the first with the conjugate of the
second, in the order of antennas of the correlator. -/
def Correlated (u : Nat → C) (file : Nat → C) : Prop :=
  ∀ o1 o2, o2 ≤ o1 → o1 < 256 → file (2 * (o1 / 2) * (o1 / 2 + 1) + 4 * (o2 / 2) + 2 * (o1 % 2) + o2 % 2) =
    u (inputOf o1) * star (u (inputOf o2))

/-- The number of the product of two polarizations, of which the first is y. -/
def polNum : Nat → Nat → Int
  | 0, 0 => -6
  | 0, _ => -8
  | _, 0 => -7
  | _, _ => -5

theorem tri_lt {a b c d : Nat} (hac : a ≤ c) (hbd : b ≤ d) (h : c * (c + 1) / 2 + a = d * (d + 1) / 2 + b) : c = d ∧ a = b := by
  have aux : ∀ {c d a b : Nat}, a ≤ c → c < d → c * (c + 1) / 2 + a < d * (d + 1) / 2 + b := by
    intro c d a b ha hcd
    have h1 : (c + 1) * (c + 1 + 1) / 2 ≤ d * (d + 1) / 2 := Nat.div_le_div_right (Nat.mul_le_mul hcd (by omega))
    have h2 : (c + 1) * (c + 1 + 1) / 2 = c * (c + 1) / 2 + (c + 1) := by
      rw [show (c + 1) * (c + 1 + 1) = c * (c + 1) + (c + 1) * 2 by ring, Nat.add_mul_div_right _ _ (by norm_num)]
    omega
  rcases lt_trichotomy c d with h1 | h1 | h1
  · have := aux (b := b) hac h1
    omega
  · subst h1
    exact ⟨rfl, by omega⟩
  · have := aux (b := a) hbd h1
    omega

/-- Positions in a file are different for different pairs of outputs. -/
theorem index_inj {o1 o2 q1 q2 : Nat} (h1 : o2 ≤ o1) (h2 : q2 ≤ q1)
    (h : 2 * (o1 / 2) * (o1 / 2 + 1) + 4 * (o2 / 2) + 2 * (o1 % 2) + o2 % 2 =
      2 * (q1 / 2) * (q1 / 2 + 1) + 4 * (q2 / 2) + 2 * (q1 % 2) + q2 % 2) : o1 = q1 ∧ o2 = q2 := by
  have e : ∀ a : Nat, 2 * a * (a + 1) = 4 * (a * (a + 1) / 2) := by
    intro a
    have : a * (a + 1) / 2 * 2 = a * (a + 1) := Nat.div_mul_cancel (Nat.even_mul_succ_self a).two_dvd
    nlinarith
  rw [e, e] at h
  have hlo : 2 * (o1 % 2) + o2 % 2 < 4 := by omega
  have hlo' : 2 * (q1 % 2) + q2 % 2 < 4 := by omega
  generalize ha : o1 / 2 * (o1 / 2 + 1) / 2 = x at h
  generalize hb : q1 / 2 * (q1 / 2 + 1) / 2 = y at h
  have hx : x + o2 / 2 = y + q2 / 2 := by omega
  obtain ⟨r1, r2⟩ := tri_lt (a := o2 / 2) (b := q2 / 2) (c := o1 / 2) (d := q1 / 2) (by omega) (by omega) (by rw [ha, hb]; exact hx)
  rw [← ha, ← hb, r1] at h
  constructor <;> omega

/-- For all signals there is a file. -/
theorem file_exists [Inhabited C] (u : Nat → C) : ∃ file, Correlated u file := by
  classical
  refine ⟨fun n => if h : ∃ o : Nat × Nat, o.2 ≤ o.1 ∧ n = 2 * (o.1 / 2) * (o.1 / 2 + 1) + 4 * (o.2 / 2) + 2 * (o.1 % 2) + o.2 % 2
    then u (inputOf h.choose.1) * star (u (inputOf h.choose.2)) else default, ?_⟩
  intro o1 o2 h _
  have hex : ∃ o : Nat × Nat, o.2 ≤ o.1 ∧ 2 * (o1 / 2) * (o1 / 2 + 1) + 4 * (o2 / 2) + 2 * (o1 % 2) + o2 % 2 =
      2 * (o.1 / 2) * (o.1 / 2 + 1) + 4 * (o.2 / 2) + 2 * (o.1 % 2) + o.2 % 2 := ⟨(o1, o2), h, rfl⟩
  dsimp only
  rw [dif_pos hex]
  obtain ⟨e1, e2⟩ := hex.choose_spec
  obtain ⟨r1, r2⟩ := index_inj h e1 e2
  rw [← r1, ← r2]

/-! ## Antennas and rows -/

theorem tri_succ (i : Nat) : (i + 1) * (i + 1 + 1) / 2 = i * (i + 1) / 2 + (i + 1) := by
  rw [show (i + 1) * (i + 1 + 1) = i * (i + 1) + (i + 1) * 2 by ring, Nat.add_mul_div_right _ _ (by norm_num)]

theorem tri_le {n i : Nat} (h : i < n) : i * (i + 1) / 2 ≤ n * i := by
  have h1 : i * (i + 1) / 2 ≤ i * (i + 1) := Nat.div_le_self _ _
  have h2 : i * (i + 1) ≤ i * n := Nat.mul_le_mul_left _ h
  rw [Nat.mul_comm n i]
  omega

/-- The place of a pair among all pairs. -/
theorem combos_get {α : Type} : ∀ (l : List α) (i j : Nat) (x y : α), l[i]? = some x → l[j]? = some y → i ≤ j →
    (combos l)[l.length * i - i * (i + 1) / 2 + j]? = some (x, y) := by
  intro l
  induction l with
  | nil => intro i j x y h; simp at h
  | cons z l ih =>
    intro i j x y hi hj hij
    unfold combos
    cases i with
    | zero =>
      obtain rfl : z = x := by simpa using hi
      have hlt := (List.getElem?_eq_some_iff.1 hj).1
      rw [List.getElem?_append_left (by simpa using hlt)]
      simp only [Nat.mul_zero, Nat.zero_mul, Nat.zero_div, Nat.sub_zero, Nat.zero_add]
      rw [List.getElem?_map, hj]
      rfl
    | succ i =>
      obtain ⟨j, rfl⟩ : ∃ k, j = k + 1 := ⟨j - 1, by omega⟩
      have hi' : l[i]? = some x := by simpa using hi
      have hj' : l[j]? = some y := by simpa using hj
      have hlt := (List.getElem?_eq_some_iff.1 hi').1
      have ht := tri_le hlt
      have e : (z :: l).length * (i + 1) - (i + 1) * (i + 1 + 1) / 2 + (j + 1) =
          ((z :: l).map (fun y => (z, y))).length + (l.length * i - i * (i + 1) / 2 + j) := by
        rw [tri_succ]
        simp only [List.length_cons, List.length_map]
        have : (l.length + 1) * (i + 1) = l.length * i + i + l.length + 1 := by ring
        omega
      rw [e, List.getElem?_append_right (by omega), Nat.add_sub_cancel_left]
      exact ih i j x y hi' hj' (by omega)

theorem combos_length {α : Type} : ∀ l : List α, 2 * (combos l).length = l.length * (l.length + 1) := by
  intro l
  induction l with
  | nil => rfl
  | cons z l ih =>
    unfold combos
    rw [List.length_append, List.length_map, List.length_cons, Nat.mul_add, ih]
    ring

theorem cell_inj {a1 a2 p1 p2 b1 b2 q1 q2 : Nat} (ha : a1 ≤ a2) (ha2 : a2 < 128) (hb : b1 ≤ b2) (hb2 : b2 < 128) (hp2 : p2 < 2) (hq2 : q2 < 2)
    (hp1 : p1 < 2) (hq1 : q1 < 2) (h : cell a1 a2 p1 p2 = cell b1 b2 q1 q2) : a1 = b1 ∧ a2 = b2 ∧ p1 = q1 ∧ p2 = q2 := by
  unfold cell at h
  have hx : 128 * a1 - a1 * (a1 + 1) / 2 + a2 = 128 * b1 - b1 * (b1 + 1) / 2 + b2 := by omega
  have hp : p1 = q1 ∧ p2 = q2 := by omega
  have g1 := combos_get (List.range 128) a1 a2 a1 a2 (List.getElem?_range (by omega)) (List.getElem?_range ha2) ha
  have g2 := combos_get (List.range 128) b1 b2 b1 b2 (List.getElem?_range (by omega)) (List.getElem?_range hb2) hb
  rw [List.length_range] at g1 g2
  rw [hx, g2] at g1
  obtain ⟨r1, r2⟩ := Prod.mk.inj (Option.some.inj g1)
  exact ⟨r1.symm, r2.symm, hp.1, hp.2⟩

theorem mem_quads {a1 a2 p1 p2 : Nat} : (a1, a2, p1, p2) ∈ quads ↔ a1 ≤ a2 ∧ a2 < 128 ∧ p1 < 2 ∧ p2 < 2 := by
  unfold quads
  simp only [List.mem_flatMap, List.mem_map, List.mem_range, List.mem_range'_1, Prod.mk.injEq]
  constructor
  · rintro ⟨b1, h1, b2, h2, q1, h3, q2, h4, rfl, rfl, rfl, rfl⟩
    omega
  · rintro ⟨h1, h2, h3, h4⟩
    exact ⟨a1, by omega, a2, by omega, p1, h3, p2, h4, rfl, rfl, rfl, rfl⟩

/-- Inputs of the filter bank have an output, from which they come. -/
theorem inToOut_spec : ∀ x < 256, ∃ o < 256, inToOut x = some o ∧ inputOf o = x := by
  have h : ∀ x < 256, inToOut x = some (x / 64 * 64 + (x % 64 % 16 * 4 + x % 64 / 16)) := by decide +kernel
  have h' : ∀ x < 256, inputOf (x / 64 * 64 + (x % 64 % 16 * 4 + x % 64 / 16)) = x := by decide +kernel
  intro x hx
  exact ⟨_, by omega, h x hx, h' x hx⟩

theorem antsToPf_spec {inds : List Nat} (hn : inds.Nodup) {i a : Nat} (hi : inds[i]? = some a) (p : Nat) :
    antsToPf inds a p = some (2 * i + p) := by
  have hw : whereIdx (fun b => b == a) inds = [i] := by
    apply strictSorted_ext (whereIdx_sorted _ _) (by simp)
    intro k
    rw [mem_whereIdx, List.mem_singleton]
    constructor
    · rintro ⟨x, hx, he⟩
      have he : x = a := by simpa using he
      subst he
      obtain ⟨h1, h2⟩ := List.getElem?_eq_some_iff.1 hx
      obtain ⟨h3, h4⟩ := List.getElem?_eq_some_iff.1 hi
      exact (List.Nodup.getElem_inj_iff hn).1 (h2.trans h4.symm)
    · rintro rfl
      exact ⟨a, hi, by simp⟩
  unfold antsToPf
  rw [hw]
  rfl

/-- Where the map finds a product and what is there. -/
theorem entry_spec {inds : List Nat} (hn : inds.Nodup) (hl : inds.length = 128) {u file : Nat → C} (hf : Correlated u file)
    {i j a1 a2 p1 p2 : Nat} (hi : inds[i]? = some a1) (hj : inds[j]? = some a2) (hp1 : p1 < 2) (hp2 : p2 < 2) :
    ∃ k b, entry inds a1 a2 p1 p2 = some (k, b) ∧
      (if b then star (file k) else file k) = u (2 * i + p1) * star (u (2 * j + p2)) := by
  have hi' := (List.getElem?_eq_some_iff.1 hi).1
  have hj' := (List.getElem?_eq_some_iff.1 hj).1
  obtain ⟨o1, h1, h2, h3⟩ := inToOut_spec (2 * i + p1) (by omega)
  obtain ⟨o2, g1, g2, g3⟩ := inToOut_spec (2 * j + p2) (by omega)
  unfold entry
  rw [antsToPf_spec hn hi, antsToPf_spec hn hj]
  dsimp only
  rw [h2, g2]
  dsimp only
  by_cases ho : o2 > o1
  · rw [if_pos ho]
    refine ⟨_, _, rfl, ?_⟩
    rw [if_pos rfl, hf o2 o1 (by omega) g1, h3, g3, star_mul, star_star]
  · rw [if_neg ho]
    refine ⟨_, _, rfl, ?_⟩
    rw [if_neg (by simp), hf o1 o2 (by omega) h1, h3, g3]

theorem mapM_get {α β : Type} {f : α → Option β} : ∀ {l : List α} {r : List β}, l.mapM f = some r →
    (∀ y ∈ r, ∃ x ∈ l, f x = some y) ∧ ∀ x ∈ l, ∃ y ∈ r, f x = some y := by
  intro l
  induction l with
  | nil => intro r h; cases h; exact ⟨by simp, by simp⟩
  | cons a l ih =>
    intro r h
    rw [List.mapM_cons] at h
    cases ha : f a with
    | none => rw [ha] at h; cases h
    | some b =>
      rw [ha] at h
      cases hl : l.mapM f with
      | none => rw [hl] at h; cases h
      | some bs =>
        rw [hl] at h
        cases h
        obtain ⟨h1, h2⟩ := ih hl
        constructor
        · intro y hy
          rcases List.mem_cons.1 hy with rfl | hy
          · exact ⟨a, List.mem_cons_self, ha⟩
          · obtain ⟨x, hx, he⟩ := h1 y hy
            exact ⟨x, List.mem_cons_of_mem _ hx, he⟩
        · intro x hx
          rcases List.mem_cons.1 hx with rfl | hx
          · exact ⟨b, List.mem_cons_self, ha⟩
          · obtain ⟨y, hy, he⟩ := h2 x hx
            exact ⟨y, List.mem_cons_of_mem _ hy, he⟩

theorem mapM_all {α β : Type} {f : α → Option β} : ∀ {l : List α}, (∀ x ∈ l, ∃ y, f x = some y) → ∃ r, l.mapM f = some r := by
  intro l
  induction l with
  | nil => exact fun _ => ⟨[], rfl⟩
  | cons a l ih =>
    intro h
    obtain ⟨y, hy⟩ := h a List.mem_cons_self
    obtain ⟨r, hr⟩ := ih (fun x hx => h x (List.mem_cons_of_mem _ hx))
    refine ⟨y :: r, ?_⟩
    rw [List.mapM_cons, hy, hr]
    rfl

theorem perm_get {inds : List Nat} (hp : inds.Perm (List.range 128)) {a : Nat} (ha : a < 128) : ∃ i : Nat, inds[i]? = some a :=
  List.mem_iff_getElem?.1 (hp.mem_iff.2 (List.mem_range.2 ha))

/-- The map exists and its cell for two antennas and polarizations is their entry. -/
theorem genMap_spec {inds : List Nat} (hp : inds.Perm (List.range 128)) : ∃ m, genMap inds = some m ∧
    ∀ a1 a2 p1 p2, a1 ≤ a2 → a2 < 128 → p1 < 2 → p2 < 2 → entry inds a1 a2 p1 p2 = some (m (cell a1 a2 p1 p2)) := by
  have hn : inds.Nodup := hp.nodup_iff.2 List.nodup_range
  have hl : inds.length = 128 := by rw [hp.length_eq, List.length_range]
  obtain ⟨w, hw⟩ : ∃ w, writes inds = some w := by
    apply mapM_all
    rintro ⟨a1, a2, p1, p2⟩ hq
    obtain ⟨h1, h2, h3, h4⟩ := mem_quads.1 hq
    obtain ⟨i, hi⟩ := perm_get hp (show a1 < 128 by omega)
    obtain ⟨j, hj⟩ := perm_get hp h2
    obtain ⟨file, hf⟩ := file_exists (C := Int) (fun _ => 0)
    obtain ⟨k, b, he, -⟩ := entry_spec hn hl hf hi hj h3 h4
    exact ⟨_, by dsimp only; rw [he]; rfl⟩
  obtain ⟨hw1, hw2⟩ := mapM_get hw
  refine ⟨_, by unfold genMap; rw [hw]; rfl, ?_⟩
  intro a1 a2 p1 p2 h1 h2 h3 h4
  obtain ⟨y, hy, he⟩ := hw2 (a1, a2, p1, p2) (mem_quads.2 ⟨h1, h2, h3, h4⟩)
  obtain ⟨e, he1, rfl⟩ := Option.map_eq_some_iff.1 he
  dsimp only at he1 hy ⊢
  have hall : ∀ x ∈ w.filter (fun x => decide (x.1 = cell a1 a2 p1 p2)), x = (cell a1 a2 p1 p2, e) := by
    intro x hx
    obtain ⟨hx1, hx2⟩ := List.mem_filter.1 hx
    have hx2 := of_decide_eq_true hx2
    obtain ⟨⟨b1, b2, q1, q2⟩, hq, hqe⟩ := hw1 x hx1
    obtain ⟨e', he', rfl⟩ := Option.map_eq_some_iff.1 hqe
    obtain ⟨g1, g2, g3, g4⟩ := mem_quads.1 hq
    dsimp only at hx2 he'
    obtain ⟨rfl, rfl, rfl, rfl⟩ := cell_inj g1 g2 h1 h2 g4 h4 g3 h3 hx2
    rw [he1] at he'
    cases he'
    rfl
  have hmem : (cell a1 a2 p1 p2, e) ∈ w.filter (fun x => decide (x.1 = cell a1 a2 p1 p2)) :=
    List.mem_filter.2 ⟨hy, by simp⟩
  have hlast := List.getLast?_eq_some_getLast (List.ne_nil_of_mem hmem)
  rw [hlast, hall _ (List.getLast_mem _)]
  exact he1

/-- **Every visibility is the product of the signals of its antennas.** `inds` are the correlator numbers of the rows of the table of
antennas, `tiles` their antenna numbers; row `i` belongs to the inputs `2i` (y) and `2i+1` (x). For two rows there is a place in
the list of antenna pairs that has their antenna numbers, and the visibility there for a polarization is the product of the
conjugate of the first signal with the second. -/
theorem vis_of_antennas {inds tiles order idx : List Nat} {pairs : List (Nat × Nat)} {pols : List Int} (hp : inds.Perm (List.range 128))
    (ho : IsArgsort inds order) (hpairs : antPairs tiles order = some pairs) (hpol : polArr idx = some pols)
    {u file : Nat → C} (hf : Correlated u file) {i j a1 a2 t1 t2 p1 p2 : Nat} (hi : inds[i]? = some a1) (hj : inds[j]? = some a2)
    (ht1 : tiles[i]? = some t1) (ht2 : tiles[j]? = some t2) (ha : a1 ≤ a2) (hp1 : p1 < 2) (hp2 : p2 < 2) :
    ∃ m, genMap inds = some m ∧ ∃ bl : Nat, pairs[bl]? = some (t1, t2) ∧
      ∀ k : Nat, pols[k]? = some (polNum p1 p2) → vis m idx file bl k = some (star (u (2 * i + p1)) * u (2 * j + p2)) := by
  have hn : inds.Nodup := hp.nodup_iff.2 List.nodup_range
  have hl : inds.length = 128 := by rw [hp.length_eq, List.length_range]
  have hlt : ∀ {q a : Nat}, inds[q]? = some a → a < 128 := fun h => List.mem_range.1 (hp.mem_iff.1 (List.mem_of_getElem? h))
  -- the antenna with correlator number `a` is at position `a`
  have hord : ∀ {q a : Nat}, inds[q]? = some a → order[a]? = some q := by
    obtain ⟨hperm, hsort⟩ := ho
    have hlo : order.length = 128 := by rw [hperm.length_eq, List.length_range, hl]
    have hget : ∀ x ∈ order, ∃ a, inds[x]? = some a := by
      intro x hx
      have := List.mem_range.1 (hperm.mem_iff.1 hx)
      exact ⟨_, List.getElem?_eq_getElem this⟩
    -- the values along `order` are increasing, so they are 0, 1, …
    have hvals : order.map (fun x => (inds[x]?).getD 0) = List.range 128 := by
      apply strictSorted_ext
      · rw [List.pairwise_map]
        have hnd : order.Pairwise (· ≠ ·) := hperm.nodup_iff.2 List.nodup_range
        have hb := hsort.and hnd
        refine hb.imp_of_mem ?_
        rintro x y hx hy ⟨h1, h2⟩
        obtain ⟨a, hax⟩ := hget x hx
        obtain ⟨b, hby⟩ := hget y hy
        rw [hax, hby]
        refine lt_of_le_of_ne (h1 a b hax hby) ?_
        rintro (rfl : a = b)
        obtain ⟨x1, x2⟩ := List.getElem?_eq_some_iff.1 hax
        obtain ⟨y1, y2⟩ := List.getElem?_eq_some_iff.1 hby
        exact h2 ((List.Nodup.getElem_inj_iff hn).1 (x2.trans y2.symm))
      · exact List.pairwise_lt_range
      · intro v
        rw [List.mem_map, List.mem_range]
        constructor
        · rintro ⟨x, hx, rfl⟩
          obtain ⟨a, hax⟩ := hget x hx
          rw [hax]
          exact hlt hax
        · intro hv
          obtain ⟨q, hq⟩ := perm_get hp hv
          refine ⟨q, hperm.mem_iff.2 (List.mem_range.2 (List.getElem?_eq_some_iff.1 hq).1), ?_⟩
          rw [hq]
          rfl
    intro q a hq
    have ha := hlt hq
    have h1 : (order.map (fun x => (inds[x]?).getD 0))[a]? = some a := by rw [hvals]; exact List.getElem?_range ha
    rw [List.getElem?_map] at h1
    obtain ⟨x, hx, he⟩ := Option.map_eq_some_iff.1 h1
    rw [hx]
    obtain ⟨b, hb⟩ := hget x (List.mem_of_getElem? hx)
    rw [hb] at he
    have he : b = a := he
    subst he
    obtain ⟨x1, x2⟩ := List.getElem?_eq_some_iff.1 hb
    obtain ⟨y1, y2⟩ := List.getElem?_eq_some_iff.1 hq
    rw [(List.Nodup.getElem_inj_iff hn).1 (x2.trans y2.symm)]
  obtain ⟨m, hm, hcell⟩ := genMap_spec hp
  refine ⟨m, hm, 128 * a1 - a1 * (a1 + 1) / 2 + a2, ?_, ?_⟩
  · unfold antPairs at hpairs
    obtain ⟨l, hl1, rfl⟩ := Option.map_eq_some_iff.1 hpairs
    obtain ⟨hlen, hget⟩ := take?_eq_some.1 hl1
    have hll : l.length = 128 := by
      rw [hlen, ho.1.length_eq, List.length_range, hl]
    have e1 : l[a1]? = some t1 := by
      have h1 := (hget a1 i (hord hi)).1
      rw [h1, ht1]
    have e2 : l[a2]? = some t2 := by
      have h1 := (hget a2 j (hord hj)).1
      rw [h1, ht2]
    have := combos_get l a1 a2 t1 t2 e1 e2 ha
    rwa [hll] at this
  · intro k hk
    obtain ⟨hlen, hget⟩ := take?_eq_some.1 hpol
    have hklt : k < idx.length := by
      have := (List.getElem?_eq_some_iff.1 hk).1
      omega
    have hidx := List.getElem?_eq_getElem hklt
    have hq := (hget k _ hidx).1
    rw [hk] at hq
    have hq4 : idx[k] = 2 * p1 + p2 := by
      have hlt4 := (List.getElem?_eq_some_iff.1 hq.symm).1
      have hlt4 : idx[k] < 4 := hlt4
      generalize idx[k] = z at hq hlt4
      interval_cases p1 <;> interval_cases p2 <;> interval_cases z <;> first | rfl | (exfalso; revert hq; decide)
    unfold vis
    rw [hidx, Option.map_some, hq4]
    obtain ⟨k', b, he, hv⟩ := entry_spec hn hl hf hi hj hp1 hp2
    have hc := hcell a1 a2 p1 p2 ha (hlt hj) hp1 hp2
    unfold cell at hc
    rw [he] at hc
    unfold mapped
    have hc := Option.some.inj hc
    rw [← hc]
    dsimp only
    rw [hv, star_mul, star_star, mul_comm]

/-- The axis of polarizations is in the order of AIPS. -/
theorem pols_order {idx : List Nat} (h : IsArgsort (filePols.map Int.natAbs) idx) : polArr idx = some [-5, -6, -7, -8] := by
  obtain ⟨h1, h2⟩ := h
  have hval : idx.map (fun k => ((filePols.map Int.natAbs)[k]?).getD 0) = [5, 6, 7, 8] := by
    apply strictSorted_ext
    · rw [List.pairwise_map]
      have hnd : idx.Pairwise (· ≠ ·) := h1.nodup_iff.2 List.nodup_range
      refine (h2.and hnd).imp_of_mem ?_
      rintro x y hx hy ⟨g1, g2⟩
      have hx' : x < 4 := List.mem_range.1 (h1.mem_iff.1 hx)
      have hy' : y < 4 := List.mem_range.1 (h1.mem_iff.1 hy)
      have g1 := g1 _ _ (List.getElem?_eq_getElem hx') (List.getElem?_eq_getElem hy')
      rw [List.getElem?_eq_getElem hx', List.getElem?_eq_getElem hy']
      show _ < _
      refine lt_of_le_of_ne g1 ?_
      intro he
      have : (filePols.map Int.natAbs).Nodup := by decide
      exact g2 ((List.Nodup.getElem_inj_iff this).1 he)
    · simp
    · intro v
      rw [List.mem_map]
      constructor
      · rintro ⟨k, hk, rfl⟩
        have : k < 4 := List.mem_range.1 (h1.mem_iff.1 hk)
        interval_cases k <;> decide
      · intro hv
        have hin : ∀ k < 4, k ∈ idx := fun k hk => h1.mem_iff.2 (List.mem_range.2 hk)
        simp only [List.mem_cons, List.not_mem_nil, or_false] at hv
        rcases hv with rfl | rfl | rfl | rfl
        · exact ⟨3, hin 3 (by omega), rfl⟩
        · exact ⟨0, hin 0 (by omega), rfl⟩
        · exact ⟨2, hin 2 (by omega), rfl⟩
        · exact ⟨1, hin 1 (by omega), rfl⟩
  have hid : idx = [3, 0, 2, 1] := by
    have hback : idx = (idx.map (fun k => ((filePols.map Int.natAbs)[k]?).getD 0)).map
        (fun v => if v = 5 then 3 else if v = 6 then 0 else if v = 7 then 2 else 1) := by
      rw [List.map_map]
      refine (List.map_id idx).symm.trans ?_
      apply List.map_congr_left
      intro k hk
      have : k < 4 := List.mem_range.1 (h1.mem_iff.1 hk)
      interval_cases k <;> rfl
    rw [hback, hval]
    decide
  rw [hid]
  rfl

end Verif.Mwa
