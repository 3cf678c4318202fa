import Verif.NewData.Model
import Verif.BltAxis.Spec
import Mathlib.Algebra.Order.Ring.Rat
import Mathlib.Algebra.Field.Rat
import Mathlib.Data.List.Perm.Basic
import Mathlib.Data.List.Zip
import Mathlib.Tactic.Linarith

/-!
C121: the rows of a new object are the given combinations of times and pairs, with the sidereal and integration times of their times.
-/
namespace Verif.NewData
open Verif.Np
open Verif.Baseline (antnumsToBaseline)

variable {K : Type} [Field K] [LinearOrder K]

/-! ### `np.tile` and `np.repeat` -/

theorem tile_length {β : Type} (n : Nat) (l : List β) : (tile n l).length = n * l.length := by
  simp [tile]

theorem rep_length {β : Type} (n : Nat) (l : List β) : (rep n l).length = l.length * n := by
  induction l with
  | nil => simp [rep]
  | cons x l ih =>
    have : rep n (x :: l) = List.replicate n x ++ rep n l := rfl
    rw [this]
    simp [ih, Nat.add_mul, Nat.add_comm]

theorem tile_get {β : Type} (n : Nat) (l : List β) (i : Nat) (h : i < n * l.length) : (tile n l)[i]? = l[i % l.length]? := by
  induction n generalizing i with
  | zero => simp at h
  | succ n ih =>
    have he : tile (n + 1) l = l ++ tile n l := by simp [tile, List.replicate_succ]
    rw [he]
    by_cases hi : i < l.length
    · rw [List.getElem?_append_left hi, Nat.mod_eq_of_lt hi]
    · rw [List.getElem?_append_right (by omega), ih (i - l.length) (by rw [Nat.add_mul] at h; omega)]
      rw [← Nat.mod_eq_sub_mod (by omega)]

theorem rep_get {β : Type} (n : Nat) (hn : 0 < n) (l : List β) (i : Nat) : (rep n l)[i]? = l[i / n]? := by
  induction l generalizing i with
  | nil => simp [rep]
  | cons x l ih =>
    have he : rep n (x :: l) = List.replicate n x ++ rep n l := rfl
    rw [he]
    by_cases hi : i < n
    · rw [List.getElem?_append_left (by simpa using hi), Nat.div_eq_of_lt hi]
      simp [hi]
    · rw [List.getElem?_append_right (by simp; omega)]
      simp only [List.length_replicate]
      rw [ih, show i / n = (i - n) / n + 1 from Nat.div_eq_sub_div hn (by omega), List.getElem?_cons_succ]

theorem zip_replicate {β γ : Type} (x : β) (l : List γ) : (List.replicate l.length x).zip l = l.map (fun y => (x, y)) := by
  induction l with
  | nil => rfl
  | cons y l ih => simp [List.replicate_succ, ih]

theorem zip_rep_tile {β γ : Type} (l : List β) (p : List γ) : (rep p.length l).zip (tile l.length p) = l.flatMap (fun x => p.map (fun y => (x, y))) := by
  induction l with
  | nil => rfl
  | cons x l ih =>
    have e1 : rep p.length (x :: l) = List.replicate p.length x ++ rep p.length l := rfl
    have e2 : tile (x :: l).length p = p ++ tile l.length p := by simp [tile, List.replicate_succ]
    rw [e1, e2, List.zip_append (by simp), ih, zip_replicate]
    rfl

/-- Every combination once. -/
structure Outer {β γ : Type} (rows : List (β × γ)) (l : List β) (p : List γ) : Prop where
  length : rows.length = l.length * p.length
  nodup : rows.Nodup
  mem : ∀ x y, (x, y) ∈ rows ↔ x ∈ l ∧ y ∈ p

theorem outer_product {β γ : Type} {l : List β} {p : List γ} (hl : l.Nodup) (hp : p.Nodup) : Outer (l.flatMap (fun x => p.map (fun y => (x, y)))) l p where
  length := by simp [List.length_flatMap]
  nodup := by
    rw [List.nodup_flatMap]
    refine ⟨fun x _ => hp.map (fun a b h => by simpa using h), ?_⟩
    refine hl.imp ?_
    intro a b hab x hx hy
    simp only [List.mem_map] at hx hy
    obtain ⟨_, _, rfl⟩ := hx
    obtain ⟨_, _, e⟩ := hy
    exact hab (Prod.mk.inj e).1.symm
  mem := by
    intro x y
    simp only [List.mem_flatMap, List.mem_map, Prod.mk.injEq]
    constructor
    · rintro ⟨a, ha, b, hb, rfl, rfl⟩; exact ⟨ha, hb⟩
    · rintro ⟨ha, hb⟩; exact ⟨x, ha, y, hb, rfl, rfl⟩

theorem outer_swap {β γ : Type} {l : List β} {p : List γ} {rows : List (γ × β)} (h : Outer rows p l) : Outer (rows.map Prod.swap) l p where
  length := by simp [h.length, Nat.mul_comm]
  nodup := h.nodup.map Prod.swap_injective
  mem := by
    intro x y
    rw [← h.mem y x |>.trans And.comm]
    simp only [List.mem_map, Prod.exists, Prod.swap_prod_mk, Prod.mk.injEq]
    constructor
    · rintro ⟨a, b, hm, rfl, rfl⟩; exact hm
    · intro hm; exact ⟨y, x, hm, rfl, rfl⟩

/-! ### Unique values -/

theorem unique_full {β : Type} [LinearOrder β] {l : List β} (h : (unique l).length = l.length) : l.Nodup := by
  rw [unique_length] at h
  have := List.dedup_sublist l
  rw [← this.eq_of_length h]
  exact List.nodup_dedup l

theorem unique_nodup {β : Type} [LinearOrder β] (l : List β) : (unique l).Nodup := (unique_sorted l).imp (fun h => ne_of_lt h)

theorem unique_of_nodup {β : Type} [LinearOrder β] {l : List β} (h : l.Nodup) : (unique l).length = l.length := by
  rw [unique_length, h.dedup]

theorem unique_of_sorted {β : Type} [LinearOrder β] {l : List β} (h : l.Pairwise (· < ·)) : unique l = l :=
  (unique_sorted l).eq_of_mem_iff h (fun {_} => mem_unique)

theorem mem_uniquePairs {l : List (Nat × Nat)} {p : Nat × Nat} : p ∈ uniquePairs l ↔ p ∈ l := by
  simp only [uniquePairs, List.mem_map]
  constructor
  · rintro ⟨x, hx, rfl⟩
    rw [mem_unique, List.mem_map] at hx
    obtain ⟨q, hq, rfl⟩ := hx
    exact hq
  · intro hp
    exact ⟨toLex p, mem_unique.2 (List.mem_map_of_mem hp), rfl⟩

theorem uniquePairs_nodup (l : List (Nat × Nat)) : (uniquePairs l).Nodup := (unique_nodup _).map (fun a b h => by simpa using h)

theorem pairs_full {l : List (Nat × Nat)} (h : (uniquePairs l).length = l.length) : l.Nodup := by
  have : (l.map toLex).Nodup := unique_full (by simpa [uniquePairs] using h)
  exact List.Nodup.of_map _ this

/-! ### The rows -/

/-- The times and pairs of the rows. -/
def New.rows (n : New K) : List (K × Nat × Nat) := n.times.zip (n.ant1.zip n.ant2)

/-- When the outer product is made: asked for, or pairs left out, or different numbers of times and pairs. -/
def WantsOuter (times : List K) (antpairs : Option (List (Nat × Nat))) (outer : Option Bool) : Prop :=
  antpairs = none ∨ outer = some true ∨ (outer = none ∧ ∃ p, antpairs = some p ∧ times.length ≠ p.length)

/-- What is known of an object that was made. -/
theorem newRows_inv {lst : K → K} {nants : List Nat} {times : List K} {ap : Option (List (Nat × Nat))} {intg : Num K} {outer rect tf : Option Bool}
    {n : New K} (h : newRows lst nants times ap intg outer rect tf = .ok n) :
    ∃ i r, timeParams lst times intg = .ok (times.map lst, i) ∧
      configure times (ap.getD (pairsOf nants)) (if ap.isNone then some true else outer) rect tf (times.map lst) i = .ok r ∧
      n.times = r.times ∧ n.lst = r.lst ∧ n.intg = r.intg ∧ n.ant1 = r.antpairs.map Prod.fst ∧ n.ant2 = r.antpairs.map Prod.snd ∧
      n.nbls = r.nbl ∧ n.ntimes = r.nt ∧
      antnumsToBaseline (some nants.length) false false (n.ant1.map (fun a : Nat => (a : Int))) (n.ant2.map (fun a : Nat => (a : Int))) = .ok n.bl ∧
      ((if ap.isNone then some true else outer) ≠ some true → r.times.length = r.antpairs.length) ∧
      n.order = if ap.isNone && r.rect then (if r.timeFaster.getD false then some [.ant1, .ant2] else some [.time, .ant1]) else none := by
  unfold newRows at h
  cases ht : timeParams lst times intg with
  | error e => rw [ht] at h; simp at h
  | ok li =>
    obtain ⟨l, i⟩ := li
    have hl : l = times.map lst := by
      unfold timeParams at ht
      split at ht
      · cases ht
      · injection ht with ht
        exact (Prod.mk.inj ht).1.symm
    subst hl
    rw [ht] at h
    simp only at h
    generalize ho : (if ap.isNone = true then some true else outer) = o at h ⊢
    generalize hc : configure times (ap.getD (pairsOf nants)) o rect tf (times.map lst) i = c at h
    cases c with
    | error e => cases h
    | ok r =>
      simp only at h
      by_cases hcond : o ≠ some true ∧ r.times.length ≠ r.antpairs.length
      · rw [if_pos hcond] at h; cases h
      · rw [if_neg hcond] at h
        generalize hb : antnumsToBaseline (some nants.length) false false (r.antpairs.map (fun p => (p.1 : Int))) (r.antpairs.map (fun p => (p.2 : Int))) = b at h
        cases b with
        | error e => cases h
        | ok b =>
          simp only at h
          injection h with h
          subst h
          refine ⟨i, r, rfl, hc, rfl, rfl, rfl, rfl, rfl, rfl, rfl, ?_, ?_, rfl⟩
          · simpa [List.map_map, Function.comp_def] using hb
          · intro ho
            by_contra hne
            exact hcond ⟨ho, hne⟩

theorem zip_fst_snd (l : List (Nat × Nat)) : (l.map Prod.fst).zip (l.map Prod.snd) = l := by
  induction l with
  | nil => rfl
  | cons x l ih => simp [ih]

/-- The outer product, one way or the other. -/
theorem configure_outer {times : List K} {pairs : List (Nat × Nat)} {outer rect tf : Option Bool} {l i : List K} {r : Rows K}
    (h : configure times pairs outer rect tf l i = .ok r) (ho : outer = some true ∨ (outer = none ∧ times.length ≠ pairs.length)) :
    times.Nodup ∧ pairs.Nodup ∧ (unique times).length = times.length ∧ (uniquePairs pairs).length = pairs.length ∧
      r = if tf.getD false then ⟨pairs.length, times.length, true, some true, tile pairs.length (unique times), rep times.length (uniquePairs pairs), tile pairs.length l, tile pairs.length i⟩
        else ⟨pairs.length, times.length, true, some false, rep pairs.length times, tile times.length pairs, rep pairs.length l, rep pairs.length i⟩ := by
  have hw : wantOuter times pairs outer = .ok true ∨ ∃ e, wantOuter times pairs outer = .error e := by
    rcases ho with rfl | ⟨rfl, hne⟩
    · exact Or.inl rfl
    · unfold wantOuter
      simp only [if_pos hne]
      split
      · exact Or.inr ⟨_, rfl⟩
      · split
        · exact Or.inr ⟨_, rfl⟩
        · exact Or.inl rfl
  unfold configure at h
  rcases hw with hw | ⟨e, hw⟩
  · rw [hw] at h
    simp only at h
    by_cases c1 : (unique times).length ≠ times.length
    · rw [if_pos c1] at h; cases h
    · rw [if_neg c1] at h
      by_cases c2 : (uniquePairs pairs).length ≠ pairs.length
      · rw [if_pos c2] at h; cases h
      · rw [if_neg c2] at h
        push Not at c1 c2
        refine ⟨unique_full c1, pairs_full c2, c1, c2, ?_⟩
        rw [c1, c2] at h
        by_cases c3 : tf.getD false = true
        · rw [if_pos c3] at h ⊢
          injection h with h; exact h.symm
        · rw [if_neg c3] at h ⊢
          injection h with h; exact h.symm
  · rw [hw] at h; cases h

/-- C121: with the outer product every time is there with every pair, once; and where each combination stands. -/
theorem outer_rows {lst : K → K} {nants : List Nat} {times : List K} {ap : Option (List (Nat × Nat))} {intg : Num K} {outer rect tf : Option Bool}
    {n : New K} (h : newRows lst nants times ap intg outer rect tf = .ok n) (hw : WantsOuter times ap outer) :
    let pairs := ap.getD (pairsOf nants)
    Outer n.rows times pairs ∧ n.nbls = pairs.length ∧ n.ntimes = times.length ∧
    (tf ≠ some true → ∀ i < times.length * pairs.length, ∃ t p, times[i / pairs.length]? = some t ∧ pairs[i % pairs.length]? = some p ∧ n.rows[i]? = some (t, p)) ∧
    (tf = some true → ∀ i < times.length * pairs.length, ∃ t p, (unique times)[i % times.length]? = some t ∧ (uniquePairs pairs)[i / times.length]? = some p ∧
      n.rows[i]? = some (t, p)) := by
  obtain ⟨i, r, h1, h2, h3, h4, h5, h6, h7, h8, h9, -, -, -⟩ := newRows_inv h
  have ho : (if ap.isNone then some true else outer) = some true ∨
      ((if ap.isNone then some true else outer) = none ∧ times.length ≠ (ap.getD (pairsOf nants)).length) := by
    rcases hw with rfl | rfl | ⟨rfl, p, rfl, hne⟩
    · simp
    · simp
    · exact Or.inr ⟨by simp, by simpa using hne⟩
  obtain ⟨hnt, hnp, e1, e2, hr⟩ := configure_outer h2 ho
  generalize ap.getD (pairsOf nants) = pairs at *
  have hrows : n.rows = r.times.zip r.antpairs := by
    unfold New.rows
    rw [h3, h6, h7, zip_fst_snd]
  dsimp only
  by_cases c : tf.getD false = true
  · rw [if_pos c] at hr
    subst hr
    have hz : n.rows = ((uniquePairs pairs).flatMap (fun p => (unique times).map (fun t => (p, t)))).map Prod.swap := by
      rw [hrows, ← zip_rep_tile, e1, e2, List.zip_swap]
    have hO : Outer n.rows times pairs := by
      rw [hz]
      have o := outer_swap (outer_product (uniquePairs_nodup pairs) (unique_nodup times))
      exact ⟨by rw [o.length, e1, e2], o.nodup, fun x y => by rw [o.mem, mem_unique, mem_uniquePairs]⟩
    refine ⟨hO, h8, h9, ?_, ?_⟩
    · intro hne
      cases tf with
      | none => simp at c
      | some b => simp at c; subst c; exact absurd rfl hne
    · intro _ j hj
      have hp0 : 0 < times.length := Nat.pos_of_ne_zero (by intro e; simp [e] at hj)
      have g1 : (tile pairs.length (unique times))[j]? = (unique times)[j % times.length]? := by
        rw [tile_get _ _ _ (by rw [e1, Nat.mul_comm]; exact hj), e1]
      have g2 : (rep times.length (uniquePairs pairs))[j]? = (uniquePairs pairs)[j / times.length]? := rep_get _ hp0 _ _
      have k1 : j % times.length < (unique times).length := by rw [e1]; exact Nat.mod_lt _ hp0
      have k2 : j / times.length < (uniquePairs pairs).length := by
        rw [e2, Nat.div_lt_iff_lt_mul hp0, Nat.mul_comm]; exact hj
      refine ⟨_, _, List.getElem?_eq_getElem k1, List.getElem?_eq_getElem k2, ?_⟩
      rw [hrows, List.getElem?_zip_eq_some]
      exact ⟨by rw [g1, List.getElem?_eq_getElem k1], by rw [g2, List.getElem?_eq_getElem k2]⟩
  · rw [if_neg c] at hr
    subst hr
    have hz : n.rows = times.flatMap (fun t => pairs.map (fun p => (t, p))) := by
      rw [hrows, ← zip_rep_tile]
    refine ⟨by rw [hz]; exact outer_product hnt hnp, h8, h9, ?_, ?_⟩
    · intro _ j hj
      have hp0 : 0 < pairs.length := Nat.pos_of_ne_zero (by intro e; simp [e] at hj)
      have g1 : (rep pairs.length times)[j]? = times[j / pairs.length]? := rep_get _ hp0 _ _
      have g2 : (tile times.length pairs)[j]? = pairs[j % pairs.length]? := tile_get _ _ _ hj
      have k1 : j / pairs.length < times.length := by rwa [Nat.div_lt_iff_lt_mul hp0]
      have k2 : j % pairs.length < pairs.length := Nat.mod_lt _ hp0
      refine ⟨_, _, List.getElem?_eq_getElem k1, List.getElem?_eq_getElem k2, ?_⟩
      rw [hrows, List.getElem?_zip_eq_some]
      exact ⟨by rw [g1, List.getElem?_eq_getElem k1], by rw [g2, List.getElem?_eq_getElem k2]⟩
    · rintro rfl
      simp at c

end Verif.NewData
