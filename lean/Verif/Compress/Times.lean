import Verif.Compress.Model

/-! C130: the clusters of times of a group of baselines are the sets of equal times, if different times are not closer than the tolerance. -/
namespace Verif.Compress
open Verif.Np

variable {K : Type} [Field K] [LinearOrder K] [IsStrictOrderedRing K]

/-- Different times are not closer than the tolerance. -/
def Apart (tol : K) (ts : List K) : Prop := ∀ a ∈ ts, ∀ b ∈ ts, a = b ∨ tol ≤ |a - b|

/-- Clusters are the sets of positions with equal times. -/
def Splits (ts : List K) (gs : List (List Nat)) : Prop :=
  gs.flatten.Perm (List.range ts.length) ∧
  ∀ g ∈ gs, g ≠ [] ∧ ∀ i ∈ g, ∀ j, j < ts.length → (j ∈ g ↔ ts.getD i 0 = ts.getD j 0)

theorem near_single (tol : K) (ht : 0 < tol) (a b : K) : Redund.near tol [a] [b] = true ↔ |a - b| < tol := by
  unfold Redund.near Redund.sqDist
  rw [decide_eq_true_eq]
  simp only [List.zip_cons_cons, List.zip_nil_right, List.map_cons, List.map_nil, List.sum_cons, List.sum_nil, add_zero]
  constructor
  · rintro ⟨-, h⟩
    by_contra hn
    have h1 := mul_self_le_mul_self ht.le (not_lt.1 hn)
    rw [abs_mul_abs_self] at h1
    exact absurd h (not_lt.2 h1)
  · intro h
    refine ⟨ht, ?_⟩
    rw [← abs_mul_abs_self (a - b)]
    exact mul_self_lt_mul_self (abs_nonneg _) h

omit [LinearOrder K] [IsStrictOrderedRing K] in
theorem getD_single (ts : List K) (i : Nat) (hi : i < ts.length) : (ts.map (fun t => [t])).getD i [] = [ts.getD i 0] := by
  simp [List.getD_eq_getElem?_getD, List.getElem?_eq_getElem hi]

theorem near_times (tol : K) (ht : 0 < tol) (ts : List K) (ha : Apart tol ts) (i j : Nat) (hi : i < ts.length) (hj : j < ts.length) :
    Redund.Near tol (ts.map (fun t => [t])) i j ↔ ts.getD i 0 = ts.getD j 0 := by
  unfold Redund.Near
  rw [getD_single ts i hi, getD_single ts j hj, near_single tol ht, List.length_map]
  have hm : ∀ k, k < ts.length → ts.getD k 0 ∈ ts := fun k hk => by
    rw [List.getD_eq_getElem?_getD, List.getElem?_eq_getElem hk, Option.getD_some]; exact List.getElem_mem hk
  constructor
  · rintro ⟨-, rfl | h⟩
    · rfl
    · rcases ha _ (hm i hi) _ (hm j hj) with h1 | h1
      · exact h1
      · exact absurd h (not_lt.2 h1)
  · intro h
    refine ⟨hj, Or.inr ?_⟩
    rw [h, sub_self, abs_zero]; exact ht

/-- C130: `find_clusters` gives the sets of equal times. -/
theorem clusters_split (hash : List Nat → Int) (order : List K → List Nat) (nb : List K → Nat) (tol : K) (ht : 0 < tol) (ts : List K)
    (ha : Apart tol ts) (hhash : ∀ a b, hash a = hash b → a = b) (hnb : 0 < nb ts ∧ nb ts ≤ ts.length)
    (ho : IsArgsort ts (order ts)) : Splits ts (timeClusters hash order nb tol ts) := by
  have hids : ∀ i, i < ts.length → ((List.range ts.length).map (fun i : Nat => (i : Int))).getD i 0 = (i : Int) := by
    intro i hi
    simp [List.getD_eq_getElem?_getD, List.getElem?_range hi]
  have hin : Redund.Input hash (order ts) (nb ts) ((List.range ts.length).map (fun i : Nat => (i : Int))) (ts.map (fun t => [t])) := by
    refine ⟨by simp, ?_, by simp, by simpa using hnb, ?_, hhash⟩
    · exact List.nodup_range.map (fun a b h => by simpa using h)
    · have : (ts.map (fun t => [t])).map (fun v => v.headD 0) = ts := by simp [Function.comp_def]
      rw [this]; exact ho
  have hnear : ∀ i j, i < ts.length → j < ts.length → (Redund.Near tol (ts.map (fun t => [t])) i j ↔ ts.getD i 0 = ts.getD j 0) :=
    fun i j hi hj => near_times tol ht ts ha i j hi hj
  obtain ⟨gps, hg⟩ := (Redund.find_clusters_strict_succeeds tol hin).2 (by
    intro i j k hi h1 h2
    rw [List.length_map] at hi
    have hj : j < ts.length := by simpa using h1.1
    have hk : k < ts.length := by simpa using h2.1
    rw [hnear _ _ hi hj] at h1
    rw [hnear _ _ hj hk] at h2
    rw [hnear _ _ hi hk, h1, h2])
  have hg' : Redund.findClusters hash (order ts) (nb ts) ((List.range ts.length).map (fun i : Nat => (i : Int))) (ts.map (fun t => [t])) tol false = some gps := by
    unfold Redund.findClusters Redund.findCliques at hg ⊢
    rw [Option.map_eq_some_iff] at hg ⊢
    obtain ⟨a, h1, h2⟩ := hg
    refine ⟨a, ?_, h2⟩
    dsimp only at h1 ⊢
    split at h1
    · cases h1
    · exact h1
  obtain ⟨hp, -⟩ := Redund.find_clusters_strict tol hin gps hg
  obtain ⟨-, hmem, hl⟩ := Redund.find_clusters_loose_partial tol hin gps hg'
  have hcast : ∀ g ∈ gps, ∀ x ∈ g, ∃ i, i < ts.length ∧ x = (i : Int) := by
    intro g hgm x hx
    have := hmem x (List.mem_flatten.2 ⟨g, hgm, hx⟩)
    rw [List.mem_map] at this
    obtain ⟨i, hi, rfl⟩ := this
    exact ⟨i, List.mem_range.1 hi, rfl⟩
  have hto : ∀ g ∈ gps, ∀ i : Nat, i ∈ g.map Int.toNat ↔ (i : Int) ∈ g := by
    intro g hgm i
    rw [List.mem_map]
    constructor
    · rintro ⟨x, hx, rfl⟩
      obtain ⟨k, -, rfl⟩ := hcast g hgm x hx
      simpa using hx
    · intro h; exact ⟨_, h, by simp⟩
  unfold timeClusters
  rw [hg', Option.getD_some]
  refine ⟨?_, ?_⟩
  · have := hp.map Int.toNat
    rw [List.map_map] at this
    have h2 : (List.range ts.length).map (Int.toNat ∘ fun i : Nat => (i : Int)) = List.range ts.length := by
      conv_rhs => rw [← List.map_id (List.range ts.length)]
      apply List.map_congr_left
      intro a _; simp
    rw [h2, List.map_flatten] at this
    exact this
  · intro g' hg2
    obtain ⟨g, hgm, rfl⟩ := List.mem_map.1 hg2
    obtain ⟨h1, h2⟩ := hl g hgm
    refine ⟨by simpa using h1, ?_⟩
    intro i hi j hj
    rw [hto g hgm] at hi
    obtain ⟨k, hk, hik⟩ := hcast g hgm _ hi
    have hil : i < ts.length := by omega
    have h3 := h2 i j (by simpa using hil) (by simpa using hj)
    rw [hids i hil, hids j hj] at h3
    rw [hto g hgm, h3 hi, hnear i j hil hj]

end Verif.Compress
