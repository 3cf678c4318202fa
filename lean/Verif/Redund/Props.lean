import Verif.Redund.Model
import Mathlib.Algebra.Order.BigOperators.Group.List
import Mathlib.Tactic.Linarith
import Mathlib.Tactic.NormNum
import Mathlib.Tactic.Ring

/-! C24, C25 for the clustering algorithm. -/
namespace Verif.Redund
open Verif.Np

variable {K : Type} [Field K] [LinearOrder K] [IsStrictOrderedRing K]

/-! ### Splitting into blocks -/

theorem splitParts_flatten {α : Type} : ∀ (k : Nat) (l : List α) (sz r : Nat), r ≤ k → l.length = k * sz + r →
    (splitParts l sz r k).flatten = l
  | 0, l, sz, r, hr, hl => by
    have : l.length = 0 := by omega
    rw [List.length_eq_zero_iff] at this
    subst this; rfl
  | k + 1, l, sz, r, hr, hl => by
    rw [splitParts, List.flatten_cons]
    have hl' : l.length = k * sz + sz + r := by rw [hl]; ring
    rw [splitParts_flatten k, List.take_append_drop]
    · omega
    · rw [List.length_drop]
      split <;> omega

theorem splitParts_ne {α : Type} : ∀ (k : Nat) (l : List α) (sz r : Nat), r ≤ k → l.length = k * sz + r → 0 < sz →
    ∀ b ∈ splitParts l sz r k, b ≠ []
  | 0, l, sz, r, _, _, _ => by simp [splitParts]
  | k + 1, l, sz, r, hr, hl, hsz => by
    intro b hb
    rw [splitParts] at hb
    have hl' : l.length = k * sz + sz + r := by rw [hl]; ring
    rcases List.mem_cons.1 hb with rfl | hb
    · intro h
      have := congrArg List.length h
      rw [List.length_take] at this
      simp only [List.length_nil] at this
      split at this <;> omega
    · refine splitParts_ne k _ sz (r - 1) (by omega) ?_ hsz b hb
      rw [List.length_drop]
      split <;> omega

theorem arraySplit_flatten {α : Type} (l : List α) (nb : Nat) (h : 0 < nb) : (arraySplit l nb).flatten = l := by
  unfold arraySplit
  apply splitParts_flatten
  · exact (Nat.mod_lt _ h).le
  · exact (Nat.div_add_mod _ _).symm

theorem arraySplit_ne {α : Type} (l : List α) (nb : Nat) (h : 0 < nb) (hl : nb ≤ l.length) : ∀ b ∈ arraySplit l nb, b ≠ [] := by
  unfold arraySplit
  apply splitParts_ne
  · exact (Nat.mod_lt _ h).le
  · exact (Nat.div_add_mod _ _).symm
  · exact Nat.div_pos hl h

/-! ### Distances -/

omit [IsStrictOrderedRing K] in
theorem near_comm (tol : K) (v w : List K) : near tol v w = near tol w v := by
  have h : sqDist v w = sqDist w v := by
    unfold sqDist
    induction v generalizing w with
    | nil => simp
    | cons a v ih =>
      cases w with
      | nil => simp
      | cons b w =>
        simp only [List.zip_cons_cons, List.map_cons, List.sum_cons, ih w]
        ring
  unfold near
  rw [h]

theorem head_le_sqDist (v w : List K) (hv : v ≠ []) (hw : w ≠ []) :
    (v.headD 0 - w.headD 0) * (v.headD 0 - w.headD 0) ≤ sqDist v w := by
  cases v with
  | nil => exact absurd rfl hv
  | cons a v =>
    cases w with
    | nil => exact absurd rfl hw
    | cons b w =>
      simp only [List.headD_cons, sqDist, List.zip_cons_cons, List.map_cons, List.sum_cons]
      have : 0 ≤ ((v.zip w).map (fun p => (p.1 - p.2) * (p.1 - p.2))).sum := by
        apply List.sum_nonneg
        intro x hx
        obtain ⟨p, -, rfl⟩ := List.mem_map.1 hx
        exact mul_self_nonneg _
      linarith

theorem near_head (tol : K) (v w : List K) (hv : v ≠ []) (hw : w ≠ []) (h : near tol v w = true) :
    0 < tol ∧ |v.headD 0 - w.headD 0| < tol := by
  unfold near at h
  rw [decide_eq_true_eq] at h
  refine ⟨h.1, ?_⟩
  have h1 := lt_of_le_of_lt (head_le_sqDist v w hv hw) h.2
  exact abs_lt_of_sq_lt_sq (by rw [pow_two, pow_two]; exact h1) h.1.le

omit [IsStrictOrderedRing K] in
/-- The first and the last element of a block bound its x coordinates. -/
theorem block_bounds (vecs : List (List K)) (b : List Nat) (hb : b.Pairwise (fun i j => xOf vecs i ≤ xOf vecs j)) (a : Nat)
    (ha : a ∈ b) : xOf vecs (b.headD 0) ≤ xOf vecs a ∧ xOf vecs a ≤ xOf vecs (b.getLastD 0) := by
  constructor
  · cases b with
    | nil => simp at ha
    | cons c b =>
      rcases List.mem_cons.1 ha with rfl | h
      · exact le_refl _
      · exact (List.pairwise_cons.1 hb).1 a h
  · rcases List.eq_nil_or_concat b with rfl | ⟨b', c, rfl⟩
    · simp at ha
    · rw [List.concat_eq_append] at hb ha ⊢
      have hlast : (b' ++ [c]).getLastD 0 = c := by simp
      rw [hlast]
      rcases List.mem_append.1 ha with h | h
      · exact (List.pairwise_append.1 hb).2.2 a h c (by simp)
      · simp only [List.mem_singleton] at h
        subst h; exact le_refl _

/-- Sorting into blocks and skipping pairs of blocks changes nothing: the linked items are the near ones. -/
theorem linked_iff (order : List Nat) (tol : K) (vecs : List (List K)) (nb : Nat) (hne : ∀ v ∈ vecs, v ≠ []) (hnb : 0 < nb)
    (ho : IsArgsort (vecs.map (fun v => v.headD 0)) order) (k j : Nat) (hk : k < vecs.length)
    (hj : j < vecs.length) :
    linked tol vecs (arraySplit order nb) k j = true ↔ near tol (vecs.getD k []) (vecs.getD j []) = true := by
  obtain ⟨hperm, hsort⟩ := ho
  rw [List.length_map] at hperm
  have hfl := arraySplit_flatten order nb hnb
  have hx : ∀ i, i < vecs.length → (vecs.map (fun v => v.headD 0))[i]? = some (xOf vecs i) := by
    intro i hi
    rw [List.getElem?_map, List.getElem?_eq_getElem hi, Option.map_some, xOf, List.getD_eq_getElem?_getD,
      List.getElem?_eq_getElem hi, Option.getD_some]
  have hsort' : order.Pairwise (fun i j => xOf vecs i ≤ xOf vecs j) := by
    refine List.Pairwise.imp_of_mem ?_ hsort
    intro a b ha hb h
    have ha' := List.mem_range.1 (hperm.mem_iff.1 ha)
    have hb' := List.mem_range.1 (hperm.mem_iff.1 hb)
    exact h _ _ (hx a ha') (hx b hb')
  rw [← hfl] at hsort'
  have hblock := (List.pairwise_flatten.1 hsort').1
  unfold linked
  simp only [List.any_eq_true, Bool.and_eq_true, List.contains_iff_mem, Bool.not_eq_true']
  constructor
  · rintro ⟨b1, -, -, b2, -, -, -, h⟩; exact h
  · intro h
    have hmem : ∀ i, i < vecs.length → ∃ b ∈ arraySplit order nb, i ∈ b := by
      intro i hi
      have : i ∈ (arraySplit order nb).flatten := by
        rw [hfl, hperm.mem_iff]; exact List.mem_range.2 hi
      exact List.mem_flatten.1 this
    obtain ⟨b1, hb1, hkb⟩ := hmem k hk
    obtain ⟨b2, hb2, hjb⟩ := hmem j hj
    refine ⟨b1, hb1, hkb, b2, hb2, ?_, hjb, h⟩
    have hv : ∀ i, i < vecs.length → vecs.getD i [] ≠ [] := by
      intro i hi
      rw [List.getD_eq_getElem?_getD, List.getElem?_eq_getElem hi, Option.getD_some]
      exact hne _ (List.getElem_mem hi)
    obtain ⟨ht, hd⟩ := near_head tol _ _ (hv k hk) (hv j hj) h
    have hd' : |xOf vecs k - xOf vecs j| < tol := hd
    rw [abs_lt] at hd'
    obtain ⟨l1, u1⟩ := block_bounds vecs b1 (hblock b1 hb1) k hkb
    obtain ⟨l2, u2⟩ := block_bounds vecs b2 (hblock b2 hb2) j hjb
    unfold skipBlocks
    simp only [decide_eq_false_iff_not, not_lt, le_min_iff, max_le_iff]
    refine ⟨⟨?_, ?_⟩, ?_, ?_⟩ <;> linarith

/-- Item `j` is near item `k`, or is `k`. -/
def Near (tol : K) (vecs : List (List K)) (k j : Nat) : Prop :=
  j < vecs.length ∧ (j = k ∨ near tol (vecs.getD k []) (vecs.getD j []) = true)

theorem mem_adj (order : List Nat) (tol : K) (vecs : List (List K)) (nb : Nat) (hne : ∀ v ∈ vecs, v ≠ []) (hnb : 0 < nb)
    (ho : IsArgsort (vecs.map (fun v => v.headD 0)) order) (k j : Nat) (hk : k < vecs.length) :
    j ∈ (adjList order tol vecs nb).getD k [] ↔ Near tol vecs k j := by
  unfold adjList
  rw [List.getD_eq_getElem?_getD, List.getElem?_map, List.getElem?_range hk, Option.map_some, Option.getD_some,
    List.mem_filter, List.mem_range, Near]
  constructor
  · rintro ⟨hj, h⟩
    refine ⟨hj, ?_⟩
    rw [Bool.or_eq_true, beq_iff_eq] at h
    rcases h with h | h
    · exact Or.inl h
    · exact Or.inr ((linked_iff order tol vecs nb hne hnb ho k j hk hj).1 h)
  · rintro ⟨hj, h⟩
    refine ⟨hj, ?_⟩
    rw [Bool.or_eq_true, beq_iff_eq]
    rcases h with h | h
    · exact Or.inl h
    · exact Or.inr ((linked_iff order tol vecs nb hne hnb ho k j hk hj).2 h)

omit [IsStrictOrderedRing K] in
theorem adj_sorted (order : List Nat) (tol : K) (vecs : List (List K)) (nb k : Nat) :
    ((adjList order tol vecs nb).getD k []).Pairwise (· < ·) := by
  unfold adjList
  rw [List.getD_eq_getElem?_getD, List.getElem?_map]
  cases (List.range vecs.length)[k]? with
  | none => simp
  | some a =>
    simp only [Option.map_some, Option.getD_some]
    exact range_filter_sorted _ _

/-! ### Cliques -/

/-- What is known of adjacency lists. -/
structure AdjOk (hash : List Nat → Int) (adj : List (List Nat)) : Prop where
  self : ∀ k, k < adj.length → k ∈ adj.getD k []
  bound : ∀ k, ∀ j ∈ adj.getD k [], j < adj.length
  sorted : ∀ k, (adj.getD k []).Pairwise (· < ·)
  inj : ∀ k j, k < adj.length → j < adj.length → hash (adj.getD k []) = hash (adj.getD j []) → adj.getD k [] = adj.getD j []

variable {hash : List Nat → Int} {adj : List (List Nat)}

theorem clique_mem (h : AdjOk hash adj) : ∀ (ks seen : List Nat), (∀ k ∈ ks, k < adj.length) → ∀ g ∈ cliqueLoop hash adj ks seen,
    ∃ k ∈ ks, k ∉ seen ∧ g = adj.getD k [] ∧ ∀ it ∈ g, adj.getD it [] = g
  | [], seen, _, g, hg => by simp [cliqueLoop] at hg
  | k :: ks, seen, hks, g, hg => by
    unfold cliqueLoop at hg
    have hk := hks k (by simp)
    have hks' : ∀ k ∈ ks, k < adj.length := fun k' h' => hks k' (by simp [h'])
    by_cases hs : k ∈ seen
    · rw [if_pos (by simpa using hs)] at hg
      obtain ⟨k', h1, h2, h3⟩ := clique_mem h ks seen hks' g hg
      exact ⟨k', by simp [h1], h2, h3⟩
    · rw [if_neg (by simpa using hs)] at hg
      simp only at hg
      by_cases ha : (adj.getD k []).all (fun it => hash (adj.getD it []) == hash (adj.getD k [])) = true
      · rw [if_pos ha] at hg
        rcases List.mem_cons.1 hg with rfl | hg
        · refine ⟨k, by simp, hs, rfl, ?_⟩
          intro it hit
          rw [List.all_eq_true] at ha
          have := ha it hit
          rw [beq_iff_eq] at this
          exact h.inj it k (h.bound k it hit) hk this
        · obtain ⟨k', h1, h2, h3⟩ := clique_mem h ks _ hks' g hg
          exact ⟨k', by simp [h1], fun hc => h2 (by simp [hc]), h3⟩
      · rw [if_neg ha] at hg
        obtain ⟨k', h1, h2, h3⟩ := clique_mem h ks _ hks' g hg
        exact ⟨k', by simp [h1], fun hc => h2 (by simp [hc]), h3⟩

theorem clique_disjoint (h : AdjOk hash adj) : ∀ (ks seen : List Nat), (∀ k ∈ ks, k < adj.length) →
    (cliqueLoop hash adj ks seen).Pairwise List.Disjoint
  | [], seen, _ => by simp [cliqueLoop]
  | k :: ks, seen, hks => by
    unfold cliqueLoop
    have hk := hks k (by simp)
    have hks' : ∀ k ∈ ks, k < adj.length := fun k' h' => hks k' (by simp [h'])
    by_cases hs : k ∈ seen
    · rw [if_pos (by simpa using hs)]
      exact clique_disjoint h ks seen hks'
    · rw [if_neg (by simpa using hs)]
      simp only
      by_cases ha : (adj.getD k []).all (fun it => hash (adj.getD it []) == hash (adj.getD k [])) = true
      · rw [if_pos ha, List.pairwise_cons]
        refine ⟨?_, clique_disjoint h ks _ hks'⟩
        intro g hg x hx hxg
        obtain ⟨k', h1, h2, h3, h4⟩ := clique_mem h ks _ hks' g hg
        rw [List.all_eq_true] at ha
        have hxe := ha x hx
        rw [beq_iff_eq] at hxe
        have e1 := h.inj x k (h.bound k x hx) hk hxe
        have e2 := h4 x hxg
        have : k' ∈ adj.getD k' [] := h.self k' (hks' k' h1)
        rw [← h3, ← e2, e1] at this
        exact h2 (by simp only [List.mem_append]; exact Or.inl this)
      · rw [if_neg ha]
        exact clique_disjoint h ks _ hks'

/-- If the neighbours of every item have the same neighbours, every item gets a group. -/
theorem clique_cover (h : AdjOk hash adj) (hall : ∀ k, k < adj.length → ∀ it ∈ adj.getD k [], adj.getD it [] = adj.getD k []) :
    ∀ (ks seen : List Nat), (∀ k ∈ ks, k < adj.length) → ∀ k ∈ ks, k ∉ seen → adj.getD k [] ∈ cliqueLoop hash adj ks seen
  | [], seen, _, k, hk, _ => by simp at hk
  | k0 :: ks, seen, hks, k, hk, hns => by
    unfold cliqueLoop
    have hk0 := hks k0 (by simp)
    have hks' : ∀ k ∈ ks, k < adj.length := fun k' h' => hks k' (by simp [h'])
    by_cases hs : k0 ∈ seen
    · rw [if_pos (by simpa using hs)]
      rcases List.mem_cons.1 hk with rfl | hk
      · exact absurd hs hns
      · exact clique_cover h hall ks seen hks' k hk hns
    · rw [if_neg (by simpa using hs)]
      simp only
      have ha : (adj.getD k0 []).all (fun it => hash (adj.getD it []) == hash (adj.getD k0 [])) = true := by
        rw [List.all_eq_true]
        intro it hit
        rw [hall k0 hk0 it hit, beq_iff_eq]
      rw [if_pos ha, List.mem_cons]
      by_cases hka : k ∈ adj.getD k0 []
      · exact Or.inl (hall k0 hk0 k hka)
      · right
        have hne : k ≠ k0 := by rintro rfl; exact hka (h.self k hk0)
        rcases List.mem_cons.1 hk with hk | hk
        · exact absurd hk hne
        · refine clique_cover h hall ks _ hks' k hk ?_
          simp only [List.mem_append, List.mem_cons, not_or]
          exact ⟨hka, hne, hns⟩

theorem findCliques_spec (h : AdjOk hash adj) (strict : Bool) (gps : List (List Nat))
    (hf : findCliques hash adj strict = some gps) :
    gps.Pairwise List.Disjoint ∧ (∀ g ∈ gps, (∃ k < adj.length, g = adj.getD k []) ∧ ∀ it ∈ g, adj.getD it [] = g) ∧
    (strict = true → ∀ k < adj.length, adj.getD k [] ∈ gps) := by
  unfold findCliques at hf
  simp only at hf
  split at hf
  · simp at hf
  · rename_i hs
    simp only [Option.some.injEq] at hf
    subst hf
    have hr : ∀ k ∈ List.range adj.length, k < adj.length := fun k hk => List.mem_range.1 hk
    refine ⟨clique_disjoint h _ _ hr, ?_, ?_⟩
    · intro g hg
      obtain ⟨k, h1, -, h3, h4⟩ := clique_mem h _ _ hr g hg
      exact ⟨⟨k, hr k h1, h3⟩, h4⟩
    · intro hst k hk
      rw [hst] at hs
      simp only [Bool.true_and, Bool.not_eq_true, Bool.not_eq_false'] at hs
      rw [List.all_eq_true] at hs
      have := hs (adj.getD k []) (by
        rw [List.getD_eq_getElem?_getD, List.getElem?_eq_getElem hk, Option.getD_some]
        exact List.getElem_mem hk)
      simpa using this

theorem findCliques_strict_iff (h : AdjOk hash adj) :
    (∃ gps, findCliques hash adj true = some gps) ↔
      ∀ k, k < adj.length → ∀ it ∈ adj.getD k [], adj.getD it [] = adj.getD k [] := by
  constructor
  · rintro ⟨gps, hf⟩ k hk it hit
    obtain ⟨-, h2, h3⟩ := findCliques_spec h true gps hf
    exact (h2 _ (h3 rfl k hk)).2 it hit
  · intro hall
    unfold findCliques
    simp only
    rw [if_neg]
    · exact ⟨_, rfl⟩
    · simp only [Bool.true_and, Bool.not_eq_true, Bool.not_eq_false']
      rw [List.all_eq_true]
      intro st hst
      obtain ⟨k, hk⟩ := List.mem_iff_getElem?.1 hst
      have hkl := (List.getElem?_eq_some_iff.1 hk).1
      have := clique_cover h hall (List.range adj.length) [] (fun k hk => List.mem_range.1 hk) k (List.mem_range.2 hkl) (by simp)
      rw [List.getD_eq_getElem?_getD, hk, Option.getD_some] at this
      simpa using this

/-! ### `find_clusters` -/

/-- Input of `find_clusters`: distinct identifiers, a vector for each, at least one; the number of blocks is what the
code takes (line 20) or any other between 1 and the number of items; the order is a sort of the first coordinates. -/
structure Input (hash : List Nat → Int) (order : List Nat) (nb : Nat) (ids : List Int) (vecs : List (List K)) : Prop where
  len : ids.length = vecs.length
  nodup : ids.Nodup
  dims : ∀ v ∈ vecs, v ≠ []
  blocks : 0 < nb ∧ nb ≤ vecs.length
  order : IsArgsort (vecs.map (fun v => v.headD 0)) order
  hash_inj : ∀ a b, hash a = hash b → a = b

variable {order : List Nat} {nb : Nat} {ids : List Int} {vecs : List (List K)}

theorem adjOk (tol : K) (h : Input hash order nb ids vecs) : AdjOk hash (adjList order tol vecs nb) := by
  have hl : (adjList order tol vecs nb).length = vecs.length := by simp [adjList]
  refine ⟨?_, ?_, fun k => adj_sorted _ _ _ _ _, fun k j _ _ he => h.hash_inj _ _ he⟩
  · intro k hk
    rw [hl] at hk
    rw [mem_adj order tol vecs nb h.dims h.blocks.1 h.order k k hk]
    exact ⟨hk, Or.inl rfl⟩
  · intro k j hj
    rw [hl]
    by_cases hk : k < vecs.length
    · exact ((mem_adj order tol vecs nb h.dims h.blocks.1 h.order k j hk).1 hj).1
    · rw [List.getD_eq_getElem?_getD, List.getElem?_eq_none (by omega)] at hj
      simp at hj

theorem ids_get (h : Input hash order nb ids vecs) {i j : Nat} (hi : i < vecs.length) (hj : j < vecs.length) :
    ids.getD i 0 = ids.getD j 0 ↔ i = j := by
  rw [← h.len] at hi hj
  rw [List.getD_eq_getElem?_getD, List.getElem?_eq_getElem hi, Option.getD_some, List.getD_eq_getElem?_getD,
    List.getElem?_eq_getElem hj, Option.getD_some]
  exact h.nodup.getElem_inj_iff

theorem near_symm (tol : K) {k j : Nat} (hk : k < vecs.length) (h : Near tol vecs k j) : Near tol vecs j k := by
  refine ⟨hk, ?_⟩
  rcases h.2 with h | h
  · exact Or.inl h.symm
  · right; rw [near_comm]; exact h

/-- C24, C25 for `find_clusters` with `strict`: every location is in exactly one group, and two locations are in the same
group exactly if their distance is less than the tolerance. -/
theorem find_clusters_strict (tol : K) (h : Input hash order nb ids vecs) (gps : List (List Int))
    (hf : findClusters hash order nb ids vecs tol true = some gps) :
    gps.flatten.Perm ids ∧ ∀ i j, i < vecs.length → j < vecs.length →
      ((∃ g ∈ gps, ids.getD i 0 ∈ g ∧ ids.getD j 0 ∈ g) ↔ Near tol vecs i j) := by
  unfold findClusters at hf
  rw [Option.map_eq_some_iff] at hf
  obtain ⟨gs, hgs, rfl⟩ := hf
  have hok := adjOk tol h
  have hl : (adjList order tol vecs nb).length = vecs.length := by simp [adjList]
  obtain ⟨hd, hc, hs⟩ := findCliques_spec hok true gs hgs
  have hmem : ∀ g ∈ gs, ∀ i ∈ g, i < vecs.length := by
    intro g hg i hi
    obtain ⟨⟨k, -, rfl⟩, -⟩ := hc g hg
    have := hok.bound k i hi
    omega
  constructor
  · have hp1 : ((gs.map (fun gp => (gp.map (fun i => ids.getD i 0)).insertionSort (· ≤ ·))).flatten).Perm
        (gs.flatten.map (fun i => ids.getD i 0)) := by
      clear hd hc hs hmem hgs
      induction gs with
      | nil => simp
      | cons g gs ih =>
        simp only [List.map_cons, List.flatten_cons, List.map_append]
        exact List.Perm.append (List.perm_insertionSort _ _) ih
    refine hp1.trans ?_
    have hp2 : gs.flatten.Perm (List.range vecs.length) := by
      rw [List.perm_ext_iff_of_nodup]
      · intro i
        rw [List.mem_flatten, List.mem_range]
        constructor
        · rintro ⟨g, hg, hi⟩; exact hmem g hg i hi
        · intro hi
          exact ⟨_, hs rfl i (by omega), hok.self i (by omega)⟩
      · rw [List.nodup_flatten]
        refine ⟨?_, hd⟩
        intro g hg
        obtain ⟨⟨k, -, rfl⟩, -⟩ := hc g hg
        exact (hok.sorted k).imp (fun h => by omega)
      · exact List.nodup_range
    have hp3 := hp2.map (fun i => ids.getD i 0)
    refine hp3.trans ?_
    have : (List.range vecs.length).map (fun i => ids.getD i 0) = ids := by
      apply List.ext_getElem
      · simp [h.len]
      · intro i h1 h2
        simp [h2]
    rw [this]
  · intro i j hi hj
    constructor
    · rintro ⟨g', hg', h1, h2⟩
      obtain ⟨g, hg, rfl⟩ := List.mem_map.1 hg'
      rw [(List.perm_insertionSort _ _).mem_iff, List.mem_map] at h1 h2
      obtain ⟨a, ha, hai⟩ := h1
      obtain ⟨b, hb, hbj⟩ := h2
      have ea := (ids_get h (hmem g hg a ha) hi).1 hai
      have eb := (ids_get h (hmem g hg b hb) hj).1 hbj
      subst ea
      subst eb
      have hadj := (hc g hg).2 a ha
      rw [← hadj] at hb
      exact (mem_adj order tol vecs nb h.dims h.blocks.1 h.order a b hi).1 hb
    · intro hn
      refine ⟨_, List.mem_map.2 ⟨_, hs rfl i (by omega), rfl⟩, ?_, ?_⟩
      · rw [(List.perm_insertionSort _ _).mem_iff, List.mem_map]
        exact ⟨i, hok.self i (by omega), rfl⟩
      · rw [(List.perm_insertionSort _ _).mem_iff, List.mem_map]
        exact ⟨j, (mem_adj order tol vecs nb h.dims h.blocks.1 h.order i j hi).2 hn, rfl⟩

/-- C24: with `strict`, grouping succeeds exactly if being near is transitive. -/
theorem find_clusters_strict_succeeds (tol : K) (h : Input hash order nb ids vecs) :
    (∃ gps, findClusters hash order nb ids vecs tol true = some gps) ↔
      ∀ i j k, i < vecs.length → Near tol vecs i j → Near tol vecs j k → Near tol vecs i k := by
  have hok := adjOk tol h
  have hl : (adjList order tol vecs nb).length = vecs.length := by simp [adjList]
  have hm := fun k j hk => mem_adj order tol vecs nb h.dims h.blocks.1 h.order k j hk
  have hiff : (∃ gps, findClusters hash order nb ids vecs tol true = some gps) ↔
      ∃ gps, findCliques hash (adjList order tol vecs nb) true = some gps := by
    unfold findClusters
    constructor
    · rintro ⟨g, hg⟩
      rw [Option.map_eq_some_iff] at hg
      obtain ⟨gs, hgs, -⟩ := hg
      exact ⟨gs, hgs⟩
    · rintro ⟨g, hg⟩
      rw [hg]; exact ⟨_, rfl⟩
  rw [hiff, findCliques_strict_iff hok]
  constructor
  · intro hall i j k hi hij hjk
    have e := hall i (by omega) j ((hm i j hi).2 hij)
    have := (hm j k hij.1).2 hjk
    rw [e] at this
    exact (hm i k hi).1 this
  · intro htr k hk it hit
    rw [hl] at hk
    have hki := (hm k it hk).1 hit
    apply List.Pairwise.eq_of_mem_iff (hok.sorted it) (hok.sorted k)
    intro a
    rw [hm it a hki.1, hm k a hk]
    constructor
    · intro h1; exact htr k it a hk hki h1
    · intro h1; exact htr it k a hki.1 (near_symm tol hk hki) h1

/-- C24, C25 without `strict`: groups never overlap, members of a group are near each other and nothing else is near a
member. -/
theorem find_clusters_loose_partial (tol : K) (h : Input hash order nb ids vecs) (gps : List (List Int))
    (hf : findClusters hash order nb ids vecs tol false = some gps) :
    gps.flatten.Nodup ∧ (∀ x ∈ gps.flatten, x ∈ ids) ∧ ∀ g ∈ gps, g ≠ [] ∧ ∀ i j, i < vecs.length → j < vecs.length →
      ids.getD i 0 ∈ g → (ids.getD j 0 ∈ g ↔ Near tol vecs i j) := by
  unfold findClusters at hf
  rw [Option.map_eq_some_iff] at hf
  obtain ⟨gs, hgs, rfl⟩ := hf
  have hok := adjOk tol h
  have hl : (adjList order tol vecs nb).length = vecs.length := by simp [adjList]
  obtain ⟨hd, hc, -⟩ := findCliques_spec hok false gs hgs
  have hmem : ∀ g ∈ gs, ∀ i ∈ g, i < vecs.length := by
    intro g hg i hi
    obtain ⟨⟨k, -, rfl⟩, -⟩ := hc g hg
    have := hok.bound k i hi
    omega
  refine ⟨?_, ?_, ?_⟩
  · rw [List.nodup_flatten]
    constructor
    · intro l hl'
      obtain ⟨g, hg, rfl⟩ := List.mem_map.1 hl'
      rw [(List.perm_insertionSort _ _).nodup_iff]
      obtain ⟨⟨k, -, hgk⟩, -⟩ := hc g hg
      have hgn : g.Nodup := by rw [hgk]; exact (hok.sorted k).imp (fun h => by omega)
      refine hgn.map_on ?_
      intro a ha b hb hab
      exact (ids_get h (hmem g hg a ha) (hmem g hg b hb)).1 hab
    · rw [List.pairwise_map]
      refine List.Pairwise.imp_of_mem ?_ hd
      intro a b ha hb hab x hx hy
      rw [(List.perm_insertionSort _ _).mem_iff, List.mem_map] at hx hy
      obtain ⟨i, hi, rfl⟩ := hx
      obtain ⟨j, hj, hij⟩ := hy
      have := (ids_get h (hmem b hb j hj) (hmem a ha i hi)).1 hij
      subst this
      exact hab hi hj
  · intro x hx
    obtain ⟨l, hl', hx⟩ := List.mem_flatten.1 hx
    obtain ⟨g, hg, rfl⟩ := List.mem_map.1 hl'
    rw [(List.perm_insertionSort _ _).mem_iff, List.mem_map] at hx
    obtain ⟨i, hi, rfl⟩ := hx
    have hil : i < ids.length := by rw [h.len]; exact hmem g hg i hi
    rw [List.getD_eq_getElem?_getD, List.getElem?_eq_getElem hil, Option.getD_some]
    exact List.getElem_mem hil
  · intro g' hg'
    obtain ⟨g, hg, rfl⟩ := List.mem_map.1 hg'
    obtain ⟨⟨k, hk, hgk⟩, hadj⟩ := hc g hg
    constructor
    · intro he
      have : ids.getD k 0 ∈ (g.map (fun i => ids.getD i 0)).insertionSort (· ≤ ·) := by
        rw [(List.perm_insertionSort _ _).mem_iff, List.mem_map]
        exact ⟨k, by rw [hgk]; exact hok.self k hk, rfl⟩
      rw [he] at this
      simp at this
    · intro i j hi hj hig
      rw [(List.perm_insertionSort _ _).mem_iff, List.mem_map] at hig ⊢
      obtain ⟨a, ha, hai⟩ := hig
      have ea := (ids_get h (hmem g hg a ha) hi).1 hai
      subst ea
      have hm := mem_adj order tol vecs nb h.dims h.blocks.1 h.order a j hi
      rw [hadj a ha] at hm
      rw [← hm]
      constructor
      · rintro ⟨b, hb, hbj⟩
        have eb := (ids_get h (hmem g hg b hb) hj).1 hbj
        exact eb ▸ hb
      · intro hb; exact ⟨j, hb, rfl⟩

end Verif.Redund
