import Verif.Redund.Props
import Mathlib.Tactic.FieldSimp

/-! C24, C25 for the grid algorithm, and C53: orientation. -/
namespace Verif.Redund
open Verif.Np

variable {K : Type} [Field K] [LinearOrder K] [IsStrictOrderedRing K]

/-! ### Cells -/

/-- Two cells touch. -/
def Touch (a b : Cell) : Prop := |a.1 - b.1| ≤ 1 ∧ |a.2.1 - b.2.1| ≤ 1 ∧ |a.2.2 - b.2.2| ≤ 1

theorem touch_symm {a b : Cell} (h : Touch a b) : Touch b a := by
  unfold Touch at *
  rw [abs_sub_comm a.1, abs_sub_comm a.2.1, abs_sub_comm a.2.2] at h
  exact h

theorem one_iff (e : Int) : e ∈ [(0 : Int), -1, 1] ↔ |e| ≤ 1 := by
  rw [abs_le]
  simp only [List.mem_cons, List.not_mem_nil, or_false]
  omega

theorem mem_epsilons (e : Cell) : e ∈ epsilons ↔ |e.1| ≤ 1 ∧ |e.2.1| ≤ 1 ∧ |e.2.2| ≤ 1 := by
  obtain ⟨x, y, z⟩ := e
  unfold epsilons
  simp only [List.mem_flatMap, List.mem_map, Prod.mk.injEq]
  constructor
  · rintro ⟨a, ha, b, hb, c, hc, rfl, rfl, rfl⟩
    exact ⟨(one_iff _).1 ha, (one_iff _).1 hb, (one_iff _).1 hc⟩
  · rintro ⟨h1, h2, h3⟩
    exact ⟨x, (one_iff _).2 h1, y, (one_iff _).2 h2, z, (one_iff _).2 h3, rfl, rfl, rfl⟩

theorem mem_around (c k : Cell) : k ∈ epsilons.map (cellAdd c) ↔ Touch k c := by
  rw [List.mem_map]
  constructor
  · rintro ⟨e, he, rfl⟩
    rw [mem_epsilons] at he
    unfold Touch cellAdd
    simp only [add_sub_cancel_left]
    exact he
  · intro h
    refine ⟨(k.1 - c.1, k.2.1 - c.2.1, k.2.2 - c.2.2), (mem_epsilons _).2 h, ?_⟩
    unfold cellAdd
    simp

variable {α : Type}

theorem has_iff (d : Dict α) (c : Cell) : d.has c = true ↔ ∃ e ∈ d, e.1 = c := by
  simp [Dict.has]

theorem check_some (d : Dict α) (c k : Cell) (h : checkNeighbors d c = some k) : Touch k c ∧ ∃ e ∈ d, e.1 = k := by
  unfold checkNeighbors at h
  exact ⟨(mem_around c k).1 (List.mem_of_find?_eq_some h), (has_iff d k).1 (List.find?_some (p := fun k => d.has k) h)⟩

theorem check_none (d : Dict α) (c : Cell) (h : checkNeighbors d c = none) : ∀ e ∈ d, ¬Touch e.1 c := by
  unfold checkNeighbors at h
  rw [List.find?_eq_none] at h
  intro e he ht
  exact h e.1 ((mem_around c e.1).2 ht) ((has_iff d e.1).2 ⟨e, he, rfl⟩)

/-! ### The loop -/

/-- What holds after any number of baselines. -/
structure GridInv (rnd : K → Int) (g : K) (d : Dict (α × V3 K)) (done : List (α × V3 K)) : Prop where
  apart : d.Pairwise (fun e e' => ¬Touch e.1 e'.1)
  perm : (d.map (·.2)).flatten.Perm done
  first : ∀ e ∈ d, ∃ b, e.2.head? = some b ∧ cellOf rnd g b.2 = e.1
  close : ∀ e ∈ d, ∀ b ∈ e.2, Touch e.1 (cellOf rnd g b.2)

omit [IsStrictOrderedRing K] in
theorem touch_refl (a : Cell) : Touch a a := by
  unfold Touch
  simp

theorem app_perm (d : Dict α) (k : Cell) (x : α) (hd : d.Pairwise (fun e e' => ¬Touch e.1 e'.1)) (hk : ∃ e ∈ d, e.1 = k) :
    ((d.app k x).map (·.2)).flatten.Perm ((d.map (·.2)).flatten ++ [x]) := by
  induction d with
  | nil => obtain ⟨e, he, -⟩ := hk; simp at he
  | cons e d ih =>
    have hd' := List.pairwise_cons.1 hd
    by_cases hek : e.1 = k
    · have hrest : d.map (fun e => if e.1 = k then (e.1, e.2 ++ [x]) else e) = d := by
        conv_rhs => rw [← List.map_id d]
        apply List.map_congr_left
        intro e' he'
        rw [if_neg]
        · rfl
        · intro hc
          apply hd'.1 e' he'
          rw [hek, hc]
          exact ⟨by simp, by simp, by simp⟩
      simp only [Dict.app, List.map_cons, if_pos hek, List.flatten_cons]
      rw [hrest]
      rw [List.append_assoc, List.append_assoc]
      exact List.Perm.append_left _ List.perm_append_comm
    · have hk' : ∃ e ∈ d, e.1 = k := by
        obtain ⟨e', he', h⟩ := hk
        rcases List.mem_cons.1 he' with rfl | he'
        · exact absurd h hek
        · exact ⟨e', he', h⟩
      have := ih hd'.2 hk'
      simp only [Dict.app, List.map_cons, if_neg hek, List.flatten_cons] at this ⊢
      rw [List.append_assoc]
      exact List.Perm.append_left _ this

omit [IsStrictOrderedRing K] in
theorem gridStep_inv (rnd : K → Int) (g : K) (d : Dict (α × V3 K)) (done : List (α × V3 K)) (b : α × V3 K)
    (h : GridInv rnd g d done) : GridInv rnd g (gridStep rnd g d b) (done ++ [b]) := by
  unfold gridStep
  cases hc : checkNeighbors d (cellOf rnd g b.2) with
  | some k =>
    obtain ⟨ht, hk⟩ := check_some d _ k hc
    simp only
    refine ⟨?_, ?_, ?_, ?_⟩
    · unfold Dict.app
      rw [List.pairwise_map]
      refine h.apart.imp ?_
      intro a a' hna
      have : ∀ e : Cell × List (α × V3 K), (if e.1 = k then (e.1, e.2 ++ [b]) else e).1 = e.1 := by
        intro e; split <;> rfl
      rw [this, this]
      exact hna
    · exact (app_perm d k b h.apart hk).trans (h.perm.append_right _)
    · intro e he
      obtain ⟨e0, he0, rfl⟩ := List.mem_map.1 he
      obtain ⟨b0, hb0, hb1⟩ := h.first e0 he0
      split
      · refine ⟨b0, ?_, hb1⟩
        simp [List.head?_append, hb0]
      · exact ⟨b0, hb0, hb1⟩
    · intro e he x hx
      obtain ⟨e0, he0, rfl⟩ := List.mem_map.1 he
      by_cases hek : e0.1 = k
      · rw [if_pos hek] at hx ⊢
        rcases List.mem_append.1 hx with hx | hx
        · exact h.close e0 he0 x hx
        · simp only [List.mem_singleton] at hx
          subst hx
          simp only [hek]
          exact ht
      · rw [if_neg hek] at hx ⊢
        exact h.close e0 he0 x hx
  | none =>
    have hn := check_none d _ hc
    simp only
    refine ⟨?_, ?_, ?_, ?_⟩
    · rw [List.pairwise_append]
      refine ⟨h.apart, List.pairwise_singleton _ _, ?_⟩
      intro e he e' he'
      simp only [List.mem_singleton] at he'
      subst he'
      exact hn e he
    · simp only [List.map_append, List.map_cons, List.map_nil, List.flatten_append, List.flatten_cons, List.flatten_nil,
        List.append_nil]
      exact h.perm.append_right _
    · intro e he
      rcases List.mem_append.1 he with he | he
      · exact h.first e he
      · simp only [List.mem_singleton] at he
        subst he
        exact ⟨b, rfl, rfl⟩
    · intro e he x hx
      rcases List.mem_append.1 he with he | he
      · exact h.close e he x hx
      · simp only [List.mem_singleton] at he
        subst he
        simp only [List.mem_singleton] at hx
        subst hx
        exact ⟨by simp, by simp, by simp⟩

omit [IsStrictOrderedRing K] in
theorem grid_inv (rnd : K → Int) (tol : K) (bls : List (α × V3 K)) : GridInv rnd (tol / 4) (gridDict rnd tol bls) bls := by
  have key : ∀ (l : List (α × V3 K)) (d : Dict (α × V3 K)) (done : List (α × V3 K)), GridInv rnd (tol / 4) d done →
      GridInv rnd (tol / 4) (l.foldl (gridStep rnd (tol / 4)) d) (done ++ l) := by
    intro l
    induction l with
    | nil => intro d done h; simpa using h
    | cons b l ih =>
      intro d done h
      rw [List.foldl_cons]
      have := ih _ _ (gridStep_inv rnd (tol / 4) d done b h)
      simpa using this
  have := key bls [] [] ⟨by simp, by simp, by simp, by simp⟩
  simpa [gridDict] using this

/-! ### Distances -/

/-- Squared distance of baseline vectors. -/
def sq3 (v w : V3 K) : K :=
  (v.1 - w.1) * (v.1 - w.1) + (v.2.1 - w.2.1) * (v.2.1 - w.2.1) + (v.2.2 - w.2.2) * (v.2.2 - w.2.2)

/-- A coordinate is within half a cell of its cell. -/
theorem coord_cell (rnd : K → Int) (hr : ∀ x : K, |x - (rnd x : K)| ≤ 1 / 2) (g : K) (hg : 0 < g) (x : K) :
    |x - (rnd (x / g) : K) * g| ≤ g / 2 := by
  have h := hr (x / g)
  have e : x - (rnd (x / g) : K) * g = (x / g - (rnd (x / g) : K)) * g := by
    field_simp
  rw [e, abs_mul, abs_of_pos hg]
  calc _ ≤ 1 / 2 * g := mul_le_mul_of_nonneg_right h hg.le
    _ = g / 2 := by ring

theorem cells_close {a b : Int} {n : Int} (h : |a - b| ≤ n) (g : K) (hg : 0 < g) : |(a : K) * g - (b : K) * g| ≤ (n : K) * g := by
  rw [← sub_mul, abs_mul, abs_of_pos hg]
  apply mul_le_mul_of_nonneg_right _ hg.le
  have : |((a - b : Int) : K)| ≤ (n : K) := by
    rw [← Int.cast_abs]; exact_mod_cast h
  simpa using this

/-- Coordinates of a member and of the first member of its group. -/
theorem coord_first (rnd : K → Int) (hr : ∀ x : K, |x - (rnd x : K)| ≤ 1 / 2) (g : K) (hg : 0 < g) (x y : K)
    (h : |rnd (x / g) - rnd (y / g)| ≤ 1) : |x - y| ≤ 2 * g := by
  have h1 := abs_le.1 (coord_cell rnd hr g hg x)
  have h2 := abs_le.1 (coord_cell rnd hr g hg y)
  have h3 := abs_le.1 (cells_close h g hg)
  rw [abs_le]
  push_cast at h3
  constructor <;> linarith [h1.1, h1.2, h2.1, h2.2, h3.1, h3.2]

/-- Coordinates of two members. -/
theorem coord_pair (rnd : K → Int) (hr : ∀ x : K, |x - (rnd x : K)| ≤ 1 / 2) (g : K) (hg : 0 < g) (x y : K) (c : Int)
    (h : |c - rnd (x / g)| ≤ 1) (h' : |c - rnd (y / g)| ≤ 1) : |x - y| ≤ 3 * g := by
  have h1 := abs_le.1 (coord_cell rnd hr g hg x)
  have h2 := abs_le.1 (coord_cell rnd hr g hg y)
  have h3 := abs_le.1 (cells_close h g hg)
  have h4 := abs_le.1 (cells_close h' g hg)
  rw [abs_le]
  push_cast at h3 h4
  constructor <;> linarith [h1.1, h1.2, h2.1, h2.2, h3.1, h3.2, h4.1, h4.2]

/-- Coordinates in cells that do not touch. -/
theorem coord_apart (rnd : K → Int) (hr : ∀ x : K, |x - (rnd x : K)| ≤ 1 / 2) (g : K) (hg : 0 < g) (x y : K)
    (h : ¬|rnd (x / g) - rnd (y / g)| ≤ 1) : g ≤ |x - y| := by
  have h1 := abs_le.1 (coord_cell rnd hr g hg x)
  have h2 := abs_le.1 (coord_cell rnd hr g hg y)
  rw [not_le] at h
  have h5 : 2 ≤ |rnd (x / g) - rnd (y / g)| := h
  rw [le_abs'] at h5 ⊢
  rcases h5 with h5 | h5
  · left
    have : ((rnd (x / g) : K) - (rnd (y / g) : K)) ≤ -2 := by exact_mod_cast h5
    have h6 := mul_le_mul_of_nonneg_right this hg.le
    rw [sub_mul] at h6
    linarith [h1.1, h1.2, h2.1, h2.2]
  · right
    have : (2 : K) ≤ ((rnd (x / g) : K) - (rnd (y / g) : K)) := by exact_mod_cast h5
    have h6 := mul_le_mul_of_nonneg_right this hg.le
    rw [sub_mul] at h6
    linarith [h1.1, h1.2, h2.1, h2.2]

theorem sq_le {x c : K} (h : |x| ≤ c) : x * x ≤ c * c := by
  have := abs_nonneg x
  rw [← abs_mul_abs_self]
  exact mul_le_mul h h this (this.trans h)

/-- The positions of the baselines whose identifiers are in a group. -/
theorem grid_group (rnd : K → Int) (ids : List Int) (vecs : List (V3 K)) (tol : K) (hl : ids.length = vecs.length)
    (hn : ids.Nodup) (g : List Int) (hg : g ∈ findClustersGrid rnd ids vecs tol) :
    ∃ e ∈ gridDict rnd tol (ids.zip vecs), ∀ (i : Nat) (id : Int) (v : V3 K), ids[i]? = some id → vecs[i]? = some v →
      (id ∈ g ↔ (id, v) ∈ e.2) := by
  unfold findClustersGrid at hg
  obtain ⟨e, he, rfl⟩ := List.mem_map.1 hg
  refine ⟨e, he, ?_⟩
  intro i id v hi hv
  rw [(List.perm_insertionSort _ _).mem_iff, List.mem_map]
  constructor
  · rintro ⟨⟨id', v'⟩, hb, rfl⟩
    have hin : (id', v') ∈ ids.zip vecs := by
      have := (grid_inv rnd tol (ids.zip vecs)).perm.mem_iff (a := (id', v'))
      exact this.1 (List.mem_flatten.2 ⟨e.2, List.mem_map.2 ⟨e, he, rfl⟩, hb⟩)
    obtain ⟨j, hj⟩ := List.mem_iff_getElem?.1 hin
    rw [List.getElem?_zip_eq_some] at hj
    simp only at hi hj
    have hij : i = j := by
      exact (List.getElem?_inj (List.getElem?_eq_some_iff.1 hi).1 hn).1 (hi.trans hj.1.symm)
    subst hij
    rw [hv] at hj
    simp only [Option.some.injEq] at hj
    rw [hj.2]
    exact hb
  · intro h
    exact ⟨(id, v), h, rfl⟩

/-- C24: the grid algorithm puts every baseline in exactly one group. -/
theorem grid_partition (rnd : K → Int) (ids : List Int) (vecs : List (V3 K)) (tol : K) (hl : ids.length = vecs.length) :
    (findClustersGrid rnd ids vecs tol).flatten.Perm ids ∧ ∀ g ∈ findClustersGrid rnd ids vecs tol, g ≠ [] := by
  have h := grid_inv rnd tol (ids.zip vecs)
  constructor
  · unfold findClustersGrid
    have hp : ∀ d : Dict (Int × V3 K), ((d.map (fun e => (e.2.map (·.1)).insertionSort (· ≤ ·))).flatten).Perm
        ((d.map (·.2)).flatten.map (·.1)) := by
      intro d
      induction d with
      | nil => simp
      | cons e d ih =>
        simp only [List.map_cons, List.flatten_cons, List.map_append]
        exact List.Perm.append (List.perm_insertionSort _ _) ih
    refine (hp _).trans ((h.perm.map (·.1)).trans ?_)
    rw [List.map_fst_zip (by omega)]
  · intro g hg
    unfold findClustersGrid at hg
    obtain ⟨e, he, rfl⟩ := List.mem_map.1 hg
    obtain ⟨b, hb, -⟩ := h.first e he
    intro hc
    have : b.1 ∈ (e.2.map (·.1)).insertionSort (· ≤ ·) := by
      rw [(List.perm_insertionSort _ _).mem_iff]
      exact List.mem_map.2 ⟨b, List.mem_of_mem_head? hb, rfl⟩
    rw [hc] at this
    simp at this

/-- C25 for the grid algorithm: a group has a member from which no other is as far as the tolerance; any two members
differ by at most 3/4 of the tolerance in every coordinate, hence by at most √27/4 ≈ 1.3 tolerances. -/
theorem grid_redundant (rnd : K → Int) (hr : ∀ x : K, |x - (rnd x : K)| ≤ 1 / 2) (ids : List Int) (vecs : List (V3 K)) (tol : K)
    (ht : 0 < tol) (hl : ids.length = vecs.length) (hn : ids.Nodup) (g : List Int) (hg : g ∈ findClustersGrid rnd ids vecs tol) :
    (∃ (i : Nat) (id : Int) (v : V3 K), ids[i]? = some id ∧ vecs[i]? = some v ∧ id ∈ g ∧
      ∀ (j : Nat) (id' : Int) (w : V3 K), ids[j]? = some id' → vecs[j]? = some w → id' ∈ g → sq3 v w < tol * tol) ∧
    ∀ (i j : Nat) (id id' : Int) (v w : V3 K), ids[i]? = some id → vecs[i]? = some v → ids[j]? = some id' →
      vecs[j]? = some w → id ∈ g → id' ∈ g →
      |v.1 - w.1| ≤ 3 / 4 * tol ∧ |v.2.1 - w.2.1| ≤ 3 / 4 * tol ∧ |v.2.2 - w.2.2| ≤ 3 / 4 * tol ∧
        sq3 v w ≤ 27 / 16 * (tol * tol) := by
  have hgs : (0 : K) < tol / 4 := by positivity
  obtain ⟨e, he, hiff⟩ := grid_group rnd ids vecs tol hl hn g hg
  have h := grid_inv rnd tol (ids.zip vecs)
  constructor
  · obtain ⟨⟨id, v⟩, hb, hcell⟩ := h.first e he
    have hmem : (id, v) ∈ e.2 := List.mem_of_mem_head? hb
    have hin : (id, v) ∈ ids.zip vecs :=
      h.perm.mem_iff.1 (List.mem_flatten.2 ⟨e.2, List.mem_map.2 ⟨e, he, rfl⟩, hmem⟩)
    obtain ⟨i, hi⟩ := List.mem_iff_getElem?.1 hin
    rw [List.getElem?_zip_eq_some] at hi
    refine ⟨i, id, v, hi.1, hi.2, (hiff i id v hi.1 hi.2).2 hmem, ?_⟩
    intro j id' w hj hw hg'
    have hw' := h.close e he _ ((hiff j id' w hj hw).1 hg')
    rw [← hcell] at hw'
    obtain ⟨t1, t2, t3⟩ := hw'
    have c1 := sq_le (coord_first rnd hr _ hgs v.1 w.1 t1)
    have c2 := sq_le (coord_first rnd hr _ hgs v.2.1 w.2.1 t2)
    have c3 := sq_le (coord_first rnd hr _ hgs v.2.2 w.2.2 t3)
    have hpos : 0 < tol * tol := mul_pos ht ht
    have e1 : 2 * (tol / 4) * (2 * (tol / 4)) = tol * tol / 4 := by ring
    rw [e1] at c1 c2 c3
    unfold sq3
    linarith
  · intro i j id id' v w hi hv hj hw hgi hgj
    have hv' := h.close e he _ ((hiff i id v hi hv).1 hgi)
    have hw' := h.close e he _ ((hiff j id' w hj hw).1 hgj)
    obtain ⟨t1, t2, t3⟩ := hv'
    obtain ⟨s1, s2, s3⟩ := hw'
    have c1 := coord_pair rnd hr _ hgs v.1 w.1 _ t1 s1
    have c2 := coord_pair rnd hr _ hgs v.2.1 w.2.1 _ t2 s2
    have c3 := coord_pair rnd hr _ hgs v.2.2 w.2.2 _ t3 s3
    have e1 : 3 * (tol / 4) = 3 / 4 * tol := by ring
    rw [e1] at c1 c2 c3
    refine ⟨c1, c2, c3, ?_⟩
    have d1 := sq_le c1
    have d2 := sq_le c2
    have d3 := sq_le c3
    have e2 : 3 / 4 * tol * (3 / 4 * tol) = 9 / 16 * (tol * tol) := by ring
    rw [e2] at d1 d2 d3
    unfold sq3
    linarith

/-- C25: two different groups of the grid algorithm have members that differ by at least a quarter of the tolerance in
some coordinate. -/
theorem grid_groups_apart (rnd : K → Int) (hr : ∀ x : K, |x - (rnd x : K)| ≤ 1 / 2) (ids : List Int) (vecs : List (V3 K))
    (tol : K) (ht : 0 < tol) :
    (findClustersGrid rnd ids vecs tol).Pairwise (fun g g' => ∃ (id id' : Int) (v w : V3 K), (id, v) ∈ ids.zip vecs ∧
      (id', w) ∈ ids.zip vecs ∧ id ∈ g ∧ id' ∈ g' ∧
      (tol / 4 ≤ |v.1 - w.1| ∨ tol / 4 ≤ |v.2.1 - w.2.1| ∨ tol / 4 ≤ |v.2.2 - w.2.2|)) := by
  have hgs : (0 : K) < tol / 4 := by positivity
  have h := grid_inv rnd tol (ids.zip vecs)
  unfold findClustersGrid
  rw [List.pairwise_map]
  refine List.Pairwise.imp_of_mem ?_ h.apart
  intro e e' he he' hna
  obtain ⟨⟨id, v⟩, hb, hc⟩ := h.first e he
  obtain ⟨⟨id', w⟩, hb', hc'⟩ := h.first e' he'
  have hm := List.mem_of_mem_head? hb
  have hm' := List.mem_of_mem_head? hb'
  refine ⟨id, id', v, w, h.perm.mem_iff.1 (List.mem_flatten.2 ⟨e.2, List.mem_map.2 ⟨e, he, rfl⟩, hm⟩),
    h.perm.mem_iff.1 (List.mem_flatten.2 ⟨e'.2, List.mem_map.2 ⟨e', he', rfl⟩, hm'⟩), ?_, ?_, ?_⟩
  · rw [(List.perm_insertionSort _ _).mem_iff]; exact List.mem_map.2 ⟨_, hm, rfl⟩
  · rw [(List.perm_insertionSort _ _).mem_iff]; exact List.mem_map.2 ⟨_, hm', rfl⟩
  · rw [← hc, ← hc'] at hna
    unfold Touch cellOf at hna
    simp only [not_and_or] at hna
    rcases hna with hna | hna | hna
    · exact Or.inl (coord_apart rnd hr _ hgs _ _ hna)
    · exact Or.inr (Or.inl (coord_apart rnd hr _ hgs _ _ hna))
    · exact Or.inr (Or.inr (coord_apart rnd hr _ hgs _ _ hna))

/-! ### C53: orientation -/

/-- Every coordinate is within the tolerance of zero. -/
def Small (tol : K) (v : V3 K) : Prop := |v.1| ≤ tol ∧ |v.2.1| ≤ tol ∧ |v.2.2| ≤ tol

/-- C53: of two opposite vectors exactly one is reversed, unless both are within the tolerance of zero, in which case
neither is. -/
theorem orient_exactly_one (tol : K) (ht : 0 ≤ tol) (v : V3 K) :
    (Small tol v → conjugated tol v = false ∧ conjugated tol (neg3 v) = false) ∧
    (¬Small tol v → conjugated tol (neg3 v) = !conjugated tol v) := by
  obtain ⟨a, b, c⟩ := v
  unfold Small conjugated neg3
  simp only [abs_neg]
  have tri : ∀ x : K, (|x| ≤ tol ∧ ¬x < -tol ∧ ¬-x < -tol) ∨ (¬|x| ≤ tol ∧ x < -tol ∧ ¬-x < -tol) ∨
      (¬|x| ≤ tol ∧ ¬x < -tol ∧ -x < -tol) := by
    intro x
    rcases le_or_gt |x| tol with h | h
    · left
      have := abs_le.1 h
      exact ⟨h, not_lt.2 this.1, not_lt.2 (neg_le_neg this.2)⟩
    · right
      rcases lt_abs.1 h with h' | h'
      · right
        exact ⟨not_le.2 h, not_lt.2 (by linarith), by linarith⟩
      · left
        exact ⟨not_le.2 h, by linarith, not_lt.2 (by linarith)⟩
  rcases tri a with ⟨a1, a2, a3⟩ | ⟨a1, a2, a3⟩ | ⟨a1, a2, a3⟩ <;>
  rcases tri b with ⟨b1, b2, b3⟩ | ⟨b1, b2, b3⟩ | ⟨b1, b2, b3⟩ <;>
  rcases tri c with ⟨c1, c2, c3⟩ | ⟨c1, c2, c3⟩ | ⟨c1, c2, c3⟩ <;>
  simp [a1, a2, a3, b1, b2, b3, c1, c2, c3]

omit [IsStrictOrderedRing K] in
theorem neg3_neg3 (v : V3 K) : neg3 (neg3 v) = v := by simp [neg3]

/-- C53: opposite vectors are oriented the same way; oriented vectors are not reversed again. -/
theorem orient_opposite (tol : K) (ht : 0 ≤ tol) (v : V3 K) (hv : ¬Small tol v) :
    orient tol (neg3 v) = orient tol v ∧ conjugated tol (orient tol v) = false := by
  have h := (orient_exactly_one tol ht v).2 hv
  unfold orient
  rw [h]
  cases hc : conjugated tol v with
  | true =>
    rw [hc] at h
    simp only [Bool.not_true, Bool.false_eq_true, if_false, if_true, true_and]
    exact h
  | false =>
    simp only [Bool.not_false, if_true, Bool.false_eq_true, if_false, neg3_neg3, true_and]
    exact hc

end Verif.Redund
