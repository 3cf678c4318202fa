import Verif.Redund.Grid
import Verif.Baseline.Props

/-! Model of `get_antenna_redundancies` with the grid algorithm, and C54. -/
namespace Verif.Redund
open Verif.Np Verif.Baseline

variable {K : Type} [Field K] [LinearOrder K] [IsStrictOrderedRing K]

/-! ### Model -/

/-- `antnums_to_baseline(a, b, Nants_telescope=n)` on scalars, bls.py 109–120. -/
def num1 (n : Nat) (a b : Int) : Except Err Int :=
  (antnumsToBaseline (some n) false false [a] [b]).map (fun l => ((l.headD 0 : Nat) : Int))

/-- `baseline_to_antnums(bl, Nants_telescope=n)` on a scalar. -/
def ants1 (n : Nat) (bl : Int) : Except Err (Int × Int) :=
  (baselineToAntnums n [bl]).map (fun p => (p.1.headD 0, p.2.headD 0))

/-- `baseline_index_flip(bl, Nants_telescope=n)` on a scalar. -/
def flip1 (n : Nat) (bl : Int) : Except Err Int :=
  (baselineIndexFlip n [bl]).map (fun l => ((l.headD 0 : Nat) : Int))

/-- The loops of redundancy.py 348–352: positions `(aj, ai)`. -/
def antPairs (n : Nat) (autos : Bool) : List (Nat × Nat) :=
  (List.range n).flatMap (fun aj =>
    ((List.range n).drop (if autos then aj else aj + 1)).map (fun ai => (aj, ai)))

def sub3 (v w : V3 K) : V3 K := (v.1 - w.1, v.2.1 - w.2.1, v.2.2 - w.2.2)

/-- Line 355. -/
def antVec (pos : List (V3 K)) (p : Nat × Nat) : V3 K := sub3 (pos.getD p.2 (0, 0, 0)) (pos.getD p.1 (0, 0, 0))

/-- Lines 227–239: the numbers of the reversed baselines. -/
def conjsOf (tol : K) (bls : List Int) (vs : List (V3 K)) : List Int :=
  ((bls.zip vs).filter (fun p => conjugated tol p.2)).map (·.1)

/-- `get_antenna_redundancies`, lines 343–369, with `use_grid_alg=True`. -/
def antRed (rnd : K → Int) (tol : K) (autos : Bool) (nums : List Int) (pos : List (V3 K)) : Except Err (List (List Int)) :=
  let n := nums.length
  let ps := antPairs n autos
  (ps.mapM (fun p => num1 n (nums.getD p.1 0) (nums.getD p.2 0))).bind (fun bls =>
    let vs := ps.map (antVec pos)
    let conjs := conjsOf tol bls vs
    (findClustersGrid rnd bls (vs.map (orient tol)) tol).mapM (fun gp =>
      gp.mapM (fun bl => if conjs.contains bl then flip1 n bl else .ok bl)))

/-! ### Scalar baseline numbers -/

theorem scalar_ok (n : Nat) (hn : n ≤ 2147483648) (a b : Int) (ha : 0 ≤ a ∧ a < 2147483648) (hb : 0 ≤ b ∧ b < 2147483648) :
    ∃ k : Int, num1 n a b = .ok k ∧ ants1 n k = .ok (a, b) := by
  have hv : Spec.ValidAnts [a] [b] := by
    refine ⟨by simp, by simp, ?_⟩
    intro x hx
    simp only [List.cons_append, List.nil_append, List.mem_cons, List.not_mem_nil, or_false] at hx
    rcases hx with rfl | rfl
    · exact ha
    · exact hb
  obtain ⟨bls, h⟩ := (encode_accepts_iff (some n) false [a] [b]).2 ⟨by intro m hm; injection hm with hm; omega, hv⟩
  obtain ⟨-, c, hbls, hok⟩ := encode_ok h
  simp only [List.map_cons, List.map_nil, List.zipWith_cons_cons, List.zipWith_nil_right] at hbls
  have hc : c.ok a.toNat b.toNat := hok (a.toNat, b.toNat) (by simp)
  refine ⟨((encOne c a.toNat b.toNat : Nat) : Int), ?_, ?_⟩
  · unfold num1
    rw [h, hbls]
    rfl
  · unfold ants1 baselineToAntnums
    have hle := encOne_le c _ _ hc
    rw [if_neg (by omega), if_neg, if_neg]
    · simp only [List.map_cons, List.map_nil, Int.toNat_natCast]
      have := decArray_enc c [(a.toNat, b.toNat)] (by simp) (by simpa using hc)
      simp only [List.map_cons, List.map_nil] at this
      rw [this]
      simp only [List.map_cons, List.map_nil, Except.map, List.headD_cons, Except.ok.injEq, Prod.mk.injEq]
      omega
    · simp only [List.any_cons, List.any_nil, Bool.or_false, decide_eq_true_eq]
      omega
    · simp only [List.any_cons, List.any_nil, Bool.or_false, decide_eq_true_eq]
      omega

theorem flip1_ok (n : Nat) (a b k : Int) (hk : ants1 n k = .ok (a, b)) : flip1 n k = num1 n b a := by
  unfold ants1 at hk
  unfold flip1 baselineIndexFlip num1
  cases h : baselineToAntnums n [k] with
  | error e => rw [h] at hk; simp [Except.map] at hk
  | ok p =>
    rw [h] at hk
    have hlen : ∃ x y, p = ([x], [y]) := by
      unfold baselineToAntnums at h
      split at h; · simp at h
      split at h; · simp at h
      split at h; · simp at h
      simp only [List.map_cons, List.map_nil, decArray] at h
      injection h with h
      exact ⟨_, _, h.symm⟩
    obtain ⟨x, y, rfl⟩ := hlen
    simp only [Except.map, List.headD_cons, Except.ok.injEq, Prod.mk.injEq] at hk
    obtain ⟨rfl, rfl⟩ := hk
    rfl

theorem enc_exists (n : Nat) (hn : n ≤ 2147483648) : ∃ enc : Int × Int → Int, ∀ p : Int × Int,
    (0 ≤ p.1 ∧ p.1 < 2147483648) → (0 ≤ p.2 ∧ p.2 < 2147483648) →
      num1 n p.1 p.2 = .ok (enc p) ∧ ants1 n (enc p) = .ok p ∧ flip1 n (enc p) = .ok (enc (p.2, p.1)) := by
  refine ⟨fun p => ((num1 n p.1 p.2).toOption).getD 0, ?_⟩
  intro p h1 h2
  obtain ⟨k, hk, hk'⟩ := scalar_ok n hn p.1 p.2 h1 h2
  obtain ⟨k2, hk2, -⟩ := scalar_ok n hn p.2 p.1 h2 h1
  simp only [hk, Except.toOption, Option.getD_some]
  refine ⟨trivial, hk', ?_⟩
  rw [flip1_ok n _ _ k hk', hk2]
  simp

/-! ### The list of pairs -/

theorem mem_antPairs (n : Nat) (autos : Bool) (j i : Nat) :
    (j, i) ∈ antPairs n autos ↔ i < n ∧ (j < i ∨ (autos = true ∧ j = i)) := by
  unfold antPairs
  simp only [List.mem_flatMap, List.mem_range, List.mem_map, Prod.mk.injEq]
  constructor
  · rintro ⟨a, ha, b, hb, rfl, rfl⟩
    obtain ⟨m, hm, hb⟩ := List.mem_iff_getElem.1 hb
    simp only [List.getElem_drop, List.getElem_range, List.length_drop, List.length_range] at hb hm
    cases autos <;> simp only [Bool.false_eq_true, if_false, if_true, false_and, or_false, true_and] at * <;> omega
  · rintro ⟨h1, h2⟩
    refine ⟨j, by omega, i, ?_, rfl, rfl⟩
    rw [List.mem_iff_getElem]
    refine ⟨i - (if autos then j else j + 1), ?_, ?_⟩
    · simp only [List.length_drop, List.length_range]
      cases autos <;> simp only [Bool.false_eq_true, if_false, if_true, false_and, or_false, true_and] at * <;> omega
    · simp only [List.getElem_drop, List.getElem_range]
      cases autos <;> simp only [Bool.false_eq_true, if_false, if_true, false_and, or_false, true_and] at * <;> omega

theorem antPairs_nodup (n : Nat) (autos : Bool) : (antPairs n autos).Nodup := by
  unfold antPairs
  rw [List.nodup_flatMap]
  constructor
  · intro a _
    exact (List.Nodup.sublist (List.drop_sublist _ _) List.nodup_range).map (fun x y h => by simpa using h)
  · refine List.nodup_range.imp ?_
    intro a b hab
    simp only [Function.onFun]
    intro x hx hy
    simp only [List.mem_map] at hx hy
    obtain ⟨_, _, rfl⟩ := hx
    obtain ⟨_, _, h⟩ := hy
    simp only [Prod.mk.injEq] at h
    exact hab h.1.symm

/-! ### C54 -/

/-- The vector from antenna number `a` to antenna number `b`. -/
def IsVec (nums : List Int) (pos : List (V3 K)) (p : Int × Int) (v : V3 K) : Prop :=
  ∃ (i j : Nat) (x y : V3 K), nums[i]? = some p.1 ∧ nums[j]? = some p.2 ∧ pos[i]? = some x ∧ pos[j]? = some y ∧
    v = (y.1 - x.1, y.2.1 - x.2.1, y.2.2 - x.2.2)

/-- What a user expects of the groups, as antenna pairs: every group non-empty, no pair twice, every two different antennas
in exactly one direction, and autos exactly if asked for. -/
structure PairGroups (nums : List Int) (autos : Bool) (pgs : List (List (Int × Int))) : Prop where
  nonempty : ∀ pg ∈ pgs, pg ≠ []
  once : pgs.flatten.Nodup
  known : ∀ p ∈ pgs.flatten, p.1 ∈ nums ∧ p.2 ∈ nums
  direction : ∀ a ∈ nums, ∀ b ∈ nums, a ≠ b → ((a, b) ∈ pgs.flatten ↔ (b, a) ∉ pgs.flatten)
  auto : ∀ a ∈ nums, ((a, a) ∈ pgs.flatten ↔ autos = true)

theorem except_mapM {ε α β : Type} (f : α → Except ε β) (g : α → β) (l : List α) (h : ∀ x ∈ l, f x = .ok (g x)) :
    l.mapM f = .ok (l.map g) := by
  induction l with
  | nil => rfl
  | cons x l ih =>
    rw [List.mapM_cons, h x (by simp), ih (fun y hy => h y (by simp [hy]))]
    rfl

/-- Pair of antenna numbers at a pair of positions. -/
def numPair (nums : List Int) (p : Nat × Nat) : Int × Int := (nums.getD p.1 0, nums.getD p.2 0)

def swap (p : Int × Int) : Int × Int := (p.2, p.1)

/-- The reported direction. -/
def oriented (tol : K) (nums : List Int) (pos : List (V3 K)) (p : Nat × Nat) : Int × Int :=
  if conjugated tol (antVec pos p) then swap (numPair nums p) else numPair nums p

theorem getD_mem {α : Type} (l : List α) (d : α) (i : Nat) (h : i < l.length) : l[i]? = some (l.getD i d) := by
  rw [List.getD_eq_getElem?_getD, List.getElem?_eq_getElem h]; rfl

theorem numPair_inj (nums : List Int) (hn : nums.Nodup) (p q : Nat × Nat) (h1 : p.1 < nums.length) (h2 : p.2 < nums.length)
    (h3 : q.1 < nums.length) (h4 : q.2 < nums.length) (h : numPair nums p = numPair nums q) : p = q := by
  unfold numPair at h
  simp only [Prod.mk.injEq] at h
  have e1 := (List.getElem?_inj h1 hn).1 ((getD_mem nums 0 _ h1).trans ((congrArg some h.1).trans (getD_mem nums 0 _ h3).symm))
  have e2 := (List.getElem?_inj h2 hn).1 ((getD_mem nums 0 _ h2).trans ((congrArg some h.2).trans (getD_mem nums 0 _ h4).symm))
  exact Prod.ext e1 e2

/-- Pairs with positions in increasing order: oriented pairs can only agree if the pairs do. -/
theorem oriented_inj (tol : K) (nums : List Int) (pos : List (V3 K)) (hn : nums.Nodup) (p q : Nat × Nat)
    (hp : p.2 < nums.length ∧ p.1 ≤ p.2) (hq : q.2 < nums.length ∧ q.1 ≤ q.2) (h : oriented tol nums pos p = oriented tol nums pos q) :
    p = q := by
  have key : ∀ p q : Nat × Nat, p.2 < nums.length ∧ p.1 ≤ p.2 → q.2 < nums.length ∧ q.1 ≤ q.2 →
      numPair nums p = swap (numPair nums q) → p = q := by
    intro p q hp hq h
    have e : swap (numPair nums q) = numPair nums (q.2, q.1) := rfl
    rw [e] at h
    have := numPair_inj nums hn p (q.2, q.1) (by omega) (by omega) (by simp only; omega) (by simp only; omega) h
    have h1 : p.1 = q.2 := by rw [this]
    have h2 : p.2 = q.1 := by rw [this]
    exact Prod.ext (by omega) (by omega)
  unfold oriented at h
  split at h <;> split at h
  · apply numPair_inj nums hn p q (by omega) (by omega) (by omega) (by omega)
    unfold swap at h
    simp only [Prod.mk.injEq] at h
    exact Prod.ext h.2 h.1
  · exact (key q p hq hp h.symm).symm
  · exact key p q hp hq h
  · exact numPair_inj nums hn p q (by omega) (by omega) (by omega) (by omega) h

omit [IsStrictOrderedRing K] in
theorem oriented_vec (tol : K) (nums : List Int) (pos : List (V3 K)) (hl : pos.length = nums.length) (hn : nums.Nodup) (p : Nat × Nat)
    (hp : p.2 < nums.length ∧ p.1 ≤ p.2) (v : V3 K) (hv : IsVec nums pos (oriented tol nums pos p) v) :
    v = orient tol (antVec pos p) := by
  obtain ⟨i, j, x, y, h1, h2, h3, h4, rfl⟩ := hv
  unfold oriented at h1 h2
  unfold orient
  have g1 := getD_mem nums 0 p.1 (by omega)
  have g2 := getD_mem nums 0 p.2 (by omega)
  have q1 := getD_mem pos (0, 0, 0) p.1 (by omega)
  have q2 := getD_mem pos (0, 0, 0) p.2 (by omega)
  cases hc : conjugated tol (antVec pos p) with
  | true =>
    simp only [hc, if_true, swap, numPair] at h1 h2 ⊢
    have e1 := (List.getElem?_inj (List.getElem?_eq_some_iff.1 h1).1 hn).1 (h1.trans g2.symm)
    have e2 := (List.getElem?_inj (List.getElem?_eq_some_iff.1 h2).1 hn).1 (h2.trans g1.symm)
    subst e1 e2
    have r1 := Option.some.inj (h3.symm.trans q2)
    have r2 := Option.some.inj (h4.symm.trans q1)
    subst r1 r2
    simp [neg3, antVec, sub3]
  | false =>
    simp only [hc, Bool.false_eq_true, if_false, numPair] at h1 h2 ⊢
    have e1 := (List.getElem?_inj (List.getElem?_eq_some_iff.1 h1).1 hn).1 (h1.trans g1.symm)
    have e2 := (List.getElem?_inj (List.getElem?_eq_some_iff.1 h2).1 hn).1 (h2.trans g2.symm)
    subst e1 e2
    have r1 := Option.some.inj (h3.symm.trans q1)
    have r2 := Option.some.inj (h4.symm.trans q2)
    subst r1 r2
    simp [antVec, sub3]

/-- The input of `get_antenna_redundancies`. -/
structure AntInput (nums : List Int) (pos : List (V3 K)) : Prop where
  nodup : nums.Nodup
  valid : ∀ a ∈ nums, 0 ≤ a ∧ a < 2147483648
  few : nums.length ≤ 2147483648
  len : pos.length = nums.length

theorem pairGroups_of_perm (tol : K) (nums : List Int) (pos : List (V3 K)) (autos : Bool) (hi : AntInput nums pos)
    (pgs : List (List (Int × Int))) (hne : ∀ pg ∈ pgs, pg ≠ [])
    (hp : pgs.flatten.Perm ((antPairs nums.length autos).map (oriented tol nums pos))) : PairGroups nums autos pgs := by
  have hmem : ∀ q : Nat × Nat, q ∈ antPairs nums.length autos → q.2 < nums.length ∧ q.1 ≤ q.2 := by
    intro q hq
    have := (mem_antPairs _ _ q.1 q.2).1 hq
    omega
  have hnd : ((antPairs nums.length autos).map (oriented tol nums pos)).Nodup := by
    apply List.Nodup.map_on _ (antPairs_nodup _ _)
    intro p h1 q h2 h
    exact oriented_inj tol nums pos hi.nodup p q (hmem p h1) (hmem q h2) h
  have hin : ∀ x, x ∈ pgs.flatten ↔ ∃ q ∈ antPairs nums.length autos, oriented tol nums pos q = x := by
    intro x
    rw [hp.mem_iff, List.mem_map]
  refine ⟨hne, hp.symm.nodup hnd, ?_, ?_, ?_⟩
  · intro x hx
    obtain ⟨q, hq, rfl⟩ := (hin x).1 hx
    have hb := hmem q hq
    have m1 := List.mem_of_getElem? (getD_mem nums 0 q.1 (by omega))
    have m2 := List.mem_of_getElem? (getD_mem nums 0 q.2 (by omega))
    unfold oriented
    split
    · exact ⟨m2, m1⟩
    · exact ⟨m1, m2⟩
  · have key : ∀ i j : Nat, i < j → j < nums.length →
        ((nums.getD i 0, nums.getD j 0) ∈ pgs.flatten ↔ (nums.getD j 0, nums.getD i 0) ∉ pgs.flatten) := by
      intro i j hij hj
      have hne' : nums.getD i 0 ≠ nums.getD j 0 := by
        intro hc
        have := (List.getElem?_inj (i := i) (j := j) (by omega) hi.nodup).1
          ((getD_mem nums 0 _ (by omega)).trans ((congrArg some hc).trans (getD_mem nums 0 _ hj).symm))
        omega
      have hq : (i, j) ∈ antPairs nums.length autos := (mem_antPairs _ _ _ _).2 ⟨hj, Or.inl hij⟩
      -- the only pair of positions that can give either direction
      have only : ∀ q ∈ antPairs nums.length autos, (oriented tol nums pos q = (nums.getD i 0, nums.getD j 0) ∨
          oriented tol nums pos q = (nums.getD j 0, nums.getD i 0)) → q = (i, j) := by
        intro q hq' ho
        have hb := hmem q hq'
        unfold oriented at ho
        have : numPair nums q = numPair nums (i, j) ∨ numPair nums q = numPair nums (j, i) := by
          split at ho
          · rcases ho with ho | ho
            · right; unfold swap at ho; simp only [Prod.mk.injEq] at ho; exact Prod.ext ho.2 ho.1
            · left; unfold swap at ho; simp only [Prod.mk.injEq] at ho; exact Prod.ext ho.2 ho.1
          · rcases ho with ho | ho
            · left; exact ho
            · right; exact ho
        rcases this with h | h
        · exact numPair_inj nums hi.nodup q (i, j) (by omega) (by omega) (by simp only; omega) (by simp only; omega) h
        · have := numPair_inj nums hi.nodup q (j, i) (by omega) (by omega) (by simp only; omega) (by simp only; omega) h
          have e1 : q.1 = j := by rw [this]
          have e2 : q.2 = i := by rw [this]
          omega
      rw [hin, hin]
      constructor
      · rintro ⟨q, h1, h2⟩ ⟨q', h3, h4⟩
        have e := only q h1 (Or.inl h2)
        have e' := only q' h3 (Or.inr h4)
        subst e
        rw [e', h2] at h4
        simp only [Prod.mk.injEq] at h4
        exact hne' h4.1
      · intro h
        refine ⟨(i, j), hq, ?_⟩
        by_contra hc
        apply h
        refine ⟨(i, j), hq, ?_⟩
        unfold oriented at hc ⊢
        split at hc
        · rename_i h'; rw [if_pos h']; rfl
        · exact absurd rfl hc
    intro a ha b hb hab
    obtain ⟨i, hi', rfl⟩ := List.mem_iff_getElem.1 ha
    obtain ⟨j, hj', rfl⟩ := List.mem_iff_getElem.1 hb
    have ei : nums.getD i 0 = nums[i] := by rw [List.getD_eq_getElem?_getD, List.getElem?_eq_getElem hi']; rfl
    have ej : nums.getD j 0 = nums[j] := by rw [List.getD_eq_getElem?_getD, List.getElem?_eq_getElem hj']; rfl
    rcases Nat.lt_trichotomy i j with h | h | h
    · have := key i j h hj'
      rw [ei, ej] at this
      exact this
    · subst h; exact absurd rfl hab
    · have := key j i h hi'
      rw [ei, ej] at this
      tauto
  · intro a ha
    obtain ⟨i, hi', rfl⟩ := List.mem_iff_getElem.1 ha
    have ei : nums.getD i 0 = nums[i] := by rw [List.getD_eq_getElem?_getD, List.getElem?_eq_getElem hi']; rfl
    rw [hin]
    constructor
    · rintro ⟨q, hq, ho⟩
      have hb := hmem q hq
      have e : numPair nums q = numPair nums (i, i) := by
        unfold oriented at ho
        unfold numPair at ho ⊢
        simp only [ei]
        split at ho
        · unfold swap at ho; simp only [Prod.mk.injEq] at ho; exact Prod.ext ho.2 ho.1
        · exact ho
      have := numPair_inj nums hi.nodup q (i, i) (by omega) (by omega) hi' hi' e
      subst this
      rcases ((mem_antPairs _ _ i i).1 hq).2 with h | h
      · omega
      · exact h.1
    · intro h
      refine ⟨(i, i), (mem_antPairs _ _ i i).2 ⟨hi', Or.inr ⟨h, rfl⟩⟩, ?_⟩
      unfold oriented numPair swap
      simp only [ei]
      split <;> rfl

/-- C54: the groups of antenna pairs. Each returned number is a baseline number; decoded, the groups are as in `PairGroups`,
and the vectors of two pairs of one group, each taken from its first to its second antenna, differ by at most 3/4 of the
tolerance in every coordinate. -/
theorem antenna_redundancies (rnd : K → Int) (hr : ∀ x : K, |x - (rnd x : K)| ≤ 1 / 2) (tol : K) (ht : 0 < tol) (autos : Bool)
    (nums : List Int) (pos : List (V3 K)) (hi : AntInput nums pos) :
    ∃ gps pgs, antRed rnd tol autos nums pos = .ok gps ∧
      List.Forall₂ (List.Forall₂ (fun bl p => ants1 nums.length bl = .ok p)) gps pgs ∧ PairGroups nums autos pgs ∧
      ∀ pg ∈ pgs, ∀ p ∈ pg, ∀ q ∈ pg, ∀ v w, IsVec nums pos p v → IsVec nums pos q w →
        |v.1 - w.1| ≤ 3 / 4 * tol ∧ |v.2.1 - w.2.1| ≤ 3 / 4 * tol ∧ |v.2.2 - w.2.2| ≤ 3 / 4 * tol := by
  obtain ⟨enc, henc⟩ := enc_exists nums.length hi.few
  -- pairs of positions
  have hmem : ∀ q : Nat × Nat, q ∈ antPairs nums.length autos → q.2 < nums.length ∧ q.1 ≤ q.2 := by
    intro q hq
    have := (mem_antPairs _ _ q.1 q.2).1 hq
    omega
  have hval : ∀ q ∈ antPairs nums.length autos, (0 ≤ (numPair nums q).1 ∧ (numPair nums q).1 < 2147483648) ∧
      (0 ≤ (numPair nums q).2 ∧ (numPair nums q).2 < 2147483648) := by
    intro q hq
    have hb := hmem q hq
    exact ⟨hi.valid _ (List.mem_of_getElem? (getD_mem nums 0 q.1 (by omega))),
      hi.valid _ (List.mem_of_getElem? (getD_mem nums 0 q.2 (by omega)))⟩
  have hE : ∀ q ∈ antPairs nums.length autos, num1 nums.length (nums.getD q.1 0) (nums.getD q.2 0) = .ok (enc (numPair nums q)) ∧
      ants1 nums.length (enc (numPair nums q)) = .ok (numPair nums q) ∧
      flip1 nums.length (enc (numPair nums q)) = .ok (enc (swap (numPair nums q))) ∧
      ants1 nums.length (enc (swap (numPair nums q))) = .ok (swap (numPair nums q)) := by
    intro q hq
    have h1 := henc (numPair nums q) (hval q hq).1 (hval q hq).2
    have h2 := henc (swap (numPair nums q)) (hval q hq).2 (hval q hq).1
    exact ⟨h1.1, h1.2.1, h1.2.2, h2.2.1⟩
  have encInj : ∀ p ∈ antPairs nums.length autos, ∀ q ∈ antPairs nums.length autos,
      enc (numPair nums p) = enc (numPair nums q) → p = q := by
    intro p hp q hq h
    have e : numPair nums p = numPair nums q := by
      have h1 := (hE p hp).2.1
      rw [h, (hE q hq).2.1] at h1
      injection h1 with h1
      exact h1.symm
    have b1 := hmem p hp
    have b2 := hmem q hq
    exact numPair_inj nums hi.nodup p q (by omega) (by omega) (by omega) (by omega) e
  set PS := antPairs nums.length autos with hPS
  set bls := PS.map (fun q => enc (numPair nums q)) with hbls
  set vs := PS.map (antVec pos) with hvs
  have hnum : PS.mapM (fun p => num1 nums.length (nums.getD p.1 0) (nums.getD p.2 0)) = .ok bls :=
    except_mapM _ _ _ (fun q hq => (hE q hq).1)
  have hblsN : bls.Nodup := List.Nodup.map_on (fun p hp q hq h => encInj p hp q hq h) (antPairs_nodup _ _)
  have hlen : bls.length = (vs.map (orient tol)).length := by rw [hbls, hvs]; simp
  -- membership in `conjs`
  have hconj : ∀ q ∈ PS, (enc (numPair nums q) ∈ conjsOf tol bls vs ↔ conjugated tol (antVec pos q) = true) := by
    intro q hq
    have hz : bls.zip vs = PS.map (fun q => (enc (numPair nums q), antVec pos q)) := by
      rw [hbls, hvs, List.zip_map']
    unfold conjsOf
    rw [hz]
    simp only [List.mem_map, List.mem_filter]
    constructor
    · rintro ⟨x, ⟨⟨q', hq', rfl⟩, h2⟩, h3⟩
      have := encInj q' hq' q hq h3
      subst this
      exact h2
    · intro h
      exact ⟨_, ⟨⟨q, hq, rfl⟩, h⟩, rfl⟩
  -- the value written for each number
  have hone : ∀ q ∈ PS, ∃ k, (if (conjsOf tol bls vs).contains (enc (numPair nums q)) then flip1 nums.length (enc (numPair nums q))
      else .ok (enc (numPair nums q))) = .ok k ∧ ants1 nums.length k = .ok (oriented tol nums pos q) := by
    intro q hq
    have hc := hconj q hq
    unfold oriented
    cases h : conjugated tol (antVec pos q) with
    | true =>
      rw [if_pos (by simpa using hc.2 h)]
      exact ⟨_, (hE q hq).2.2.1, (hE q hq).2.2.2⟩
    | false =>
      rw [if_neg (by rw [List.contains_iff_mem, hc, h]; simp)]
      exact ⟨_, rfl, (hE q hq).2.1⟩
  let out : Int → Int := fun bl =>
    ((if (conjsOf tol bls vs).contains bl then flip1 nums.length bl else .ok bl).toOption).getD 0
  let dec : Int → Int × Int := fun bl => ((ants1 nums.length (out bl)).toOption).getD (0, 0)
  have hout : ∀ q ∈ PS, (if (conjsOf tol bls vs).contains (enc (numPair nums q)) then flip1 nums.length (enc (numPair nums q))
      else .ok (enc (numPair nums q))) = .ok (out (enc (numPair nums q))) ∧
      ants1 nums.length (out (enc (numPair nums q))) = .ok (oriented tol nums pos q) ∧
      dec (enc (numPair nums q)) = oriented tol nums pos q := by
    intro q hq
    obtain ⟨k, h1, h2⟩ := hone q hq
    have e : out (enc (numPair nums q)) = k := by
      simp only [out]
      rw [h1]; rfl
    refine ⟨by rw [e]; exact h1, by rw [e]; exact h2, ?_⟩
    simp only [dec]
    rw [e, h2]; rfl
  obtain ⟨hperm, hnonempty⟩ := grid_partition rnd bls (vs.map (orient tol)) tol hlen
  set G := findClustersGrid rnd bls (vs.map (orient tol)) tol with hG
  have hGmem : ∀ gp ∈ G, ∀ bl ∈ gp, ∃ q ∈ PS, enc (numPair nums q) = bl := by
    intro gp hgp bl hbl
    have : bl ∈ bls := hperm.mem_iff.1 (List.mem_flatten.2 ⟨gp, hgp, hbl⟩)
    rw [hbls, List.mem_map] at this
    exact this
  refine ⟨G.map (fun gp => gp.map out), G.map (fun gp => gp.map dec), ?_, ?_, ?_, ?_⟩
  · unfold antRed
    simp only [← hPS]
    rw [hnum]
    simp only [Except.bind, ← hvs, ← hG]
    apply except_mapM
    intro gp hgp
    apply except_mapM
    intro bl hbl
    obtain ⟨q, hq, rfl⟩ := hGmem gp hgp bl hbl
    exact (hout q hq).1
  · rw [List.forall₂_map_left_iff, List.forall₂_map_right_iff, List.forall₂_same]
    intro gp hgp
    rw [List.forall₂_map_left_iff, List.forall₂_map_right_iff, List.forall₂_same]
    intro bl hbl
    obtain ⟨q, hq, rfl⟩ := hGmem gp hgp bl hbl
    rw [(hout q hq).2.1, (hout q hq).2.2]
  · apply pairGroups_of_perm tol nums pos autos hi
    · intro pg hpg
      obtain ⟨gp, hgp, rfl⟩ := List.mem_map.1 hpg
      simpa using hnonempty gp hgp
    · rw [← List.map_flatten]
      refine (hperm.map dec).trans ?_
      rw [hbls, List.map_map]
      apply List.Perm.of_eq
      apply List.map_congr_left
      intro q hq
      exact (hout q hq).2.2
  · intro pg hpg x hx y hy v w hv hw
    obtain ⟨gp, hgp, rfl⟩ := List.mem_map.1 hpg
    obtain ⟨bx, hbx, rfl⟩ := List.mem_map.1 hx
    obtain ⟨byy, hby, rfl⟩ := List.mem_map.1 hy
    obtain ⟨p, hp, rfl⟩ := hGmem gp hgp bx hbx
    obtain ⟨q, hq, rfl⟩ := hGmem gp hgp byy hby
    rw [(hout p hp).2.2] at hv
    rw [(hout q hq).2.2] at hw
    have ev := oriented_vec tol nums pos hi.len hi.nodup p (hmem p hp) v hv
    have ew := oriented_vec tol nums pos hi.len hi.nodup q (hmem q hq) w hw
    obtain ⟨i, hi1⟩ := List.mem_iff_getElem?.1 hp
    obtain ⟨j, hj1⟩ := List.mem_iff_getElem?.1 hq
    have := (grid_redundant rnd hr bls (vs.map (orient tol)) tol ht hlen hblsN gp hgp).2 i j _ _ _ _
      (by rw [hbls, List.getElem?_map, hi1]; rfl) (by rw [hvs, List.getElem?_map, List.getElem?_map, hi1]; rfl)
      (by rw [hbls, List.getElem?_map, hj1]; rfl) (by rw [hvs, List.getElem?_map, List.getElem?_map, hj1]; rfl) hbx hby
    rw [ev, ew]
    exact ⟨this.1, this.2.1, this.2.2.1⟩

end Verif.Redund
