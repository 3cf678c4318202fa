import Mathlib.Tactic.Ring
import Mathlib.Tactic.Linarith
import Mathlib.Tactic.FieldSimp
import Mathlib.Algebra.Order.Ring.Rat
import Mathlib.Algebra.Field.Rat
import Mathlib.Algebra.BigOperators.Ring.List
import Mathlib.Algebra.Order.BigOperators.Group.List
import Verif.Collapse.Model

/-! C27 and C28: what the collapse functions return. -/
namespace Verif.Collapse

variable {K : Type} [Field K] [LinearOrder K] [IsStrictOrderedRing K]

/-! ### C27 -/

/-- OR: true exactly when some entry is true. -/
theorem or_collapse_iff (b : List Bool) : ∃ r, orCollapse (K := K) (.bools b) = some r ∧ (r = true ↔ true ∈ b) := by
  refine ⟨_, rfl, ?_⟩
  simp

/-- AND: true exactly when no entry is false. -/
theorem and_collapse_iff (b : List Bool) :
    ∃ r, andCollapse (K := K) (.bools b) = some r ∧ (r = true ↔ false ∉ b) := by
  refine ⟨_, rfl, ?_⟩
  simp only [List.all_eq_true, id]
  constructor
  · intro h hf
    exact absurd (h _ hf) (by simp)
  · intro h x hx
    cases x
    · exact absurd hx h
    · rfl

/-- Collapsing groups first and the results afterwards is collapsing once. -/
theorem or_collapse_two_stage (groups : List (List Bool)) (rs : List Bool)
    (h : groups.mapM (fun g => orCollapse (K := K) (.bools g)) = some rs) :
    orCollapse (K := K) (.bools rs) = orCollapse (K := K) (.bools groups.flatten) := by
  have : rs = groups.map (fun g => g.any id) := by
    have e : groups.mapM (fun g => orCollapse (K := K) (.bools g)) = some (groups.map (fun g => g.any id)) := by
      clear h
      induction groups with
      | nil => rfl
      | cons g gs ih => rw [List.mapM_cons, ih]; rfl
    rw [e] at h
    simpa using h.symm
  subst this
  simp only [orCollapse, Option.some.injEq]
  rw [Bool.eq_iff_iff]
  simp

theorem and_collapse_two_stage (groups : List (List Bool)) (rs : List Bool)
    (h : groups.mapM (fun g => andCollapse (K := K) (.bools g)) = some rs) :
    andCollapse (K := K) (.bools rs) = andCollapse (K := K) (.bools groups.flatten) := by
  have : rs = groups.map (fun g => g.all id) := by
    have e : groups.mapM (fun g => andCollapse (K := K) (.bools g)) = some (groups.map (fun g => g.all id)) := by
      clear h
      induction groups with
      | nil => rfl
      | cons g gs ih => rw [List.mapM_cons, ih]; rfl
    rw [e] at h
    simpa using h.symm
  subst this
  simp only [andCollapse, Option.some.injEq]
  rw [Bool.eq_iff_iff]
  simp only [List.all_eq_true, List.mem_map, List.mem_flatten]
  constructor
  · rintro h x ⟨l, hl, hx⟩
    have := h _ ⟨l, hl, rfl⟩
    simp only [id, List.all_eq_true] at this
    exact this x hx
  · rintro h x ⟨l, hl, rfl⟩
    simp only [id, List.all_eq_true]
    exact fun x hx => h x ⟨l, hl, hx⟩

/-- Numbers are refused. -/
theorem bool_collapse_refuses (v : List (Val K)) : orCollapse (.nums v) = none ∧ andCollapse (.nums v) = none :=
  ⟨rfl, rfl⟩

/-! ### C28 -/

/-- The finite entries with their weights. -/
def finite (arr : List (Val K)) (ws : List K) : List (K × K) :=
  (List.zip ws arr).filterMap (fun p => match p.2 with | .fin x => some (p.1, x) | _ => none)

/-- Sum of the weights of the finite entries. -/
def wsum (l : List (K × K)) : K := (l.map (·.1)).sum
/-- Sum of weight times value. -/
def wxsum (l : List (K × K)) : K := (l.map (fun p => p.1 * p.2)).sum
/-- Sum of the squared weights. -/
def w2sum (l : List (K × K)) : K := (l.map (fun p => p.1 ^ 2)).sum

omit [LinearOrder K] [IsStrictOrderedRing K] in
theorem finite_cons (v : Val K) (arr : List (Val K)) (w : K) (ws : List K) :
    finite (v :: arr) (w :: ws) = (match v with | .fin x => [(w, x)] | _ => []) ++ finite arr ws := by
  cases v <;> simp [finite]

omit [IsStrictOrderedRing K] in
theorem eff_sums : ∀ (arr : List (Val K)) (ws : List K), ws.length = arr.length → Val.nan ∉ arr →
    (effWeights arr ws).sum = wsum (finite arr ws) ∧
    ((effWeights arr ws).map (· ^ 2)).sum = w2sum (finite arr ws) ∧
    Val.sum (List.zipWith Val.smul (effWeights arr ws) (zeroInf arr)) = .fin (wxsum (finite arr ws)) := by
  intro arr
  induction arr with
  | nil =>
    intro ws hl _
    have : ws = [] := List.length_eq_zero_iff.1 hl
    subst this
    simp [effWeights, wsum, w2sum, wxsum, finite, zeroInf, Val.sum]
  | cons v arr ih =>
    intro ws hl hn
    rcases ws with _ | ⟨w, ws⟩
    · simp at hl
    obtain ⟨h1, h2, h3⟩ := ih ws (by simpa using hl) (fun h => hn (List.mem_cons_of_mem _ h))
    rw [finite_cons]
    unfold effWeights zeroInf wsum w2sum wxsum at *
    cases v with
    | nan => exact absurd (by simp) hn
    | fin x =>
      refine ⟨?_, ?_, ?_⟩
      · simp only [List.zipWith_cons_cons, List.sum_cons, h1]
        simp [Val.isInf]
      · simp only [List.zipWith_cons_cons, List.sum_cons, List.map_cons, h2]
        simp [Val.isInf]
      · simp only [List.zipWith_cons_cons, List.map_cons, Val.sum, h3]
        simp [Val.isInf, Val.smul, Val.add]
    | inf n =>
      refine ⟨?_, ?_, ?_⟩
      · simp only [List.zipWith_cons_cons, List.sum_cons, h1]
        simp [Val.isInf]
      · simp only [List.zipWith_cons_cons, List.sum_cons, List.map_cons, h2]
        simp [Val.isInf]
      · simp only [List.zipWith_cons_cons, List.map_cons, Val.sum, h3]
        simp [Val.isInf, Val.smul, Val.add]

/-- The last step of `mean`. -/
def finish (w : K) (v : Val K) : Val K := if 1 / 10 ^ 10 < w then v.sdiv w else .inf false

/-- C28: without NaN in the data, the mean is the weighted mean of the finite entries if their weights sum to more
than `1e-10`, and `+inf` otherwise; the returned weights are the sums over the finite entries. -/
theorem mean_collapse_eq (arr : List (Val K)) (ws : List K) (hl : ws.length = arr.length) (hn : Val.nan ∉ arr) :
    (mean arr (some ws)).weight = wsum (finite arr ws) ∧
    (mean arr (some ws)).weightSq = w2sum (finite arr ws) ∧
    (mean arr (some ws)).mean =
      if 1 / 10 ^ 10 < wsum (finite arr ws) then .fin (wxsum (finite arr ws) / wsum (finite arr ws))
      else .inf false := by
  obtain ⟨h1, h2, h3⟩ := eff_sums arr ws hl hn
  refine ⟨h1, h2, ?_⟩
  have e : (mean arr (some ws)).mean = finish (effWeights arr ws).sum
      (Val.sum (List.zipWith Val.smul (effWeights arr ws) (zeroInf arr))) := rfl
  rw [e, h1, h3]
  rfl

/-- No weights given means all weights one. -/
theorem mean_collapse_default (arr : List (Val K)) :
    mean arr none = mean arr (some (List.replicate arr.length 1)) := by
  simp [mean, getWeights, List.map_const']

/-- Never NaN when the data have none. -/
theorem mean_collapse_no_nan (arr : List (Val K)) (ws : List K) (hl : ws.length = arr.length) (hn : Val.nan ∉ arr) :
    (mean arr (some ws)).mean ≠ .nan := by
  rw [(mean_collapse_eq arr ws hl hn).2.2]
  split <;> simp

/-- A cell whose total weight is zero becomes infinite, even when it contains NaN. -/
theorem mean_collapse_zero_weight (arr : List (Val K)) (ws : List K) (h : ∀ w ∈ ws, w = 0) :
    (mean arr (some ws)).mean = .inf false ∧ (mean arr (some ws)).weight = 0 := by
  have : (effWeights arr ws).sum = 0 := by
    apply List.sum_eq_zero
    intro x hx
    unfold effWeights at hx
    rw [← List.map_uncurry_zip_eq_zipWith, List.mem_map] at hx
    obtain ⟨⟨w, v⟩, hp, rfl⟩ := hx
    have hw := h w (List.of_mem_zip hp).1
    simp [hw]
  simp only [mean, getWeights, this]
  refine ⟨?_, trivial⟩
  rw [if_neg]
  have : (0 : K) < 1 / 10 ^ 10 := by positivity
  exact not_lt.2 this.le

/-- Entries of zero weight do not influence the result, wherever they stand. -/
theorem mean_collapse_ignores_zero_weight (a1 a2 : List (Val K)) (w1 w2 : List K) (v : Val K)
    (h1 : w1.length = a1.length) (h2 : w2.length = a2.length) (hn : Val.nan ∉ a1 ++ a2) (hv : v ≠ .nan) :
    mean (a1 ++ v :: a2) (some (w1 ++ 0 :: w2)) = mean (a1 ++ a2) (some (w1 ++ w2)) := by
  have hn' : Val.nan ∉ a1 ++ v :: a2 := by
    simp only [List.mem_append, List.mem_cons, not_or] at hn ⊢
    exact ⟨hn.1, hv.symm, hn.2⟩
  have ha := mean_collapse_eq (a1 ++ v :: a2) (w1 ++ 0 :: w2) (by simp [h1, h2]) hn'
  have hb := mean_collapse_eq (a1 ++ a2) (w1 ++ w2) (by simp [h1, h2]) hn
  have key : wsum (finite (a1 ++ v :: a2) (w1 ++ 0 :: w2)) = wsum (finite (a1 ++ a2) (w1 ++ w2)) ∧
      w2sum (finite (a1 ++ v :: a2) (w1 ++ 0 :: w2)) = w2sum (finite (a1 ++ a2) (w1 ++ w2)) ∧
      wxsum (finite (a1 ++ v :: a2) (w1 ++ 0 :: w2)) = wxsum (finite (a1 ++ a2) (w1 ++ w2)) := by
    have e : ∀ (b : List (Val K)) (u : List K), finite (a1 ++ b) (w1 ++ u) = finite a1 w1 ++ finite b u := by
      intro b u
      simp [finite, List.zip_append h1]
    rw [e, e, finite_cons]
    unfold wsum w2sum wxsum
    cases v <;> simp
  obtain ⟨k1, k2, k3⟩ := key
  rw [k1] at ha
  rw [k2] at ha
  rw [k3] at ha
  rw [← hb.1, ← hb.2.1] at ha
  cases hA : mean (a1 ++ v :: a2) (some (w1 ++ 0 :: w2)) with
  | mk m w q =>
    cases hB : mean (a1 ++ a2) (some (w1 ++ w2)) with
    | mk m' w' q' =>
      rw [hA, hB] at ha
      rw [hB] at hb
      simp only at ha hb
      rw [← hb.1] at hb
      simp only [Out.mk.injEq]
      refine ⟨?_, ha.1, ha.2.1⟩
      rw [ha.2.2, hb.2.2]

/-- Infinite entries do not influence the result, whatever their weight. -/
theorem mean_collapse_ignores_inf (a1 a2 : List (Val K)) (w1 w2 : List K) (w : K) (n : Bool)
    (h1 : w1.length = a1.length) (h2 : w2.length = a2.length) (hn : Val.nan ∉ a1 ++ a2) :
    (mean (a1 ++ .inf n :: a2) (some (w1 ++ w :: w2))).mean = (mean (a1 ++ a2) (some (w1 ++ w2))).mean ∧
    (mean (a1 ++ .inf n :: a2) (some (w1 ++ w :: w2))).weight = (mean (a1 ++ a2) (some (w1 ++ w2))).weight := by
  have hn' : Val.nan ∉ a1 ++ Val.inf n :: a2 := by
    simp only [List.mem_append, List.mem_cons, not_or] at hn ⊢
    exact ⟨hn.1, by simp, hn.2⟩
  have ha := mean_collapse_eq (a1 ++ .inf n :: a2) (w1 ++ w :: w2) (by simp [h1, h2]) hn'
  have hb := mean_collapse_eq (a1 ++ a2) (w1 ++ w2) (by simp [h1, h2]) hn
  have e : finite (a1 ++ Val.inf n :: a2) (w1 ++ w :: w2) = finite (a1 ++ a2) (w1 ++ w2) := by
    simp [finite, List.zip_append h1]
  rw [e] at ha
  exact ⟨ha.2.2.trans hb.2.2.symm, ha.1.trans hb.1.symm⟩

/-- Order of the entries does not matter. -/
theorem mean_collapse_perm (l l' : List (K × Val K)) (hp : l.Perm l') (hn : ∀ p ∈ l, p.2 ≠ .nan) :
    (mean (l.map (·.2)) (some (l.map (·.1)))).mean = (mean (l'.map (·.2)) (some (l'.map (·.1)))).mean := by
  have hn1 : Val.nan ∉ l.map (·.2) := by
    intro h
    obtain ⟨p, hp, he⟩ := List.mem_map.1 h
    exact hn p hp he
  have hn2 : Val.nan ∉ l'.map (·.2) := fun h => hn1 ((hp.map (·.2)).mem_iff.2 h)
  have e : ∀ m : List (K × Val K), List.zip (m.map (·.1)) (m.map (·.2)) = m := by
    intro m
    induction m with
    | nil => rfl
    | cons p m ih => simp only [List.map_cons, List.zip_cons_cons, ih]
  rw [(mean_collapse_eq _ _ (by simp) hn1).2.2, (mean_collapse_eq _ _ (by simp) hn2).2.2]
  have hf : (finite (l.map (·.2)) (l.map (·.1))).Perm (finite (l'.map (·.2)) (l'.map (·.1))) := by
    unfold finite
    rw [e, e]
    exact hp.filterMap _
  have h1 : wsum (finite (l.map (·.2)) (l.map (·.1))) = wsum (finite (l'.map (·.2)) (l'.map (·.1))) :=
    (hf.map _).sum_eq
  have h2 : wxsum (finite (l.map (·.2)) (l.map (·.1))) = wxsum (finite (l'.map (·.2)) (l'.map (·.1))) :=
    (hf.map _).sum_eq
  rw [h1, h2]

/-- With non-negative weights the mean lies between any bounds of the finite entries that carry weight. -/
theorem mean_collapse_between (arr : List (Val K)) (ws : List K) (lo hi m : K) (hl : ws.length = arr.length)
    (hn : Val.nan ∉ arr) (hw : ∀ w ∈ ws, 0 ≤ w) (hb : ∀ x, Val.fin x ∈ arr → lo ≤ x ∧ x ≤ hi)
    (h : (mean arr (some ws)).mean = .fin m) : lo ≤ m ∧ m ≤ hi := by
  rw [(mean_collapse_eq arr ws hl hn).2.2] at h
  split at h
  · rename_i hpos
    have hp : 0 < wsum (finite arr ws) := lt_trans (by positivity) hpos
    simp only [Val.fin.injEq] at h
    rw [← h, le_div_iff₀ hp, div_le_iff₀ hp]
    have hin : ∀ p ∈ finite arr ws, 0 ≤ p.1 ∧ lo ≤ p.2 ∧ p.2 ≤ hi := by
      intro p hp
      unfold finite at hp
      obtain ⟨⟨w, v⟩, hz, he⟩ := List.mem_filterMap.1 hp
      cases v with
      | fin x =>
        simp only [Option.some.injEq] at he
        subst he
        exact ⟨hw _ (List.of_mem_zip hz).1, hb _ (List.of_mem_zip hz).2⟩
      | inf n => simp at he
      | nan => simp at he
    generalize finite arr ws = l at hin
    clear hpos hp h
    unfold wsum wxsum
    induction l with
    | nil => simp
    | cons p l ih =>
      obtain ⟨i1, i2⟩ := ih (fun q hq => hin q (by simp [hq]))
      obtain ⟨a, b, c⟩ := hin p (by simp)
      simp only [List.map_cons, List.sum_cons, mul_add]
      have e1 := mul_le_mul_of_nonneg_left b a
      have e2 := mul_le_mul_of_nonneg_left c a
      constructor
      · linarith [mul_comm lo p.1]
      · linarith [mul_comm hi p.1]
  · simp at h

/-- Collapsing groups first and then the group results with the returned weights is collapsing once, provided each
group has total weight zero or more than the threshold. -/
theorem mean_collapse_two_stage (groups : List (List (Val K) × List K))
    (hl : ∀ g ∈ groups, g.2.length = g.1.length ∧ Val.nan ∉ g.1)
    (hw : ∀ g ∈ groups, (mean g.1 (some g.2)).weight = 0 ∧ (∀ w ∈ g.2, 0 ≤ w) ∨
      1 / 10 ^ 10 < (mean g.1 (some g.2)).weight) :
    (mean (groups.map (fun g => (mean g.1 (some g.2)).mean))
        (some (groups.map (fun g => (mean g.1 (some g.2)).weight)))).mean =
      (mean (groups.flatMap (·.1)) (some (groups.flatMap (·.2)))).mean ∧
    (mean (groups.map (fun g => (mean g.1 (some g.2)).mean))
        (some (groups.map (fun g => (mean g.1 (some g.2)).weight)))).weight =
      (mean (groups.flatMap (·.1)) (some (groups.flatMap (·.2)))).weight := by
  have hlen : (groups.flatMap (·.2)).length = (groups.flatMap (·.1)).length := by
    clear hw
    induction groups with
    | nil => rfl
    | cons g gs ih =>
      simp only [List.flatMap_cons, List.length_append, (hl g (by simp)).1]
      rw [ih (fun g' hg' => hl g' (by simp [hg']))]
  have hnan : Val.nan ∉ groups.flatMap (·.1) := by
    intro h
    obtain ⟨g, hg, hm⟩ := List.mem_flatMap.1 h
    exact (hl g hg).2 hm
  have hnan' : Val.nan ∉ groups.map (fun g => (mean g.1 (some g.2)).mean) := by
    intro h
    obtain ⟨g, hg, he⟩ := List.mem_map.1 h
    exact mean_collapse_no_nan g.1 g.2 (hl g hg).1 (hl g hg).2 he
  obtain ⟨a1, -, a3⟩ := mean_collapse_eq _ (groups.map (fun g => (mean g.1 (some g.2)).weight)) (by simp) hnan'
  obtain ⟨b1, -, b3⟩ := mean_collapse_eq _ _ hlen hnan
  have key : wsum (finite (groups.map (fun g => (mean g.1 (some g.2)).mean))
        (groups.map (fun g => (mean g.1 (some g.2)).weight))) =
      wsum (finite (groups.flatMap (·.1)) (groups.flatMap (·.2))) ∧
      wxsum (finite (groups.map (fun g => (mean g.1 (some g.2)).mean))
        (groups.map (fun g => (mean g.1 (some g.2)).weight))) =
      wxsum (finite (groups.flatMap (·.1)) (groups.flatMap (·.2))) := by
    clear a1 a3 b1 b3 hnan hnan' hlen
    induction groups with
    | nil => exact ⟨rfl, rfl⟩
    | cons g gs ih =>
      obtain ⟨i1, i2⟩ := ih (fun g' hg' => hl g' (by simp [hg'])) (fun g' hg' => hw g' (by simp [hg']))
      obtain ⟨c1, -, c3⟩ := mean_collapse_eq g.1 g.2 (hl g (by simp)).1 (hl g (by simp)).2
      have e : finite (List.flatMap (·.1) (g :: gs)) (List.flatMap (·.2) (g :: gs)) =
          finite g.1 g.2 ++ finite (gs.flatMap (·.1)) (gs.flatMap (·.2)) := by
        simp [finite, List.zip_append (hl g (by simp)).1]
      have s1 : ∀ x y : List (K × K), wsum (x ++ y) = wsum x + wsum y := by intro x y; simp [wsum]
      have s2 : ∀ x y : List (K × K), wxsum (x ++ y) = wxsum x + wxsum y := by intro x y; simp [wxsum]
      rw [e, s1, s2, List.map_cons, List.map_cons, finite_cons, s1, s2, i1, i2]
      rcases hw g (by simp) with ⟨h0, hnn⟩ | hpos
      · have hz : wsum (finite g.1 g.2) = 0 := by rw [← c1, h0]
        have hinf : (mean g.1 (some g.2)).mean = .inf false := by
          rw [c3, if_neg]
          rw [hz]
          exact not_lt.2 (le_of_lt (by positivity))
        have hx : wxsum (finite g.1 g.2) = 0 := by
          have hin : ∀ p ∈ finite g.1 g.2, 0 ≤ p.1 := by
            intro p hp
            unfold finite at hp
            obtain ⟨⟨w, v⟩, hzp, he⟩ := List.mem_filterMap.1 hp
            cases v with
            | fin x =>
              simp only [Option.some.injEq] at he
              subst he
              exact hnn _ (List.of_mem_zip hzp).1
            | inf n => simp at he
            | nan => simp at he
          generalize finite g.1 g.2 = l at hin hz
          unfold wsum at hz
          unfold wxsum
          induction l with
          | nil => rfl
          | cons p l ih =>
            have hs : 0 ≤ (l.map (·.1)).sum := List.sum_nonneg (by
              intro x hx
              obtain ⟨q, hq, rfl⟩ := List.mem_map.1 hx
              exact hin q (by simp [hq]))
            have hp := hin p (by simp)
            simp only [List.map_cons, List.sum_cons] at hz ⊢
            have h1 : p.1 = 0 := by linarith
            have h2 : (l.map (·.1)).sum = 0 := by linarith
            rw [ih (fun q hq => hin q (by simp [hq])) h2, h1]
            simp
        rw [hinf, hz, hx]
        simp [wsum, wxsum]
      · rw [c1] at hpos
        rw [c3, if_pos hpos, c1]
        have hne : wsum (finite g.1 g.2) ≠ 0 := ne_of_gt (lt_trans (by positivity) hpos)
        simp only [wsum, wxsum, List.map_cons, List.map_nil, List.sum_cons, List.sum_nil, add_zero, true_and]
        rw [mul_div_cancel₀]
        exact hne
  rw [a1, a3, b1, b3, key.1, key.2]
  exact ⟨rfl, rfl⟩

/-- A NaN poisons the cell even at zero weight. -/
theorem mean_collapse_nan_counterexample :
    (mean [Val.fin (1 : ℚ), .nan] (some [1, 0])).mean = .nan ∧
    (mean [Val.fin (1 : ℚ)] (some [1])).mean = .fin 1 := by decide +kernel

/-- Weights that are positive but sum to at most `1e-10` count as no weight at all. -/
theorem mean_collapse_tiny_weight_counterexample :
    (mean [Val.fin (3 : ℚ)] (some [1 / 10 ^ 10])).mean = .inf false := by decide +kernel

/-- The absolute mean and the mean of squares are the means of the absolute values and squares. -/
theorem absmean_collapse_eq (arr : List (Val K)) (ws : List K) (hl : ws.length = arr.length) (hn : Val.nan ∉ arr) :
    (absmean arr (some ws)).mean =
      (if 1 / 10 ^ 10 < wsum (finite arr ws) then
        .fin (((finite arr ws).map (fun p => p.1 * |p.2|)).sum / wsum (finite arr ws)) else .inf false) ∧
    (meanSq arr (some ws)).mean =
      (if 1 / 10 ^ 10 < wsum (finite arr ws) then
        .fin (((finite arr ws).map (fun p => p.1 * p.2 ^ 2)).sum / wsum (finite arr ws)) else .inf false) := by
  have hmap : ∀ (f : Val K → Val K) (g : K → K), (∀ x, f (.fin x) = .fin (g x)) → (∀ n, f (.inf n) = .inf false) →
      (f .nan = .nan) → (Val.nan ∉ arr.map f) ∧
      finite (arr.map f) ws = (finite arr ws).map (fun p => (p.1, g p.2)) := by
    intro f g h1 h2 h3
    constructor
    · intro h
      obtain ⟨v, hv, he⟩ := List.mem_map.1 h
      cases v with
      | fin x => rw [h1] at he; simp at he
      | inf n => rw [h2] at he; simp at he
      | nan => exact hn hv
    · clear hn
      induction arr generalizing ws with
      | nil => simp [finite]
      | cons v arr ih =>
        rcases ws with _ | ⟨w, ws⟩
        · simp at hl
        rw [List.map_cons, finite_cons, finite_cons, ih ws (by simpa using hl)]
        cases v with
        | fin x => rw [h1]; simp
        | inf n => rw [h2]; simp
        | nan => rw [h3]; simp
  have hs : ∀ (l : List (K × K)) (g : K → K), wsum (l.map (fun p => (p.1, g p.2))) = wsum l ∧
      wxsum (l.map (fun p => (p.1, g p.2))) = (l.map (fun p => p.1 * g p.2)).sum := by
    intro l g
    simp [wsum, wxsum, Function.comp_def]
  constructor
  · obtain ⟨n1, f1⟩ := hmap Val.abs (fun x => |x|) (fun _ => rfl) (fun _ => rfl) rfl
    unfold absmean
    rw [(mean_collapse_eq _ ws (by simpa using hl) n1).2.2, f1, (hs _ _).1, (hs _ _).2]
  · obtain ⟨n1, f1⟩ := hmap (fun v => v.abs.sq) (fun x => x ^ 2) (fun x => by simp [Val.abs, Val.sq]) (fun _ => rfl) rfl
    unfold meanSq
    rw [(mean_collapse_eq _ ws (by simpa using hl) n1).2.2, f1,
      (hs _ (fun x => x ^ 2)).1, (hs _ (fun x => x ^ 2)).2]

/-- The quadratic mean, with any square root, squares to the mean of squares and is at least the absolute mean. -/
theorem quadmean_collapse (sqrt : K → K) (hsq : ∀ x, 0 ≤ x → 0 ≤ sqrt x ∧ sqrt x * sqrt x = x) (arr : List (Val K))
    (ws : List K) (hl : ws.length = arr.length) (hn : Val.nan ∉ arr) (hw : ∀ w ∈ ws, 0 ≤ w)
    (hpos : 1 / 10 ^ 10 < wsum (finite arr ws)) :
    ∃ q a, (quadmean sqrt arr (some ws)).mean = .fin q ∧ (absmean arr (some ws)).mean = .fin a ∧
      q * q * wsum (finite arr ws) = ((finite arr ws).map (fun p => p.1 * p.2 ^ 2)).sum ∧ 0 ≤ a ∧ a ≤ q := by
  obtain ⟨h1, h2⟩ := absmean_collapse_eq arr ws hl hn
  rw [if_pos hpos] at h1 h2
  have hp : 0 < wsum (finite arr ws) := lt_trans (by positivity) hpos
  have hin : ∀ p ∈ finite arr ws, 0 ≤ p.1 := by
    intro p hp
    unfold finite at hp
    obtain ⟨⟨w, v⟩, hz, he⟩ := List.mem_filterMap.1 hp
    cases v with
    | fin x =>
      simp only [Option.some.injEq] at he
      subst he
      exact hw _ (List.of_mem_zip hz).1
    | inf n => simp at he
    | nan => simp at he
  generalize hL : finite arr ws = l at *
  have hS : 0 ≤ (l.map (fun p => p.1 * p.2 ^ 2)).sum := List.sum_nonneg (by
    intro x hx
    obtain ⟨p, hp, rfl⟩ := List.mem_map.1 hx
    exact mul_nonneg (hin p hp) (sq_nonneg _))
  have hA : 0 ≤ (l.map (fun p => p.1 * |p.2|)).sum := List.sum_nonneg (by
    intro x hx
    obtain ⟨p, hp, rfl⟩ := List.mem_map.1 hx
    exact mul_nonneg (hin p hp) (abs_nonneg _))
  obtain ⟨r0, r1⟩ := hsq _ (div_nonneg hS hp.le)
  refine ⟨_, _, by rw [quadmean, h2], h1, ?_, div_nonneg hA hp.le, ?_⟩
  · rw [r1, div_mul_cancel₀ _ (ne_of_gt hp)]
  · apply (fun h => abs_le_of_sq_le_sq' h r0 |>.2)
    rw [pow_two (sqrt _), r1, le_div_iff₀ hp]
    have var : ∀ (m : K) (l : List (K × K)), (∀ p ∈ l, 0 ≤ p.1) →
        0 ≤ (l.map (fun p => p.1 * p.2 ^ 2)).sum - 2 * m * (l.map (fun p => p.1 * |p.2|)).sum + m ^ 2 * wsum l := by
      intro m l
      unfold wsum
      induction l with
      | nil => simp
      | cons p l ih =>
        intro hq
        have := ih (fun q hq' => hq q (by simp [hq']))
        have h3 := mul_nonneg (hq p (by simp)) (sq_nonneg (|p.2| - m))
        simp only [List.map_cons, List.sum_cons]
        have h5 : p.1 * (|p.2| - m) ^ 2 = p.1 * p.2 ^ 2 - 2 * m * (p.1 * |p.2|) + m ^ 2 * p.1 := by
          rw [← sq_abs p.2]; ring
        rw [h5] at h3
        linarith
    have := var ((l.map (fun p => p.1 * |p.2|)).sum / wsum l) l hin
    have e : (l.map (fun p => p.1 * |p.2|)).sum = (l.map (fun p => p.1 * |p.2|)).sum / wsum l * wsum l := by
      rw [div_mul_cancel₀ _ (ne_of_gt hp)]
    generalize (l.map (fun p => p.1 * |p.2|)).sum / wsum l = m at this e
    rw [e] at this
    nlinarith

example : mean [Val.fin (1 : ℚ), .inf true, .fin 4, .fin 100] (some [1, 5, 2, 0]) = ⟨.fin 3, 3, 5⟩ := by decide +kernel

end Verif.Collapse
