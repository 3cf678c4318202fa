import Mathlib.Algebra.Order.Field.Power
import Mathlib.Tactic.Linarith
import Mathlib.Tactic.Ring
import Mathlib.Tactic.NormNum
import Mathlib.Tactic.FieldSimp
import Verif.MirData.Model

/-!
# What packing keeps of visibilities
-/

namespace Verif.MirData

variable {K : Type} [Field K] [LinearOrder K] [IsStrictOrderedRing K]

/-- All parts are at most this large. -/
def Bounded (v : List (Chan K)) (M : K) : Prop := ∀ c ∈ v, |c.re| ≤ M ∧ |c.im| ≤ M

omit [IsStrictOrderedRing K] in
theorem foldl_max (v : List (Chan K)) (x : K) :
    x ≤ v.foldl (fun m c => max m (max |c.re| |c.im|)) x ∧ Bounded v (v.foldl (fun m c => max m (max |c.re| |c.im|)) x) ∧
      ∀ M, x ≤ M → Bounded v M → v.foldl (fun m c => max m (max |c.re| |c.im|)) x ≤ M := by
  induction v generalizing x with
  | nil => exact ⟨le_refl _, by intro c hc; simp at hc, fun M h _ => h⟩
  | cons c v ih =>
    obtain ⟨h1, h2, h3⟩ := ih (max x (max |c.re| |c.im|))
    rw [List.foldl_cons]
    refine ⟨(le_max_left _ _).trans h1, ?_, ?_⟩
    · intro d hd
      rcases List.mem_cons.mp hd with rfl | hd
      · exact ⟨((le_max_left _ _).trans (le_max_right _ _)).trans h1, ((le_max_right _ _).trans (le_max_right _ _)).trans h1⟩
      · exact h2 d hd
    · intro M hx hb
      have hc := hb c (by simp)
      exact h3 M (max_le hx (max_le hc.1 hc.2)) (fun d hd => hb d (List.mem_cons_of_mem _ hd))

theorem maxPart_pos (v : List (Chan K)) : 0 < maxPart v :=
  lt_of_lt_of_le (zpow_pos (by norm_num) _) (foldl_max v _).1

omit [IsStrictOrderedRing K] in
theorem maxPart_bounded (v : List (Chan K)) : Bounded v (maxPart v) := (foldl_max v _).2.1

omit [IsStrictOrderedRing K] in
theorem maxPart_le (v : List (Chan K)) (M : K) (h : (2 : K) ^ (-52 : Int) ≤ M) (hb : Bounded v M) : maxPart v ≤ M :=
  (foldl_max v _).2.2 M h hb

variable [FloorRing K]

theorem scale_lt (v : List (Chan K)) : maxPart v < (2 : K) ^ (scaleOf v) * 2 ^ 15 := by
  have h := Int.lt_zpow_succ_log_self (R := K) (b := 2) (by norm_num) (maxPart v)
  have e : (2 : K) ^ (scaleOf v) * 2 ^ 15 = 2 ^ (Int.log 2 (maxPart v) + 1) := by
    rw [← zpow_natCast (2 : K) 15, ← zpow_add₀ (by norm_num)]
    unfold scaleOf
    congr 1
    push_cast
    ring
  rw [e]
  exact_mod_cast h

theorem scale_le (v : List (Chan K)) : (2 : K) ^ (scaleOf v) * 2 ^ 14 ≤ maxPart v := by
  have h := Int.zpow_log_le_self (R := K) (b := 2) (by norm_num) (maxPart_pos v)
  have e : (2 : K) ^ (scaleOf v) * 2 ^ 14 = 2 ^ (Int.log 2 (maxPart v)) := by
    rw [← zpow_natCast (2 : K) 14, ← zpow_add₀ (by norm_num)]
    unfold scaleOf
    congr 1
    push_cast
    ring
  rw [e]
  exact_mod_cast h

theorem trunc_int (k : Int) : trunc (k : K) = k := by
  unfold trunc
  split <;> simp

theorem trunc_near (x : K) : |x - (trunc x : K)| < 1 ∧ |(trunc x : K)| ≤ |x| ∧ 0 ≤ x * (trunc x : K) := by
  unfold trunc
  split
  next h =>
    have h1 := Int.floor_le x
    have h2 := Int.lt_floor_add_one x
    have h3 : (0 : K) ≤ (⌊x⌋ : K) := by exact_mod_cast Int.floor_nonneg.mpr h
    refine ⟨?_, ?_, mul_nonneg h h3⟩
    · rw [abs_lt]
      constructor <;> linarith
    · rw [abs_of_nonneg h3, abs_of_nonneg h]
      exact h1
  next h =>
    have h := lt_of_not_ge h
    have h1 := Int.le_ceil x
    have h2 := Int.ceil_lt_add_one x
    have h3 : (⌈x⌉ : K) ≤ 0 := by
      have : ⌈x⌉ ≤ 0 := Int.ceil_le.mpr (by exact_mod_cast h.le)
      exact_mod_cast this
    refine ⟨?_, ?_, mul_nonneg_of_nonpos_of_nonpos h.le h3⟩
    · rw [abs_lt]
      constructor <;> linarith
    · rw [abs_of_nonpos h3, abs_of_nonpos h.le]
      linarith

/-- What is left of a part: the nearest multiple of the step towards zero. -/
structure PartOk (x y step : K) : Prop where
  near : |x - y| < step
  smaller : |y| ≤ |x|
  sign : 0 ≤ x * y
  grid : ∃ k : Int, y = step * (k : K)

theorem part_ok' (p y : K) (hp : 0 < p) : PartOk (p * y) (p * (trunc y : K)) p := by
  obtain ⟨h1, h2, h3⟩ := trunc_near y
  refine ⟨?_, ?_, ?_, ⟨_, rfl⟩⟩
  · rw [← mul_sub, abs_mul, abs_of_pos hp]
    calc p * |y - (trunc y : K)| < p * 1 := mul_lt_mul_of_pos_left h1 hp
      _ = p := mul_one _
  · rw [abs_mul, abs_mul, abs_of_pos hp]
    exact mul_le_mul_of_nonneg_left h2 hp.le
  · have : p * y * (p * (trunc y : K)) = (p * p) * (y * (trunc y : K)) := by ring
    rw [this]
    exact mul_nonneg (mul_nonneg hp.le hp.le) h3

omit [FloorRing K] in
theorem unscale (x : K) (s : Int) : (2 : K) ^ s * (x * (2 : K) ^ (-s)) = x := by
  have hp : (2 : K) ^ s ≠ 0 := zpow_ne_zero _ (by norm_num)
  rw [zpow_neg]
  field_simp

theorem part_ok (x : K) (s : Int) : PartOk x ((2 : K) ^ s * (trunc (x * (2 : K) ^ (-s)) : K)) ((2 : K) ^ s) := by
  have := part_ok' ((2 : K) ^ s) (x * (2 : K) ^ (-s)) (zpow_pos (by norm_num) _)
  rwa [unscale] at this

/-- What is left of a channel. -/
structure ChanOk (step : K) (c d : Chan K) : Prop where
  flag : d.flag = c.flag
  flagged : c.flag = true → d.re = 0 ∧ d.im = 0 ∧ d.wt = 0
  good : c.flag = false → d.wt = 1 ∧ PartOk c.re d.re step ∧ PartOk c.im d.im step

theorem trunc_range (v : List (Chan K)) (x : K) (hx : |x| ≤ maxPart v) : |trunc (x * (2 : K) ^ (-scaleOf v))| < 32768 := by
  have h1 := (trunc_near (x * (2 : K) ^ (-scaleOf v))).2.1
  have hp : (0 : K) < 2 ^ (scaleOf v) := zpow_pos (by norm_num) _
  have h2 : |x * (2 : K) ^ (-scaleOf v)| < 2 ^ 15 := by
    have e := unscale x (scaleOf v)
    have : (2 : K) ^ (scaleOf v) * |x * (2 : K) ^ (-scaleOf v)| < 2 ^ (scaleOf v) * 2 ^ 15 := by
      rw [← abs_of_pos hp, ← abs_mul, abs_of_pos hp, e]
      exact lt_of_le_of_lt hx (scale_lt v)
    exact lt_of_mul_lt_mul_left this hp.le
  have h3 : ((|trunc (x * (2 : K) ^ (-scaleOf v))| : Int) : K) < ((32768 : Int) : K) := by
    rw [Int.cast_abs]
    refine lt_of_le_of_lt h1 (lt_of_lt_of_eq h2 ?_)
    norm_num
  exact_mod_cast h3

/-- Visibilities that are packed and unpacked: flags are the same; flagged channels have value and weight 0; the others have weight 1 and
both parts are cut towards zero to a grid that is the same for all channels and finer than 1/2 ** 14 of the largest part (flagged ones
as well, or 2 ** -52). -/
theorem conv_back (v : List (Chan K)) :
    ∃ step : K, 0 < step ∧ (∀ M, (2 : K) ^ (-52 : Int) ≤ M → Bounded v M → step * 2 ^ 14 ≤ M) ∧
      List.Forall₂ (ChanOk step) v (rawToVis (visToRaw v)) := by
  refine ⟨2 ^ (scaleOf v), zpow_pos (by norm_num) _, fun M h hb => (scale_le v).trans (maxPart_le v M h hb), ?_⟩
  have hb := maxPart_bounded v
  unfold rawToVis visToRaw
  dsimp only
  rw [List.map_map, List.forall₂_map_right_iff, List.forall₂_same]
  intro c hc
  cases hf : c.flag with
  | true =>
    refine ⟨?_, ?_, ?_⟩
    · simp [hf]
    · intro _; simp [hf]
    · intro h; rw [hf] at h; cases h
  | false =>
    have hr := trunc_range v c.re (hb c hc).1
    have hne : ¬ trunc (c.re * (2 : K) ^ (-scaleOf v)) = -32768 := by
      intro e
      rw [e] at hr
      simp at hr
    have e : ((fun p : Int × Int => if p.1 = -32768 then (⟨0, 0, true, 0⟩ : Chan K)
        else ⟨(2 : K) ^ scaleOf v * (p.1 : K), (2 : K) ^ scaleOf v * (p.2 : K), false, 1⟩) ∘ fun c : Chan K =>
          if c.flag then ((-32768 : Int), (-32768 : Int)) else (trunc (c.re * (2 : K) ^ (-scaleOf v)), trunc (c.im * (2 : K) ^ (-scaleOf v)))) c =
        ⟨(2 : K) ^ scaleOf v * (trunc (c.re * (2 : K) ^ (-scaleOf v)) : K), (2 : K) ^ scaleOf v * (trunc (c.im * (2 : K) ^ (-scaleOf v)) : K), false, 1⟩ := by
      simp only [Function.comp, hf, Bool.false_eq_true, if_false]
      rw [if_neg hne]
    rw [e]
    refine ⟨hf.symm, ?_, fun _ => ⟨rfl, part_ok _ _, part_ok _ _⟩⟩
    intro h; rw [hf] at h; cases h

/-- Packed values fit into 16 bits, and only flagged channels have the value that marks flags. -/
theorem packed_range (v : List (Chan K)) : ∀ p ∈ (visToRaw v).data, -32768 ≤ p.1 ∧ p.1 < 32768 ∧ -32768 ≤ p.2 ∧ p.2 < 32768 := by
  have hb := maxPart_bounded v
  intro p hp
  unfold visToRaw at hp
  dsimp only at hp
  rw [List.mem_map] at hp
  obtain ⟨c, hc, rfl⟩ := hp
  split
  · decide
  · have h1 := abs_lt.mp (trunc_range v c.re (hb c hc).1)
    have h2 := abs_lt.mp (trunc_range v c.im (hb c hc).2)
    refine ⟨?_, ?_, ?_, ?_⟩ <;> dsimp only <;> omega

theorem trunc_zpow_int (k : Int) (s t : Int) (h : t ≤ s) :
    (2 : K) ^ t * (trunc ((2 : K) ^ s * (k : K) * (2 : K) ^ (-t)) : K) = (2 : K) ^ s * (k : K) := by
  obtain ⟨n, hn⟩ := Int.eq_ofNat_of_zero_le (sub_nonneg.mpr h)
  have e : (2 : K) ^ s * (k : K) * (2 : K) ^ (-t) = ((k * 2 ^ n : Int) : K) := by
    have : (2 : K) ^ s * (2 : K) ^ (-t) = 2 ^ n := by
      rw [← zpow_add₀ (by norm_num), ← zpow_natCast]
      congr 1
    push_cast
    rw [← this]
    ring
  rw [e, trunc_int, ← e]
  have := unscale ((2 : K) ^ s * (k : K)) t
  exact this

/-- Packed data that are unpacked, packed and unpacked again are the same, if no part is -32768 without a flag and the
exponent is not below -66. -/
theorem raw_back_partial (r : Raw) (hs : -66 ≤ r.scale)
    (hr : ∀ p ∈ r.data, p.1 ≠ -32768 → |p.1| < 32768 ∧ |p.2| < 32768) :
    (rawToVis (visToRaw (rawToVis r : List (Chan K))) : List (Chan K)) = rawToVis r := by
  have hp : (0 : K) < 2 ^ r.scale := zpow_pos (by norm_num) _
  have hb : Bounded (rawToVis r : List (Chan K)) (2 ^ r.scale * 32767) := by
    intro c hc
    unfold rawToVis at hc
    rw [List.mem_map] at hc
    obtain ⟨p, hp', rfl⟩ := hc
    split
    · simp only [abs_zero]
      constructor <;> positivity
    · rename_i hne
      obtain ⟨h1, h2⟩ := hr p hp' hne
      have k1 : ((|p.1| : Int) : K) ≤ ((32767 : Int) : K) := by exact_mod_cast (by omega : |p.1| ≤ 32767)
      have k2 : ((|p.2| : Int) : K) ≤ ((32767 : Int) : K) := by exact_mod_cast (by omega : |p.2| ≤ 32767)
      rw [Int.cast_abs] at k1 k2
      simp only [abs_mul, abs_of_pos hp]
      constructor
      · exact mul_le_mul_of_nonneg_left (by simpa using k1) hp.le
      · exact mul_le_mul_of_nonneg_left (by simpa using k2) hp.le
  have hm : maxPart (rawToVis r : List (Chan K)) < 2 ^ (r.scale + 15) := by
    have e15 : (2 : K) ^ (r.scale + 15) = 2 ^ r.scale * 32768 := by
      rw [zpow_add₀ (by norm_num)]
      norm_num
    rw [e15]
    refine lt_of_le_of_lt (maxPart_le _ (max ((2 : K) ^ (-52 : Int)) (2 ^ r.scale * 32767)) (le_max_left _ _)
      (fun c hc => ⟨(hb c hc).1.trans (le_max_right _ _), (hb c hc).2.trans (le_max_right _ _)⟩)) (max_lt ?_ ?_)
    · rw [← e15]
      exact zpow_lt_zpow_right₀ (by norm_num) (by omega)
    · exact mul_lt_mul_of_pos_left (by norm_num) hp
  have hlog : scaleOf (rawToVis r : List (Chan K)) ≤ r.scale := by
    have := (Int.lt_zpow_iff_log_lt (R := K) (b := 2) (by norm_num) (maxPart_pos (rawToVis r : List (Chan K)))).mp (by exact_mod_cast hm)
    unfold scaleOf
    omega
  have hne := packed_range (rawToVis r : List (Chan K))
  have hbm := maxPart_bounded (rawToVis r : List (Chan K))
  generalize ht : scaleOf (rawToVis r : List (Chan K)) = t at hlog
  have hrange := trunc_range (rawToVis r : List (Chan K))
  rw [ht] at hrange
  conv_lhs => rw [rawToVis, visToRaw]
  dsimp only
  rw [ht]
  nth_rewrite 1 [rawToVis]
  rw [List.map_map, List.map_map]
  conv_rhs => rw [rawToVis]
  refine List.map_congr_left (fun p hp' => ?_)
  by_cases hf : p.1 = -32768
  · simp [Function.comp, hf]
  · have hmem : (⟨(2 : K) ^ r.scale * (p.1 : K), (2 : K) ^ r.scale * (p.2 : K), false, 1⟩ : Chan K) ∈ (rawToVis r : List (Chan K)) := by
      unfold rawToVis
      rw [List.mem_map]
      exact ⟨p, hp', by rw [if_neg hf]⟩
    have h1 := hrange _ (hbm _ hmem).1
    have hne' : ¬ trunc ((2 : K) ^ r.scale * (p.1 : K) * 2 ^ (-t)) = -32768 := by
      intro e
      dsimp only at h1
      rw [e] at h1
      simp at h1
    simp only [Function.comp, hf, if_false, Bool.false_eq_true, hne', trunc_zpow_int _ _ _ hlog]

/-- "Precision depends on the good channels only" fails: when a flagged channel has a value of at least 2 ** 15 times another, the other becomes zero. -/
theorem flaggedLarge_counterexample (x y : K) (w w' : K) (hx : 0 < x) (hy : x * 2 ^ 15 ≤ y) :
    (rawToVis (visToRaw [⟨y, 0, true, w⟩, ⟨x, 0, false, w'⟩])).map (fun c => c.re) = [(0 : K), 0] := by
  have hy0 : 0 < y := lt_of_lt_of_le (mul_pos hx (by norm_num)) hy
  generalize hv : ([⟨y, 0, true, w⟩, ⟨x, 0, false, w'⟩] : List (Chan K)) = v
  have hm : y ≤ maxPart v := by
    have := (maxPart_bounded v ⟨y, 0, true, w⟩ (by rw [← hv]; simp)).1
    rwa [abs_of_pos hy0] at this
  have hlt := lt_of_le_of_lt (hy.trans hm) (scale_lt v)
  have hxs : x < 2 ^ (scaleOf v) := lt_of_mul_lt_mul_right hlt (by positivity)
  have hz : trunc (x * (2 : K) ^ (-scaleOf v)) = 0 := by
    unfold trunc
    have h0 : 0 ≤ x * (2 : K) ^ (-scaleOf v) := mul_nonneg hx.le (zpow_pos (by norm_num) _).le
    rw [if_pos h0, Int.floor_eq_zero_iff, Set.mem_Ico]
    refine ⟨h0, ?_⟩
    have hp : (0 : K) < 2 ^ (scaleOf v) := zpow_pos (by norm_num) _
    rw [zpow_neg, ← div_eq_mul_inv, div_lt_one hp]
    exact hxs
  unfold rawToVis visToRaw
  dsimp only
  rw [← hv] at hz ⊢
  simp only [List.map_cons, List.map_nil, if_true, Bool.false_eq_true, if_false, hz]
  simp

/-- "Packed data survive" fails: next to an imaginary part of -32768, odd real parts change. -/
theorem edge_counterexample (s : Int) :
    (rawToVis (visToRaw (rawToVis ⟨s, [(1, -32768)]⟩ : List (Chan K))) : List (Chan K)) ≠ rawToVis ⟨s, [(1, -32768)]⟩ := by
  have hp : (0 : K) < 2 ^ s := zpow_pos (by norm_num) _
  have hv : (rawToVis ⟨s, [(1, -32768)]⟩ : List (Chan K)) = [⟨2 ^ s, -(2 ^ s * 32768), false, 1⟩] := by simp [rawToVis]
  rw [hv]
  have hm : (2 : K) ^ s * 2 ^ 15 ≤ maxPart ([⟨2 ^ s, -(2 ^ s * 32768), false, 1⟩] : List (Chan K)) := by
    have := (maxPart_bounded ([⟨2 ^ s, -(2 ^ s * 32768), false, 1⟩] : List (Chan K)) ⟨2 ^ s, -(2 ^ s * 32768), false, 1⟩ (by simp)).2
    rw [abs_neg, abs_of_pos (by positivity)] at this
    refine le_trans (le_of_eq ?_) this
    norm_num
  have hxs : (2 : K) ^ s < 2 ^ (scaleOf ([⟨2 ^ s, -(2 ^ s * 32768), false, 1⟩] : List (Chan K))) :=
    lt_of_mul_lt_mul_right (lt_of_le_of_lt hm (scale_lt _)) (by positivity)
  generalize hsc : scaleOf ([⟨2 ^ s, -(2 ^ s * 32768), false, 1⟩] : List (Chan K)) = t at hxs
  have hz : trunc ((2 : K) ^ s * (2 : K) ^ (-t)) = 0 := by
    unfold trunc
    have h0 : 0 ≤ (2 : K) ^ s * (2 : K) ^ (-t) := by positivity
    rw [if_pos h0, Int.floor_eq_zero_iff, Set.mem_Ico]
    refine ⟨h0, ?_⟩
    rw [zpow_neg, ← div_eq_mul_inv, div_lt_one (zpow_pos (by norm_num) _)]
    exact hxs
  unfold rawToVis visToRaw
  dsimp only
  rw [hsc]
  simp only [List.map_cons, List.map_nil, Bool.false_eq_true, if_false, hz]
  simp [hp.ne]

/-- "Packed data survive" fails: with exponents below -66, small values become zero. -/
theorem tiny_counterexample (s : Int) (hs : s < -66) :
    (rawToVis (visToRaw (rawToVis ⟨s, [(1, 0)]⟩ : List (Chan K))) : List (Chan K)) = [⟨0, 0, false, 1⟩] := by
  have hp : (0 : K) < 2 ^ s := zpow_pos (by norm_num) _
  have hv : (rawToVis ⟨s, [(1, 0)]⟩ : List (Chan K)) = [⟨2 ^ s, 0, false, 1⟩] := by simp [rawToVis]
  rw [hv]
  generalize hl : ([⟨2 ^ s, 0, false, 1⟩] : List (Chan K)) = v
  have hge : (2 : K) ^ (-52 : Int) ≤ maxPart v := (foldl_max v _).1
  have hlog : -66 ≤ scaleOf v := by
    have := (Int.zpow_le_iff_le_log (R := K) (b := 2) (x := -52) (by norm_num) (maxPart_pos v)).mp (by exact_mod_cast hge)
    unfold scaleOf
    omega
  have hxs : (2 : K) ^ s < 2 ^ (scaleOf v) := zpow_lt_zpow_right₀ (by norm_num) (by omega)
  have hz : trunc ((2 : K) ^ s * (2 : K) ^ (-scaleOf v)) = 0 := by
    unfold trunc
    have h0 : 0 ≤ (2 : K) ^ s * (2 : K) ^ (-scaleOf v) := by positivity
    rw [if_pos h0, Int.floor_eq_zero_iff, Set.mem_Ico]
    refine ⟨h0, ?_⟩
    rw [zpow_neg, ← div_eq_mul_inv, div_lt_one (zpow_pos (by norm_num) _)]
    exact hxs
  have hz0 : trunc (0 * (2 : K) ^ (-scaleOf v)) = 0 := by
    rw [zero_mul]
    unfold trunc
    simp
  unfold rawToVis visToRaw
  dsimp only
  rw [← hl] at hz hz0 ⊢
  simp only [List.map_cons, List.map_nil, Bool.false_eq_true, if_false, hz, hz0]
  simp

end Verif.MirData
