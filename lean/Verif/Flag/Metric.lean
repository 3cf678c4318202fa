import Verif.Flag.Conv

/-!
Model of the metric side of `UVFlag`, `src/pyuvdata/uvflag/uvflag.py`: `and_rows_cols` 37–58, `flags2waterfall` 61–125,
`to_flag` 1781–1828, `to_metric` 1830–1903, `__or__` 2215–2272, and `__add__` 1905–2176 of waterfalls, with C49–C52.

The quotients of lines 56, 57, 115 and 121 are exact here.
-/
namespace Verif.Flag
open Verif.Np

variable {K : Type} [Field K] [LinearOrder K]

/-- Values as a function of channel and polarization. -/
abbrev MPlane (K : Type) := Nat → Nat → K

def num (b : Bool) : K := if b then 1 else 0

/-- Number of flags as a value (`np.sum` of booleans). -/
def flagSum (l : List Bool) : K := (l.map num).sum

/-- `np.mean` of booleans. -/
def flagMean (l : List Bool) : K := flagSum l / (l.length : K)

/-- `and_rows_cols`, lines 54–58: rows are times, `nf` is the number of channels. -/
def andRowsCols (nf : Nat) (wf : List (Nat → Bool)) : List (Nat → Bool) :=
  wf.map (fun row f => decide ((flagMean (wf.map (fun r => r f)) : K) = 1) ||
    decide ((flagMean ((List.range nf).map row) : K) = 1))

/-- `to_flag`, line 1812; `none` is the default threshold, infinity. -/
def toFlag (thr : Option K) (m : List (MPlane K)) : List Plane :=
  m.map (fun pl f p => match thr with
    | none => false
    | some t => decide (t ≤ pl f p))

/-- `to_metric`, line 1865. -/
def toMetric (flags : List Plane) : List (MPlane K) := flags.map (fun pl f p => num (pl f p))

/-- One step of lines 1877–1881: the weights of the rows of one pair. -/
def wgtPair (nf : Nat) (o : Bl K) (ap : Int × Int) (w : List (MPlane K)) : List (MPlane K) :=
  let inds := whereIdx (fun q => decide (q = ap)) o.pairs
  w.mapIdx (fun i pl =>
    if inds.contains i then fun f p =>
      let arc := andRowsCols (K := K) nf (inds.map (fun j => fun g => (o.flags.getD j clear) g p))
      pl f p * num (!((arc.getD (inds.idxOf i) (fun _ => false)) f))
    else pl)

/-- `to_metric` with `convert_wgts` for type "baseline", lines 1868–1881. -/
def convertWgtsBl (o : Bl K) : List (MPlane K) :=
  o.pairs.dedup.foldl (fun w ap => wgtPair o.nf o ap w) (o.flags.map (fun _ _ _ => 1))

/-- `to_metric` with `convert_wgts` for type "waterfall", lines 1870–1874. -/
def convertWgtsWf (o : Wf K) : List (MPlane K) :=
  o.flags.mapIdx (fun i _ f p =>
    num (!(((andRowsCols (K := K) o.nf (o.flags.map (fun pl g => pl g p))).getD i (fun _ => false)) f)))

/-- `flags2waterfall` with `keep_pol`, lines 113–117. -/
def flags2wfPol (o : Bl K) : List (MPlane K) :=
  (unique o.times).map (fun t f p =>
    flagMean (((whereIdx (fun x => decide (x = t)) o.times).filterMap (fun i => o.flags[i]?)).map (fun pl => pl f p)))

/-- `flags2waterfall` without `keep_pol`, lines 119–123. -/
def flags2wf (o : Bl K) : List (Nat → K) :=
  (unique o.times).map (fun t f =>
    flagMean (((whereIdx (fun x => decide (x = t)) o.times).filterMap (fun i => o.flags[i]?)).flatMap
      (fun pl => (List.range o.np).map (fun p => pl f p))))

/-- `__or__`, line 2258, for arrays of the same shape; the code compares no labels. -/
def orFlags (a b : List Plane) : Option (List Plane) :=
  if a.length = b.length then some (List.zipWith (fun x y f p => x f p || y f p) a b) else none

/-- The axis of `__add__` for waterfalls. -/
inductive Ax where
  | time | freq | pol
deriving DecidableEq

/-- `__add__` of waterfalls in flag mode, lines 1981–2154: the labels of the other axes must be the same; the arrays are
put one after the other. Tolerances of the comparison are left out. -/
def addWf [DecidableEq K] (ax : Ax) (a b : Wf K) : Option (Wf K) :=
  match ax with
  | .time =>
    if a.freqs = b.freqs ∧ a.pols = b.pols then
      some { a with times := a.times ++ b.times, lsts := a.lsts ++ b.lsts, flags := a.flags ++ b.flags } else none
  | .freq =>
    if a.times = b.times ∧ a.lsts = b.lsts ∧ a.pols = b.pols then
      some { a with freqs := a.freqs ++ b.freqs, nf := a.nf + b.nf,
                    flags := List.zipWith (fun x y f p => if f < a.nf then x f p else y (f - a.nf) p) a.flags b.flags }
    else none
  | .pol =>
    if a.times = b.times ∧ a.lsts = b.lsts ∧ a.freqs = b.freqs then
      some { a with pols := a.pols ++ b.pols, np := a.np + b.np,
                    flags := List.zipWith (fun x y f p => if p < a.np then x f p else y f (p - a.np)) a.flags b.flags }
    else none

/-! ### Sums of flags -/

variable [IsStrictOrderedRing K]

theorem flagSum_eq (l : List Bool) : (flagSum l : K) = ((l.countP id : Nat) : K) := by
  induction l with
  | nil => simp [flagSum]
  | cons b l ih =>
    unfold flagSum at ih ⊢
    rw [List.map_cons, List.sum_cons, ih, List.countP_cons]
    cases b <;> simp [num, add_comm]

/-- The mean is one exactly if everything is flagged (and there is something). -/
theorem flagMean_one (l : List Bool) : (flagMean l : K) = 1 ↔ l ≠ [] ∧ ∀ b ∈ l, b = true := by
  unfold flagMean
  rw [flagSum_eq]
  by_cases hl : l = []
  · subst hl; simp
  · have hpos : (l.length : K) ≠ 0 := by
      rw [Nat.cast_ne_zero]
      intro h; exact hl (List.length_eq_zero_iff.1 h)
    rw [div_eq_one_iff_eq hpos, Nat.cast_inj, List.countP_eq_length]
    simp [hl]

/-- The mean is zero exactly if nothing is flagged. -/
theorem flagMean_zero (l : List Bool) : (flagMean l : K) = 0 ↔ ∀ b ∈ l, b = false := by
  unfold flagMean
  rw [flagSum_eq]
  by_cases hl : l = []
  · subst hl; simp
  · have hpos : (l.length : K) ≠ 0 := by
      rw [Nat.cast_ne_zero]
      intro h; exact hl (List.length_eq_zero_iff.1 h)
    rw [div_eq_zero_iff, Nat.cast_eq_zero, List.countP_eq_zero]
    simp only [id_eq, Bool.not_eq_true]
    constructor
    · rintro (h | h)
      · exact h
      · exact absurd h hpos
    · intro h; exact Or.inl h

theorem flagMean_range (l : List Bool) : 0 ≤ (flagMean l : K) ∧ (flagMean l : K) ≤ 1 := by
  unfold flagMean
  rw [flagSum_eq]
  have h1 : ((l.countP id : Nat) : K) ≤ (l.length : K) := by exact_mod_cast List.countP_le_length
  refine ⟨by positivity, ?_⟩
  exact div_le_one_of_le₀ h1 (by positivity)

/-! ### C49 -/

/-- C49: `and_rows_cols` marks a cell exactly if its whole row or its whole column is flagged. -/
theorem andRowsCols_iff (nf : Nat) (hnf : 0 < nf) (wf : List (Nat → Bool)) (i : Nat) (row : Nat → Bool) (hi : wf[i]? = some row)
    (f : Nat) : ∃ r, (andRowsCols (K := K) nf wf)[i]? = some r ∧
      (r f = true ↔ ((∀ r' ∈ wf, r' f = true) ∨ ∀ g < nf, row g = true)) := by
  refine ⟨_, by rw [andRowsCols, List.getElem?_map, hi]; rfl, ?_⟩
  simp only [Bool.or_eq_true, decide_eq_true_eq]
  rw [flagMean_one, flagMean_one]
  have hne : wf ≠ [] := by rintro rfl; simp at hi
  have hr : (List.range nf).map row ≠ [] := by simp; omega
  simp only [ne_eq, List.map_eq_nil_iff, hne, not_false_eq_true, true_and, List.mem_map, forall_exists_index, and_imp,
    forall_apply_eq_imp_iff₂]
  have hr' : ¬List.range nf = [] := by simp; omega
  simp only [hr', not_false_eq_true, true_and, List.mem_range]

/-- C49: `to_flag` flags exactly the values that reach the threshold, none with the default. -/
theorem to_flag_exact (thr : Option K) (m : List (MPlane K)) (i : Nat) (pl : MPlane K) (hi : m[i]? = some pl) :
    ∃ r, (toFlag thr m)[i]? = some r ∧ ∀ f p, r f p = true ↔ ∃ t, thr = some t ∧ t ≤ pl f p := by
  refine ⟨_, by rw [toFlag, List.getElem?_map, hi]; rfl, ?_⟩
  intro f p
  cases thr <;> simp

omit [IsStrictOrderedRing K] in
theorem num_thr (t : K) (h0 : 0 < t) (h1 : t ≤ 1) (b : Bool) : decide (t ≤ num b) = b := by
  cases b
  · simp [num, h0]
  · simp [num, h1]

/-- C49: flags turned into a metric and back are the flags, for every threshold above 0 and up to 1. -/
theorem to_metric_to_flag (t : K) (h0 : 0 < t) (h1 : t ≤ 1) (flags : List Plane) :
    toFlag (some t) (toMetric flags) = flags := by
  unfold toFlag toMetric
  rw [List.map_map]
  conv_rhs => rw [← List.map_id flags]
  apply List.map_congr_left
  intro pl _
  funext f p
  simp only [Function.comp, id_eq]
  exact num_thr t h0 h1 (pl f p)

/-- C49: outside that range the round trip is not the identity as soon as there is an unflagged (threshold at most 0) or a
flagged (threshold above 1) sample. -/
theorem to_metric_to_flag_outside (t : K) (ht : t ≤ 0 ∨ 1 < t) (flags : List Plane) (i f p : Nat) (pl : Plane)
    (hi : flags[i]? = some pl) (hp : pl f p = decide (1 < t)) : toFlag (some t) (toMetric flags) ≠ flags := by
  intro h
  have h2 := congrArg (fun l => l[i]?.map (fun q => q f p)) h
  simp only [toFlag, toMetric, List.getElem?_map, hi, Option.map_some, Option.some.injEq] at h2
  have h3 : decide (t ≤ num (pl f p)) = pl f p := h2
  rw [hp] at h3
  rcases ht with ht | ht
  · have h1 : ¬(1 : K) < t := not_lt.2 (ht.trans zero_le_one)
    simp [h1, num, ht] at h3
  · simp [ht, num] at h3
    exact absurd ht (not_lt.2 h3)

theorem wgtPair_get (nf : Nat) (hnf : 0 < nf) (o : Bl K) (hl : o.flags.length = o.pairs.length) (ap : Int × Int)
    (w : List (MPlane K)) (i : Nat) (x : MPlane K) (hx : w[i]? = some x) :
    ∃ y, (wgtPair nf o ap w)[i]? = some y ∧ (o.pairs[i]? ≠ some ap → y = x) ∧
      (o.pairs[i]? = some ap → ∀ f p,
        (((∀ (j : Nat) (pl : Plane), o.pairs[j]? = some ap → o.flags[j]? = some pl → pl f p = true) ∨
          ∀ pl, o.flags[i]? = some pl → ∀ g < nf, pl g p = true) → y f p = 0) ∧
        (¬((∀ (j : Nat) (pl : Plane), o.pairs[j]? = some ap → o.flags[j]? = some pl → pl f p = true) ∨
          ∀ pl, o.flags[i]? = some pl → ∀ g < nf, pl g p = true) → y f p = x f p)) := by
  unfold wgtPair
  simp only
  refine ⟨_, by rw [List.getElem?_mapIdx, hx]; rfl, ?_, ?_⟩
  · intro hne
    beta_reduce
    rw [if_neg]
    simpa [mem_where_eq] using hne
  · intro hi f p
    have hmem : i ∈ whereIdx (fun q => decide (q = ap)) o.pairs := mem_where_eq.2 hi
    beta_reduce
    rw [if_pos (by simpa using hmem)]
    have hget : ∀ j : Nat, j < o.pairs.length → o.flags.getD j clear = o.flags[j]?.getD clear := fun j _ => by simp
    have hrow : ((whereIdx (fun q => decide (q = ap)) o.pairs).map (fun j => fun g => (o.flags.getD j clear) g p))[
        (whereIdx (fun q => decide (q = ap)) o.pairs).idxOf i]? = some (fun g => (o.flags.getD i clear) g p) := by
      rw [List.getElem?_map, List.getElem?_idxOf hmem, Option.map_some]
    obtain ⟨r, hr, hiff⟩ := andRowsCols_iff (K := K) nf hnf _ _ _ hrow f
    rw [List.getD_eq_getElem?_getD, hr, Option.getD_some]
    have hil : i < o.flags.length := by rw [hl]; exact (List.getElem?_eq_some_iff.1 hi).1
    have hiff' : r f = true ↔ ((∀ (j : Nat) (pl : Plane), o.pairs[j]? = some ap → o.flags[j]? = some pl → pl f p = true) ∨
          ∀ pl, o.flags[i]? = some pl → ∀ g < nf, pl g p = true) := by
      rw [hiff]
      refine or_congr ?_ ?_
      · constructor
        · intro h j pl hj hpl
          have := h _ (List.mem_map.2 ⟨j, mem_where_eq.2 hj, rfl⟩)
          simpa [hpl] using this
        · intro h r' hr'
          obtain ⟨j, hj, rfl⟩ := List.mem_map.1 hr'
          have hj' := mem_where_eq.1 hj
          have hjl : j < o.flags.length := by rw [hl]; exact (List.getElem?_eq_some_iff.1 hj').1
          have := h j _ hj' (List.getElem?_eq_getElem hjl)
          simpa [List.getElem?_eq_getElem hjl] using this
      · simp [List.getElem?_eq_getElem hil]
    constructor
    · intro h
      rw [hiff'.2 h]; simp [num]
    · intro h
      have : r f = false := by
        by_contra hc
        exact h (hiff'.1 (by simpa using hc))
      rw [this]; simp [num]

theorem wgts_foldl (nf : Nat) (hnf : 0 < nf) (o : Bl K) (hl : o.flags.length = o.pairs.length) :
    ∀ (l : List (Int × Int)), l.Nodup → ∀ (w : List (MPlane K)) (i : Nat) (x : MPlane K), w[i]? = some x →
      ∃ y, (l.foldl (fun w ap => wgtPair nf o ap w) w)[i]? = some y ∧ ((∀ ap ∈ l, o.pairs[i]? ≠ some ap) → y = x) ∧
      (∀ ap ∈ l, o.pairs[i]? = some ap → ∀ f p,
        (((∀ (j : Nat) (pl : Plane), o.pairs[j]? = some ap → o.flags[j]? = some pl → pl f p = true) ∨
          ∀ pl, o.flags[i]? = some pl → ∀ g < nf, pl g p = true) → y f p = 0) ∧
        (¬((∀ (j : Nat) (pl : Plane), o.pairs[j]? = some ap → o.flags[j]? = some pl → pl f p = true) ∨
          ∀ pl, o.flags[i]? = some pl → ∀ g < nf, pl g p = true) → y f p = x f p))
  | [], _, w, i, x, hx => ⟨x, hx, fun _ => rfl, by simp⟩
  | ap :: l, hn, w, i, x, hx => by
    have hnl := (List.nodup_cons.1 hn).2
    have hnot := (List.nodup_cons.1 hn).1
    obtain ⟨y, hy, ha, hb⟩ := wgtPair_get nf hnf o hl ap w i x hx
    obtain ⟨z, hz, hc, hd⟩ := wgts_foldl nf hnf o hl l hnl (wgtPair nf o ap w) i y hy
    refine ⟨z, hz, ?_, ?_⟩
    · intro h
      rw [hc (fun ap' h' => h ap' (by simp [h'])), ha (h ap (by simp))]
    · intro ap' hap' hi
      rcases List.mem_cons.1 hap' with rfl | hm
      · rw [hc (fun ap'' h' hc' => by
          rw [hi] at hc'
          simp only [Option.some.injEq] at hc'
          exact hnot (hc' ▸ h'))]
        exact hb hi
      · have hxy : y = x := ha (fun hc' => by
          rw [hi] at hc'
          simp only [Option.some.injEq] at hc'
          exact hnot (hc' ▸ hm))
        rw [← hxy]
        exact hd ap' hm hi

/-- C49: with `convert_wgts` a weight is 0 exactly if the sample's channel is flagged at all times of its pair or all
channels are flagged at its time, and 1 otherwise. -/
theorem convert_wgts_bl (o : Bl K) (hnf : 0 < o.nf) (hl : o.flags.length = o.pairs.length) (i : Nat) (ap : Int × Int)
    (hi : o.pairs[i]? = some ap) (f p : Nat) :
    ∃ y, (convertWgtsBl o)[i]? = some y ∧
      (((∀ (j : Nat) (pl : Plane), o.pairs[j]? = some ap → o.flags[j]? = some pl → pl f p = true) ∨
          ∀ pl, o.flags[i]? = some pl → ∀ g < o.nf, pl g p = true) → y f p = 0) ∧
      (¬((∀ (j : Nat) (pl : Plane), o.pairs[j]? = some ap → o.flags[j]? = some pl → pl f p = true) ∨
          ∀ pl, o.flags[i]? = some pl → ∀ g < o.nf, pl g p = true) → y f p = 1) := by
  have hil : i < o.flags.length := by rw [hl]; exact (List.getElem?_eq_some_iff.1 hi).1
  have h0 : (o.flags.map (fun _ : Plane => (fun _ _ => 1 : MPlane K)))[i]? = some (fun _ _ => 1) := by
    rw [List.getElem?_map, List.getElem?_eq_getElem hil]; rfl
  obtain ⟨y, hy, -, hb⟩ := wgts_foldl o.nf hnf o hl o.pairs.dedup (List.nodup_dedup _) _ i _ h0
  refine ⟨y, hy, ?_⟩
  exact hb ap (List.mem_dedup.2 (List.mem_of_getElem? hi)) hi f p

/-- C49 for waterfalls. -/
theorem convert_wgts_wf (o : Wf K) (hnf : 0 < o.nf) (i : Nat) (pl : Plane) (hi : o.flags[i]? = some pl) (f p : Nat) :
    ∃ y, (convertWgtsWf o)[i]? = some y ∧
      (((∀ pl' ∈ o.flags, pl' f p = true) ∨ ∀ g < o.nf, pl g p = true) → y f p = 0) ∧
      (¬((∀ pl' ∈ o.flags, pl' f p = true) ∨ ∀ g < o.nf, pl g p = true) → y f p = 1) := by
  refine ⟨_, by rw [convertWgtsWf, List.getElem?_mapIdx, hi]; rfl, ?_⟩
  have hrow : (o.flags.map (fun pl g => pl g p))[i]? = some (fun g => pl g p) := by rw [List.getElem?_map, hi]; rfl
  obtain ⟨r, hr, hiff⟩ := andRowsCols_iff (K := K) o.nf hnf _ _ _ hrow f
  have hiff' : r f = true ↔ ((∀ pl' ∈ o.flags, pl' f p = true) ∨ ∀ g < o.nf, pl g p = true) := by
    rw [hiff]; simp
  beta_reduce
  rw [List.getD_eq_getElem?_getD, hr, Option.getD_some]
  constructor
  · intro h
    rw [hiff'.2 h]; simp [num]
  · intro h
    have : r f = false := by
      by_contra hc
      exact h (hiff'.1 (by simpa using hc))
    rw [this]; simp [num]

/-! ### C50 -/

/-- C50: `flags2waterfall` gives values from 0 to 1; the value is 0 exactly if no baseline is flagged at that time,
channel and polarization, and 1 exactly if all are. -/
theorem flags2waterfall_pol (o : Bl K) (hl : o.flags.length = o.times.length) (k : Nat) (t : K)
    (hk : (unique o.times)[k]? = some t) (f p : Nat) :
    ∃ y, (flags2wfPol o)[k]? = some y ∧ 0 ≤ y f p ∧ y f p ≤ 1 ∧
      (y f p = 0 ↔ ∀ (i : Nat) (pl : Plane), o.times[i]? = some t → o.flags[i]? = some pl → pl f p = false) ∧
      (y f p = 1 ↔ ∀ (i : Nat) (pl : Plane), o.times[i]? = some t → o.flags[i]? = some pl → pl f p = true) := by
  refine ⟨_, by rw [flags2wfPol, List.getElem?_map, hk]; rfl, (flagMean_range _).1, (flagMean_range _).2, ?_, ?_⟩
  · rw [flagMean_zero]
    constructor
    · intro h i pl h1 h2
      exact h _ (List.mem_map.2 ⟨pl, (mem_rows o t pl).2 ⟨i, h1, h2⟩, rfl⟩)
    · intro h b hb
      obtain ⟨pl, hpl, rfl⟩ := List.mem_map.1 hb
      obtain ⟨i, h1, h2⟩ := (mem_rows o t pl).1 hpl
      exact h i pl h1 h2
  · rw [flagMean_one]
    constructor
    · rintro ⟨-, h⟩ i pl h1 h2
      exact h _ (List.mem_map.2 ⟨pl, (mem_rows o t pl).2 ⟨i, h1, h2⟩, rfl⟩)
    · intro h
      constructor
      · obtain ⟨j, hj⟩ := List.mem_iff_getElem?.1 (mem_unique.1 (List.mem_of_getElem? hk))
        have hjl : j < o.flags.length := by rw [hl]; exact (List.getElem?_eq_some_iff.1 hj).1
        apply List.ne_nil_of_mem (a := (o.flags[j]) f p)
        exact List.mem_map.2 ⟨_, (mem_rows o t _).2 ⟨j, hj, List.getElem?_eq_getElem hjl⟩, rfl⟩
      · intro b hb
        obtain ⟨pl, hpl, rfl⟩ := List.mem_map.1 hb
        obtain ⟨i, h1, h2⟩ := (mem_rows o t pl).1 hpl
        exact h i pl h1 h2

/-- C50 without `keep_pol`. -/
theorem flags2waterfall_nopol (o : Bl K) (hl : o.flags.length = o.times.length) (hnp : 0 < o.np) (k : Nat) (t : K)
    (hk : (unique o.times)[k]? = some t) (f : Nat) :
    ∃ y, (flags2wf o)[k]? = some y ∧ 0 ≤ y f ∧ y f ≤ 1 ∧
      (y f = 0 ↔ ∀ (i : Nat) (pl : Plane), o.times[i]? = some t → o.flags[i]? = some pl → ∀ p < o.np, pl f p = false) ∧
      (y f = 1 ↔ ∀ (i : Nat) (pl : Plane), o.times[i]? = some t → o.flags[i]? = some pl → ∀ p < o.np, pl f p = true) := by
  refine ⟨_, by rw [flags2wf, List.getElem?_map, hk]; rfl, (flagMean_range _).1, (flagMean_range _).2, ?_, ?_⟩
  · rw [flagMean_zero]
    constructor
    · intro h i pl h1 h2 p hp
      exact h _ (List.mem_flatMap.2 ⟨pl, (mem_rows o t pl).2 ⟨i, h1, h2⟩, List.mem_map.2 ⟨p, List.mem_range.2 hp, rfl⟩⟩)
    · intro h b hb
      obtain ⟨pl, hpl, hb⟩ := List.mem_flatMap.1 hb
      obtain ⟨p, hp, rfl⟩ := List.mem_map.1 hb
      obtain ⟨i, h1, h2⟩ := (mem_rows o t pl).1 hpl
      exact h i pl h1 h2 p (List.mem_range.1 hp)
  · rw [flagMean_one]
    constructor
    · rintro ⟨-, h⟩ i pl h1 h2 p hp
      exact h _ (List.mem_flatMap.2 ⟨pl, (mem_rows o t pl).2 ⟨i, h1, h2⟩, List.mem_map.2 ⟨p, List.mem_range.2 hp, rfl⟩⟩)
    · intro h
      constructor
      · obtain ⟨j, hj⟩ := List.mem_iff_getElem?.1 (mem_unique.1 (List.mem_of_getElem? hk))
        have hjl : j < o.flags.length := by rw [hl]; exact (List.getElem?_eq_some_iff.1 hj).1
        apply List.ne_nil_of_mem (a := (o.flags[j]) f 0)
        exact List.mem_flatMap.2 ⟨_, (mem_rows o t _).2 ⟨j, hj, List.getElem?_eq_getElem hjl⟩,
          List.mem_map.2 ⟨0, List.mem_range.2 hnp, rfl⟩⟩
      · intro b hb
        obtain ⟨pl, hpl, hb⟩ := List.mem_flatMap.1 hb
        obtain ⟨p, hp, rfl⟩ := List.mem_map.1 hb
        obtain ⟨i, h1, h2⟩ := (mem_rows o t pl).1 hpl
        exact h i pl h1 h2 p (List.mem_range.1 hp)

/-! ### C51 -/

/-- C51: "or" of two flag objects of the same shape flags exactly what either flags. -/
theorem or_flags_exact (a b r : List Plane) (h : orFlags a b = some r) :
    r.length = a.length ∧ ∀ (i : Nat) (x y z : Plane), a[i]? = some x → b[i]? = some y → r[i]? = some z →
      ∀ f p, z f p = true ↔ (x f p = true ∨ y f p = true) := by
  unfold orFlags at h
  split at h
  · rename_i hl
    simp only [Option.some.injEq] at h
    subst h
    refine ⟨by simp [hl], ?_⟩
    intro i x y z hx hy hz f p
    rw [List.getElem?_zipWith, hx, hy] at hz
    simp only [Option.some.injEq] at hz
    subst hz
    simp
  · simp at h

/-- C51: the order of the objects, and combining twice, makes no difference. -/
theorem or_flags_algebra (a b c : List Plane) :
    orFlags a b = orFlags b a ∧ orFlags a a = some a ∧
    (orFlags a b >>= fun r => orFlags r c) = (orFlags b c >>= fun r => orFlags a r) := by
  have hex : ∀ l m : List Plane, l.length = m.length → ∀ f : Plane → Plane → Plane, ∀ g : Plane → Plane → Plane,
      (∀ x y, f x y = g y x) → List.zipWith f l m = List.zipWith g m l := by
    intro l m _ f g hfg
    rw [List.zipWith_comm]
    congr 1
    funext x y
    exact hfg y x
  refine ⟨?_, ?_, ?_⟩
  · unfold orFlags
    by_cases hl : a.length = b.length
    · rw [if_pos hl, if_pos hl.symm]
      congr 1
      apply hex a b hl
      intro x y; funext f p; exact Bool.or_comm _ _
    · rw [if_neg hl, if_neg (fun h => hl h.symm)]
  · unfold orFlags
    rw [if_pos rfl]
    congr 1
    apply List.ext_getElem?
    intro i
    rw [List.getElem?_zipWith]
    cases a[i]? <;> simp
  · unfold orFlags
    by_cases h1 : a.length = b.length
    · by_cases h2 : b.length = c.length
      · have h3 : (List.zipWith (fun x y f p => x f p || y f p) a b : List Plane).length = c.length := by
          simp [h1, h2]
        have h4 : a.length = (List.zipWith (fun x y f p => x f p || y f p) b c : List Plane).length := by
          simp [h1, h2]
        simp only [if_pos h1, if_pos h2, Option.bind_eq_bind, Option.bind_some, if_pos h3, if_pos h4, Option.some.injEq]
        apply List.ext_getElem?
        intro i
        simp only [List.getElem?_zipWith]
        cases a[i]? <;> cases b[i]? <;> cases c[i]? <;> simp [Bool.or_assoc]
      · have h3 : (List.zipWith (fun x y f p => x f p || y f p) a b : List Plane).length ≠ c.length := by
          simp [h1, h2]
        simp only [if_pos h1, if_neg h2, Option.bind_eq_bind, Option.bind_some, if_neg h3, Option.bind_none]
    · rw [if_neg h1]
      by_cases h2 : b.length = c.length
      · have h4 : a.length ≠ (List.zipWith (fun x y f p => x f p || y f p) b c : List Plane).length := by
          simp [h2]; omega
        simp only [if_pos h2, Option.bind_eq_bind, Option.bind_some, Option.bind_none, if_neg h4]
      · simp [if_neg h2]

/-! ### C52 -/

/-- The flag stored under the labels time, frequency and polarization. -/
def WfCell (w : Wf K) (t fr : K) (po : Int) (b : Bool) : Prop :=
  ∃ (i f p : Nat) (pl : Plane), w.times[i]? = some t ∧ w.freqs[f]? = some fr ∧ w.pols[p]? = some po ∧
    w.flags[i]? = some pl ∧ pl f p = b

/-- Array lengths fit. -/
structure WfOk (w : Wf K) : Prop where
  nf : w.freqs.length = w.nf
  np : w.pols.length = w.np
  flags : w.flags.length = w.times.length

omit [IsStrictOrderedRing K] in
/-- C52: in the sum of two waterfalls every flag is stored under its own labels, and there is no other. -/
theorem add_wf_cells (ax : Ax) (a b r : Wf K) (ha : WfOk a) (hb : WfOk b) (h : addWf ax a b = some r) :
    WfOk r ∧ ∀ t fr po v, WfCell r t fr po v ↔ (WfCell a t fr po v ∨ WfCell b t fr po v) := by
  have app : ∀ {α : Type} (l m : List α) (i : Nat) (x : α),
      (l ++ m)[i]? = some x ↔ (l[i]? = some x ∨ (l.length ≤ i ∧ m[i - l.length]? = some x)) := by
    intro α l m i x
    by_cases hi : i < l.length
    · rw [List.getElem?_append_left hi]
      constructor
      · exact Or.inl
      · rintro (h | ⟨h, -⟩)
        · exact h
        · omega
    · rw [List.getElem?_append_right (by omega)]
      constructor
      · intro h; exact Or.inr ⟨by omega, h⟩
      · rintro (h | ⟨-, h⟩)
        · exact absurd (List.getElem?_eq_some_iff.1 h).1 hi
        · exact h
  cases ax with
  | time =>
    unfold addWf at h
    simp only at h
    split at h
    · rename_i hc
      obtain ⟨hf, hp⟩ := hc
      simp only [Option.some.injEq] at h
      subst h
      refine ⟨⟨ha.nf, ha.np, by simp [ha.flags, hb.flags]⟩, ?_⟩
      intro t fr po v
      unfold WfCell
      constructor
      · rintro ⟨i, f, p, pl, h1, h2, h3, h4, h5⟩
        simp only at h1 h2 h3 h4
        rw [app] at h1 h4
        rw [ha.flags] at h4
        rcases h1 with h1 | ⟨hge, h1⟩
        · rcases h4 with h4 | ⟨h4, -⟩
          · exact Or.inl ⟨i, f, p, pl, h1, h2, h3, h4, h5⟩
          · have := (List.getElem?_eq_some_iff.1 h1).1; omega
        · rcases h4 with h4 | ⟨-, h4⟩
          · have := (List.getElem?_eq_some_iff.1 h4).1; rw [ha.flags] at this; omega
          · exact Or.inr ⟨_, f, p, pl, h1, hf ▸ h2, hp ▸ h3, h4, h5⟩
      · rintro (⟨i, f, p, pl, h1, h2, h3, h4, h5⟩ | ⟨i, f, p, pl, h1, h2, h3, h4, h5⟩)
        · exact ⟨i, f, p, pl, (app _ _ _ _).2 (Or.inl h1), h2, h3, (app _ _ _ _).2 (Or.inl h4), h5⟩
        · refine ⟨a.times.length + i, f, p, pl, (app _ _ _ _).2 (Or.inr ⟨by omega, ?_⟩), ?_, ?_,
            (app _ _ _ _).2 (Or.inr ⟨by rw [ha.flags]; omega, ?_⟩), h5⟩
          · rwa [Nat.add_sub_cancel_left]
          · simp only; rwa [hf]
          · simp only; rwa [hp]
          · rwa [ha.flags, Nat.add_sub_cancel_left]
    · simp at h
  | freq =>
    unfold addWf at h
    simp only at h
    split at h
    · rename_i hc
      obtain ⟨ht, -, hp⟩ := hc
      simp only [Option.some.injEq] at h
      subst h
      have hfl : b.flags.length = a.flags.length := by rw [ha.flags, hb.flags, ht]
      refine ⟨⟨by simp [ha.nf, hb.nf], ha.np, by simp [ha.flags, hfl]⟩, ?_⟩
      intro t fr po v
      unfold WfCell
      constructor
      · rintro ⟨i, f, p, pl, h1, h2, h3, h4, h5⟩
        simp only at h1 h2 h3 h4
        have hil : i < a.flags.length := by rw [ha.flags]; exact (List.getElem?_eq_some_iff.1 h1).1
        rw [List.getElem?_zipWith, List.getElem?_eq_getElem hil, List.getElem?_eq_getElem (by omega : i < b.flags.length)] at h4
        simp only [Option.some.injEq] at h4
        subst h4
        beta_reduce at h5
        rw [app, ha.nf] at h2
        rcases h2 with h2 | ⟨hge, h2⟩
        · have hlt := (List.getElem?_eq_some_iff.1 h2).1
          rw [ha.nf] at hlt
          rw [if_pos hlt] at h5
          exact Or.inl ⟨i, f, p, _, h1, h2, h3, List.getElem?_eq_getElem hil, h5⟩
        · rw [if_neg (by omega)] at h5
          exact Or.inr ⟨i, _, p, _, ht ▸ h1, h2, hp ▸ h3, List.getElem?_eq_getElem (by omega), h5⟩
      · rintro (⟨i, f, p, pl, h1, h2, h3, h4, h5⟩ | ⟨i, f, p, pl, h1, h2, h3, h4, h5⟩)
        · have hil : i < b.flags.length := by rw [hfl]; exact (List.getElem?_eq_some_iff.1 h4).1
          refine ⟨i, f, p, _, h1, (app _ _ _ _).2 (Or.inl h2), h3, by
            simp only [List.getElem?_zipWith, h4, List.getElem?_eq_getElem hil]; rfl, ?_⟩
          have hlt := (List.getElem?_eq_some_iff.1 h2).1
          rw [ha.nf] at hlt
          beta_reduce
          rw [if_pos hlt]; exact h5
        · have hil : i < a.flags.length := by rw [← hfl]; exact (List.getElem?_eq_some_iff.1 h4).1
          refine ⟨i, a.nf + f, p, _, by simp only; rwa [ht], (app _ _ _ _).2 (Or.inr ⟨by rw [ha.nf]; omega, by
            rwa [ha.nf, Nat.add_sub_cancel_left]⟩), by simp only; rwa [hp], by
            simp only [List.getElem?_zipWith, h4, List.getElem?_eq_getElem hil]; rfl, ?_⟩
          beta_reduce
          rw [if_neg (by omega), Nat.add_sub_cancel_left]; exact h5
    · simp at h
  | pol =>
    unfold addWf at h
    simp only at h
    split at h
    · rename_i hc
      obtain ⟨ht, -, hp⟩ := hc
      simp only [Option.some.injEq] at h
      subst h
      have hfl : b.flags.length = a.flags.length := by rw [ha.flags, hb.flags, ht]
      refine ⟨⟨ha.nf, by simp [ha.np, hb.np], by simp [ha.flags, hfl]⟩, ?_⟩
      intro t fr po v
      unfold WfCell
      constructor
      · rintro ⟨i, f, p, pl, h1, h2, h3, h4, h5⟩
        simp only at h1 h2 h3 h4
        have hil : i < a.flags.length := by rw [ha.flags]; exact (List.getElem?_eq_some_iff.1 h1).1
        rw [List.getElem?_zipWith, List.getElem?_eq_getElem hil, List.getElem?_eq_getElem (by omega : i < b.flags.length)] at h4
        simp only [Option.some.injEq] at h4
        subst h4
        beta_reduce at h5
        rw [app, ha.np] at h3
        rcases h3 with h3 | ⟨hge, h3⟩
        · have hlt := (List.getElem?_eq_some_iff.1 h3).1
          rw [ha.np] at hlt
          rw [if_pos hlt] at h5
          exact Or.inl ⟨i, f, p, _, h1, h2, h3, List.getElem?_eq_getElem hil, h5⟩
        · rw [if_neg (by omega)] at h5
          exact Or.inr ⟨i, f, _, _, ht ▸ h1, hp ▸ h2, h3, List.getElem?_eq_getElem (by omega), h5⟩
      · rintro (⟨i, f, p, pl, h1, h2, h3, h4, h5⟩ | ⟨i, f, p, pl, h1, h2, h3, h4, h5⟩)
        · have hil : i < b.flags.length := by rw [hfl]; exact (List.getElem?_eq_some_iff.1 h4).1
          refine ⟨i, f, p, _, h1, h2, (app _ _ _ _).2 (Or.inl h3), by
            simp only [List.getElem?_zipWith, h4, List.getElem?_eq_getElem hil]; rfl, ?_⟩
          have hlt := (List.getElem?_eq_some_iff.1 h3).1
          rw [ha.np] at hlt
          beta_reduce
          rw [if_pos hlt]; exact h5
        · have hil : i < a.flags.length := by rw [← hfl]; exact (List.getElem?_eq_some_iff.1 h4).1
          refine ⟨i, f, a.np + p, _, by simp only; rwa [ht], by simp only; rwa [hp], (app _ _ _ _).2 (Or.inr ⟨by rw [ha.np]; omega, by
            rwa [ha.np, Nat.add_sub_cancel_left]⟩), by
            simp only [List.getElem?_zipWith, h4, List.getElem?_eq_getElem hil]; rfl, ?_⟩
          beta_reduce
          rw [if_neg (by omega), Nat.add_sub_cancel_left]; exact h5
    · simp at h

end Verif.Flag
