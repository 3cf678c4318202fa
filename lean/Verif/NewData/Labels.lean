import Verif.NewData.Props

/-!
C121: sidereal and integration times of the rows of a new object. C122: integration times and widths of channels that are left out.
-/
namespace Verif.NewData
open Verif.Np
open Verif.Baseline (antnumsToBaseline)

variable {K : Type} [Field K] [LinearOrder K]

/-- The value that stands at the place of the time `t`. -/
def GivenAt (times l : List K) (t x : K) : Prop := ∃ k : Nat, times[k]? = some t ∧ l[k]? = some x

theorem time_lengths {lst : K → K} {times : List K} {intg : Num K} {l i : List K} (h : timeParams lst times intg = .ok (l, i)) :
    l = times.map lst ∧ i = inferTimes times intg ∧ i.length = times.length := by
  unfold timeParams at h
  split at h
  · cases h
  · rename_i hc
    injection h with h
    obtain ⟨rfl, rfl⟩ := Prod.mk.inj h
    exact ⟨rfl, rfl, by simpa using hc⟩

theorem wants {times : List K} {ap : Option (List (Nat × Nat))} {outer : Option Bool} {nants : List Nat} (hw : WantsOuter times ap outer) :
    (if ap.isNone then some true else outer) = some true ∨
      ((if ap.isNone then some true else outer) = none ∧ times.length ≠ (ap.getD (pairsOf nants)).length) := by
  rcases hw with rfl | rfl | ⟨rfl, p, rfl, hne⟩
  · simp
  · simp
  · exact Or.inr ⟨by simp, by simpa using hne⟩

/-- Where the time, the sidereal time and the integration time of a row come from. -/
theorem outer_sources {lst : K → K} {nants : List Nat} {times : List K} {ap : Option (List (Nat × Nat))} {intg : Num K} {outer rect tf : Option Bool}
    {n : New K} (h : newRows lst nants times ap intg outer rect tf = .ok n) (hw : WantsOuter times ap outer) :
    n.times.length = times.length * (ap.getD (pairsOf nants)).length ∧ (inferTimes times intg).length = times.length ∧ times.Nodup ∧
    ∀ j < n.times.length, ∃ k < times.length, n.times[j]? = (if tf = some true then unique times else times)[k]? ∧
      n.lst[j]? = (times.map lst)[k]? ∧ n.intg[j]? = (inferTimes times intg)[k]? ∧ (tf = some true → k = j % times.length) := by
  obtain ⟨i, r, h1, h2, h3, h4, h5, -⟩ := newRows_inv h
  obtain ⟨hnt, hnp, e1, e2, hr⟩ := configure_outer h2 (wants hw)
  obtain ⟨-, hi, hil⟩ := time_lengths h1
  generalize ap.getD (pairsOf nants) = pairs at *
  subst hi
  by_cases c : tf.getD false = true
  · have htf : tf = some true := by cases tf with
      | none => simp at c
      | some b => simpa using c
    rw [if_pos c] at hr
    subst hr
    simp only at h3 h4 h5
    have hlen : n.times.length = times.length * pairs.length := by rw [h3, tile_length, e1, Nat.mul_comm]
    refine ⟨hlen, hil, hnt, ?_⟩
    intro j hj
    rw [hlen] at hj
    have hp0 : 0 < times.length := Nat.pos_of_ne_zero (by intro e; simp [e] at hj)
    refine ⟨j % times.length, Nat.mod_lt _ hp0, ?_, ?_, ?_, fun _ => rfl⟩
    · rw [h3, tile_get _ _ _ (by rw [e1, Nat.mul_comm]; exact hj), e1, if_pos htf]
    · rw [h4, tile_get _ _ _ (by rw [List.length_map, Nat.mul_comm]; exact hj), List.length_map]
    · rw [h5, tile_get _ _ _ (by rw [hil, Nat.mul_comm]; exact hj), hil]
  · have htf : tf ≠ some true := by rintro rfl; simp at c
    rw [if_neg c] at hr
    subst hr
    simp only at h3 h4 h5
    have hlen : n.times.length = times.length * pairs.length := by rw [h3, rep_length]
    refine ⟨hlen, hil, hnt, ?_⟩
    intro j hj
    rw [hlen] at hj
    have hp0 : 0 < pairs.length := Nat.pos_of_ne_zero (by intro e; simp [e] at hj)
    refine ⟨j / pairs.length, by rwa [Nat.div_lt_iff_lt_mul hp0], ?_, ?_, ?_, fun e => absurd e htf⟩
    · rw [h3, rep_get _ hp0, if_neg htf]
    · rw [h4, rep_get _ hp0]
    · rw [h5, rep_get _ hp0]

theorem ordered {times : List K} {tf : Option Bool} (hs : tf ≠ some true ∨ times.Pairwise (· < ·)) : (if tf = some true then unique times else times) = times := by
  by_cases c : tf = some true
  · rw [if_pos c]
    exact unique_of_sorted (hs.resolve_left (fun h => h c))
  · rw [if_neg c]

/-- C121: the sidereal time of each row is that of its time, and the integration time is the one given with its time, if the times rise or the
baselines are the faster axis. -/
theorem outer_labels_partial {lst : K → K} {nants : List Nat} {times : List K} {ap : Option (List (Nat × Nat))} {intg : Num K} {outer rect tf : Option Bool}
    {n : New K} (h : newRows lst nants times ap intg outer rect tf = .ok n) (hw : WantsOuter times ap outer)
    (hs : tf ≠ some true ∨ times.Pairwise (· < ·)) (j : Nat) (t : K) (hj : n.times[j]? = some t) :
    n.lst[j]? = some (lst t) ∧ (∀ x, intg = .one x → n.intg[j]? = some x) ∧ (∀ l, intg = .all l → ∃ x, n.intg[j]? = some x ∧ GivenAt times l t x) := by
  obtain ⟨-, hil, -, hsrc⟩ := outer_sources h hw
  obtain ⟨k, hk, g1, g2, g3, -⟩ := hsrc j (List.getElem?_eq_some_iff.1 hj).1
  rw [ordered hs, hj] at g1
  refine ⟨by rw [g2, List.getElem?_map, ← g1]; rfl, ?_, ?_⟩
  · rintro x rfl
    rw [g3]
    simp [inferTimes, hk]
  · rintro l rfl
    have hl : k < l.length := by simp only [inferTimes] at hil; omega
    exact ⟨_, by rw [g3]; exact List.getElem?_eq_getElem hl, k, g1.symm, List.getElem?_eq_getElem hl⟩

/-- C121, the fault in general: with the times as the faster axis the sidereal times are right exactly if the times were given in rising order
(for pairs to be there and different times to have different sidereal times). -/
theorem faster_lst_iff {lst : K → K} {nants : List Nat} {times : List K} {ap : Option (List (Nat × Nat))} {intg : Num K} {outer rect : Option Bool}
    {n : New K} (h : newRows lst nants times ap intg outer rect (some true) = .ok n) (hw : WantsOuter times ap outer)
    (hp : ap.getD (pairsOf nants) ≠ []) (hinj : ∀ s ∈ times, ∀ t ∈ times, lst s = lst t → s = t) :
    (∀ (j : Nat) t, n.times[j]? = some t → n.lst[j]? = some (lst t)) ↔ times.Pairwise (· < ·) := by
  constructor
  · intro hall
    obtain ⟨hlen, -, hnd, hsrc⟩ := outer_sources h hw
    have hp0 : 0 < (ap.getD (pairsOf nants)).length := List.length_pos_iff.2 hp
    have hu := unique_of_nodup hnd
    have heq : unique times = times := by
      apply List.ext_getElem?
      intro k
      by_cases hk : k < times.length
      · have hkl : k < n.times.length := by
          rw [hlen]; exact lt_of_lt_of_le hk (Nat.le_mul_of_pos_right _ hp0)
        obtain ⟨k', hk', g1, g2, -, g4⟩ := hsrc k hkl
        have hkk : k' = k := by rw [g4 rfl, Nat.mod_eq_of_lt hk]
        subst hkk
        rw [if_pos rfl] at g1
        have hu' : k' < (unique times).length := by omega
        rw [List.getElem?_eq_getElem hu'] at g1
        have g5 := hall k' _ g1
        rw [g2, List.getElem?_map, List.getElem?_eq_getElem hk] at g5
        simp only [Option.map_some, Option.some.injEq] at g5
        have := hinj _ (List.getElem_mem hk) _ (mem_unique.1 (List.getElem_mem hu')) g5
        rw [List.getElem?_eq_getElem hu', List.getElem?_eq_getElem hk, this]
      · rw [List.getElem?_eq_none (by omega), List.getElem?_eq_none (by omega)]
    rw [← heq]
    exact unique_sorted times
  · intro hs j t hj
    exact (outer_labels_partial h hw (Or.inr hs) j t hj).1

/-- C121: without the outer product the rows are the given ones. -/
theorem plain_rows {lst : K → K} {nants : List Nat} {times : List K} {p : List (Nat × Nat)} {intg : Num K} {outer rect tf : Option Bool}
    {n : New K} (h : newRows lst nants times (some p) intg outer rect tf = .ok n) (hw : ¬ WantsOuter times (some p) outer) :
    n.rows = times.zip p ∧ n.times = times ∧ times.length = p.length ∧ n.lst = times.map lst ∧ n.intg = inferTimes times intg ∧
      n.ntimes = times.dedup.length ∧ n.nbls = p.dedup.length := by
  obtain ⟨i, r, h1, h2, h3, h4, h5, h6, h7, h8, h9, -, hrl, -⟩ := newRows_inv h
  obtain ⟨-, hi, hil⟩ := time_lengths h1
  simp only [Option.isNone_some, Bool.false_eq_true, if_false, Option.getD_some] at h2 hrl
  have ho : outer ≠ some true := fun e => hw (Or.inr (Or.inl e))
  have hrl := hrl ho
  have key : r.times = times ∧ r.antpairs = p ∧ r.lst = times.map lst ∧ r.intg = i ∧ r.nt = (unique times).length ∧ r.nbl = (uniquePairs p).length := by
    have hwo : wantOuter times p outer ≠ .ok true := by
      unfold wantOuter
      cases outer with
      | some b => cases b <;> simp_all
      | none =>
        simp only
        by_cases hne : times.length ≠ p.length
        · exact absurd (Or.inr (Or.inr ⟨rfl, p, rfl, hne⟩)) hw
        · rw [if_neg hne]
          split <;> simp
    unfold configure at h2
    generalize wantOuter times p outer = w at h2 hwo
    rcases w with e | (_ | _)
    · cases h2
    · simp only at h2
      rcases rect with _ | (_ | _)
      · simp only at h2
        generalize antnumsToBaseline _ false false _ _ = b at h2
        cases b with
        | error e => cases h2
        | ok b =>
          injection h2 with h2
          subst h2
          exact ⟨rfl, rfl, rfl, rfl, rfl, rfl⟩
      · simp only at h2
        injection h2 with h2
        subst h2
        exact ⟨rfl, rfl, rfl, rfl, rfl, rfl⟩
      · simp only at h2
        split at h2
        · cases h2
        · split at h2
          · injection h2 with h2
            subst h2
            exact ⟨rfl, rfl, rfl, rfl, rfl, rfl⟩
          · cases h2
    · exact absurd rfl hwo
  obtain ⟨k1, k2, k3, k4, k5, k6⟩ := key
  rw [k1, k2] at hrl
  refine ⟨?_, h3.trans k1, hrl, h4.trans k3, by rw [h5, k4, hi], by rw [h9, k5, unique_length], ?_⟩
  · unfold New.rows
    rw [h3, k1, h6, h7, k2, zip_fst_snd]
  · rw [h8, k6]
    unfold uniquePairs
    rw [List.length_map, unique_length]
    have : (p.map toLex).dedup = p.dedup.map toLex := List.dedup_map_of_injective toLex.injective p
    rw [this, List.length_map]

end Verif.NewData
