import Verif.Flag.Props

/-! C29, C30: conversions between the types of flag objects. -/
namespace Verif.Flag
open Verif.Np
open Verif.TimeSel (isclose)

variable {K : Type} [Field K] [LinearOrder K]

/-! ### C29: a waterfall to baselines -/

theorem unique_of_sorted (l : List K) (h : l.Pairwise (· < ·)) : unique l = l := by
  apply List.Pairwise.eq_of_mem_iff (unique_sorted l) h
  intro a
  exact mem_unique

theorem mem_where_close {tols : K × K} {ts : List K} {t : K} {i : Nat} :
    i ∈ whereIdx (fun x => isclose tols x t) ts ↔ ∃ x, ts[i]? = some x ∧ isclose tols x t = true := mem_whereIdx

theorem fillRows_length (tols : K × K) (uvTimes : List K) (flags : List Plane) :
    ∀ l arr, (fillRows tols uvTimes flags l arr).length = arr.length
  | [], arr => rfl
  | (t, i) :: rest, arr => by
    rw [fillRows, fillRows_length tols uvTimes flags rest]
    simp [setRows]

/-- A row that no time matches stays. -/
theorem fillRows_none (tols : K × K) (uvTimes : List K) (flags : List Plane) (j : Nat) (s : K) (hs : uvTimes[j]? = some s) :
    ∀ (l : List (K × Nat)) (arr : List Plane), (∀ e ∈ l, isclose tols s e.1 = false) →
      (fillRows tols uvTimes flags l arr)[j]? = arr[j]?
  | [], arr, _ => rfl
  | (t, i) :: rest, arr, h => by
    rw [fillRows, fillRows_none tols uvTimes flags j s hs rest _ (fun e he => h e (by simp [he])), setRows_get]
    have hno : j ∉ whereIdx (fun x => isclose tols x t) uvTimes := by
      intro hc
      obtain ⟨x, hx, hcl⟩ := mem_where_close.1 hc
      rw [hs] at hx
      simp only [Option.some.injEq] at hx
      subst hx
      have := h (t, i) (by simp)
      simp only at this
      rw [this] at hcl
      exact absurd hcl (by decide)
    simp [hno]

/-- A row gets the plane of the last time that matches. -/
theorem fillRows_last (tols : K × K) (uvTimes : List K) (flags : List Plane) (j : Nat) (s : K) (hs : uvTimes[j]? = some s)
    (pre post : List (K × Nat)) (t : K) (i : Nat) (arr : List Plane) (hj : j < arr.length)
    (hm : isclose tols s t = true) (hpost : ∀ e ∈ post, isclose tols s e.1 = false) :
    (fillRows tols uvTimes flags (pre ++ (t, i) :: post) arr)[j]? = some (flags.getD i clear) := by
  induction pre generalizing arr with
  | nil =>
    rw [List.nil_append, fillRows, fillRows_none tols uvTimes flags j s hs post _ hpost, setRows_get,
      List.getElem?_eq_getElem hj, Option.map_some, if_pos (mem_where_close.2 ⟨s, hs, hm⟩)]
  | cons e pre ih =>
    obtain ⟨t', i'⟩ := e
    rw [List.cons_append, fillRows]
    exact ih _ (by simpa [setRows] using hj)

theorem fill_exact (tols : K × K) (uvTimes : List K) (flags : List Plane) (times : List K)
    (hlen : flags.length = times.length)
    (hone : ∀ s ∈ uvTimes, ∀ t ∈ times, ∀ t' ∈ times, isclose tols s t = true → isclose tols s t' = true → t = t')
    (hs : times.Pairwise (· < ·)) (j : Nat) (s : K) (hj : uvTimes[j]? = some s) :
    (∀ (i : Nat) (t : K), times[i]? = some t → isclose tols s t = true →
      (fillRows tols uvTimes flags times.zipIdx (List.replicate uvTimes.length clear))[j]? = flags[i]?) ∧
    ((∀ t ∈ times, isclose tols s t = false) →
      (fillRows tols uvTimes flags times.zipIdx (List.replicate uvTimes.length clear))[j]? = some clear) := by
  have hjl : j < uvTimes.length := (List.getElem?_eq_some_iff.1 hj).1
  constructor
  · intro i t hi hc
    have hil := (List.getElem?_eq_some_iff.1 hi).1
    have hz : times.zipIdx = (times.zipIdx.take i) ++ (t, i) :: times.zipIdx.drop (i + 1) := by
      have h1 : i < times.zipIdx.length := by simpa using hil
      have h2 : times.zipIdx[i] = (t, i) := by
        have := (List.getElem?_eq_some_iff.1 hi).2
        simp [this]
      rw [← h2, ← List.drop_eq_getElem_cons h1, List.take_append_drop]
    rw [hz, fillRows_last tols uvTimes flags j s hj _ _ t i _ (by simpa using hjl) hc]
    · rw [List.getD_eq_getElem?_getD, List.getElem?_eq_getElem (by omega), Option.getD_some]
    · intro e he
      obtain ⟨k, hk⟩ := List.mem_iff_getElem?.1 he
      rw [List.getElem?_drop, List.getElem?_zipIdx] at hk
      cases hk' : times[i + 1 + k]? with
      | none => rw [hk'] at hk; simp at hk
      | some t' =>
        rw [hk'] at hk
        simp only [Option.map_some, Option.some.injEq] at hk
        subst hk
        simp only
        by_contra hcl
        simp only [Bool.not_eq_false] at hcl
        have heq := hone s (List.mem_of_getElem? hj) t (List.mem_of_getElem? hi) t' (List.mem_of_getElem? hk') hc hcl
        obtain ⟨hkl, hke⟩ := List.getElem?_eq_some_iff.1 hk'
        have hlt := List.pairwise_iff_getElem.1 hs i (i + 1 + k) hil hkl (by omega)
        rw [(List.getElem?_eq_some_iff.1 hi).2, hke, heq] at hlt
        exact lt_irrefl _ hlt
  · intro hno
    rw [fillRows_none tols uvTimes flags j s hj]
    · simp [hjl]
    · intro e he
      obtain ⟨k, hk⟩ := List.mem_iff_getElem?.1 he
      rw [List.getElem?_zipIdx] at hk
      cases hk' : times[k]? with
      | none => rw [hk'] at hk; simp at hk
      | some t' =>
        rw [hk'] at hk
        simp only [Option.map_some, Option.some.injEq] at hk
        subst hk
        exact hno t' (List.mem_of_getElem? hk')

/-- How the flags of the stored object are seen at a polarization of the target: `force_pol` uses the only one. -/
def seen (force : Bool) (pols : List Int) (pl : Plane) : Plane :=
  if force = true ∧ pols.length = 1 then fun f _ => pl f 0 else pl

theorem forcePols_ok {force : Bool} {uvPols pols : List Int} {np : Nat} {flags : List Plane}
    {r : List Int × Nat × List Plane} (h : forcePols force uvPols pols np flags = .ok r) :
    r.1 = uvPols ∧ r.2.2 = flags.map (seen force pols) ∧
    ((force = true ∧ pols.length = 1) ∨ (pols = uvPols ∧ r.2.1 = np)) ∧
    (force = true ∧ pols.length = 1 → r.2.1 = uvPols.length) := by
  unfold forcePols at h
  by_cases hc : force = true ∧ pols.length = 1
  · simp only [if_pos hc, if_true, Except.ok.injEq] at h
    subst h
    refine ⟨rfl, ?_, Or.inl hc, fun _ => rfl⟩
    apply List.map_congr_left
    intro a _
    simp [seen, hc]
  · simp only [if_neg hc] at h
    split at h
    · rename_i h1
      simp only [Except.ok.injEq] at h
      subst h
      refine ⟨h1, ?_, Or.inr ⟨h1, rfl⟩, fun h => absurd h hc⟩
      have hs : (seen force pols) = id := by funext pl; simp [seen, hc]
      rw [hs]; simp
    · simp at h

/-- C29: broadcasting a waterfall whose times are increasing gives the rows of the target; a row whose time is close to
a time of the waterfall has the flags of that time, and a row with no such time is unflagged. -/
theorem to_baseline_wf_partial (compat force : Bool) (tols : K × K) (uv r : Bl K) (w : Wf K)
    (hlen : w.flags.length = w.times.length) (hs : w.times.Pairwise (· < ·))
    (hone : ∀ s ∈ uv.times, ∀ t ∈ w.times, ∀ t' ∈ w.times, isclose tols s t = true → isclose tols s t' = true → t = t')
    (h : toBaselineWf compat force tols uv w = .ok r) :
    r.pairs = uv.pairs ∧ r.times = uv.times ∧ r.lsts = uv.lsts ∧ r.freqs = w.freqs ∧ r.pols = uv.pols ∧
    r.flags.length = uv.times.length ∧
    ∀ (j : Nat) (s : K), uv.times[j]? = some s →
      (∀ (i : Nat) (t : K) (pl : Plane), w.times[i]? = some t → isclose tols s t = true → w.flags[i]? = some pl →
        r.flags[j]? = some (seen force w.pols pl)) ∧
      ((∀ t ∈ w.times, isclose tols s t = false) → r.flags[j]? = some clear) := by
  unfold toBaselineWf at h
  split at h
  · simp at h
  rw [Select.bind_ok] at h
  obtain ⟨p, hp, h⟩ := h
  obtain ⟨hp1, hp2, -, -⟩ := forcePols_ok hp
  simp only [Except.ok.injEq] at h
  subst h
  refine ⟨rfl, rfl, rfl, rfl, hp1, ?_, ?_⟩
  · simp only [fillRows_length, List.length_replicate]
  · intro j s hj
    simp only
    rw [unique_of_sorted w.times hs, hp2]
    obtain ⟨h1, h2⟩ := fill_exact tols uv.times (w.flags.map (seen force w.pols)) w.times (by simpa using hlen) hone hs j s hj
    refine ⟨?_, h2⟩
    intro i t pl hi hc hpl
    rw [h1 i t hi hc, List.getElem?_map, hpl, Option.map_some]

/-- C29: conversion raises unless the polarizations are the same or one is used for all. -/
theorem to_baseline_wf_pols (force : Bool) (tols : K × K) (uv : Bl K) (w : Wf K) :
    (∃ r, toBaselineWf true force tols uv w = .ok r) ↔ ((force = true ∧ w.pols.length = 1) ∨ w.pols = uv.pols) := by
  unfold toBaselineWf
  rw [if_neg (by decide)]
  constructor
  · rintro ⟨r, h⟩
    rw [Select.bind_ok] at h
    obtain ⟨p, hp, -⟩ := h
    obtain ⟨-, -, h3, -⟩ := forcePols_ok hp
    rcases h3 with h | h
    · exact Or.inl h
    · exact Or.inr h.1
  · intro h
    unfold forcePols
    by_cases hc : force = true ∧ w.pols.length = 1
    · simp only [if_pos hc]
      exact ⟨_, rfl⟩
    · rcases h with h | h
      · exact absurd h hc
      · simp only [if_neg hc, if_pos h]
        exact ⟨_, rfl⟩

/-! ### C29 for antennas -/

theorem flags_after (a : An K) (pairs : List (Int × Int)) (ant : Int) (hin : ∃ q ∈ pairs, q.1 = ant ∨ q.2 = ant)
    (hlen : a.flags.length = a.ants.length) :
    (∀ i : Nat, a.ants.idxOf ant = i → ant ∈ a.ants → (addAnts pairs a).2[(addAnts pairs a).1.idxOf ant]? = a.flags[i]?) ∧
    (ant ∉ a.ants → (addAnts pairs a).2[(addAnts pairs a).1.idxOf ant]? = some (List.replicate a.times.length full)) := by
  unfold addAnts
  simp only
  constructor
  · intro i hi hm
    rw [List.idxOf_append_of_mem hm, hi, List.getElem?_append_left]
    rw [hlen, ← hi]
    exact List.idxOf_lt_length_of_mem hm
  · intro hm
    rw [List.idxOf_append_of_notMem hm]
    have hnew : ant ∈ (unique (pairs.map (·.1) ++ pairs.map (·.2))).filter (fun x => !a.ants.contains x) := by
      rw [List.mem_filter, mem_unique]
      refine ⟨?_, by simpa using hm⟩
      obtain ⟨q, hq, h | h⟩ := hin
      · exact List.mem_append.2 (Or.inl (List.mem_map.2 ⟨q, hq, h⟩))
      · exact List.mem_append.2 (Or.inr (List.mem_map.2 ⟨q, hq, h⟩))
    rw [List.getElem?_append_right (by omega), hlen]
    simp only [Nat.add_sub_cancel_left, List.getElem?_map]
    rw [List.getElem?_eq_getElem (List.idxOf_lt_length_of_mem hnew)]
    rfl

/-- The flag of antenna `ant` at time number `k` of the stored object; antennas that it does not have are flagged. -/
def AntFlag (force : Bool) (a : An K) (ant : Int) (k f p : Nat) : Prop :=
  ant ∉ a.ants ∨ ∃ (i : Nat) (l : List Plane) (pl : Plane), a.ants[i]? = some ant ∧ a.flags[i]? = some l ∧ l[k]? = some pl ∧
    seen force a.pols pl f p = true

theorem ant_lookup (force : Bool) (a : An K) (pairs : List (Int × Int)) (ant : Int)
    (hin : ∃ q ∈ pairs, q.1 = ant ∨ q.2 = ant) (hlen : a.flags.length = a.ants.length) (hnd : a.ants.Nodup)
    (fl : List (List Plane)) (hfl : fl = a.flags.map (fun l => l.map (seen force a.pols))) (k : Nat) (hk : k < a.times.length)
    (pl : Plane)
    (h : (((addAnts pairs { a with flags := fl }).2[(addAnts pairs { a with flags := fl }).1.idxOf ant]?).bind
      (fun l => l[k]?)) = some pl) (f p : Nat) : pl f p = true ↔ AntFlag force a ant k f p := by
  obtain ⟨h1, h2⟩ := flags_after { a with flags := fl } pairs ant hin (by simp [hfl, hlen])
  simp only at h1 h2
  unfold AntFlag
  by_cases hm : ant ∈ a.ants
  · rw [h1 _ rfl hm, hfl, List.getElem?_map] at h
    have hget : a.ants[a.ants.idxOf ant]? = some ant := List.getElem?_idxOf hm
    cases hl : a.flags[a.ants.idxOf ant]? with
    | none => rw [hl] at h; simp at h
    | some l =>
      rw [hl] at h
      simp only [Option.map_some, Option.bind_some, List.getElem?_map, Option.map_eq_some_iff] at h
      obtain ⟨pl0, hpl0, rfl⟩ := h
      constructor
      · intro hp
        exact Or.inr ⟨_, l, pl0, hget, hl, hpl0, hp⟩
      · rintro (hno | ⟨i, l', pl', hi, hl', hp', hv⟩)
        · exact absurd hm hno
        · have hii : i = a.ants.idxOf ant := by
            have hlt := (List.getElem?_eq_some_iff.1 hi).1
            have := hnd.idxOf_getElem i hlt
            rw [(List.getElem?_eq_some_iff.1 hi).2] at this
            exact this.symm
          rw [hii, hl] at hl'
          simp only [Option.some.injEq] at hl'
          subst hl'
          rw [hpl0] at hp'
          simp only [Option.some.injEq] at hp'
          subst hp'
          exact hv
  · rw [h2 hm] at h
    simp only [Option.bind_some, List.getElem?_replicate, hk, if_true, Option.some.injEq] at h
    subst h
    simp [full, hm]

/-- C29 for antenna flags: a row gets the "or" of the flags of its two antennas at the matching time; it is fully flagged
if no time matches, and an antenna that the object does not have counts as flagged. -/
theorem to_baseline_an (compat force : Bool) (tols : K × K) (uv r : Bl K) (a : An K)
    (hlen : a.flags.length = a.ants.length) (hnd : a.ants.Nodup) (ht : uv.times.length = uv.pairs.length)
    (h : toBaselineAn compat force tols uv a = .ok r) :
    r.pairs = uv.pairs ∧ r.times = uv.times ∧ r.lsts = uv.lsts ∧ r.pols = uv.pols ∧
    r.flags.length = uv.times.length ∧
    ∀ (j : Nat) (ap : Int × Int) (s : K) (y : Plane), uv.pairs[j]? = some ap → uv.times[j]? = some s →
      r.flags[j]? = some y →
      (∀ (k : Nat) (t : K), a.times[k]? = some t → isclose tols s t = true →
        ∀ f p, y f p = true ↔ (AntFlag force a ap.1 k f p ∨ AntFlag force a ap.2 k f p)) ∧
      ((∀ t ∈ a.times, isclose tols s t = false) → ∀ f p, y f p = true) := by
  unfold toBaselineAn at h
  split at h
  · simp at h
  rw [Select.bind_ok] at h
  obtain ⟨p, hp, h⟩ := h
  obtain ⟨hp1, -, -, -⟩ := forcePols_ok hp
  simp only [] at h
  rw [Select.bind_ok] at h
  obtain ⟨rows, hrows, h⟩ := h
  simp only [Except.ok.injEq] at h
  subst h
  have hfl : (if force = true ∧ a.pols.length = 1 then a.flags.map (fun l => l.map (fun pl f _ => pl f 0)) else a.flags) =
      a.flags.map (fun l => l.map (seen force a.pols)) := by
    by_cases hc : force = true ∧ a.pols.length = 1
    · rw [if_pos hc]
      apply List.map_congr_left
      intro l _
      apply List.map_congr_left
      intro pl _
      simp [seen, hc]
    · rw [if_neg hc]
      have hs : (seen force a.pols) = id := by funext pl; simp [seen, hc]
      rw [hs]; simp
  rw [hfl] at hrows
  replace hrows := Select.mapM_ok hrows
  have hrl := hrows.length_eq
  simp only [List.length_zip] at hrl
  refine ⟨rfl, rfl, rfl, hp1, by simp only; omega, ?_⟩
  intro j ap s y hj hs hy
  simp only at hy
  have hz : (uv.pairs.zip uv.times)[j]? = some (ap, s) := by
    rw [List.getElem?_zip_eq_some]; exact ⟨hj, hs⟩
  obtain ⟨hjl, hje⟩ := List.getElem?_eq_some_iff.1 hz
  obtain ⟨hyl, hye⟩ := List.getElem?_eq_some_iff.1 hy
  have hrow := List.forall₂_iff_get.1 hrows |>.2 j hjl hyl
  simp only [List.get_eq_getElem, hje, hye] at hrow
  unfold antRow at hrow
  have hmem : ∀ k, k ∈ whereIdx (fun t => isclose tols s t) a.times ↔ ∃ t, a.times[k]? = some t ∧ isclose tols s t = true :=
    fun k => mem_whereIdx
  constructor
  · intro k t hk hc f q
    have hkm := (hmem k).2 ⟨t, hk, hc⟩
    have hkl := (List.getElem?_eq_some_iff.1 hk).1
    split at hrow
    · rename_i hw; rw [hw] at hkm; simp at hkm
    · rename_i k' hw
      rw [hw] at hkm
      simp only [List.mem_singleton] at hkm
      subst hkm
      split at hrow
      · rename_i x1 x2 h1 h2
        simp only [Except.ok.injEq] at hrow
        subst hrow
        simp only [Bool.or_eq_true]
        rw [ant_lookup force a uv.pairs ap.1 ⟨ap, List.mem_of_getElem? hj, Or.inl rfl⟩ hlen hnd _ rfl k hkl x1 h1 f q,
          ant_lookup force a uv.pairs ap.2 ⟨ap, List.mem_of_getElem? hj, Or.inr rfl⟩ hlen hnd _ rfl k hkl x2 h2 f q]
      · simp at hrow
    · simp at hrow
  · intro hno f q
    have hempty : whereIdx (fun t => isclose tols s t) a.times = [] := by
      rw [List.eq_nil_iff_forall_not_mem]
      intro k hk
      obtain ⟨t, ht, hc⟩ := (hmem k).1 hk
      rw [hno t (List.mem_of_getElem? ht)] at hc
      exact absurd hc (by decide)
    rw [hempty] at hrow
    simp only [Except.ok.injEq] at hrow
    subst hrow
    rfl

/-! ### C30 -/

theorem run_or (l : List Plane) (f p : Nat) : Method.or.run l f p = true ↔ ∃ pl ∈ l, pl f p = true := by
  simp [Method.run, orAll]

theorem run_and (l : List Plane) (f p : Nat) : Method.and.run l f p = true ↔ ∀ pl ∈ l, pl f p = true := by
  simp [Method.run, andAll]

theorem mem_rows (o : Bl K) (t : K) (pl : Plane) :
    pl ∈ (whereIdx (fun x => decide (x = t)) o.times).filterMap (fun i : Nat => o.flags[i]?) ↔
      ∃ i : Nat, o.times[i]? = some t ∧ o.flags[i]? = some pl := by
  rw [List.mem_filterMap]
  constructor
  · rintro ⟨i, hi, h⟩; exact ⟨i, mem_where_eq.1 hi, h⟩
  · rintro ⟨i, hi, h⟩; exact ⟨i, mem_where_eq.2 hi, h⟩

/-- C30: the waterfall has the times of the data, increasing, without repetition, each with the LST of its first row;
"or" flags a cell exactly if some baseline has it flagged at that time, "and" exactly if all that are there do. -/
theorem to_waterfall_bl (o : Bl K) (hl : o.lsts.length = o.times.length) :
    (∀ m, (toWaterfallBl m o).times.Pairwise (· < ·) ∧ (∀ t, t ∈ (toWaterfallBl m o).times ↔ t ∈ o.times) ∧
      (toWaterfallBl m o).freqs = o.freqs ∧ (toWaterfallBl m o).pols = o.pols ∧
      (toWaterfallBl m o).flags.length = (toWaterfallBl m o).times.length ∧
      ∀ (k : Nat) (t : K), (toWaterfallBl m o).times[k]? = some t →
        ∃ i : Nat, o.times[i]? = some t ∧ (∀ i' : Nat, o.times[i']? = some t → i ≤ i') ∧
          (toWaterfallBl m o).lsts[k]? = o.lsts[i]?) ∧
    (∀ (k : Nat) (t : K) (f p : Nat), (toWaterfallBl .or o).times[k]? = some t → ∃ y, (toWaterfallBl .or o).flags[k]? = some y ∧
      (y f p = true ↔ ∃ (i : Nat) (pl : Plane), o.times[i]? = some t ∧ o.flags[i]? = some pl ∧ pl f p = true)) ∧
    (∀ (k : Nat) (t : K) (f p : Nat), (toWaterfallBl .and o).times[k]? = some t → ∃ y, (toWaterfallBl .and o).flags[k]? = some y ∧
      (y f p = true ↔ ∀ (i : Nat) (pl : Plane), o.times[i]? = some t → o.flags[i]? = some pl → pl f p = true)) := by
  refine ⟨?_, ?_, ?_⟩
  · intro m
    refine ⟨unique_sorted _, fun t => mem_unique, rfl, rfl, by simp [toWaterfallBl], ?_⟩
    intro k t hk
    have hmem : t ∈ o.times := mem_unique.1 (List.mem_of_getElem? hk)
    refine ⟨o.times.idxOf t, List.getElem?_idxOf hmem, ?_, ?_⟩
    · intro i' hi'
      by_contra hlt
      obtain ⟨hlt', he⟩ := List.getElem?_eq_some_iff.1 hi'
      have hmem' : t ∈ o.times.take (i' + 1) := by
        rw [List.mem_take_iff_getElem]
        exact ⟨i', by omega, he⟩
      have := List.idxOf_lt_length_of_mem hmem'
      have h2 : o.times.idxOf t = (o.times.take (i' + 1)).idxOf t := by
        conv_lhs => rw [← List.take_append_drop (i' + 1) o.times]
        exact List.idxOf_append_of_mem hmem'
      rw [← h2, List.length_take] at this
      omega
    · simp only [toWaterfallBl] at hk ⊢
      rw [List.getElem?_map, hk, Option.map_some, List.getD_eq_getElem?_getD]
      rw [List.getElem?_eq_getElem (by rw [hl]; exact List.idxOf_lt_length_of_mem hmem)]
      rfl
  · intro k t f p hk
    simp only [toWaterfallBl] at hk ⊢
    refine ⟨_, by rw [List.getElem?_map, hk]; rfl, ?_⟩
    rw [run_or]
    constructor
    · rintro ⟨pl, hpl, h⟩
      obtain ⟨i, h1, h2⟩ := (mem_rows o t pl).1 hpl
      exact ⟨i, pl, h1, h2, h⟩
    · rintro ⟨i, pl, h1, h2, h⟩
      exact ⟨pl, (mem_rows o t pl).2 ⟨i, h1, h2⟩, h⟩
  · intro k t f p hk
    simp only [toWaterfallBl] at hk ⊢
    refine ⟨_, by rw [List.getElem?_map, hk]; rfl, ?_⟩
    rw [run_and]
    constructor
    · intro h i pl h1 h2
      exact h pl ((mem_rows o t pl).2 ⟨i, h1, h2⟩)
    · intro h pl hpl
      obtain ⟨i, h1, h2⟩ := (mem_rows o t pl).1 hpl
      exact h i pl h1 h2

/-- C30 for antenna flags: "or" over the antennas, "and" over the antennas. -/
theorem to_waterfall_an (a : An K) (k : Nat) (hk : k < a.times.length) (f p : Nat) :
    (∃ y, (toWaterfallAn .or a).flags[k]? = some y ∧
      (y f p = true ↔ ∃ l ∈ a.flags, ∃ pl, l[k]? = some pl ∧ pl f p = true)) ∧
    (∃ y, (toWaterfallAn .and a).flags[k]? = some y ∧
      (y f p = true ↔ ∀ l ∈ a.flags, ∀ pl, l[k]? = some pl → pl f p = true)) := by
  constructor
  · refine ⟨_, by simp only [toWaterfallAn]; rw [List.getElem?_map, List.getElem?_range hk]; rfl, ?_⟩
    rw [run_or]
    simp only [List.mem_filterMap]
    constructor
    · rintro ⟨pl, ⟨l, hl, h1⟩, h⟩; exact ⟨l, hl, pl, h1, h⟩
    · rintro ⟨l, hl, pl, h1, h⟩; exact ⟨pl, ⟨l, hl, h1⟩, h⟩
  · refine ⟨_, by simp only [toWaterfallAn]; rw [List.getElem?_map, List.getElem?_range hk]; rfl, ?_⟩
    rw [run_and]
    simp only [List.mem_filterMap]
    constructor
    · intro h l hl pl h1; exact h pl ⟨l, hl, h1⟩
    · rintro h pl ⟨l, hl, h1⟩; exact h l hl pl h1

/-! ### C48: round trips -/

/-- C48: a waterfall broadcast to antennas and collapsed again (with "or" or with "and") is the waterfall. -/
theorem to_antenna_to_waterfall (m : Method) (compat : Bool) (ants : List Int) (w : Wf K) (a : An K) (hne : ants ≠ [])
    (hlen : w.flags.length = w.times.length) (h : toAntenna compat false ants w.pols w = .ok a) :
    toWaterfallAn m a = w := by
  unfold toAntenna at h
  split at h
  · simp at h
  rw [Select.bind_ok] at h
  obtain ⟨p, hp, h⟩ := h
  simp only [Except.ok.injEq] at h
  subst h
  have hp' : p = (w.pols, w.np, w.flags) := by
    unfold forcePols at hp
    simp at hp
    exact hp.symm
  subst hp'
  obtain ⟨times, lsts, freqs, pols, nf, np, flags⟩ := w
  simp only [toWaterfallAn, Wf.mk.injEq, true_and]
  simp only at hlen
  apply List.ext_getElem?
  intro k
  by_cases hk : k < times.length
  · rw [List.getElem?_map, List.getElem?_range hk, Option.map_some]
    have hkf : flags[k]? = some (flags[k]'(by omega)) := List.getElem?_eq_getElem (by omega)
    rw [hkf]
    congr 1
    have hall : ∀ pl ∈ (ants.map (fun _ => flags)).filterMap (fun l : List Plane => l[k]?), pl = flags[k]'(by omega) := by
      intro pl hpl
      rw [List.mem_filterMap] at hpl
      obtain ⟨l, hl, h1⟩ := hpl
      rw [List.mem_map] at hl
      obtain ⟨_, -, rfl⟩ := hl
      rw [hkf] at h1
      simpa using h1.symm
    have hex : flags[k]'(by omega) ∈ (ants.map (fun _ => flags)).filterMap (fun l : List Plane => l[k]?) := by
      rw [List.mem_filterMap]
      obtain ⟨x, hx⟩ := List.exists_mem_of_ne_nil _ hne
      exact ⟨flags, List.mem_map.2 ⟨x, hx, rfl⟩, hkf⟩
    funext f q
    rw [Bool.eq_iff_iff]
    cases m with
    | or =>
      rw [run_or]
      constructor
      · rintro ⟨pl, hpl, h⟩; rw [← hall pl hpl]; exact h
      · intro h; exact ⟨_, hex, h⟩
    | and =>
      rw [run_and]
      constructor
      · intro h; exact h _ hex
      · intro h pl hpl; rw [hall pl hpl]; exact h
  · rw [List.getElem?_eq_none (by simpa using hk), List.getElem?_eq_none (by omega)]

/-- C48: a waterfall broadcast to baselines and collapsed again, with "or" or with "and", has at every time of the data
the flags that it had at the matching time. -/
theorem to_baseline_to_waterfall (m : Method) (compat : Bool) (tols : K × K) (uv r : Bl K) (w : Wf K)
    (hlen : w.flags.length = w.times.length) (hs : w.times.Pairwise (· < ·))
    (hone : ∀ s ∈ uv.times, ∀ t ∈ w.times, ∀ t' ∈ w.times, isclose tols s t = true → isclose tols s t' = true → t = t')
    (h : toBaselineWf compat false tols uv w = .ok r) (k i : Nat) (s t : K) (pl : Plane)
    (hk : (toWaterfallBl m r).times[k]? = some s) (hi : w.times[i]? = some t) (hc : isclose tols s t = true)
    (hpl : w.flags[i]? = some pl) : (toWaterfallBl m r).flags[k]? = some pl := by
  obtain ⟨-, ht, -, -, -, -, h7⟩ := to_baseline_wf_partial compat false tols uv r w hlen hs hone h
  have hmem : s ∈ r.times := mem_unique.1 (List.mem_of_getElem? hk)
  simp only [toWaterfallBl] at hk ⊢
  rw [List.getElem?_map, hk, Option.map_some]
  congr 1
  have hrow : ∀ (j : Nat), r.times[j]? = some s → r.flags[j]? = some pl := by
    intro j hj
    rw [ht] at hj
    have := (h7 j s hj).1 i t pl hi hc hpl
    rw [this]
    simp [seen]
  have hall : ∀ q, q ∈ (whereIdx (fun x => decide (x = s)) r.times).filterMap (fun i : Nat => r.flags[i]?) → q = pl := by
    intro q hq
    obtain ⟨j, h1, h2⟩ := (mem_rows r s q).1 hq
    rw [hrow j h1] at h2
    simpa using h2.symm
  obtain ⟨j0, hj0⟩ := List.mem_iff_getElem?.1 hmem
  have hex := (mem_rows r s pl).2 ⟨j0, hj0, hrow j0 hj0⟩
  funext f q
  rw [Bool.eq_iff_iff]
  cases m with
  | or =>
    rw [run_or]
    constructor
    · rintro ⟨x, hx, h⟩; rw [← hall x hx]; exact h
    · intro h; exact ⟨_, hex, h⟩
  | and =>
    rw [run_and]
    constructor
    · intro h; exact h _ hex
    · intro h x hx; rw [hall x hx]; exact h

/-! ### C26 for waterfalls and antennas -/

/-- C26 for a waterfall: a data flag is set afterwards exactly if it was set before or the waterfall has it at the
matching time. -/
theorem apply_wf_exact (compat force : Bool) (tols : K × K) (tolT tolF : K) (missing : Bool) (uvd uvd' : Bl K) (w : Wf K)
    (hd : uvd.flags.length = uvd.pairs.length) (htl : uvd.times.length = uvd.pairs.length)
    (hlen : w.flags.length = w.times.length) (hs : w.times.Pairwise (· < ·))
    (hone : ∀ s ∈ uvd.times, ∀ t ∈ w.times, ∀ t' ∈ w.times, isclose tols s t = true → isclose tols s t' = true → t = t')
    (hnf : w.nf = uvd.nf) (hnp : w.pols.length = w.np) (hnpd : uvd.pols.length = uvd.np)
    (h : apply compat force tols tolT tolF false missing uvd (.wf w) = .ok uvd') (i : Nat) (s : K) (x y : Plane)
    (hi : uvd.times[i]? = some s) (hx : uvd.flags[i]? = some x) (hy : uvd'.flags[i]? = some y) (f p : Nat)
    (hf : f < uvd.nf) (hp : p < uvd.np) :
    y f p = true ↔ (x f p = true ∨ ∃ (k : Nat) (t : K) (pl : Plane), w.times[k]? = some t ∧ isclose tols s t = true ∧
      w.flags[k]? = some pl ∧ seen force w.pols pl f p = true) := by
  unfold apply at h
  rw [Select.bind_ok] at h
  obtain ⟨r, hr, h⟩ := h
  obtain ⟨h1, h2, -, -, -, h6, h7⟩ := to_baseline_wf_partial compat force tols uvd r w hlen hs hone hr
  have hrnf : r.nf = w.nf := by
    unfold toBaselineWf at hr
    split at hr
    · simp at hr
    · rw [Select.bind_ok] at hr
      obtain ⟨q, -, hr⟩ := hr
      simp only [Except.ok.injEq] at hr
      subst hr; rfl
  have hrnp : r.np = uvd.np := by
    unfold toBaselineWf at hr
    split at hr
    · simp at hr
    · rw [Select.bind_ok] at hr
      obtain ⟨q, hq, hr⟩ := hr
      simp only [Except.ok.injEq] at hr
      subst hr
      obtain ⟨-, -, h3, h4⟩ := forcePols_ok hq
      simp only
      by_cases hc : force = true ∧ w.pols.length = 1
      · rw [h4 hc, hnpd]
      · rcases h3 with h3 | ⟨h3, h5⟩
        · exact absurd h3 hc
        · rw [h5, ← hnp, h3, hnpd]
  have hil : i < uvd.pairs.length := by
    rw [← htl]; exact (List.getElem?_eq_some_iff.1 hi).1
  have hap : uvd.pairs[i]? = some uvd.pairs[i] := List.getElem?_eq_getElem hil
  have hrl : r.flags.length = r.pairs.length := by rw [h6, h1, htl]
  obtain ⟨-, -, h3⟩ := apply_bl_exact tolT tolF false missing uvd r uvd' hd hrl h
  rw [h3 i _ x y hap hx hy f p]
  simp only [true_and]
  refine or_congr Iff.rfl ?_
  unfold Added
  rw [h1]
  have hff : (if r.nf = 1 then 0 else f) = f := by
    rw [hrnf, hnf]; split
    · omega
    · rfl
  have hpp : (if r.np = 1 then 0 else p) = p := by
    rw [hrnp]; split
    · omega
    · rfl
  rw [hff, hpp]
  obtain ⟨h8, h9⟩ := h7 i s hi
  have hrow : ∀ j, uvd.pairs[j]? = some uvd.pairs[i] →
      (rank uvd.pairs uvd.pairs[i] j = rank uvd.pairs uvd.pairs[i] i ∨ mult uvd.pairs uvd.pairs[i] = 1) → j = i := by
    intro j hj hr'
    have e1 := where_rank _ _ _ hj
    have e2 := where_rank _ _ _ hap
    have heq : rank uvd.pairs uvd.pairs[i] j = rank uvd.pairs uvd.pairs[i] i := by
      rcases hr' with hr' | hr'
      · exact hr'
      · have l1 := (List.getElem?_eq_some_iff.1 e1).1
        have l2 := (List.getElem?_eq_some_iff.1 e2).1
        rw [where_length] at l1 l2
        omega
    rw [heq, e2] at e1
    simpa using e1.symm
  constructor
  · rintro (⟨hno, -⟩ | ⟨j, pl, hj, hpl, hr', hv⟩)
    · exact absurd (List.mem_of_getElem? hap) hno
    · have := hrow j hj hr'
      subst this
      by_cases hex : ∃ t ∈ w.times, isclose tols s t = true
      · obtain ⟨t, htm, hc⟩ := hex
        obtain ⟨k, hk⟩ := List.mem_iff_getElem?.1 htm
        have hkf : w.flags[k]? = some (w.flags[k]'(by rw [hlen]; exact (List.getElem?_eq_some_iff.1 hk).1)) :=
          List.getElem?_eq_getElem _
        have := h8 k t _ hk hc hkf
        rw [hpl] at this
        simp only [Option.some.injEq] at this
        refine ⟨k, t, _, hk, hc, hkf, ?_⟩
        rw [← this]; exact hv
      · push Not at hex
        have := h9 (fun t ht => by simpa using hex t ht)
        rw [hpl] at this
        simp only [Option.some.injEq] at this
        subst this
        simp [clear] at hv
  · rintro ⟨k, t, pl, hk, hc, hpl, hv⟩
    right
    exact ⟨i, _, hap, h8 k t pl hk hc hpl, Or.inl rfl, hv⟩

/-- If the rows are the same, the flag that is added is that of the same row. -/
theorem added_same_rows (uvd uvf : Bl K) (missing : Bool) (hp : uvf.pairs = uvd.pairs) (hnf : uvf.nf = uvd.nf)
    (hnp : uvf.np = uvd.np) (i : Nat) (ap : Int × Int) (pl : Plane) (hi : uvd.pairs[i]? = some ap)
    (hpl : uvf.flags[i]? = some pl) (f p : Nat) (hf : f < uvd.nf) (hpp : p < uvd.np) :
    Added uvd uvf missing ap i f p ↔ pl f p = true := by
  unfold Added
  rw [hp]
  have hff : (if uvf.nf = 1 then 0 else f) = f := by
    rw [hnf]; split
    · omega
    · rfl
  have hpp' : (if uvf.np = 1 then 0 else p) = p := by
    rw [hnp]; split
    · omega
    · rfl
  rw [hff, hpp']
  constructor
  · rintro (⟨hno, -⟩ | ⟨j, pl', hj, hpl', hr, hv⟩)
    · exact absurd (List.mem_of_getElem? hi) hno
    · have e1 := where_rank _ _ _ hj
      have e2 := where_rank _ _ _ hi
      have heq : rank uvd.pairs ap j = rank uvd.pairs ap i := by
        rcases hr with hr' | hr'
        · exact hr'
        · have l1 := (List.getElem?_eq_some_iff.1 e1).1
          have l2 := (List.getElem?_eq_some_iff.1 e2).1
          rw [where_length] at l1 l2
          omega
      rw [heq, e2] at e1
      have : i = j := by simpa using e1
      subst this
      rw [hpl] at hpl'
      simp only [Option.some.injEq] at hpl'
      subst hpl'
      exact hv
  · intro hv
    exact Or.inr ⟨i, pl, hi, hpl, Or.inl rfl, hv⟩

/-- C26 for antenna flags: a data flag is set afterwards exactly if it was set before, or one of the two antennas is flagged
at the matching time (or is not in the flag object), or no time of the flag object matches. -/
theorem apply_an_exact (compat force : Bool) (tols : K × K) (tolT tolF : K) (missing : Bool) (uvd uvd' : Bl K) (a : An K)
    (hd : uvd.flags.length = uvd.pairs.length) (htl : uvd.times.length = uvd.pairs.length)
    (hlen : a.flags.length = a.ants.length) (hnd : a.ants.Nodup) (hnf : a.nf = uvd.nf) (hnp : a.pols.length = a.np)
    (hnpd : uvd.pols.length = uvd.np)
    (h : apply compat force tols tolT tolF false missing uvd (.an a) = .ok uvd') (i : Nat) (ap : Int × Int) (s : K)
    (x y : Plane) (hap : uvd.pairs[i]? = some ap) (hi : uvd.times[i]? = some s) (hx : uvd.flags[i]? = some x)
    (hy : uvd'.flags[i]? = some y) (f p : Nat) (hf : f < uvd.nf) (hp : p < uvd.np) :
    y f p = true ↔ (x f p = true ∨ (∀ t ∈ a.times, isclose tols s t = false) ∨
      ∃ (k : Nat) (t : K), a.times[k]? = some t ∧ isclose tols s t = true ∧
        (AntFlag force a ap.1 k f p ∨ AntFlag force a ap.2 k f p)) := by
  unfold apply at h
  rw [Select.bind_ok] at h
  obtain ⟨r, hr, h⟩ := h
  obtain ⟨h1, h2, -, -, h6, h7⟩ := to_baseline_an compat force tols uvd r a hlen hnd htl hr
  have hrn : r.nf = a.nf ∧ r.np = uvd.np := by
    unfold toBaselineAn at hr
    split at hr
    · simp at hr
    · rw [Select.bind_ok] at hr
      obtain ⟨q, hq, hr⟩ := hr
      simp only [] at hr
      rw [Select.bind_ok] at hr
      obtain ⟨rows, -, hr⟩ := hr
      simp only [Except.ok.injEq] at hr
      subst hr
      refine ⟨rfl, ?_⟩
      obtain ⟨-, -, h3, h4⟩ := forcePols_ok hq
      simp only
      by_cases hc : force = true ∧ a.pols.length = 1
      · rw [h4 hc, hnpd]
      · rcases h3 with h3 | ⟨h3, h5⟩
        · exact absurd h3 hc
        · rw [h5, ← hnp, h3, hnpd]
  have hil : i < r.flags.length := by rw [h6]; exact (List.getElem?_eq_some_iff.1 hi).1
  have hrf : r.flags[i]? = some r.flags[i] := List.getElem?_eq_getElem hil
  obtain ⟨-, -, h3⟩ := apply_bl_exact tolT tolF false missing uvd r uvd' hd (by rw [h6, h1, htl]) h
  rw [h3 i ap x y hap hx hy f p,
    added_same_rows uvd r missing h1 (hrn.1.trans hnf) hrn.2 i ap _ hap hrf f p hf hp]
  simp only [true_and]
  refine or_congr Iff.rfl ?_
  obtain ⟨h8, h9⟩ := h7 i ap s _ hap hi hrf
  constructor
  · intro hv
    by_cases hno : ∀ t ∈ a.times, isclose tols s t = false
    · exact Or.inl hno
    · right
      push Not at hno
      obtain ⟨t, htm, hc⟩ := hno
      simp only [ne_eq, Bool.not_eq_false] at hc
      obtain ⟨k, hk⟩ := List.mem_iff_getElem?.1 htm
      exact ⟨k, t, hk, hc, (h8 k t hk hc f p).1 hv⟩
  · rintro (hno | ⟨k, t, hk, hc, hv⟩)
    · exact h9 hno f p
    · exact (h8 k t hk hc f p).2 hv

end Verif.Flag
