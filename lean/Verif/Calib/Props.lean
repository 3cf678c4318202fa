import Verif.Calib.Loop
import Mathlib.Tactic.Ring
import Mathlib.Tactic.FieldSimp

/-! Properties of `uvcalibrate`. -/
namespace Verif.Calib
open Verif.Np Verif.Slices
open Verif.AntPair (antpair2ind getAntpairs IsRowsOf)
open Verif.Pol (Str polnum2str polstr2num jnum2str jstr2num parseJpolstr polToFeed)
set_option linter.unusedSectionVars false

variable {R V : Type} [Field R] [LinearOrder R] [Field V]

theorem solution_iff (d : Dat R V) (c : Cal R V) (hd : d.Ok) (hc : c.Ok) (n a : Nat) :
    Solution d c n a ↔ ∃ m, calAnt d.tel c.tel n = some m ∧ c.ants[a]? = some m := by
  unfold Solution
  constructor
  · rintro ⟨s, m, h1, h2, h3⟩
    exact ⟨m, (calAnt_some _ _ hd.tel hc.tel n m).2 ⟨s, h1, h3⟩, h2⟩
  · rintro ⟨m, h1, h2⟩
    obtain ⟨s, h3, h4⟩ := (calAnt_some _ _ hd.tel hc.tel n m).1 h1
    exact ⟨s, m, h3, h2, h4⟩

theorem argmin_ant (c : Cal R V) (hc : c.Ok) (m a : Nat) (h : c.ants[a]? = some m) :
    argminAbs (c.ants.map Int.ofNat) (m : Int) = a := by
  have h1 := argminAbs_nat c.ants m (List.mem_of_getElem? h)
  exact (List.getElem?_inj (List.getElem?_eq_some_iff.1 h1).1 hc.ants).1 (h1.trans h.symm)

/-- The pass for a visibility both antennas of which have solutions. -/
theorem passWith_both (e : Env R V) (o : Opts) (c : Cal R V) (ts fs ind : Option (List Nat)) (d : Dat R V) (hd : d.Ok) (hc : c.Ok)
    (rows : List Nat) (col n₁ n₂ a₁ a₂ : Nat) (j₁ j₂ : Int) (k₁ k₂ : Nat) (h₁ : Solution d c n₁ a₁) (h₂ : Solution d c n₂ a₂)
    (hj₁ : c.jones[k₁]? = some j₁) (hj₂ : c.jones[k₂]? = some j₂) :
    passWith e o (c.byIndex ts fs) ind d rows col (calAnt d.tel c.tel n₁) (calAnt d.tel c.tel n₂) j₁ j₂ =
      match timeIndex (c.byIndex ts fs).ntimes ind rows, freqIndex (c.byIndex ts fs).freqs.length d.freqs.length with
      | some ti, some fi =>
        .ok (gainPlan e o c.mult rows col
          (fun i ch => pairGain e.cj o.flip (c.gain a₁ (sub fs (fi ch)) (sub ts (ti i)) k₁) (c.gain a₂ (sub fs (fi ch)) (sub ts (ti i)) k₂))
          (fun i ch => c.gflag a₁ (sub fs (fi ch)) (sub ts (ti i)) k₁ || c.gflag a₂ (sub fs (fi ch)) (sub ts (ti i)) k₂))
      | _, _ => .error .shape := by
  obtain ⟨m₁, e₁, e₁'⟩ := (solution_iff d c hd hc n₁ a₁).1 h₁
  obtain ⟨m₂, e₂, e₂'⟩ := (solution_iff d c hd hc n₂ a₂).1 h₂
  have hA : (c.byIndex ts fs).ants = c.ants := rfl
  have hJ : (c.byIndex ts fs).jones = c.jones := rfl
  unfold passWith
  rw [e₁, e₂]
  simp only
  rw [if_pos (by
    rw [hA, hJ]
    exact ⟨List.mem_of_getElem? e₁', List.mem_of_getElem? hj₁, List.mem_of_getElem? e₂', List.mem_of_getElem? hj₂⟩)]
  rw [hA, hJ, argmin_ant c hc m₁ a₁ e₁', argmin_ant c hc m₂ a₂ e₂', argminAbs_eq _ hc.jones _ _ hj₁, argminAbs_eq _ hc.jones _ _ hj₂]
  rfl

/-- The pass for a visibility one antenna of which has no solution. -/
theorem passWith_missing (e : Env R V) (o : Opts) (c : Cal R V) (ts fs ind : Option (List Nat)) (d : Dat R V) (hd : d.Ok) (hc : c.Ok)
    (rows : List Nat) (col n₁ n₂ : Nat) (j₁ j₂ : Int) (h : (¬ ∃ a, Solution d c n₁ a) ∨ ¬ ∃ a, Solution d c n₂ a) :
    passWith e o (c.byIndex ts fs) ind d rows col (calAnt d.tel c.tel n₁) (calAnt d.tel c.tel n₂) j₁ j₂ =
      .ok ⟨rows, col, fun _ _ x => x, fun _ _ _ => true⟩ := by
  have hA : (c.byIndex ts fs).ants = c.ants := rfl
  unfold passWith
  split
  · rename_i m₁ m₂ e₁ e₂
    rw [if_neg]
    rintro ⟨q₁, _, q₂, _⟩
    rw [hA] at q₁ q₂
    rcases h with h | h
    · obtain ⟨i, hi⟩ := List.mem_iff_getElem?.1 q₁
      exact h ⟨i, (solution_iff d c hd hc n₁ i).2 ⟨m₁, e₁, hi⟩⟩
    · obtain ⟨i, hi⟩ := List.mem_iff_getElem?.1 q₂
      exact h ⟨i, (solution_iff d c hd hc n₂ i).2 ⟨m₂, e₂, hi⟩⟩
  · rfl

theorem conv_in_force (e : Env R V) (o : Opts) (c c' : Cal R V) (d : Dat R V) (uvc uvd : Option Conv) (ind ks kt kf)
    (h : Prep e o c d uvc uvd c' ind ks kt kf) : uvc = calConv o c d ∧ uvd = datConv o c d := by
  have h1 : uvc = calConv o c d := by
    have h1 := h.hc
    unfold uvcOf at h1
    unfold calConv
    split at h1
    · rename_i q1 q2
      rw [q1, q2]
      simp only [Except.ok.injEq] at h1
      rw [← h1]; rfl
    · rename_i q1 q2
      rw [q1, q2]
      simp only [Except.ok.injEq] at h1
      rw [← h1]; rfl
    · rename_i q1 q2
      rw [q1, q2]
      simp only [Except.ok.injEq] at h1
      rw [← h1]; rfl
    · rename_i q1 q2
      rw [q1, q2]
      split at h1
      · simp only [Except.ok.injEq] at h1
        rw [← h1]; rfl
      · simp at h1
  refine ⟨h1, ?_⟩
  have h2 := h.hd
  unfold uvdOf at h2
  unfold datConv
  rw [← h1]
  split at h2
  · split at h2
    · rename_i q1 q2
      rw [q1, q2]
      simp only [Except.ok.injEq] at h2
      rw [← h2]; rfl
    · rename_i q1 q2
      rw [q1, q2]
      simp only [Except.ok.injEq] at h2
      rw [← h2]; rfl
    · rename_i q1 q2
      rw [q1, q2]
      simp only [Except.ok.injEq] at h2
      rw [← h2]; rfl
    · rename_i q1 q2
      rw [q1, q2]
      split at h2
      · simp only [Except.ok.injEq] at h2
        rw [← h2]; rfl
      · simp at h2
  · split at h2
    · simp at h2
    · rename_i q
      simp only [Except.ok.injEq] at h2
      rw [q, ← h2]
      cases o.uvd <;> rfl

/-- The factor of the code is the one of the conventions. -/
theorem factor_eq (o : Opts) (c : Cal R V) (d : Dat R V) :
    (if c.scale.isSome then factor o.undo (calConv o c d) (datConv o c d) else 1) = (convFactor o c d : V) := by
  unfold convFactor
  cases hs : c.scale with
  | none => rfl
  | some s =>
    simp only [Option.isSome_some, if_true]
    cases h1 : calConv o c d with
    | none =>
      have : datConv o c d = none := by
        unfold datConv
        rw [h1]
        unfold calConv at h1
        rw [Option.or_eq_none_iff] at h1
        rw [h1.2]; rfl
      rw [this]
      simp [factor]
    | some a =>
      cases h2 : datConv o c d with
      | none =>
        exfalso
        unfold datConv at h2
        rw [h1] at h2
        simp at h2
      | some b =>
        cases a <;> cases b <;> cases o.undo <;> simp [factor, Conv.to]

theorem finish_vis (o : Opts) (c : Cal R V) (uvc uvd : Option Conv) (d : Dat R V) (r ch k : Nat) :
    (finish o c uvc uvd d).vis r ch k = d.vis r ch k * (if c.scale.isSome then factor o.undo uvc uvd else 1) := by
  unfold finish
  cases c.scale <;> simp

/-- The pieces of a successful run. -/
theorem calibrate_ok (e : Env R V) (o : Opts) (c : Cal R V) (d d' : Dat R V) :
    calibrate e o c d = (d', none) ↔ ∃ uvc uvd c' ind ks d₁, prepare e o c d = .ok (uvc, uvd, c', ind, ks) ∧
      loop e o c' ind ks d = (d₁, none) ∧ d' = finish o c uvc uvd d₁ := by
  constructor
  · intro h
    unfold calibrate at h
    split at h
    · simp at h
    · rename_i uvc uvd c' ind ks hp
      split at h
      · rename_i d₁ hl
        simp only [Prod.mk.injEq, and_true] at h
        exact ⟨uvc, uvd, c', ind, ks, d₁, hp, hl, h.symm⟩
      · simp at h
  · rintro ⟨uvc, uvd, c', ind, ks, d₁, hp, hl, rfl⟩
    unfold calibrate
    rw [hp]
    simp only [hl]

/-- Only data, flags, units and the polarization convention change. -/
theorem calibrate_labels (e : Env R V) (o : Opts) (c : Cal R V) (d d' : Dat R V) (h : calibrate e o c d = (d', none)) :
    (d'.blts = d.blts ∧ d'.tel = d.tel ∧ d'.xo = d.xo ∧ d'.times = d.times ∧ d'.freqs = d.freqs ∧ d'.pols = d.pols) ∧
    d'.units = (if o.undo then uncalib else c.scale.getD d.units) ∧
    d'.conv = (if c.scale.isSome then (if o.undo then none else datConv o c d) else d.conv) := by
  rw [calibrate_ok] at h
  obtain ⟨uvc, uvd, c', ind, ks, d₁, hp, hl, rfl⟩ := h
  rw [prepare_ok] at hp
  obtain ⟨kt, kf, hp⟩ := hp
  obtain ⟨_, h2⟩ := conv_in_force e o c c' d uvc uvd ind ks kt kf hp
  rw [loop_ok] at hl
  obtain ⟨ps, _, hd₁⟩ := hl
  obtain ⟨v, f, hm⟩ := foldl_meta ps d
  rw [hm] at hd₁
  subst hd₁
  subst h2
  exact ⟨⟨rfl, rfl, rfl, rfl, rfl, rfl⟩, rfl, rfl⟩

/-- The visibility after a successful run, through the one pass that touches it. -/
theorem calibrate_pass (e : Env R V) (o : Opts) (c : Cal R V) (d d' : Dat R V) (hd : d.Ok) (hc : c.Ok)
    (h : calibrate e o c d = (d', none)) (r ch k n₁ n₂ : Nat) (p : Int)
    (h₁ : d.blts.ant1[r]? = some n₁) (h₂ : d.blts.ant2[r]? = some n₂) (hk : d.pols[k]? = some p) :
    ∃ ts fs keepT keepF ind rows q j₁ j₂ k₁ k₂, timeStage e o c d = .ok ⟨ind, keepT⟩ ∧ freqStage e c d = .ok keepF ∧
      c.select e keepT keepF = .ok (c.byIndex ts fs) ∧
      c.jones[k₁]? = some j₁ ∧ c.jones[k₂]? = some j₂ ∧ Feeds d c p k₁ k₂ ∧
      IsRowsOf d.blts n₁ n₂ rows ∧ r ∈ rows ∧
      passWith e o (c.byIndex ts fs) ind d rows k (calAnt d.tel c.tel n₁) (calAnt d.tel c.tel n₂) j₁ j₂ = .ok q ∧
      d'.vis r ch k = q.vis (rows.idxOf r) ch (d.vis r ch k) * convFactor o c d ∧
      d'.flag r ch k = q.flag (rows.idxOf r) ch (d.flag r ch k) := by
  rw [calibrate_ok] at h
  obtain ⟨uvc, uvd, c', ind, ks, d₁, hp, hl, rfl⟩ := h
  rw [prepare_ok] at hp
  obtain ⟨kt, kf, hp⟩ := hp
  obtain ⟨hu1, hu2⟩ := conv_in_force e o c c' d uvc uvd ind ks kt kf hp
  obtain ⟨ts, fs, rfl⟩ := select_byIndex e c c' kt kf hp.sel
  have hfeeds := feeds_ok c d hd.xo hc.xo hp.feed hp.stokes
  obtain ⟨s, f₁, f₂, j₁, j₂, hf⟩ := hfeeds p (List.mem_of_getElem? hk)
  obtain ⟨rows, q, hrows, hr, hq, hv, hfl⟩ := loop_cell e o c ts fs ind d d₁ hd ks hp.keys hfeeds hl r ch k n₁ n₂ p h₁ h₂ hk s f₁ f₂ j₁ j₂ hf
  obtain ⟨k₁, hk₁⟩ := List.mem_iff_getElem?.1 hf.mem₁
  obtain ⟨k₂, hk₂⟩ := List.mem_iff_getElem?.1 hf.mem₂
  obtain ⟨f, g, hdir1, hdir2, hdir3⟩ := hf.dir
  refine ⟨ts, fs, kt, kf, ind, rows, q, j₁, j₂, k₁, k₂, hp.time, hp.freq, hp.sel, hk₁, hk₂,
    ⟨f, g, j₁, j₂, hdir1, hk₁, hk₂, hdir2, hdir3⟩, hrows, hr, hq, ?_, ?_⟩
  · rw [finish_vis, hv, hu1, hu2, factor_eq]
  · exact hfl

/-- The rows of an antenna pair, by position. -/
theorem idxOf_get {rows : List Nat} {r : Nat} (h : r ∈ rows) : rows[rows.idxOf r]? = some r := by
  rw [List.getElem?_eq_getElem (List.idxOf_lt_length_iff.2 h), List.getElem_idxOf]

section ordered
variable [IsStrictOrderedRing R]

/-- Every visibility is calibrated with the right solutions.  Assumed: increasing frequencies, and, with several solution
times, rows of each pair at all times and in order (see `channel_order_counterexample`, `time_order_counterexample`). -/
theorem calibrate_cell_partial (e : Env R V) (o : Opts) (c : Cal R V) (d d' : Dat R V) (hd : d.Ok) (hc : c.Ok)
    (h0t : 0 ≤ e.tolT) (h0f : 0 ≤ e.tolF) (hC : Spaced e.tolF c.freqs) (hD : Spaced e.tolF d.freqs) (hne : c.freqs ≠ [])
    (hT : TimesInOrder e c d) (h : calibrate e o c d = (d', none)) (r ch k : Nat) (hcell : Cell d r ch k) :
    Calibrated e o c d d' r ch k := by
  intro n₁ n₂ p a₁ a₂ h₁ h₂ hk ha₁ ha₂
  obtain ⟨ts, fs, kt, kf, ind, rows, q, j₁, j₂, k₁, k₂, ht, hf, hs, hk₁, hk₂, hfe, hrows, hr, hq, hv, hfl⟩ :=
    calibrate_pass e o c d d' hd hc h r ch k n₁ n₂ p h₁ h₂ hk
  obtain ⟨fsel, tsel, fi, hc', hts, hfi, hfreq⟩ := freq_match e c (c.byIndex ts fs) d h0f hC hD hne kt kf hf hs
  rw [hc'] at hq hfi
  have hlt : ∀ i ∈ rows, i < d.times.length := by
    intro i hi
    rw [hd.times]
    exact (List.getElem?_eq_some_iff.1 ((hrows.2 i).1 hi).1).1
  obtain ⟨ti, hti, htime⟩ := time_match e o c d h0t hT ⟨ind, kt⟩ ht tsel fsel hts n₁ n₂ rows hrows
    (List.ne_nil_of_mem hr) hlt
  rw [passWith_both e o c tsel fsel ind d hd hc rows k n₁ n₂ a₁ a₂ j₁ j₂ k₁ k₂ ha₁ ha₂ hk₁ hk₂, hti, hfi] at hq
  simp only [Except.ok.injEq] at hq
  refine ⟨k₁, k₂, sub fsel (fi ch), sub tsel (ti (rows.idxOf r)), hfe, hfreq ch hcell.2.1,
    htime _ _ (idxOf_get hr), ?_⟩
  intro g bad hg hbad
  subst hq
  rw [hv, hfl]
  simp only [gainPlan]
  rw [← hg]
  constructor
  · congr 1
    unfold applied
    rw [hbad]
    cases o.propFlags <;> cases hx : e.near0 g <;> cases c.gflag a₁ (sub fsel (fi ch)) (sub tsel (ti (rows.idxOf r))) k₁ <;>
      cases c.gflag a₂ (sub fsel (fi ch)) (sub tsel (ti (rows.idxOf r))) k₂ <;> simp
  · rw [hbad]
    cases o.propFlags <;> simp [Bool.or_assoc]

end ordered

/-- A visibility one antenna of which has no solution is flagged and otherwise only changes convention. -/
theorem calibrate_missing (e : Env R V) (o : Opts) (c : Cal R V) (d d' : Dat R V) (hd : d.Ok) (hc : c.Ok)
    (h : calibrate e o c d = (d', none)) (r ch k n₁ n₂ : Nat) (hcell : Cell d r ch k)
    (h₁ : d.blts.ant1[r]? = some n₁) (h₂ : d.blts.ant2[r]? = some n₂)
    (hm : (¬ ∃ a, Solution d c n₁ a) ∨ ¬ ∃ a, Solution d c n₂ a) :
    d'.vis r ch k = d.vis r ch k * convFactor o c d ∧ d'.flag r ch k = true := by
  obtain ⟨ts, fs, kt, kf, ind, rows, q, j₁, j₂, k₁, k₂, _, _, _, _, _, _, _, _, hq, hv, hfl⟩ :=
    calibrate_pass e o c d d' hd hc h r ch k n₁ n₂ _ h₁ h₂ (List.getElem?_eq_getElem hcell.2.2)
  rw [passWith_missing e o c ts fs ind d hd hc rows k n₁ n₂ j₁ j₂ hm, Except.ok.injEq] at hq
  subst hq
  exact ⟨hv, hfl⟩

/-- Flags are never removed; without flag propagation only the visibilities without solutions become flagged. -/
theorem calibrate_flags (e : Env R V) (o : Opts) (c : Cal R V) (d d' : Dat R V) (hd : d.Ok) (hc : c.Ok)
    (h : calibrate e o c d = (d', none)) (r ch k : Nat) (hcell : Cell d r ch k) (n₁ n₂ : Nat)
    (h₁ : d.blts.ant1[r]? = some n₁) (h₂ : d.blts.ant2[r]? = some n₂) :
    (d.flag r ch k = true → d'.flag r ch k = true) ∧
    (o.propFlags = false → (∃ a, Solution d c n₁ a) → (∃ a, Solution d c n₂ a) → d'.flag r ch k = d.flag r ch k) := by
  obtain ⟨ts, fs, kt, kf, ind, rows, q, j₁, j₂, k₁, k₂, _, _, _, hk₁, hk₂, _, _, _, hq, hv, hfl⟩ :=
    calibrate_pass e o c d d' hd hc h r ch k n₁ n₂ _ h₁ h₂ (List.getElem?_eq_getElem hcell.2.2)
  rw [hfl]
  by_cases hm : (¬ ∃ a, Solution d c n₁ a) ∨ ¬ ∃ a, Solution d c n₂ a
  · rw [passWith_missing e o c ts fs ind d hd hc rows k n₁ n₂ j₁ j₂ hm, Except.ok.injEq] at hq
    subst hq
    exact ⟨fun _ => rfl, fun _ h1 h2 => by rcases hm with hm | hm <;> contradiction⟩
  · push Not at hm
    obtain ⟨⟨a₁, ha₁⟩, a₂, ha₂⟩ := hm
    rw [passWith_both e o c ts fs ind d hd hc rows k n₁ n₂ a₁ a₂ j₁ j₂ k₁ k₂ ha₁ ha₂ hk₁ hk₂] at hq
    split at hq
    · simp only [Except.ok.injEq] at hq
      subst hq
      simp only [gainPlan]
      constructor
      · intro hb; rw [hb]; simp
      · intro hp _ _; rw [hp]; simp
    · simp at hq

end Verif.Calib
