import Verif.Calib.Props

/-! Undoing a calibration, and what an exception leaves behind. -/
namespace Verif.Calib
open Verif.Np Verif.Slices
open Verif.AntPair (antpair2ind getAntpairs IsRowsOf)
open Verif.Pol (Str polnum2str polstr2num jnum2str jstr2num parseJpolstr polToFeed)
set_option linter.unusedSectionVars false

variable {R V : Type} [Field R] [LinearOrder R] [Field V]

/-- The keywords of the call that takes the calibration back. -/
def Opts.back (o : Opts) : Opts := { o with undo := true }

theorem passWith_back (e : Env R V) (o : Opts) (c : Cal R V) (ind : Option (List Nat)) (d : Dat R V) (rows : List Nat) (col : Nat)
    (n₁ n₂ : Option Nat) (j₁ j₂ : Int) (q : Plan V) (h : passWith e o c ind d rows col n₁ n₂ j₁ j₂ = .ok q) :
    ∃ q', passWith e o.back c ind d rows col n₁ n₂ j₁ j₂ = .ok q' := by
  unfold passWith at h ⊢
  cases n₁ with
  | none => exact ⟨_, rfl⟩
  | some n₁ =>
  cases n₂ with
  | none => exact ⟨_, rfl⟩
  | some n₂ =>
  simp only at h ⊢
  split at h
  · rename_i hm
    rw [if_pos hm]
    split at h
    · rename_i ti fi q1 q2
      exact ⟨_, rfl⟩
    · simp at h
  · rename_i hm
    rw [if_neg hm]
    exact ⟨_, rfl⟩

theorem pass_back (e : Env R V) (o : Opts) (c : Cal R V) (ind : Option (List Nat)) (d : Dat R V) (key : (Nat × Nat) × Str) (q : Plan V)
    (h : pass e o c ind d key = .ok q) : ∃ q', pass e o.back c ind d key = .ok q' := by
  unfold pass at h ⊢
  cases h1 : antpair2ind d.blts key.1.1 key.1.2 true with
  | error _ => rw [h1] at h; simp at h
  | ok r =>
  rw [h1] at h
  simp only at h ⊢
  cases h2 : r.picks d.blts.nblts with
  | none => rw [h2] at h; simp at h
  | some rows =>
  cases h3 : polstr2num (d.xo.or c.xo) key.2 with
  | none => rw [h2, h3] at h; simp at h
  | some n =>
  cases h4 : polToFeed.get key.2 with
  | none => rw [h2, h3, h4] at h; simp at h
  | some ff =>
  obtain ⟨f₁, f₂⟩ := ff
  rw [h2, h3, h4] at h
  simp only at h ⊢
  cases h5 : jstr2num c.xo f₁ with
  | none => rw [h5] at h; simp at h
  | some j₁ =>
  cases h6 : jstr2num c.xo f₂ with
  | none => rw [h5, h6] at h; simp at h
  | some j₂ =>
  rw [h5, h6] at h
  exact passWith_back _ _ _ _ _ _ _ _ _ _ _ _ h

theorem passes_back (e : Env R V) (o : Opts) (c : Cal R V) (ind : Option (List Nat)) (d : Dat R V) (ks : List ((Nat × Nat) × Str))
    (ps : List (Plan V)) (h : List.Forall₂ (fun k p => pass e o c ind d k = .ok p) ks ps) :
    ∃ ps', List.Forall₂ (fun k p => pass e o.back c ind d k = .ok p) ks ps' := by
  induction h with
  | nil => exact ⟨[], .nil⟩
  | cons h1 _ ih =>
    obtain ⟨ps', h2⟩ := ih
    obtain ⟨q', h3⟩ := pass_back e o c ind d _ _ h1
    exact ⟨q' :: ps', .cons h3 h2⟩

/-- The conventions found when taking the calibration back are those of the calibration. -/
theorem conv_back (o : Opts) (c : Cal R V) (d d₁ : Dat R V) (uvc uvd : Option Conv) (hu : o.undo = false)
    (h1 : uvcOf o c d = .ok uvc) (h2 : uvdOf o d uvc = .ok uvd) (hd₁ : d₁.conv = d.conv) :
    uvcOf o.back c (finish o c uvc uvd d₁) = .ok uvc ∧ uvdOf o.back (finish o c uvc uvd d₁) uvc = .ok uvd ∧ d.conv = none := by
  unfold uvdOf at h2
  rw [hu] at h2
  simp only [Bool.false_eq_true, if_false] at h2
  cases hdc : d.conv with
  | some a => rw [hdc] at h2; simp at h2
  | none =>
  rw [hdc] at h2
  simp only [Except.ok.injEq] at h2
  rw [hdc] at hd₁
  subst h2
  have key : ∀ (a b u x : Option Conv) (s : Bool),
      (match a, b with
        | none, none => Except.ok (u.or none)
        | none, some b => .ok (some b)
        | some a, none => .ok (some a)
        | some a, some b => if a = b then .ok (some a) else .error Err.uvcConv) = Except.ok x →
      (match a, b with
        | none, none => Except.ok (u.or (if s then u.or x else none))
        | none, some b => .ok (some b)
        | some a, none => .ok (some a)
        | some a, some b => if a = b then .ok (some a) else .error Err.uvcConv) = Except.ok x ∧
      (match u, (if s then u.or x else none) with
        | none, none => Except.ok x
        | none, some b => .ok (some b)
        | some a, none => .ok (some a)
        | some a, some b => if a = b then .ok (some a) else .error Err.uvdConv) = Except.ok (u.or x) := by
    intro a b u x s h
    cases a <;> cases b <;> cases u <;> cases x <;> cases s <;> simp_all
  unfold uvcOf at h1
  rw [hdc] at h1
  have h3 := key o.uvc c.conv o.uvd uvc c.scale.isSome h1
  unfold uvcOf uvdOf finish Opts.back
  rw [hd₁, hu]
  exact ⟨h3.1, h3.2, rfl⟩

theorem factor_inv (uvc uvd : Option Conv) (h2 : (2 : V) ≠ 0) : (factor false uvc uvd : V) * factor true uvc uvd = 1 := by
  unfold factor
  split
  · simp
  · by_cases h : uvc = some .sum <;> simp [h, h2]

theorem rows_unique (b : AntPair.Obj) (n₁ n₂ : Nat) (l l' : List Nat) (h : IsRowsOf b n₁ n₂ l) (h' : IsRowsOf b n₁ n₂ l') : l = l' :=
  List.Perm.eq_of_pairwise (le := (· < ·)) (fun _ _ _ _ h1 h2 => absurd h1 (not_lt_of_gt h2)) h.1 h'.1
    ((List.perm_ext_iff_of_nodup (h.1.imp ne_of_lt) (h'.1.imp ne_of_lt)).2 (fun x => (h.2 x).trans (h'.2 x).symm))

/-- One visibility there and back. -/
theorem cell_back (e : Env R V) (o : Opts) (mult : Bool) (rows : List Nat) (col : Nat) (g : Nat → Nat → V) (w : Nat → Nat → Bool)
    (hu : o.undo = false) (F F' : V) (hF : F * F' = 1) (i ch : Nat) (x : V) (b : Bool)
    (hg : o.propFlags = true ∧ e.near0 0 = true ∨ g i ch ≠ 0) :
    (gainPlan e o.back mult rows col g w).vis i ch ((gainPlan e o mult rows col g w).vis i ch x * F) * F' = x ∧
    (gainPlan e o.back mult rows col g w).flag i ch ((gainPlan e o mult rows col g w).flag i ch b) =
      (gainPlan e o mult rows col g w).flag i ch b := by
  have hp : o.back.propFlags = o.propFlags := rfl
  have hb : o.back.undo = true := rfl
  simp only [gainPlan, hp, hb, hu, Bool.xor_false, Bool.xor_true]
  constructor
  · have hne : (if o.propFlags = true ∧ (e.near0 (g i ch) = true ∨ w i ch = true) then 1 else g i ch) ≠ 0 := by
      split
      · exact one_ne_zero
      · rename_i hn
        rcases hg with hg | hg
        · intro h0
          rw [h0] at hn
          exact hn ⟨hg.1, Or.inl hg.2⟩
        · exact hg
    generalize (if o.propFlags = true ∧ (e.near0 (g i ch) = true ∨ w i ch = true) then 1 else g i ch) = u at hne ⊢
    cases mult
    · simp only [Bool.not_false, if_true, Bool.false_eq_true, if_false]
      calc x / u * F * u * F' = x * (u / u) * (F * F') := by ring
        _ = x := by rw [div_self hne, hF]; ring
    · simp only [Bool.not_true, if_true, Bool.false_eq_true, if_false]
      calc x * u * F / u * F' = x * (u / u) * (F * F') := by ring
        _ = x := by rw [div_self hne, hF]; ring
  · cases o.propFlags <;> simp

/-- `undo=True` with the same objects and keywords succeeds and gives back the visibilities; the flags stay. -/
theorem undo_restores (e : Env R V) (o : Opts) (c : Cal R V) (d d' : Dat R V) (hd : d.Ok) (hc : c.Ok) (hu : o.undo = false)
    (h2 : (2 : V) ≠ 0) (h : calibrate e o c d = (d', none))
    (hg : (o.propFlags = true ∧ e.near0 0 = true) ∨ ((∀ a f t j, c.gain a f t j ≠ 0) ∧ ∀ z, e.cj z = 0 → z = 0)) :
    ∃ d'', calibrate e o.back c d' = (d'', none) ∧ d''.conv = d.conv ∧ d''.units = uncalib ∧
      ∀ r ch k, Cell d r ch k → d''.vis r ch k = d.vis r ch k ∧ d''.flag r ch k = d'.flag r ch k := by
  rw [calibrate_ok] at h
  obtain ⟨uvc, uvd, c', ind, ks, d₁, hp, hl, rfl⟩ := h
  rw [prepare_ok] at hp
  obtain ⟨kt, kf, hp⟩ := hp
  obtain ⟨ts, fs, rfl⟩ := select_byIndex e c c' kt kf hp.sel
  have hfeeds := feeds_ok c d hd.xo hc.xo hp.feed hp.stokes
  obtain ⟨ps, hps, hd₁⟩ := (loop_ok _ _ _ _ _ _ _).1 hl
  obtain ⟨v, f, hm⟩ := foldl_meta ps d
  rw [hm] at hd₁
  obtain ⟨hc1, hc2, hdn⟩ := conv_back o c d d₁ uvc uvd hu hp.hc hp.hd (by rw [hd₁])
  obtain ⟨ps', hps'⟩ := passes_back e o _ ind d ks ps hps
  subst hd₁
  set d₁ : Dat R V := { d with vis := v, flag := f } with hd₁
  have hl' : loop e o.back (c.byIndex ts fs) ind ks (finish o c uvc uvd d₁) =
      (ps'.foldl (fun d p => p.apply d) (finish o c uvc uvd d₁), none) :=
    (loop_ok _ _ _ _ _ _ _).2 ⟨ps', hps', rfl⟩
  have hp' : Prep e o.back c (finish o c uvc uvd d₁) uvc uvd (c.byIndex ts fs) ind ks kt kf := by
    refine ⟨hp.stokes, ?_, hc1, hc2, hp.ants, hp.time, hp.freq, hp.feed, hp.sel, hp.keys⟩
    rintro ⟨_, hs⟩
    unfold finish at hs
    rw [hu] at hs
    cases hsc : c.scale with
    | none => rw [hsc] at hs; simp at hs
    | some s => rw [hsc] at hs; simp at hs
  have hd' : (finish o c uvc uvd d₁).Ok := ⟨hd.numbered, hd.laidOut, hd.tel, hd.times, hd.pols, hd.xo⟩
  have hconv : ((ps'.foldl (fun d p => p.apply d) (finish o c uvc uvd d₁))).conv = (finish o c uvc uvd d₁).conv := by
    obtain ⟨v', f', hm'⟩ := foldl_meta ps' (finish o c uvc uvd d₁)
    rw [hm']
  refine ⟨finish o.back c uvc uvd (ps'.foldl (fun d p => p.apply d) (finish o c uvc uvd d₁)), ?_, ?_, ?_, ?_⟩
  · rw [calibrate_ok]
    exact ⟨uvc, uvd, _, ind, ks, _, (prepare_ok _ _ _ _ _ _ _ _ _).2 ⟨kt, kf, hp'⟩, hl', rfl⟩
  · rw [hdn]
    show (if c.scale.isSome = true then (if o.back.undo = true then none else uvd) else _) = none
    cases hsc : c.scale with
    | none =>
      simp only [Option.isSome_none, Bool.false_eq_true, if_false]
      rw [hconv]
      show (if c.scale.isSome = true then _ else d₁.conv) = none
      rw [hsc]
      exact hdn
    | some s => rfl
  · rfl
  · intro r ch k hcell
    obtain ⟨n₁, ha⟩ : ∃ n₁, d.blts.ant1[r]? = some n₁ := ⟨_, List.getElem?_eq_getElem hcell.1⟩
    have hbr : r < d.blts.ant2.length := by
      obtain ⟨g, q1, q2, _⟩ := AntPair.decode_sub hd.numbered
      have := hcell.1
      unfold AntPair.Obj.nblts at this
      omega
    obtain ⟨n₂, hb⟩ : ∃ n₂, d.blts.ant2[r]? = some n₂ := ⟨_, List.getElem?_eq_getElem hbr⟩
    obtain ⟨p, hk⟩ : ∃ p, d.pols[k]? = some p := ⟨_, List.getElem?_eq_getElem hcell.2.2⟩
    obtain ⟨s, f₁, f₂, j₁, j₂, hf⟩ := hfeeds p (List.mem_of_getElem? hk)
    obtain ⟨rows, q, hrows, hr, hq, hv, hfl⟩ :=
      loop_cell e o c ts fs ind d d₁ hd ks hp.keys hfeeds hl r ch k n₁ n₂ p ha hb hk s f₁ f₂ j₁ j₂ hf
    have hconvert : ∀ {p s f₁ f₂ j₁ j₂}, FeedsOf c d p s f₁ f₂ j₁ j₂ → FeedsOf c (finish o c uvc uvd d₁) p s f₁ f₂ j₁ j₂ :=
      fun h => ⟨h.name, h.number, h.feeds, h.first, h.second, h.mem₁, h.mem₂, h.dir⟩
    obtain ⟨rows', q', hrows', hr', hq', hv', hfl'⟩ :=
      loop_cell e o.back c ts fs ind (finish o c uvc uvd d₁) _ hd' ks hp.keys
        (fun p hp => by
          obtain ⟨s, f₁, f₂, j₁, j₂, hf⟩ := hfeeds p hp
          exact ⟨s, f₁, f₂, j₁, j₂, hconvert hf⟩)
        hl' r ch k n₁ n₂ p ha hb hk s f₁ f₂ j₁ j₂ (hconvert hf)
    have hre : rows' = rows := rows_unique _ _ _ _ _ hrows' hrows
    subst hre
    have hq'' : passWith e o.back (c.byIndex ts fs) ind d rows' k (calAnt d.tel c.tel n₁) (calAnt d.tel c.tel n₂) j₁ j₂ = .ok q' := hq'
    rw [finish_vis, hv', finish_vis, hv]
    have hFl : (finish o.back c uvc uvd (ps'.foldl (fun d p => p.apply d) (finish o c uvc uvd d₁))).flag r ch k =
        (ps'.foldl (fun d p => p.apply d) (finish o c uvc uvd d₁)).flag r ch k := rfl
    have hFl1 : (finish o c uvc uvd d₁).flag r ch k = d₁.flag r ch k := rfl
    rw [hFl, hfl', hFl1, hfl]
    have hF : (if c.scale.isSome then factor o.undo uvc uvd else 1) * (if c.scale.isSome then factor o.back.undo uvc uvd else (1 : V)) = 1 := by
      rw [hu]
      cases c.scale with
      | none => simp
      | some s => exact factor_inv uvc uvd h2
    generalize (if c.scale.isSome then factor o.undo uvc uvd else (1 : V)) = F at hF ⊢
    generalize (if c.scale.isSome then factor o.back.undo uvc uvd else (1 : V)) = F' at hF ⊢
    by_cases hmiss : (¬ ∃ a, Solution d c n₁ a) ∨ ¬ ∃ a, Solution d c n₂ a
    · rw [passWith_missing e o c ts fs ind d hd hc rows' k n₁ n₂ j₁ j₂ hmiss, Except.ok.injEq] at hq
      rw [passWith_missing e o.back c ts fs ind d hd hc rows' k n₁ n₂ j₁ j₂ hmiss, Except.ok.injEq] at hq''
      subst hq hq''
      refine ⟨?_, rfl⟩
      simp only
      rw [mul_assoc, hF, mul_one]
    · push Not at hmiss
      obtain ⟨⟨a₁, ha₁⟩, a₂, ha₂⟩ := hmiss
      obtain ⟨k₁, hk₁⟩ := List.mem_iff_getElem?.1 hf.mem₁
      obtain ⟨k₂, hk₂⟩ := List.mem_iff_getElem?.1 hf.mem₂
      rw [passWith_both e o c ts fs ind d hd hc rows' k n₁ n₂ a₁ a₂ j₁ j₂ k₁ k₂ ha₁ ha₂ hk₁ hk₂] at hq
      rw [passWith_both e o.back c ts fs ind d hd hc rows' k n₁ n₂ a₁ a₂ j₁ j₂ k₁ k₂ ha₁ ha₂ hk₁ hk₂] at hq''
      split at hq
      · rename_i ti fi e1 e2
        rw [e1, e2] at hq''
        simp only [Except.ok.injEq] at hq hq''
        subst hq hq''
        apply cell_back e o c.mult rows' k _ _ hu F F' hF
        rcases hg with hg | ⟨hg, hcj⟩
        · exact Or.inl hg
        · refine Or.inr ?_
          unfold pairGain
          split
          · exact mul_ne_zero (fun h => hg _ _ _ _ (hcj _ h)) (hg _ _ _ _)
          · exact mul_ne_zero (hg _ _ _ _) (fun h => hg _ _ _ _ (hcj _ h))
      · simp at hq

theorem forall₂_exists {α β : Type} (ks : List α) (f : α → β → Prop) (h : ∀ k ∈ ks, ∃ q, f k q) :
    ∃ ps, List.Forall₂ f ks ps := by
  induction ks with
  | nil => exact ⟨[], .nil⟩
  | cons k ks ih =>
    obtain ⟨q, hq⟩ := h k (by simp)
    obtain ⟨ps, hps⟩ := ih (fun key hkey => h key (by simp [hkey]))
    exact ⟨q :: ps, .cons hq hps⟩

section ordered
variable [IsStrictOrderedRing R]

/-- With the axes in order no pass fails, so an exception leaves the object as it was. -/
theorem exception_unchanged_partial (e : Env R V) (o : Opts) (c : Cal R V) (d d' : Dat R V) (err : Err) (hd : d.Ok) (hc : c.Ok)
    (h0t : 0 ≤ e.tolT) (h0f : 0 ≤ e.tolF) (hC : Spaced e.tolF c.freqs) (hD : Spaced e.tolF d.freqs) (hne : c.freqs ≠ [])
    (hT : TimesInOrder e c d) (h : calibrate e o c d = (d', some err)) : d' = d := by
  unfold calibrate at h
  split at h
  · simp only [Prod.mk.injEq] at h
    exact h.1.symm
  rename_i uvc uvd c' ind ks hp
  exfalso
  rw [prepare_ok] at hp
  obtain ⟨kt, kf, hp⟩ := hp
  obtain ⟨fsel, tsel, fi, rfl, hts, hfi, _⟩ := freq_match e c c' d h0f hC hD hne kt kf hp.freq hp.sel
  have hfeeds := feeds_ok c d hd.xo hc.xo hp.feed hp.stokes
  obtain ⟨_, hmem⟩ := keys_spec d hd ks hp.keys
  have hall : ∀ key ∈ ks, ∃ q, pass e o (c.byIndex tsel fsel) ind d key = .ok q := by
    rintro ⟨⟨a, b⟩, s⟩ hkey
    obtain ⟨hab, p, hpm, hs⟩ := (hmem a b s).1 hkey
    obtain ⟨k, hk⟩ := List.mem_iff_getElem?.1 hpm
    obtain ⟨s', f₁, f₂, j₁, j₂, hf⟩ := hfeeds p hpm
    have : s' = s := by
      have := hf.name
      rw [hs, Option.some.injEq] at this
      exact this.symm
    subst this
    obtain ⟨rows, hrows, hrne, hpass⟩ := pass_ok e o c tsel fsel ind d hd a b hab p k hk s' f₁ f₂ j₁ j₂ hf
    rw [hpass]
    have hlt : ∀ i ∈ rows, i < d.times.length := by
      intro i hi
      rw [hd.times]
      exact (List.getElem?_eq_some_iff.1 ((hrows.2 i).1 hi).1).1
    obtain ⟨ti, hti, _⟩ := time_match e o c d h0t hT ⟨ind, kt⟩ hp.time tsel fsel hts a b rows hrows hrne hlt
    by_cases hmiss : (¬ ∃ a', Solution d c a a') ∨ ¬ ∃ a', Solution d c b a'
    · exact ⟨_, passWith_missing e o c tsel fsel ind d hd hc rows k a b j₁ j₂ hmiss⟩
    · push Not at hmiss
      obtain ⟨⟨a₁, ha₁⟩, a₂, ha₂⟩ := hmiss
      obtain ⟨k₁, hk₁⟩ := List.mem_iff_getElem?.1 hf.mem₁
      obtain ⟨k₂, hk₂⟩ := List.mem_iff_getElem?.1 hf.mem₂
      rw [passWith_both e o c tsel fsel ind d hd hc rows k a b a₁ a₂ j₁ j₂ k₁ k₂ ha₁ ha₂ hk₁ hk₂, hti, hfi]
      exact ⟨_, rfl⟩
  have hps := forall₂_exists ks _ hall
  obtain ⟨ps, hps⟩ := hps
  have := (loop_ok e o (c.byIndex tsel fsel) ind ks d _).2 ⟨ps, hps, rfl⟩
  rw [this] at h
  simp at h

end ordered

end Verif.Calib
