import Verif.FlexPol.Round

/-! Back to several polarizations without combining windows, and forward again from flagged data. -/
namespace Verif.FlexPol
open Verif.Np Verif.FreqSort

set_option linter.unusedSectionVars false

variable {K V : Type} [LinearOrder K]

/-- Flex-pol objects as the code expects them. -/
structure ValidFlex (o : Obj K V) (fp : List Int) : Prop where
  spws : o.spws.Nodup
  flexPol : o.flexPol = some fp
  labels : fp.length = o.spws.length
  one : o.pols.length = 1

/-- Writing window by window: the last write wins, and windows are different. -/
theorem write_windows {α : Type} (flexId : List Int) (val : α → Nat → Nat → V) (at_ : α → Nat → Prop) [∀ q p, Decidable (at_ q p)] (blank : V)
    {b f p : Nat} {s : Int} (hf : flexId[f]? = some s) : ∀ ws : List (Int × α), (ws.map Prod.fst).Nodup →
    (ws.foldl (fun (d : Nat → Nat → Nat → V) q => fun b f p => if flexId[f]? = some q.1 ∧ at_ q.2 p then val q.2 b f else d b f p)
      (fun _ _ _ => blank)) b f p =
    match ws.find? (fun q => decide (q.1 = s)) with
    | none => blank
    | some q => if at_ q.2 p then val q.2 b f else blank := by
  intro ws
  induction ws using List.reverseRecOn with
  | nil => intro _; rfl
  | append_singleton ws w ih =>
    intro hn
    rw [List.map_append, List.nodup_append] at hn
    have ih' := ih hn.1
    rw [List.foldl_append, List.foldl_cons, List.foldl_nil, ih', List.find?_append, hf]
    by_cases hw : w.1 = s
    · have hnone : ws.find? (fun q => decide (q.1 = s)) = none := by
        rw [List.find?_eq_none]
        intro x hx h
        exact hn.2.2 x.1 (List.mem_map_of_mem hx) w.1 (by simp) (by rw [hw]; simpa using h)
      rw [hnone]
      simp [hw]
    · have : ¬ (some s = some w.1 ∧ at_ w.2 p) := by rintro ⟨h, _⟩; exact hw (by simpa using h.symm)
      rw [if_neg this]
      simp [hw]

theorem zip_find {α : Type} : ∀ (xs : List Int) (ys : List α), xs.Nodup → ∀ {i : Nat} {s : Int} {q : α}, xs[i]? = some s → ys[i]? = some q →
    (xs.zip ys).find? (fun z => decide (z.1 = s)) = some (s, q) := by
  intro xs
  induction xs with
  | nil => intro ys _ i s q h; simp at h
  | cons x xs ih =>
    intro ys hn i s q hx hy
    have hn' := List.nodup_cons.1 hn
    cases ys with
    | nil => simp at hy
    | cons y ys =>
      cases i with
      | zero =>
        simp only [List.getElem?_cons_zero, Option.some.injEq] at hx hy
        simp [hx, hy]
      | succ i =>
        simp only [List.getElem?_cons_succ] at hx hy
        have hne : x ≠ s := by rintro rfl; exact hn'.1 (List.mem_of_getElem? hx)
        rw [List.zip_cons_cons, List.find?_cons_of_neg (by simpa using hne), ih ys hn'.2 hx hy]

theorem idxOf_iff {l : List Int} (hn : l.Nodup) {p : Nat} {q q' : Int} (hp : l[p]? = some q') : p = l.idxOf q ↔ q' = q ∨ (q ∉ l ∧ p = l.length) := by
  have hlt : p < l.length := by
    by_contra h; rw [List.getElem?_eq_none (by omega)] at hp; simp at hp
  have he : l[p] = q' := by rw [List.getElem?_eq_getElem hlt] at hp; simpa using hp
  constructor
  · intro h
    left
    have hlt' : l.idxOf q < l.length := h ▸ hlt
    have := List.getElem_idxOf hlt'
    rw [← he, ← this]
    congr 1
  · rintro (h | ⟨_, h⟩)
    · rw [← h, ← he, hn.idxOf_getElem p hlt]
    · omega

theorem zip_fst_nodup {α : Type} (xs : List Int) (ys : List α) (hn : xs.Nodup) : ((xs.zip ys).map Prod.fst).Nodup := by
  have key : ∀ (xs : List Int) (ys : List α), ((xs.zip ys).map Prod.fst).Sublist xs := by
    intro xs
    induction xs with
    | nil => intro ys; simp
    | cons x xs ih =>
      intro ys
      cases ys with
      | nil => simp
      | cons y ys => rw [List.zip_cons_cons, List.map_cons]; exact (ih ys).cons_cons x
  exact (key xs ys).nodup hn

/-- **Removing flex-pol without combining windows** keeps windows and channels, gives every polarization of a window an axis entry,
puts the data of each channel under its polarization and leaves the other polarizations of that channel empty. -/
theorem remove_spreads (sF : Argsort K) (reorder : Reorder K V) (blank : V) (o : Obj K V) (fp : List Int)
    (v : ValidFlex o fp) :
    ∃ x, remove sF reorder blank false o = some x ∧ x.freq = o.freq ∧ x.width = o.width ∧ x.flexId = o.flexId ∧ x.spws = o.spws ∧
      x.nblts = o.nblts ∧ x.flexPol = none ∧ x.pols.Pairwise (· < ·) ∧ (∀ q, q ∈ x.pols ↔ q ∈ fp) ∧
      ∀ b f p q q', HasPol o f q → x.pols[p]? = some q' → x.data b f p = if q' = q then o.data b f 0 else blank := by
  by_cases h1 : o.spws.length = 1 ∨ (unique fp).length = 1
  · have hone : (unique fp).length = 1 ∨ fp.length = 0 := by
      rcases h1 with h | h
      · left
        have hl : fp.length = 1 := by rw [v.labels, h]
        obtain ⟨a, ha⟩ := List.length_eq_one_iff.1 hl
        rw [ha, unique_length]; simp
      · left; exact h
    refine ⟨{ o with pols := unique fp, flexPol := none }, ?_, rfl, rfl, rfl, rfl, rfl, rfl, unique_sorted _, fun q => mem_unique, ?_⟩
    · unfold remove; rw [v.flexPol]; simp only; rw [if_pos h1]
    · rintro b f p q q' ⟨i, s, fp', hfp, hfs, hsi, hq⟩ hp
      rw [v.flexPol] at hfp
      simp only [Option.some.injEq] at hfp
      subst hfp
      have hq' : q ∈ unique fp := mem_unique.2 (List.mem_of_getElem? hq)
      rcases hone with hone | hz
      · obtain ⟨a, ha⟩ := List.length_eq_one_iff.1 hone
        simp only [ha] at hp hq'
        have hp0 : p = 0 := by
          by_contra h
          rw [List.getElem?_eq_none (by simp; omega)] at hp; simp at hp
        subst hp0
        rw [if_pos]
        simp only [List.getElem?_cons_zero, Option.some.injEq] at hp
        rw [← hp]; exact (List.mem_singleton.1 hq').symm
      · rw [List.length_eq_zero_iff.1 hz] at hq; simp at hq
  · refine ⟨spread blank o fp (unique fp), ?_, rfl, rfl, rfl, rfl, rfl, rfl, unique_sorted _, fun q => mem_unique, ?_⟩
    · unfold remove; rw [v.flexPol]; simp only; rw [if_neg h1]; simp
    · rintro b f p q q' ⟨i, s, fp', hfp, hfs, hsi, hq⟩ hp
      rw [v.flexPol] at hfp
      simp only [Option.some.injEq] at hfp
      subst hfp
      have hn : (unique fp).Nodup := (unique_sorted fp).imp (fun h => ne_of_lt h)
      have hq' : q ∈ unique fp := mem_unique.2 (List.mem_of_getElem? hq)
      have hw := write_windows o.flexId (fun (_ : Int) b f => o.data b f 0) (fun (z : Int) (p : Nat) => p = (unique fp).idxOf z) blank
        (b := b) (p := p) hfs (o.spws.zip fp) (zip_fst_nodup _ _ v.spws)
      rw [zip_find o.spws fp v.spws hsi hq] at hw
      refine Eq.trans hw ?_
      simp only
      have hiff := idxOf_iff hn (q := q) hp
      by_cases he : q' = q
      · rw [if_pos he, if_pos (hiff.2 (Or.inl he))]
      · rw [if_neg he, if_neg]
        intro h
        rcases hiff.1 h with h | ⟨h, _⟩
        · exact he h
        · exact h hq'

/-! ### _make_flex_pol -/

/-- Some data of window `s` and polarization number `p` are not flagged. -/
def Live (flagged : V → Bool) (o : Obj K V) (s : Int) (p : Nat) : Prop :=
  p < o.pols.length ∧ ∃ b < o.nblts, ∃ f < o.freq.length, o.flexId[f]? = some s ∧ flagged (o.data b f p) = false

theorem windowPol_spec (flagged : V → Bool) (o : Obj K V) (s : Int) :
    match windowPol flagged o s with
    | some none => ∀ p, ¬ Live flagged o s p
    | some (some p) => ∀ q, Live flagged o s q ↔ q = p
    | none => ∃ p q, p ≠ q ∧ Live flagged o s p ∧ Live flagged o s q := by
  have hmem : ∀ p, p ∈ (List.range o.pols.length).filter (fun p => !(List.range o.nblts).all (fun b => (List.range o.freq.length).all (fun f =>
      !decide (o.flexId[f]? = some s) || flagged (o.data b f p)))) ↔ Live flagged o s p := by
    intro p
    unfold Live
    simp only [List.mem_filter, List.mem_range, Bool.not_eq_true', List.all_eq_false, Bool.not_eq_true, Bool.or_eq_false_iff,
      Bool.not_eq_false', decide_eq_true_eq]
  have hn : ((List.range o.pols.length).filter (fun p => !(List.range o.nblts).all (fun b => (List.range o.freq.length).all (fun f =>
      !decide (o.flexId[f]? = some s) || flagged (o.data b f p))))).Nodup := List.nodup_range.filter _
  unfold windowPol
  generalize (List.range o.pols.length).filter (fun p => !(List.range o.nblts).all (fun b => (List.range o.freq.length).all (fun f =>
      !decide (o.flexId[f]? = some s) || flagged (o.data b f p)))) = l at hmem hn
  match l, hmem, hn with
  | [], hmem, _ => intro p h; simpa using (hmem p).2 h
  | [p], hmem, _ => intro q; rw [← hmem]; simp
  | p :: q :: l, hmem, hn =>
    refine ⟨p, q, ?_, (hmem p).1 (by simp), (hmem q).1 (by simp)⟩
    rintro rfl; simp at hn

theorem fillPols_spec (n : Nat) (hn : 0 < n) (l : List (Option Nat)) (hl : ∀ p, some p ∈ l → p < n) :
    (fillPols n l).length = l.length ∧ (∀ p ∈ fillPols n l, p < n) ∧ ∀ (i p : Nat), l[i]? = some (some p) → (fillPols n l)[i]? = some p := by
  have hother : ∀ r, r = l.map (fun q => q.getD (n - 1)) → r.length = l.length ∧ (∀ p ∈ r, p < n) ∧ ∀ (i p : Nat), l[i]? = some (some p) → r[i]? = some p := by
    rintro r rfl
    refine ⟨by simp, ?_, ?_⟩
    · intro p hp
      obtain ⟨q, hq, rfl⟩ := List.mem_map.1 hp
      cases q with
      | none => simp only [Option.getD_none]; omega
      | some q => exact hl q hq
    · intro i p h
      rw [List.getElem?_map, h]; rfl
  unfold fillPols
  have hm : ∀ p, p ∈ (l.filterMap id).dedup ↔ some p ∈ l := by
    intro p; rw [List.mem_dedup, List.mem_filterMap]; simp
  match hd : (l.filterMap id).dedup with
  | [] => exact hother _ rfl
  | [p] =>
    rw [hd] at hm
    refine ⟨by simp, ?_, ?_⟩
    · intro q hq
      obtain ⟨_, _, rfl⟩ := List.mem_map.1 hq
      exact hl _ ((hm _).1 (by simp))
    · intro i q h
      have hq : q = p := by simpa using (hm q).2 (List.mem_of_getElem? h)
      rw [List.getElem?_map, h, hq]; rfl
  | _ :: _ :: _ => exact hother _ rfl

/-- At most one polarization of every window has data that are not flagged. -/
def OneEach (flagged : V → Bool) (o : Obj K V) : Prop := ∀ s ∈ o.spws, ∀ p q, Live flagged o s p → Live flagged o s q → p = q

theorem windows_ok (flagged : V → Bool) (o : Obj K V) (h : OneEach flagged o) : ∃ l, o.spws.mapM (windowPol flagged o) = some l ∧
    l.length = o.spws.length ∧ (∀ p, some p ∈ l → p < o.pols.length) ∧
    ∀ (i : Nat) s p, o.spws[i]? = some s → Live flagged o s p → l[i]? = some (some p) := by
  have key : ∀ ss : List Int, (∀ s ∈ ss, s ∈ o.spws) → ∃ l, ss.mapM (windowPol flagged o) = some l ∧
    l.length = ss.length ∧ (∀ p, some p ∈ l → p < o.pols.length) ∧
    ∀ (i : Nat) s p, ss[i]? = some s → Live flagged o s p → l[i]? = some (some p) := by
    intro ss
    induction ss with
    | nil => intro _; exact ⟨[], rfl, rfl, by simp, by simp⟩
    | cons s ss ih =>
      intro hss
      obtain ⟨l, hl, hlen, hlt, hlive⟩ := ih (fun t ht => hss t (by simp [ht]))
      have hspec := windowPol_spec flagged o s
      cases hw : windowPol flagged o s with
      | none =>
        rw [hw] at hspec
        obtain ⟨p, q, hpq, hp, hq⟩ := hspec
        exact absurd (h s (hss s (by simp)) p q hp hq) hpq
      | some w =>
        rw [hw] at hspec
        refine ⟨w :: l, by rw [List.mapM_cons, hw, hl]; rfl, by simp [hlen], ?_, ?_⟩
        · intro p hp
          rcases List.mem_cons.1 hp with hp | hp
          · rw [← hp] at hspec
            exact ((hspec p).2 rfl).1
          · exact hlt p hp
        · intro i t p hi hL
          cases i with
          | zero =>
            simp only [List.getElem?_cons_zero, Option.some.injEq] at hi ⊢
            subst hi
            cases w with
            | none => exact absurd hL (hspec p)
            | some w => rw [(hspec p).1 hL]
          | succ i => exact hlive i t p (by simpa using hi) hL
  exact key o.spws (fun s hs => hs)

theorem windows_bad (flagged : V → Bool) (o : Obj K V) (h : ¬ OneEach flagged o) : o.spws.mapM (windowPol flagged o) = none := by
  unfold OneEach at h
  push Not at h
  obtain ⟨s, hs, p, q, hp, hq, hpq⟩ := h
  have hw : windowPol flagged o s = none := by
    have hspec := windowPol_spec flagged o s
    cases hw : windowPol flagged o s with
    | none => rfl
    | some w =>
      rw [hw] at hspec
      cases w with
      | none => exact absurd hp (hspec p)
      | some w => exact absurd (((hspec p).1 hp).trans ((hspec q).1 hq).symm) hpq
  have key : ∀ ss : List Int, s ∈ ss → ss.mapM (windowPol flagged o) = none := by
    intro ss
    induction ss with
    | nil => intro h; simp at h
    | cons t ss ih =>
      intro hm
      rw [List.mapM_cons]
      by_cases ht : t = s
      · rw [ht, hw]; rfl
      · rw [ih (by simpa [Ne.symm ht] using hm)]
        cases windowPol flagged o t <;> rfl
  exact key o.spws hs

/-- **Making an object flex-pol**: if every window has at most one polarization with data that are not flagged, each window gets a
polarization, and every visibility that is not flagged stays in its channel, whose window carries its polarization. -/
theorem makeFlex_keeps (flagged : V → Bool) (blank : V) (o : Obj K V) (v : Valid o) (hn : o.flexPol = none) (h1 : OneEach flagged o) :
    ∃ fp, (makeFlex flagged blank o).flexPol = some fp ∧ fp.length = o.spws.length ∧ (∀ q ∈ fp, q ∈ o.pols) ∧ (makeFlex flagged blank o).pols = [0] ∧
      (makeFlex flagged blank o).freq = o.freq ∧ (makeFlex flagged blank o).width = o.width ∧ (makeFlex flagged blank o).spws = o.spws ∧
      (makeFlex flagged blank o).flexId = o.flexId ∧ (makeFlex flagged blank o).nblts = o.nblts ∧
      (∀ b < o.nblts, ∀ f < o.freq.length, ∃ p q, o.pols[p]? = some q ∧ HasPol (makeFlex flagged blank o) f q ∧
        (makeFlex flagged blank o).data b f 0 = o.data b f p ∧
        ∀ p', p' < o.pols.length → flagged (o.data b f p') = false → p' = p) := by
  have hpos : 0 < o.pols.length := List.length_pos_iff.2 v.some_pol
  have hwin : ∀ f < o.freq.length, ∃ (i : Nat) (s : Int), o.flexId[f]? = some s ∧ o.spws[i]? = some s := by
    intro f hf
    have hf' : f < o.flexId.length := by rw [v.len]; exact hf
    obtain ⟨i, hi⟩ := List.mem_iff_getElem?.1 ((v.ids o.flexId[f]).1 (List.getElem_mem hf'))
    exact ⟨i, o.flexId[f], List.getElem?_eq_getElem hf', hi⟩
  by_cases hone : o.pols.length = 1
  · have e : makeFlex flagged blank o = { o with flexPol := some (o.spws.map (fun _ => o.pols.headD 0)), pols := [0] } := by
      unfold makeFlex; rw [if_pos hone, hn]
    rw [e]
    refine ⟨_, rfl, by simp, ?_, rfl, rfl, rfl, rfl, rfl, rfl, ?_⟩
    · intro q hq
      obtain ⟨_, _, rfl⟩ := List.mem_map.1 hq
      obtain ⟨a, ha⟩ := List.length_eq_one_iff.1 hone
      rw [ha]; simp
    intro b hb f hf
    obtain ⟨i, s, hfs, his⟩ := hwin f hf
    obtain ⟨a, ha⟩ := List.length_eq_one_iff.1 hone
    refine ⟨0, a, by simp [ha], ⟨i, s, _, rfl, hfs, his, ?_⟩, rfl, fun p' hp' _ => by omega⟩
    rw [List.getElem?_map, his, ha]; rfl
  · obtain ⟨l, hl, hlen, hlt, hlive⟩ := windows_ok flagged o h1
    obtain ⟨hfl, hfn, hfi⟩ := fillPols_spec o.pols.length hpos l hlt
    have e : makeFlex flagged blank o = { o with
        flexPol := some ((fillPols o.pols.length l).map (fun p => (o.pols[p]?).getD 0))
        pols := [0]
        data := (o.spws.zip (fillPols o.pols.length l)).foldl (fun (d : Nat → Nat → Nat → V) q =>
          fun b f p => if o.flexId[f]? = some q.1 ∧ p = 0 then o.data b f q.2 else d b f p) (fun _ _ _ => blank) } := by
      unfold makeFlex; rw [if_neg hone, hl]
    rw [e]
    refine ⟨_, rfl, by simp [hfl, hlen], ?_, rfl, rfl, rfl, rfl, rfl, rfl, ?_⟩
    · intro q hq
      obtain ⟨p, hp, rfl⟩ := List.mem_map.1 hq
      exact mem_getD.2 ⟨p, hfn p hp, rfl⟩
    intro b hb f hf
    obtain ⟨i, s, hfs, his⟩ := hwin f hf
    have hi : i < o.spws.length := by
      by_contra h; rw [List.getElem?_eq_none (by omega)] at his; simp at his
    have hi' : i < (fillPols o.pols.length l).length := by omega
    obtain ⟨p, hp⟩ : ∃ p, (fillPols o.pols.length l)[i]? = some p := ⟨_, List.getElem?_eq_getElem hi'⟩
    have hpn : p < o.pols.length := hfn p (List.mem_of_getElem? hp)
    refine ⟨p, o.pols[p], List.getElem?_eq_getElem hpn, ⟨i, s, _, rfl, hfs, his, ?_⟩, ?_, ?_⟩
    · rw [List.getElem?_map, hp]; simp [hpn]
    · have hw := write_windows o.flexId (fun (p : Nat) b f => o.data b f p) (fun (_ : Nat) (p : Nat) => p = 0) blank
        (b := b) (p := 0) hfs (o.spws.zip (fillPols o.pols.length l)) (zip_fst_nodup _ _ v.spws)
      rw [zip_find o.spws _ v.spws his hp] at hw
      exact hw
    · intro p' hp' hfl'
      have := hfi i p' (hlive i s p' his ⟨hp', b, hb, f, hf, hfs, hfl'⟩)
      rw [hp] at this
      exact (by simpa using this : p = p').symm

/-- If some window has several polarizations with data that are not flagged, nothing is changed. -/
theorem makeFlex_refuses (flagged : V → Bool) (blank : V) (o : Obj K V) (h : ¬ OneEach flagged o) (hmany : o.pols.length ≠ 1) :
    makeFlex flagged blank o = o := by
  unfold makeFlex
  rw [if_neg hmany, windows_bad flagged o h]

/-- **Making an object flex-pol and undoing it without combining windows** keeps every visibility that is not flagged, at its channel
and polarization, and all the rest is flagged. -/
theorem makeFlex_roundtrip (flagged : V → Bool) (blank : V) (hb : flagged blank = true) (sF : Argsort K)
    (reorder : Reorder K V) (o : Obj K V) (v : Valid o) (hn : o.flexPol = none) (h1 : OneEach flagged o) :
    ∃ x, remove sF reorder blank false (makeFlex flagged blank o) = some x ∧ x.freq = o.freq ∧ x.width = o.width ∧ x.flexId = o.flexId ∧
      x.spws = o.spws ∧ x.nblts = o.nblts ∧ x.flexPol = none ∧ x.pols.Pairwise (· < ·) ∧ (∀ q ∈ x.pols, q ∈ o.pols) ∧
      ∀ b < o.nblts, ∀ f < o.freq.length,
        (∀ p q, o.pols[p]? = some q → flagged (o.data b f p) = false → ∃ p', x.pols[p']? = some q ∧ x.data b f p' = o.data b f p) ∧
        (∀ p' q, x.pols[p']? = some q → flagged (x.data b f p') = false → ∃ p, o.pols[p]? = some q ∧ x.data b f p' = o.data b f p) := by
  obtain ⟨fp, hfp, hfl, hsub, hpols, hfreq, hwid, hspws, hids, hnb, hdata⟩ := makeFlex_keeps flagged blank o v hn h1
  have vf : ValidFlex (makeFlex flagged blank o) fp := ⟨hspws ▸ v.spws, hfp, by rw [hspws, hfl], by rw [hpols]; rfl⟩
  obtain ⟨x, hx, h2, h3, h4, h5, h6, h7, h8, h9, h10⟩ := remove_spreads sF reorder blank _ fp vf
  refine ⟨x, hx, h2.trans hfreq, h3.trans hwid, h4.trans hids, h5.trans hspws, h6.trans hnb, h7, h8, ?_, ?_⟩
  · exact fun q hq => hsub q ((h9 q).1 hq)
  · intro b hb' f hf
    obtain ⟨p, q, hpq, hpol, hd, hu⟩ := hdata b hb' f hf
    constructor
    · intro p' q' hp' hfl'
      have hlt : p' < o.pols.length := by
        by_contra h; rw [List.getElem?_eq_none (by omega)] at hp'; simp at hp'
      have := hu p' hlt hfl'
      subst this
      have hqq : q' = q := by rw [hpq] at hp'; simpa using hp'.symm
      subst hqq
      obtain ⟨i, s, fp', hf', _, _, hq⟩ := hpol
      have hmem : q' ∈ x.pols := (h9 q').2 (by
        rw [hfp] at hf'; simp only [Option.some.injEq] at hf'; rw [hf']; exact List.mem_of_getElem? hq)
      obtain ⟨j, hj⟩ := List.mem_iff_getElem?.1 hmem
      refine ⟨j, hj, ?_⟩
      rw [h10 b f j q' q' ⟨i, s, fp', hf', ‹_›, ‹_›, hq⟩ hj, if_pos rfl, hd]
    · intro p' q' hp' hfl'
      have hval := h10 b f p' q q' hpol hp'
      by_cases he : q' = q
      · rw [if_pos he] at hval
        exact ⟨p, by rw [he]; exact hpq, by rw [hval, hd]⟩
      · rw [if_neg he] at hval
        rw [hval, hb] at hfl'; simp at hfl'

end Verif.FlexPol
