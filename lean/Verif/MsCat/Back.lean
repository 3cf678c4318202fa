import Verif.MsCat.Props

/-! # The catalog that comes back -/

namespace Verif.MsCat
open Verif.Np

variable {K : Type} [Field K] [LinearOrder K]

theorem addSamp_new {tol : K} {l : List (Samp K)} {s : Samp K} (h : ∀ t ∈ l, ¬ |t.time - s.time| ≤ tol) : addSamp tol l s = .ok (l ++ [s]) := by
  have hw : whereIdx (fun t : Samp K => decide (|t.time - s.time| ≤ tol)) l = [] := by
    rw [List.eq_nil_iff_forall_not_mem]
    intro i hi
    obtain ⟨t, ht, hd⟩ := mem_whereIdx.1 hi
    exact h t (List.mem_of_getElem? ht) (of_decide_eq_true hd)
  unfold addSamp
  rw [hw]
  rfl

/-- Samples of a source that are further apart than the tolerance are all kept, in their order. -/
theorem readSrc_eq {tol : K} : ∀ (l : List (Int × Samp K)) (d : Int → List (Samp K)),
    (∀ i, (d i ++ (l.filter (fun x => decide (x.1 = i))).map (fun x => x.2)).Pairwise (fun s t => ¬ |s.time - t.time| ≤ tol)) →
    readSrc tol d l = .ok (fun i => d i ++ (l.filter (fun x => decide (x.1 = i))).map (fun x => x.2))
  | [], d, _ => by simp [readSrc]
  | x :: l, d, h => by
    have hx := h x.1
    rw [List.filter_cons_of_pos (by simp), List.map_cons, List.pairwise_append] at hx
    unfold readSrc
    rw [addSamp_new (fun t ht => hx.2.2 t ht x.2 (List.mem_cons_self ..))]
    dsimp only
    have hd : ∀ i, (if i = x.1 then d x.1 ++ [x.2] else d i) ++ (l.filter (fun y => decide (y.1 = i))).map (fun y => y.2) =
        d i ++ ((x :: l).filter (fun y => decide (y.1 = i))).map (fun y => y.2) := by
      intro i
      by_cases hi : i = x.1
      · subst hi
        rw [if_pos rfl, List.filter_cons_of_pos (by simp)]
        simp
      · rw [if_neg hi, List.filter_cons_of_neg (by simpa using fun h => hi h.symm)]
    rw [readSrc_eq l _ (fun i => by rw [hd i]; exact h i)]
    congr 1
    funext i
    exact hd i

omit [LinearOrder K] in
theorem src_id {now : K} {x : Int × Entry K} {y : Int × Samp K} (h : y ∈ srcRows now x) : y.1 = x.1 := by
  unfold srcRows at h
  split at h
  · rw [List.mem_singleton] at h
    rw [h]
  · obtain ⟨s, _, rfl⟩ := List.mem_map.1 h
    rfl

omit [LinearOrder K] in
/-- The samples of an entry in the table of sources are its own. -/
theorem src_filter (now : K) : ∀ {c : Cat K} {x : Int × Entry K}, (c.map (fun x => x.1)).Nodup → x ∈ c →
    (c.flatMap (srcRows now)).filter (fun y => decide (y.1 = x.1)) = srcRows now x
  | [], _, _, h => by cases h
  | z :: c, x, hn, h => by
    rw [List.map_cons, List.nodup_cons] at hn
    rw [List.flatMap_cons, List.filter_append]
    rcases List.mem_cons.1 h with rfl | h
    · have h1 : (srcRows now x).filter (fun y => decide (y.1 = x.1)) = srcRows now x :=
        List.filter_eq_self.2 (fun y hy => by simp [src_id hy])
      have h2 : (c.flatMap (srcRows now)).filter (fun y => decide (y.1 = x.1)) = [] := by
        rw [List.filter_eq_nil_iff]
        intro y hy
        obtain ⟨z, hz, hy⟩ := List.mem_flatMap.1 hy
        rw [src_id hy]
        intro he
        exact hn.1 (List.mem_map.2 ⟨z, hz, of_decide_eq_true he⟩)
      rw [h1, h2, List.append_nil]
    · have h1 : (srcRows now z).filter (fun y => decide (y.1 = x.1)) = [] := by
        rw [List.filter_eq_nil_iff]
        intro y hy
        rw [src_id hy]
        intro he
        exact hn.1 (List.mem_map.2 ⟨x, h, (of_decide_eq_true he).symm⟩)
      rw [h1, src_filter now hn.2 h, List.nil_append]

omit [LinearOrder K] in
theorem src_none (now : K) {c : Cat K} {i : Int} (h : i ∉ c.map (fun x => x.1)) :
    (c.flatMap (srcRows now)).filter (fun y => decide (y.1 = i)) = [] := by
  rw [List.filter_eq_nil_iff]
  intro y hy
  obtain ⟨z, hz, hy⟩ := List.mem_flatMap.1 hy
  rw [src_id hy]
  intro he
  exact h (List.mem_map.2 ⟨z, hz, of_decide_eq_true he⟩)

theorem src_apart (now tol : K) {c : Cat K} (hg : Good tol c) {x : Int × Entry K} (hx : x ∈ c) :
    ((srcRows now x).map (fun y => y.2)).Pairwise (fun s t => ¬ |s.time - t.time| ≤ tol) := by
  unfold srcRows
  cases hp : x.2.place with
  | point lon lat => simp
  | path l =>
    dsimp only
    rw [List.map_map, List.pairwise_map]
    exact hg.apart x hx l hp

theorem samples_eq (now tol : K) {c : Cat K} (hg : Good tol c) :
    ∃ d, readSrc tol (fun _ => []) (c.flatMap (srcRows now)) = .ok d ∧ ∀ x ∈ c, d x.1 = (srcRows now x).map (fun y => y.2) := by
  refine ⟨_, readSrc_eq _ _ ?_, ?_⟩
  · intro i
    rw [List.nil_append]
    by_cases hi : i ∈ c.map (fun x => x.1)
    · obtain ⟨x, hx, rfl⟩ := List.mem_map.1 hi
      rw [src_filter now hg.ids hx]
      exact src_apart now tol hg hx
    · rw [src_none now hi]
      exact List.Pairwise.nil
  · intro x hx
    rw [List.nil_append, src_filter now hg.ids hx]

/-- What comes back for an entry if numbers are not negative. -/
def BackOk (eps : K) (e e' : Entry K) : Prop :=
  e'.name = e.name ∧ e'.place = e.place ∧ e'.frame = e.frame ∧ e'.epoch = some (e.epoch.getD 2000) ∧
  ((∀ a, e.pmRa = some a → |a| ≤ eps) → e'.pmRa = none ∧ e'.pmDec = none) ∧
  (∀ a, e.pmRa = some a → ¬ |a| ≤ eps → e'.pmRa = some a ∧ e'.pmDec = some a) ∧ e'.vrad = none ∧ e'.dist = none

theorem update_back {eps : K} (heps : 0 ≤ eps) [IsStrictOrderedRing K] (med : List K → K) (now : K) (x : Int × Entry K)
    (hl : ∀ l, x.2.place = .path l → 2 ≤ l.length) :
    BackOk eps x.2 (update eps (baseEntry (fieldRow med x) (x.2.frame, x.2.epoch.getD 2000)) ((srcRows now x).map (fun y => y.2))) := by
  have hmot : ∀ {l : List (Samp K)}, l ≠ [] → (∀ s ∈ l, (s.pm0, s.pm1) = pmVec x.2) →
      (noMotion eps l = true ↔ ∀ a, x.2.pmRa = some a → |a| ≤ eps) := by
    intro l hne hall
    unfold noMotion
    simp only [Bool.and_eq_true, List.all_eq_true, decide_eq_true_iff]
    have hz : |(0 : K)| ≤ eps := by rwa [abs_zero]
    constructor
    · rintro ⟨h1, _⟩ a ha
      obtain ⟨s, t, rfl⟩ := List.exists_cons_of_ne_nil hne
      have hs := hall s (List.mem_cons_self ..)
      unfold pmVec at hs
      rw [ha] at hs
      simp only [Prod.mk.injEq] at hs
      rw [← hs.1]
      exact h1 s (List.mem_cons_self ..)
    · intro h
      cases ha : x.2.pmRa with
      | none =>
        unfold pmVec at hall
        rw [ha] at hall
        simp only [Prod.mk.injEq] at hall
        exact ⟨fun s hs => by rw [(hall s hs).1]; exact hz, fun s hs => by rw [(hall s hs).2]; exact hz⟩
      | some a =>
        unfold pmVec at hall
        rw [ha] at hall
        simp only [Prod.mk.injEq] at hall
        exact ⟨fun s hs => by rw [(hall s hs).1]; exact h a ha, fun s hs => by rw [(hall s hs).2]; exact h a ha⟩
  have hpm : ∀ {l : List (Samp K)} {s : Samp K}, s ∈ l → (∀ s ∈ l, (s.pm0, s.pm1) = pmVec x.2) →
      ((∀ a, x.2.pmRa = some a → |a| ≤ eps) → (if noMotion eps l then none else some s.pm0) = none ∧
        (if noMotion eps l then none else some s.pm1) = none) ∧
      (∀ a, x.2.pmRa = some a → ¬ |a| ≤ eps → (if noMotion eps l then none else some s.pm0) = some a ∧
        (if noMotion eps l then none else some s.pm1) = some a) := by
    intro l s hs hall
    have hm := hmot (List.ne_nil_of_mem hs) hall
    constructor
    · intro h
      rw [if_pos (hm.2 h), if_pos (hm.2 h)]
      exact ⟨rfl, rfl⟩
    · intro a ha hna
      have hno : ¬ noMotion eps l = true := fun h => hna (hm.1 h a ha)
      rw [if_neg hno, if_neg hno]
      have := hall s hs
      unfold pmVec at this
      rw [ha] at this
      simp only [Prod.mk.injEq] at this
      rw [this.1, this.2]
      exact ⟨rfl, rfl⟩
  cases hp : x.2.place with
  | point lon lat =>
    have hs : (srcRows now x).map (fun y => y.2) = [⟨now, lon, lat, (pmVec x.2).1, (pmVec x.2).2⟩] := by
      unfold srcRows
      rw [hp]
      rfl
    rw [hs]
    have := hpm (l := [⟨now, lon, lat, (pmVec x.2).1, (pmVec x.2).2⟩]) (List.mem_cons_self ..) (by simp)
    refine ⟨?_, hp.symm, rfl, rfl, this.1, this.2, rfl, rfl⟩
    simp [update, baseEntry, fieldRow, hp]
  | path l =>
    have hs : (srcRows now x).map (fun y => y.2) = l.map (fun s => ⟨s.1, s.2.1, s.2.2, (pmVec x.2).1, (pmVec x.2).2⟩) := by
      unfold srcRows
      rw [hp]
      simp [List.map_map, Function.comp_def]
    rw [hs]
    have h2 := hl l hp
    obtain ⟨a, b, t, rfl⟩ : ∃ a b t, l = a :: b :: t := by
      cases l with
      | nil => exact absurd h2 (by simp)
      | cons a l => cases l with
        | nil => exact absurd h2 (by simp)
        | cons b t => exact ⟨a, b, t, rfl⟩
    have := hpm (l := (a :: b :: t).map (fun s => (⟨s.1, s.2.1, s.2.2, (pmVec x.2).1, (pmVec x.2).2⟩ : Samp K)))
      (s := ⟨a.1, a.2.1, a.2.2, (pmVec x.2).1, (pmVec x.2).2⟩) (by simp) (by
        intro s hs
        obtain ⟨q, _, rfl⟩ := List.mem_map.1 hs
        rfl)
    refine ⟨?_, ?_, rfl, rfl, this.1, this.2, rfl, rfl⟩
    · simp [update, baseEntry, fieldRow, hp]
    · rw [hp]
      simp [update, baseEntry, List.map_map, Function.comp_def]

/-- **The catalog comes back**: same numbers in the same order, with names, coordinates, frames and epochs; proper motions as far as
they do. -/
theorem cat_back [IsStrictOrderedRing K] (med : List K → K) (now tol eps : K) (heps : 0 ≤ eps) {c : Cat K} (hg : Good tol c)
    (hid : ∀ x ∈ c, 0 ≤ x.1) (hl : ∀ x ∈ c, ∀ l, x.2.place = .path l → 2 ≤ l.length) :
    ∃ f c', write med now c = .ok f ∧ read tol eps f = .ok c' ∧ c'.map (fun x => x.1) = c.map (fun x => x.1) ∧
      ∀ (i : Nat) (e e' : Entry K), (c[i]?).map (fun x => x.2) = some e → (c'[i]?).map (fun x => x.2) = some e' → BackOk eps e e' := by
  obtain ⟨f, hf⟩ := (write_accepts med now c).2 ⟨hg.filled, hg.frames⟩
  obtain ⟨h1, h2, h3⟩ := write_frames hf
  obtain ⟨d, hd, hdx⟩ := samples_eq now tol hg
  have hall : f.fields.all (fun r => decide (0 ≤ r.id)) = true := by
    rw [List.all_eq_true, h1]
    intro r hr
    obtain ⟨x, hx, rfl⟩ := List.mem_map.1 hr
    have : (fieldRow med x).id = x.1 := by
      unfold fieldRow
      split <;> rfl
    rw [this]
    exact decide_eq_true (hid x hx)
  refine ⟨f, c.map (fun x => (x.1, update eps (baseEntry (fieldRow med x) (x.2.frame, x.2.epoch.getD 2000))
    ((srcRows now x).map (fun y => y.2)))), hf, ?_, ?_, ?_⟩
  · unfold read
    rw [h3]
    dsimp only
    rw [h2, hd]
    dsimp only
    rw [if_pos hall, h1, List.zip_map', List.map_map]
    congr 1
    apply List.map_congr_left
    intro x hx
    have : (fieldRow med x).id = x.1 := by
      unfold fieldRow
      split <;> rfl
    simp only [Function.comp_def, this, hdx x hx]
  · rw [List.map_map]
    rfl
  · intro i e e' he he'
    rw [List.getElem?_map] at he'
    cases hx : c[i]? with
    | none => rw [hx] at he; cases he
    | some x =>
      rw [hx] at he he'
      simp only [Option.map_some, Option.some.injEq] at he he'
      subst he
      subst he'
      exact update_back heps med now x (hl x (List.mem_of_getElem? hx))

/-- **The proper motion in declination is lost**: that in right ascension comes back in its place, or nothing. -/
theorem pm_dec_counterexample [IsStrictOrderedRing K] (med : List K → K) (now tol eps : K) (heps : 0 ≤ eps) {id : Int} {e : Entry K}
    (hid : 0 ≤ id) (hn : Named e) {lon lat : K} (hp : e.place = .point lon lat) {a b : K} (ha : e.pmRa = some a)
    (hb : e.pmDec = some b) (hab : a ≠ b) :
    ∃ f e', write med now [(id, e)] = .ok f ∧ read tol eps f = .ok [(id, e')] ∧ e'.pmDec ≠ e.pmDec := by
  have hg : Good tol [(id, e)] := ⟨by simp, by simp, by simpa using hn, by
    intro x hx l hl
    rw [List.mem_singleton] at hx
    subst hx
    rw [hp] at hl
    cases hl⟩
  obtain ⟨f, c', h1, h2, h3, h4⟩ := cat_back med now tol eps heps hg (by simpa using hid) (by
    intro x hx l hl
    rw [List.mem_singleton] at hx
    subst hx
    rw [hp] at hl
    cases hl)
  obtain ⟨y, rfl⟩ : ∃ y, c' = [y] := List.length_eq_one_iff.1 (by simpa using congrArg List.length h3)
  have hy : y.1 = id := by simpa using h3
  have hB := h4 0 e y.2 rfl rfl
  refine ⟨f, y.2, h1, ?_, ?_⟩
  · rw [h2, ← hy]
  · rw [hb]
    obtain ⟨_, _, _, _, h5, h6, _⟩ := hB
    by_cases hs : |a| ≤ eps
    · rw [(h5 (fun a' ha' => by rw [ha] at ha'; cases ha'; exact hs)).2]
      simp
    · rw [(h6 a ha hs).2]
      simpa using hab

/-- With a negative number in the catalog, numbers are replaced and every entry becomes a point without motion: an ephemeris the
medians of its samples. -/
theorem negative_counterexample (med : List K → K) (now tol eps : K) {c : Cat K} (hg : Good tol c) (hid : ∃ x ∈ c, x.1 < 0) :
    ∃ f, write med now c = .ok f ∧ read tol eps f = .ok (c.zipIdx.map (fun x => ((x.2 : Int),
      baseEntry (fieldRow med x.1) (x.1.2.frame, x.1.2.epoch.getD 2000)))) := by
  obtain ⟨f, hf⟩ := (write_accepts med now c).2 ⟨hg.filled, hg.frames⟩
  obtain ⟨h1, h2, h3⟩ := write_frames hf
  obtain ⟨d, hd, hdx⟩ := samples_eq now tol hg
  refine ⟨f, hf, ?_⟩
  unfold read
  rw [h3]
  dsimp only
  rw [h2, hd]
  dsimp only
  rw [if_neg, h1, List.zip_map', List.zipIdx_map, List.map_map]
  · rfl
  · rw [List.all_eq_true, h1]
    intro h
    obtain ⟨x, hx, hneg⟩ := hid
    have := of_decide_eq_true (h _ (List.mem_map.2 ⟨x, hx, rfl⟩))
    have hi : (fieldRow med x).id = x.1 := by
      unfold fieldRow
      split <;> rfl
    rw [hi] at this
    omega

/-- An ephemeris of one sample comes back as a sidereal point. -/
theorem single_sample_counterexample (med : List K → K) (now tol eps : K) {id : Int} {e : Entry K} (hid : 0 ≤ id) (hn : Named e) {s : K × K × K}
    (hp : e.place = .path [s]) :
    ∃ f e', write med now [(id, e)] = .ok f ∧ read tol eps f = .ok [(id, e')] ∧ e'.place = .point s.2.1 s.2.2 := by
  have hg : Good tol [(id, e)] := ⟨by simp, by simp, by simpa using hn, by
    intro x hx l hl
    rw [List.mem_singleton] at hx
    subst hx
    rw [hp] at hl
    cases hl
    simp⟩
  obtain ⟨f, hf⟩ := (write_accepts med now _).2 ⟨hg.filled, hg.frames⟩
  obtain ⟨h1, h2, h3⟩ := write_frames hf
  obtain ⟨d, hd, hdx⟩ := samples_eq now tol hg
  have hdi : d id = [⟨s.1, s.2.1, s.2.2, (pmVec e).1, (pmVec e).2⟩] := by
    rw [hdx (id, e) (by simp)]
    simp [srcRows, hp]
  have hfi : (fieldRow med (id, e)).id = id := by
    unfold fieldRow
    split <;> rfl
  refine ⟨f, update eps (baseEntry (fieldRow med (id, e)) (e.frame, e.epoch.getD 2000)) (d id), hf, ?_, ?_⟩
  · unfold read
    rw [h3]
    dsimp only
    rw [h2, hd]
    dsimp only
    rw [if_pos, h1]
    · simp [hfi]
    · rw [h1]
      simp [hfi, hid]
  · rw [hdi]
    simp [update]

end Verif.MsCat
