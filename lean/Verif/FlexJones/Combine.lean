import Verif.FlexJones.Remove

/-! C87: which windows `remove_flex_jones` puts together, and the round trip. -/
set_option linter.unusedSectionVars false

namespace Verif.FlexJones
open Verif.Np Verif.FreqSort Verif.FlexPol

variable {L V : Type} [DecidableEq L]

/-! ### Comparing channels -/

theorem sameChans_some {a b : List L} (ha : a.Nodup) (hb : b.Nodup) (ha0 : a ≠ []) (hb0 : b ≠ []) {x : Bool} (h : sameChans a b = some x) :
    x = decide (a = b) := by
  unfold sameChans at h
  split at h
  · simpa using h.symm
  · rename_i hl
    have hne : a ≠ b := fun e => hl (by rw [e])
    have short : ∀ {c d : List L}, c.length = 1 → d.Nodup → d ≠ [] → c.length ≠ d.length → d.all (fun x => c.contains x) = false := by
      intro c d hc hd hd0 hne
      obtain ⟨y, rfl⟩ := List.length_eq_one_iff.1 hc
      by_contra hcon
      rw [Bool.not_eq_false, List.all_eq_true] at hcon
      have hall : ∀ z ∈ d, z = y := fun z hz => by simpa using hcon z hz
      match d, hd0 with
      | [z], _ => simp at hne
      | z :: z' :: rest, _ =>
        have h1 := hall z (by simp)
        have h2 := hall z' (by simp)
        simp [h1, h2] at hd
    rw [decide_eq_false hne]
    split at h
    · rename_i h1
      rw [short h1 hb hb0 hl] at h
      simpa using h.symm
    · split at h
      · rename_i h1
        rw [short h1 ha ha0 (Ne.symm hl)] at h
        simpa using h.symm
      · cases h

theorem findMatch_some {l : List L} (hl : l.Nodup) (hl0 : l ≠ []) : ∀ {fr : List (Int × List L)}, (∀ q ∈ fr, q.2.Nodup ∧ q.2 ≠ []) → ∀ {r},
    findMatch l fr = some r → r = (fr.find? (fun q => decide (q.2 = l))).map Prod.fst := by
  intro fr
  induction fr with
  | nil => intro _ r h; simpa [findMatch] using h.symm
  | cons q fr ih =>
    intro hq r h
    obtain ⟨s, l2⟩ := q
    unfold findMatch at h
    have hq0 := hq (s, l2) (by simp)
    cases hs : sameChans l l2 with
    | none => rw [hs] at h; cases h
    | some x =>
      have hx := sameChans_some hl hq0.1 hl0 hq0.2 hs
      rw [hs] at h
      by_cases e : l = l2
      · subst e
        simp only [decide_true] at hx
        subst hx
        simp only [Option.some.injEq] at h
        simp [← h]
      · simp only [e, decide_false] at hx
        subst hx
        rw [List.find?_cons_of_neg (by simpa using Ne.symm e)]
        exact ih (fun q' hq' => hq q' (by simp [hq'])) h

theorem findMatch_ne_none {l : List L} : ∀ {fr : List (Int × List L)}, (∀ q ∈ fr, sameChans l q.2 ≠ none) → findMatch l fr ≠ none := by
  intro fr
  induction fr with
  | nil => intro _; simp [findMatch]
  | cons q fr ih =>
    intro hq
    obtain ⟨s, l2⟩ := q
    unfold findMatch
    cases hs : sameChans l l2 with
    | none => exact absurd hs (hq (s, l2) (by simp))
    | some x =>
      cases x
      · exact ih (fun q' hq' => hq q' (by simp [hq']))
      · simp

/-! ### The map of windows -/

/-- The first window with the same channels. -/
def rep (ch : Int → List L) (ws : List Int) (w : Int) : Int := (ws.find? (fun x => decide (ch x = ch w))).getD w

section
variable (ch : Int → List L)

theorem rep_find {ws : List Int} {w : Int} (h : w ∈ ws) : ws.find? (fun x => decide (ch x = ch w)) = some (rep ch ws w) := by
  unfold rep
  cases hf : ws.find? (fun x => decide (ch x = ch w)) with
  | none =>
    rw [List.find?_eq_none] at hf
    exact absurd (decide_eq_true (rfl : ch w = ch w)) (hf w h)
  | some a => rfl

theorem rep_mem {ws : List Int} {w : Int} (h : w ∈ ws) : rep ch ws w ∈ ws := List.mem_of_find?_eq_some (rep_find ch h)

theorem rep_ch {ws : List Int} {w : Int} (h : w ∈ ws) : ch (rep ch ws w) = ch w := by
  have := List.find?_some (rep_find ch h)
  simpa using this

theorem rep_congr (ws : List Int) {w w' : Int} (h : w ∈ ws) (h' : w' ∈ ws) (e : ch w = ch w') : rep ch ws w = rep ch ws w' := by
  have h1 := rep_find ch h
  have h2 := rep_find ch h'
  rw [e, h2] at h1
  simpa using h1.symm

theorem rep_rep {ws : List Int} {w : Int} (h : w ∈ ws) : rep ch ws (rep ch ws w) = rep ch ws w :=
  rep_congr ch ws (rep_mem ch h) h (rep_ch ch h)

theorem rep_first {ws : List Int} {w w' : Int} (h : w ∈ ws) (h' : w' ∈ ws) (e : ch w' = ch w) : ws.idxOf (rep ch ws w) ≤ ws.idxOf w' := by
  obtain ⟨h1, as, bs, h2, h3⟩ := List.find?_eq_some_iff_append.1 (rep_find ch h)
  have hn : w' ∉ as := by
    intro hm
    have := h3 w' hm
    simp [e] at this
  have hr : rep ch ws w ∉ as := by
    intro hm
    have := h3 _ hm
    simp [rep_ch ch h] at this
  generalize rep ch ws w = a at h1 h2 hr ⊢
  subst h2
  rw [List.idxOf_append_of_notMem hr, List.idxOf_append_of_notMem hn]
  simp

theorem rep_append {ws : List Int} {w : Int} (x : Int) (h : w ∈ ws) : rep ch (ws ++ [x]) w = rep ch ws w := by
  have := rep_find ch h
  unfold rep
  rw [List.find?_append, this]
  rfl

theorem rep_new {ws : List Int} (x : Int) : rep ch (ws ++ [x]) x = (ws.find? (fun y => decide (ch y = ch x))).getD x := by
  unfold rep
  rw [List.find?_append]
  cases ws.find? (fun y => decide (ch y = ch x)) <;> simp

theorem find_reps (ws : List Int) (l : List L) :
    (ws.filter (fun w => decide (rep ch ws w = w))).find? (fun w => decide (ch w = l)) = ws.find? (fun w => decide (ch w = l)) := by
  rw [List.find?_filter]
  cases hf : ws.find? (fun w => decide (ch w = l)) with
  | none =>
    rw [List.find?_eq_none] at hf ⊢
    intro x hx
    have := hf x hx
    simp at this ⊢
    intro _; exact this
  | some a =>
    rw [List.find?_eq_some_iff_append] at hf ⊢
    obtain ⟨ha, as, bs, e, hb⟩ := hf
    have ha' : ch a = l := by simpa using ha
    refine ⟨?_, as, bs, e, ?_⟩
    · have : rep ch ws a = a := by
        unfold rep
        have : ws.find? (fun x => decide (ch x = ch a)) = some a := by
          rw [List.find?_eq_some_iff_append]
          refine ⟨by simp, as, bs, e, ?_⟩
          rw [ha']; exact hb
        rw [this]; rfl
      simp [this, ha']
    · intro x hx
      have := hb x hx
      simp at this ⊢
      exact Or.inr this

/-- The state after the windows `l` with their components. -/
def stateOf (l : List (Int × Int)) : MSt L where
  map := l.map (fun q => (q.2, rep ch (l.map Prod.snd) q.2))
  freqs := ((l.map Prod.snd).filter (fun w => decide (rep ch (l.map Prod.snd) w = w))).map (fun w => (w, ch w))
  tally := l.map (fun q => (rep ch (l.map Prod.snd) q.2, q.1))

theorem reps_append {ws : List Int} {x : Int} (hx : x ∉ ws) :
    (ws ++ [x]).filter (fun w => decide (rep ch (ws ++ [x]) w = w)) = ws.filter (fun w => decide (rep ch ws w = w)) ++
      (match ws.find? (fun y => decide (ch y = ch x)) with | some _ => [] | none => [x]) := by
  rw [List.filter_append]
  congr 1
  · apply List.filter_congr
    intro w hw
    rw [rep_append ch x hw]
  · rw [List.filter_cons, List.filter_nil, rep_new]
    cases hf : ws.find? (fun y => decide (ch y = ch x)) with
    | none => simp
    | some a =>
      have : a ∈ ws := List.mem_of_find?_eq_some hf
      simp only [Option.getD_some]
      rw [if_neg]
      simp only [decide_eq_true_eq]
      rintro rfl
      exact hx this

end

theorem stateOf_append (ch : Int → List L) (l : List (Int × Int)) (q : Int × Int) (hq : q.2 ∉ l.map Prod.snd) :
    stateOf ch (l ++ [q]) = match (l.map Prod.snd).find? (fun y => decide (ch y = ch q.2)) with
      | some s => { stateOf ch l with map := (stateOf ch l).map ++ [(q.2, s)], tally := (stateOf ch l).tally ++ [(s, q.1)] }
      | none => { map := (stateOf ch l).map ++ [(q.2, q.2)], freqs := (stateOf ch l).freqs ++ [(q.2, ch q.2)], tally := (stateOf ch l).tally ++ [(q.2, q.1)] } := by
  have e1 : l.map (fun p => (p.2, rep ch (l.map Prod.snd ++ [q.2]) p.2)) = l.map (fun p => (p.2, rep ch (l.map Prod.snd) p.2)) := by
    apply List.map_congr_left
    intro p hp
    rw [rep_append ch q.2 (List.mem_map.2 ⟨p, hp, rfl⟩)]
  have e2 : l.map (fun p => (rep ch (l.map Prod.snd ++ [q.2]) p.2, p.1)) = l.map (fun p => (rep ch (l.map Prod.snd) p.2, p.1)) := by
    apply List.map_congr_left
    intro p hp
    rw [rep_append ch q.2 (List.mem_map.2 ⟨p, hp, rfl⟩)]
  unfold stateOf
  simp only [List.map_append, List.map_cons, List.map_nil]
  rw [reps_append ch hq, e1, e2, rep_new]
  cases (l.map Prod.snd).find? (fun y => decide (ch y = ch q.2)) <;> simp

theorem fold_map (ids : List Int) (lab : List L) : ∀ (l : List (Int × Int)), (l.map Prod.snd).Nodup →
    (∀ q ∈ l, (ofWin ids lab q.2).Nodup ∧ ofWin ids lab q.2 ≠ []) →
    (∀ st, l.foldlM (mapStep ids lab) ⟨[], [], []⟩ = some st → st = stateOf (ofWin ids lab) l) ∧
    ((∀ q ∈ l, ∀ q' ∈ l, sameChans (ofWin ids lab q.2) (ofWin ids lab q'.2) ≠ none) → l.foldlM (mapStep ids lab) ⟨[], [], []⟩ ≠ none) := by
  intro l
  induction l using List.reverseRecOn with
  | nil =>
    intro _ _
    constructor
    · intro st h
      simp at h
      rw [← h]; rfl
    · intro _; simp
  | append_singleton l q ih =>
    intro hn hg
    rw [List.map_append, List.nodup_append'] at hn
    obtain ⟨ih1, ih2⟩ := ih hn.1 (fun p hp => hg p (by simp [hp]))
    have hq : q.2 ∉ l.map Prod.snd := fun h => hn.2.2 h (by simp)
    have hfr : ∀ p ∈ (stateOf (ofWin ids lab) l).freqs, p.2.Nodup ∧ p.2 ≠ [] ∧ ∃ q' ∈ l, p.2 = ofWin ids lab q'.2 := by
      intro p hp
      obtain ⟨w, hw, rfl⟩ := List.mem_map.1 hp
      obtain ⟨q', hq', rfl⟩ := List.mem_map.1 (List.mem_filter.1 hw).1
      have := hg q' (by simp [hq'])
      exact ⟨this.1, this.2, q', hq', rfl⟩
    have hqg := hg q (by simp)
    have hfind : ∀ r, findMatch (ofWin ids lab q.2) (stateOf (ofWin ids lab) l).freqs = some r →
        r = (l.map Prod.snd).find? (fun y => decide (ofWin ids lab y = ofWin ids lab q.2)) := by
      intro r hr
      have := findMatch_some hqg.1 hqg.2 (fun p hp => ⟨(hfr p hp).1, (hfr p hp).2.1⟩) hr
      rw [this, ← find_reps (ofWin ids lab) (l.map Prod.snd) (ofWin ids lab q.2)]
      unfold stateOf
      simp only
      rw [List.find?_map, Option.map_map]
      cases hh : ((l.map Prod.snd).filter (fun w => decide (rep (ofWin ids lab) (l.map Prod.snd) w = w))).find? (fun w => decide (ofWin ids lab w = ofWin ids lab q.2)) with
      | none =>
        have : (fun w => decide (ofWin ids lab w = ofWin ids lab q.2)) = ((fun p : Int × List L => decide (p.2 = ofWin ids lab q.2)) ∘ fun w => (w, ofWin ids lab w)) := rfl
        rw [← this, hh]; rfl
      | some a =>
        have : (fun w => decide (ofWin ids lab w = ofWin ids lab q.2)) = ((fun p : Int × List L => decide (p.2 = ofWin ids lab q.2)) ∘ fun w => (w, ofWin ids lab w)) := rfl
        rw [← this, hh]; rfl
    constructor
    · intro st h
      rw [List.foldlM_append] at h
      cases h1 : l.foldlM (mapStep ids lab) ⟨[], [], []⟩ with
      | none => rw [h1] at h; cases h
      | some st1 =>
        have e := ih1 st1 h1
        subst e
        rw [h1] at h
        simp only [List.foldlM_cons, List.foldlM_nil, Option.bind_eq_bind, Option.bind_some, Option.pure_def, Option.bind_fun_some] at h
        rw [stateOf_append _ l q hq]
        unfold mapStep at h
        cases h2 : findMatch (ofWin ids lab q.2) (stateOf (ofWin ids lab) l).freqs with
        | none => rw [h2] at h; cases h
        | some r =>
          rw [h2] at h
          rw [← hfind r h2]
          cases r with
          | none => simpa using h.symm
          | some s => simpa using h.symm
    · intro hall
      rw [List.foldlM_append]
      cases h1 : l.foldlM (mapStep ids lab) ⟨[], [], []⟩ with
      | none => exact absurd h1 (ih2 (fun p hp p' hp' => hall p (by simp [hp]) p' (by simp [hp'])))
      | some st1 =>
        have e := ih1 st1 h1
        subst e
        simp only [List.foldlM_cons, List.foldlM_nil, Option.bind_eq_bind, Option.bind_some, Option.pure_def, Option.bind_fun_some]
        unfold mapStep
        cases h2 : findMatch (ofWin ids lab q.2) (stateOf (ofWin ids lab) l).freqs with
        | none =>
          refine absurd h2 (findMatch_ne_none ?_)
          intro p hp
          obtain ⟨-, -, q', hq', e⟩ := hfr p hp
          rw [e]
          exact hall q (by simp) q' (by simp [hq'])
        | some r => cases r <;> simp

theorem tallyCheck_true {nj : Nat} {tally : List (Int × Int)} : ∀ {ss : List Int}, tallyCheck nj tally ss = .ok true →
    ∀ s ∈ ss, ((tally.filter (fun q => decide (q.1 = s))).map Prod.snd).Nodup ∧ ((tally.filter (fun q => decide (q.1 = s))).map Prod.snd).length = nj := by
  intro ss
  induction ss with
  | nil => intro _ s hs; simp at hs
  | cons a ss ih =>
    intro h s hs
    unfold tallyCheck at h
    simp only at h
    split at h
    · cases h
    · rename_i h1
      split at h
      · simp at h
      · rename_i h2
        rcases List.mem_cons.1 hs with rfl | hs
        · exact ⟨not_not.1 h1, not_not.1 h2⟩
        · exact ih h s hs

theorem tallyCheck_false {nj : Nat} {tally : List (Int × Int)} : ∀ {ss : List Int}, tallyCheck nj tally ss = .ok false →
    ∃ s ∈ ss, ((tally.filter (fun q => decide (q.1 = s))).map Prod.snd).Nodup ∧ ((tally.filter (fun q => decide (q.1 = s))).map Prod.snd).length ≠ nj := by
  intro ss
  induction ss with
  | nil => intro h; simp [tallyCheck] at h
  | cons a ss ih =>
    intro h
    unfold tallyCheck at h
    simp only at h
    split at h
    · cases h
    · rename_i h1
      split at h
      · rename_i h2
        exact ⟨a, by simp, not_not.1 h1, h2⟩
      · obtain ⟨s, hs, h'⟩ := ih h
        exact ⟨s, by simp [hs], h'⟩

theorem tallyCheck_ok {nj : Nat} {tally : List (Int × Int)} : ∀ {ss : List Int},
    (∀ s ∈ ss, ((tally.filter (fun q => decide (q.1 = s))).map Prod.snd).Nodup) → ∃ b, tallyCheck nj tally ss = .ok b := by
  intro ss
  induction ss with
  | nil => intro _; exact ⟨_, rfl⟩
  | cons a ss ih =>
    intro h
    unfold tallyCheck
    simp only
    rw [if_neg (not_not.2 (h a (by simp)))]
    split
    · exact ⟨_, rfl⟩
    · exact ih (fun s hs => h s (by simp [hs]))

/-- Components counted for a window are those of the windows it stands for. -/
theorem tally_of (ch : Int → List L) (l : List (Int × Int)) (s : Int) :
    ((stateOf ch l).tally.filter (fun q => decide (q.1 = s))).map Prod.snd = (l.filter (fun q => decide (rep ch (l.map Prod.snd) q.2 = s))).map Prod.fst := by
  unfold stateOf
  simp only
  rw [List.filter_map, List.map_map]
  rfl

/-! ### remove_flex_jones -/

/-- `f` takes a window to the first one that has its channels. -/
def First (o : Obj L V) (f : Int → Int) : Prop :=
  ∀ w ∈ o.spws, f w ∈ o.spws ∧ chansOf o (f w) = chansOf o w ∧ ∀ w' ∈ o.spws, chansOf o w' = chansOf o w → o.spws.idxOf (f w) ≤ o.spws.idxOf w'

/-- Every set of channels is there for every component. -/
def Complete (o : Obj L V) : Prop :=
  ∀ w ∈ o.spws, ∀ j w1, w1 ∈ o.spws → jonesOf o w1 = some j → ∃ w' ∈ o.spws, chansOf o w' = chansOf o w ∧ jonesOf o w' = some j

section
variable {o : Obj L V} {fj : List Int} (g : Good o) (d : DistinctChans o) (hf : o.flexJones = some fj)
include g d hf

theorem zip_snd : (fj.zip o.spws).map Prod.snd = o.spws := by
  apply List.map_snd_zip
  exact (g.flex fj hf).1.ge

theorem zip_fst : (fj.zip o.spws).map Prod.fst = fj := by
  apply List.map_fst_zip
  exact (g.flex fj hf).1.le

theorem zip_good : ∀ q ∈ fj.zip o.spws, (ofWin o.ids o.lab q.2).Nodup ∧ ofWin o.ids o.lab q.2 ≠ [] := by
  intro q hq
  have hw := (List.of_mem_zip hq).2
  refine ⟨d q.2 hw, ?_⟩
  intro h
  have h1 := ofWin_length q.2 o.ids o.lab g.lab.symm
  rw [h] at h1
  have := List.count_pos_iff.2 (g.used q.2 hw)
  simp at h1
  omega

theorem self_puts : Puts o fj id := by
  refine ⟨fun w hw => hw, fun w _ => rfl, ?_⟩
  have : (fj.zip o.spws).map (fun q => (id q.2, q.1)) = ((fj.zip o.spws)).map (fun q => (q.2, q.1)) := rfl
  rw [this]
  apply List.Nodup.of_map Prod.fst
  rw [List.map_map]
  change ((fj.zip o.spws).map Prod.snd).Nodup
  rw [zip_snd g d hf]
  exact g.nodup

theorem rep_puts (ht : tallyCheck (unique fj).reverse.length (stateOf (chansOf o) (fj.zip o.spws)).tally
      ((stateOf (chansOf o) (fj.zip o.spws)).freqs.map Prod.fst) = .ok true) :
    Puts o fj (rep (chansOf o) o.spws) ∧ ∀ w ∈ o.spws, ∀ j ∈ fj, ∃ w' ∈ o.spws, rep (chansOf o) o.spws w' = rep (chansOf o) o.spws w ∧ jonesOf o w' = some j := by
  have hz := zip_snd g d hf
  have key : ∀ s ∈ o.spws, ((fj.zip o.spws).filter (fun q => decide (rep (chansOf o) o.spws q.2 = rep (chansOf o) o.spws s))).map Prod.fst |>.Nodup := by
    intro s hs
    have := (tallyCheck_true ht (rep (chansOf o) o.spws s) ?_).1
    · rw [tally_of, hz] at this
      exact this
    · unfold stateOf
      simp only [List.map_map]
      rw [List.mem_map]
      refine ⟨rep (chansOf o) o.spws s, List.mem_filter.2 ⟨?_, ?_⟩, rfl⟩
      · rw [hz]; exact rep_mem _ hs
      · rw [hz]; simpa using rep_rep (chansOf o) hs
  have keyl : ∀ s ∈ o.spws, (((fj.zip o.spws).filter (fun q => decide (rep (chansOf o) o.spws q.2 = rep (chansOf o) o.spws s))).map Prod.fst).length = (unique fj).reverse.length := by
    intro s hs
    have := (tallyCheck_true ht (rep (chansOf o) o.spws s) ?_).2
    · rw [tally_of, hz] at this
      exact this
    · unfold stateOf
      simp only [List.map_map]
      rw [List.mem_map]
      refine ⟨rep (chansOf o) o.spws s, List.mem_filter.2 ⟨?_, ?_⟩, rfl⟩
      · rw [hz]; exact rep_mem _ hs
      · rw [hz]; simpa using rep_rep (chansOf o) hs
  refine ⟨⟨fun w hw => rep_mem _ hw, fun w hw => rep_ch _ hw, ?_⟩, ?_⟩
  · refine List.Nodup.map_on ?_ ?_
    · intro q hq q' hq' e
      simp only [Prod.mk.injEq] at e
      have hw := (List.of_mem_zip hq).2
      have := key q.2 hw
      refine List.inj_on_of_nodup_map this (List.mem_filter.2 ⟨hq, by simp⟩) (List.mem_filter.2 ⟨hq', by simp [e.1]⟩) e.2
    · apply List.Nodup.of_map Prod.snd
      rw [hz]; exact g.nodup
  · intro w hw j hj
    have hsub : ((fj.zip o.spws).filter (fun q => decide (rep (chansOf o) o.spws q.2 = rep (chansOf o) o.spws w))).map Prod.fst ⊆ (unique fj).reverse := by
      intro x hx
      obtain ⟨q, hq, rfl⟩ := List.mem_map.1 hx
      rw [List.mem_reverse, mem_unique]
      exact (List.of_mem_zip (List.mem_filter.1 hq).1).1
    have hperm := (List.subperm_of_subset (key w hw) hsub).perm_of_length_le (by rw [keyl w hw])
    have := hperm.mem_iff.2 (show j ∈ (unique fj).reverse by rw [List.mem_reverse, mem_unique]; exact hj)
    obtain ⟨q, hq, rfl⟩ := List.mem_map.1 this
    obtain ⟨h1, h2⟩ := List.mem_filter.1 hq
    have hw' := (List.of_mem_zip h1).2
    exact ⟨q.2, hw', by simpa using h2, (jonesOf_mem g hf hw').2 h1⟩

/-- C87: `remove_flex_jones` on an object without `total_quality_array`, if it raises no exception: there is a window for every window, with the
same channels; every value is found under its Jones component, and where there was no value there is a blank. Either no windows have been put
together or every component of every window has values and a window goes to the first one with its channels. Without `combine_spws` windows keep
their numbers; with it windows are put together if every set of channels is there for every component. -/
theorem remove_keeps_partial (blank : V) (ht : o.total = false) (combine : Bool) {r : Obj L V} (h : remove blank combine o = (r, none)) :
    ∃ f : Int → Int, Spread blank o f r ∧ (combine = false → ∀ w ∈ o.spws, f w = w) ∧
      ((∀ w ∈ o.spws, f w = w) ∨ (∀ u ∈ r.spws, ∀ j ∈ r.jones, ∃ w ∈ o.spws, f w = u ∧ jonesOf o w = some j) ∧ First o f) ∧
      (combine = true → Complete o → First o f) := by
  have hlen := (g.flex fj hf).1
  unfold remove at h
  rw [hf] at h
  simp only at h
  split at h
  · rename_i hc
    simp only [Prod.mk.injEq, and_true] at h
    subst h
    obtain ⟨j0, hj0⟩ := List.length_eq_one_iff.1 hc.1
    have hall : ∀ j ∈ fj, j = j0 := by
      intro j hj
      have : j ∈ (unique fj).reverse := by rw [List.mem_reverse, mem_unique]; exact hj
      rw [hj0] at this
      simpa using this
    have hj0m : j0 ∈ fj := by
      have : j0 ∈ (unique fj).reverse := by rw [hj0]; simp
      rw [List.mem_reverse, mem_unique] at this
      exact this
    have hjo : ∀ w ∈ o.spws, jonesOf o w = some j0 := by
      intro w hw
      unfold jonesOf
      rw [hf]
      simp only [Option.bind_some]
      have hlt : o.spws.idxOf w < fj.length := by rw [hlen]; exact List.idxOf_lt_length_of_mem hw
      rw [List.getElem?_eq_getElem hlt, hall _ (List.getElem_mem hlt)]
    refine ⟨id, ⟨⟨g.lab, g.planes, g.nodup, g.listed, g.used, by simp [hj0], by simp⟩, rfl, ?_, ?_, ?_, fun w _ => rfl, fun _ _ _ _ h _ => h, ?_⟩,
      fun _ w _ => rfl, Or.inl (fun w _ => rfl), ?_⟩
    rotate_left 4
    · intro hcomb _ w hw
      refine ⟨hw, rfl, fun w' hw' _ => ?_⟩
      have h1 : o.spws.length = 1 := by rcases hc.2 with h | h; exacts [h, absurd hcomb (by simp [h])]
      obtain ⟨a, ha⟩ := List.length_eq_one_iff.1 h1
      rw [ha] at hw hw'
      simp only [List.mem_singleton] at hw hw'
      rw [hw, hw']; exact le_refl _
    · intro j
      simp only [hj0, List.mem_singleton]
      constructor
      · rintro rfl
        obtain ⟨k, hk⟩ := List.getElem?_of_mem hj0m
        have hlt : k < o.spws.length := by rw [← hlen]; exact (List.getElem?_eq_some_iff.1 hk).1
        exact ⟨_, List.getElem_mem hlt, hjo _ (List.getElem_mem hlt)⟩
      · rintro ⟨w, hw, h⟩
        rw [hjo w hw] at h
        simpa using h.symm
    · simp [hj0]
    · intro u; simp
    · intro i t u l j v
      have hmem : ∀ w l pl, HasChan o w l pl → w ∈ o.spws := fun w l pl ⟨k, h, _⟩ => g.listed w (List.mem_of_getElem? h)
      constructor
      · rintro ⟨pl, hc', p, hp, rfl⟩
        simp only [hj0] at hp
        have hp0 : p = 0 := by
          have := (List.getElem?_eq_some_iff.1 hp).1
          simpa using this
        subst hp0
        simp only [List.getElem?_cons_zero, Option.some.injEq] at hp
        have hu := hmem u l pl hc'
        refine Or.inl ⟨u, hu, rfl, pl, hc', ?_⟩
        rw [hf]
        exact ⟨hp ▸ hjo u hu, rfl⟩
      · rintro (⟨w, hw, e, pl, hc', hv⟩ | ⟨-, hu, -, hj, hno⟩)
        · rw [hf] at hv
          simp only [id] at e
          subst e
          obtain ⟨h1, rfl⟩ := hv
          rw [hjo w hw] at h1
          simp only [Option.some.injEq] at h1
          exact ⟨pl, hc', 0, by simp [hj0, h1], rfl⟩
        · simp only [hj0, List.mem_singleton] at hj
          exact absurd (hjo u hu) (hj ▸ hno u hu rfl)
  · cases hm : spwMap combine o fj (unique fj).reverse.length with
    | error e => rw [hm] at h; simp at h
    | ok m =>
      rw [hm] at h
      simp only [totalFails, ht] at h
      simp only [Bool.false_eq_true, if_false, Prod.mk.injEq, and_true] at h
      subst h
      have hself : ∃ f : Int → Int, m = o.spws.map (fun w => (w, f w)) ∧ Puts o fj f ∧ (combine = false → ∀ w ∈ o.spws, f w = w) ∧
          ((∀ w ∈ o.spws, f w = w) ∨ (∀ w ∈ o.spws, ∀ j ∈ fj, ∃ w' ∈ o.spws, f w' = f w ∧ jonesOf o w' = some j) ∧ First o f) ∧
          (combine = true → Complete o → First o f) := by
        unfold spwMap at hm
        simp only at hm
        split at hm
        · rename_i hc
          cases hfo : (fj.zip o.spws).foldlM (mapStep o.ids o.lab) ⟨[], [], []⟩ with
          | none => rw [hfo] at hm; cases hm
          | some st =>
            rw [hfo] at hm
            have est := (fold_map o.ids o.lab (fj.zip o.spws) (by rw [zip_snd g d hf]; exact g.nodup) (zip_good g d hf)).1 st hfo
            simp only at hm
            cases htc : tallyCheck (unique fj).reverse.length st.tally (st.freqs.map Prod.fst) with
            | error e => rw [htc] at hm; cases hm
            | ok b =>
              rw [htc] at hm
              cases b with
              | true =>
                simp only [Except.ok.injEq] at hm
                have hst : st = stateOf (chansOf o) (fj.zip o.spws) := est
                rw [hst] at htc hm
                obtain ⟨h1, h2⟩ := rep_puts g d hf htc
                have hfst : First o (rep (chansOf o) o.spws) := fun w hw => ⟨rep_mem _ hw, rep_ch _ hw, fun w' hw' e => rep_first (chansOf o) hw hw' e⟩
                refine ⟨rep (chansOf o) o.spws, ?_, h1, fun h => absurd hc (by simp [h]), Or.inr ⟨h2, hfst⟩, fun _ _ => hfst⟩
                rw [← hm]
                unfold stateOf
                simp only
                rw [zip_snd g d hf]
                conv_rhs => rw [← zip_snd g d hf, List.map_map]
                rw [zip_snd g d hf]
                rfl
              | false =>
                simp only [Except.ok.injEq] at hm
                refine ⟨id, hm.symm, self_puts g d hf, fun _ w _ => rfl, Or.inl (fun w _ => rfl), fun _ hcomp => ?_⟩
                exfalso
                have hst : st = stateOf (chansOf o) (fj.zip o.spws) := est
                rw [hst] at htc
                obtain ⟨s, hs, hnd, hne⟩ := tallyCheck_false htc
                rw [tally_of, zip_snd g d hf] at hnd hne
                unfold stateOf at hs
                simp only [List.map_map] at hs
                rw [zip_snd g d hf] at hs
                obtain ⟨s', hs', e'⟩ := List.mem_map.1 hs
                obtain ⟨hs1, hs2⟩ := List.mem_filter.1 hs'
                simp only [Function.comp] at e'
                subst e'
                simp only [decide_eq_true_eq] at hs2
                refine hne (List.Perm.length_eq ((List.perm_ext_iff_of_nodup hnd (nodup_of_desc (unique_desc fj))).2 ?_))
                intro j
                rw [List.mem_reverse, mem_unique]
                constructor
                · intro hj
                  obtain ⟨q, hq, rfl⟩ := List.mem_map.1 hj
                  exact (List.of_mem_zip (List.mem_filter.1 hq).1).1
                · intro hj
                  obtain ⟨k, hk⟩ := List.getElem?_of_mem hj
                  have hlt : k < o.spws.length := by rw [← hlen]; exact (List.getElem?_eq_some_iff.1 hk).1
                  have hw1 : o.spws[k] ∈ o.spws := List.getElem_mem hlt
                  have hj1 : jonesOf o o.spws[k] = some j := (jonesOf_mem g hf hw1).2 (List.mem_of_getElem? (i := k) (by
                    rw [List.getElem?_zip_eq_some]; exact ⟨hk, List.getElem?_eq_getElem hlt⟩))
                  obtain ⟨w', hw', e1, e2⟩ := hcomp s' hs1 j _ hw1 hj1
                  refine List.mem_map.2 ⟨(j, w'), List.mem_filter.2 ⟨(jonesOf_mem g hf hw').1 e2, ?_⟩, rfl⟩
                  simp only [decide_eq_true_eq]
                  rw [rep_congr (chansOf o) o.spws hw' hs1 e1, hs2]
        · rename_i hc
          simp only [Except.ok.injEq] at hm
          exact ⟨id, hm.symm, self_puts g d hf, fun _ w _ => rfl, Or.inl (fun w _ => rfl), fun h => absurd h hc⟩
      obtain ⟨f, rfl, p, hc, hfull, hcomp⟩ := hself
      have S := spread_spec blank g hf p
      refine ⟨f, S, hc, hfull.imp id (fun ⟨hall, hfst⟩ => ⟨?_, hfst⟩), hcomp⟩
      intro u hu j hj
      obtain ⟨w, hw, rfl⟩ := (S.wins u).1 hu
      obtain ⟨w1, hw1, h1⟩ := (S.jones j).1 hj
      exact hall w hw j (List.of_mem_zip ((jonesOf_mem g hf hw1).1 h1)).1

/-- C87: without `combine_spws` there is no exception; with it there is none if all windows have equally many channels and no two windows have the
same channels and the same component. -/
theorem remove_accepts (blank : V) (ht : o.total = false) (combine : Bool)
    (h : combine = true → (∀ w ∈ o.spws, ∀ w' ∈ o.spws, (chansOf o w).length = (chansOf o w').length) ∧
      ∀ w ∈ o.spws, ∀ w' ∈ o.spws, chansOf o w = chansOf o w' → jonesOf o w = jonesOf o w' → w = w') :
    (remove blank combine o).2 = none := by
  unfold remove
  rw [hf]
  simp only
  split
  · rfl
  · have : ∃ m, spwMap combine o fj (unique fj).reverse.length = .ok m := by
      unfold spwMap
      simp only
      split
      · rename_i hc
        obtain ⟨h1, h2⟩ := h hc
        have F := fold_map o.ids o.lab (fj.zip o.spws) (by rw [zip_snd g d hf]; exact g.nodup) (zip_good g d hf)
        cases hfo : (fj.zip o.spws).foldlM (mapStep o.ids o.lab) ⟨[], [], []⟩ with
        | none =>
          refine absurd hfo (F.2 ?_)
          intro q hq q' hq'
          unfold sameChans
          have := h1 q.2 (List.of_mem_zip hq).2 q'.2 (List.of_mem_zip hq').2
          unfold chansOf at this
          rw [if_pos this]
          simp
        | some st =>
          have est : st = stateOf (chansOf o) (fj.zip o.spws) := F.1 st hfo
          obtain ⟨b, hb⟩ := tallyCheck_ok (nj := (unique fj).reverse.length) (tally := st.tally) (ss := st.freqs.map Prod.fst) (by
            intro s _
            rw [est, tally_of, zip_snd g d hf]
            refine List.Nodup.map_on ?_ (List.Nodup.filter _ (List.Nodup.of_map Prod.snd (by rw [zip_snd g d hf]; exact g.nodup)))
            intro q hq q' hq' e
            obtain ⟨hq, e1⟩ := List.mem_filter.1 hq
            obtain ⟨hq', e2⟩ := List.mem_filter.1 hq'
            simp only [decide_eq_true_eq] at e1 e2
            have hw := (List.of_mem_zip hq).2
            have hw' := (List.of_mem_zip hq').2
            have hc : chansOf o q.2 = chansOf o q'.2 := by
              rw [← rep_ch (chansOf o) hw, ← rep_ch (chansOf o) hw', e1, e2]
            have hj : jonesOf o q.2 = jonesOf o q'.2 := by
              rw [(jonesOf_mem g hf hw).2 hq, (jonesOf_mem g hf hw').2 hq', e]
            exact Prod.ext e (h2 q.2 hw q'.2 hw' hc hj))
          simp only [hb]
          cases b <;> exact ⟨_, rfl⟩
      · exact ⟨_, rfl⟩
    obtain ⟨m, hm⟩ := this
    rw [hm]
    simp [totalFails, ht]

end

end Verif.FlexJones
