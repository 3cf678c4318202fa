import Verif.CalSelect.Kept

/-! When a selection that is refused leaves the object as it was. -/
namespace Verif.CalSelect
open Verif.Np Verif.FreqSort Verif.CalAdd

variable {K R V Q : Type} [Field K] [LinearOrder K]

omit [Field K] [LinearOrder K] in
theorem onAxis_err {f : Obj K R V Q → List Nat → Obj K R V Q} {r : Obj K R V Q × Option Err} {l : Option (List Nat)} {e : Err}
    (h : (onAxis f r l).2 = some e) : r.2 = some e ∨ e = .take := by
  unfold onAxis at h
  split at h
  · exact Or.inl h
  · exact Or.inl h
  · exact Or.inr (Option.some.inj h).symm
  · cases h

omit [Field K] [LinearOrder K] in
theorem byIndex_err {o : Obj K R V Q} {i : Inds} {e : Err} (h : (byIndex o i).2 = some e) : e = .take ∨ e = .index := by
  unfold byIndex at h
  rcases onAxis_err h with h | h
  · have hs : ∀ r : Obj K R V Q × Option Err, (spwAxis r i.spws).2 = r.2 := by
      intro r
      unfold spwAxis
      split
      · rename_i h _
        exact h.symm
      · rfl
    have front : ∀ e, (spwAxis (onAxis takeTimes (onAxis takeAnts (o, none) i.ants) i.times) i.spws).2 = some e → e = .take := by
      intro e h
      rw [hs] at h
      rcases onAxis_err h with h | h
      · rcases onAxis_err h with h | h
        · cases h
        · exact h
      · exact h
    unfold chanAxis at h
    split at h
    · exact Or.inl (front e h)
    · split at h
      · have h := Option.some.inj h
        generalize hr : (spwAxis (onAxis takeTimes (onAxis takeAnts (o, none) i.ants) i.times) i.spws).2 = x at h
        cases x with
        | none => exact Or.inr h.symm
        | some e' =>
          have := front e' hr
          exact Or.inl (h.symm.trans this)
      · rcases onAxis_err h with h | h
        · exact Or.inl (front e h)
        · exact Or.inl h
  · exact Or.inl h

/-- **Errors that leave the object as it was.** -/
theorem unchanged (c : Ctx K R) (o o' : Obj K R V Q) (q : Req K) (e : Err) (h : select c o q = (o', some e)) (h1 : e ≠ .take) (h2 : e ≠ .index) : o' = o := by
  unfold select at h
  cases hp : preprocess c o q with
  | error e' =>
    rw [hp] at h
    exact (congrArg Prod.fst h).symm
  | ok i =>
    rw [hp] at h
    exfalso
    rcases byIndex_err (congrArg Prod.snd h) with h | h
    · exact h1 h
    · exact h2 h

/-- A request in which nothing is an empty list, no phase centers are chosen, the channels exist, and one of the windows has channels. -/
structure Sound (o : Obj K R V Q) (q : Req K) : Prop where
  antNums : q.antNums ≠ some []
  antNames : q.antNames ≠ some []
  times : q.times.times ≠ some [] ∧ q.times.lsts ≠ some []
  centers : q.pcIds = none ∧ q.catNames = none
  freqs : q.freqs ≠ some []
  jones : q.jones ≠ some []
  chans : q.chans ≠ some [] ∧ ∀ ch, q.chans = some ch → ∀ x ∈ ch, 0 ≤ x ∧ x < o.ids.length
  spws : o.wide = false → ∀ ws, SpwsAsked o q ws → ∃ w ∈ ws, w ∈ o.ids

omit [Field K] [LinearOrder K] in
theorem onAxis_fine {f : Obj K R V Q → List Nat → Obj K R V Q} {r : Obj K R V Q × Option Err} {l : Option (List Nat)} (hr : r.2 = none) (hl : l ≠ some []) :
    (onAxis f r l).2 = none := by
  unfold onAxis
  rw [hr]
  cases l with
  | none => exact hr
  | some l =>
    cases l with
    | nil => exact absurd rfl hl
    | cons i l => rfl

theorem positions_some {n : Nat} {l : List Int} (h : ∀ x ∈ l, 0 ≤ x ∧ x < n) : ∃ ps, l.mapM (pos n) = some ps := by
  induction l with
  | nil => exact ⟨[], rfl⟩
  | cons x l ih =>
    obtain ⟨ps, hps⟩ := ih (fun y hy => h y (List.mem_cons_of_mem _ hy))
    obtain ⟨h1, h2⟩ := h x List.mem_cons_self
    refine ⟨x.toNat :: ps, ?_⟩
    rw [List.mapM_cons, hps]
    unfold pos
    rw [if_pos h1, if_pos h2]
    rfl

/-- **All or nothing.** Of such a request, a selection that raises an error has not touched the object. -/
theorem whole_partial (c : Ctx K R) (o o' : Obj K R V Q) (q : Req K) (e : Err) (hfit : Fits o) (hq : Sound o q) (h : select c o q = (o', some e)) : o' = o := by
  unfold select at h
  cases hp : preprocess c o q with
  | error e' =>
    rw [hp] at h
    exact (congrArg Prod.fst h).symm
  | ok i =>
    rw [hp] at h
    exfalso
    have h := congrArg Prod.snd h
    dsimp only at h
    obtain ⟨nums, s, f, f', p1, p2, p3, p4, p5, p6, p7⟩ := preprocess_ok hp
    have hA := ants_spec p1 p2
    have hT := times_spec p3
    have hJs := jones_spec p7
    have hAne : i.ants ≠ some [] := by
      intro h0
      have hn : nums ≠ some [] := by
        rintro rfl
        unfold antReq at p1
        cases h1 : q.antNames with
        | none =>
          rw [h1] at p1
          cases h2 : q.antNums with
          | none => rw [h2] at p1; cases p1
          | some l =>
            rw [h2] at p1
            cases p1
            exact hq.antNums h2
        | some ss =>
          rw [h1] at p1
          cases h2 : q.antNums with
          | some l => rw [h2] at p1; cases p1
          | none =>
            rw [h2] at p1
            dsimp only at p1
            cases hm : ss.mapM (antNum c) with
            | error e => rw [hm] at p1; cases p1
            | ok l =>
              rw [hm] at p1
              cases p1
              obtain ⟨t, ht⟩ := List.exists_mem_of_ne_nil ss (fun h => hq.antNames (by rw [h1, h]))
              obtain ⟨y, hy⟩ := (mapM_ok hm).2 t ht
              exact nomatch ((mapM_ok hm).1 y).2 ⟨t, ht, hy⟩
      cases nums with
      | none => rw [h0] at p2; cases p2
      | some l =>
        unfold antStage at p2
        dsimp only at p2
        split at p2
        · rename_i hall
          rw [h0] at p2
          have p2 := Option.some.inj (Except.ok.inj p2)
          obtain ⟨x, hx⟩ := List.exists_mem_of_ne_nil l (fun h => hn (by rw [h]))
          obtain ⟨k, hk⟩ := List.mem_iff_getElem?.1 (List.contains_iff_mem.1 (List.all_eq_true.1 hall x hx))
          have : k ∈ whereIdx (fun a => l.contains a) o.ants := mem_whereIdx.2 ⟨x, hk, List.contains_iff_mem.2 hx⟩
          rw [p2] at this
          cases this
        · cases p2
    have hTne : i.times ≠ some [] := by
      intro h0
      rw [h0] at p3
      unfold timeStage at p3
      have hpc : pcReq c o q = .ok none := by
        unfold pcReq
        rw [hq.centers.1, hq.centers.2]
      rw [hpc] at p3
      dsimp only at p3
      cases hs : TimeSel.selectTimes c.P (axis c o) c.timeTols c.lstTols q.times with
      | error e => rw [hs] at p3; cases p3
      | ok x =>
        rw [hs] at p3
        dsimp only at p3
        have p3 : x.map unique = some [] := Except.ok.inj p3
        obtain ⟨l, rfl, hl⟩ := Option.map_eq_some_iff.1 p3
        obtain ⟨k, hk⟩ := List.exists_mem_of_ne_nil l (TimeSel.selectTimes_ne _ _ _ _ _ hq.times.1 hq.times.2 hs)
        have := mem_unique.2 hk
        rw [hl] at this
        cases this
    have hJne : i.jones ≠ some [] := by
      intro h0
      obtain ⟨hJ, j1, j2⟩ := hJs
      dsimp only at hJ
      rw [h0] at hJ
      by_cases hj : q.jones = none
      · unfold jonesStage at p7
        rw [hj] at p7
        have := congrArg (fun x => x.2.2) (Except.ok.inj p7)
        dsimp only at this
        rw [h0] at this
        cases this
      · obtain ⟨js, hjs⟩ := Option.ne_none_iff_exists'.1 hj
        obtain ⟨r, hr⟩ := List.exists_mem_of_ne_nil js (fun h => hq.jones (by rw [hjs, h]))
        have hn : ∃ n, Asked c q n := by
          cases r with
          | num n => exact ⟨n, js, hjs, Or.inl hr⟩
          | str t =>
            cases ht : c.jonesNum t with
            | some n => exact ⟨n, js, hjs, Or.inr ⟨t, hr, ht⟩⟩
            | none =>
              exfalso
              unfold jonesStage at p7
              rw [hjs] at p7
              dsimp only at p7
              cases hm : js.mapM (jonesCode c) with
              | error e => rw [hm] at p7; cases p7
              | ok ns =>
                obtain ⟨y, hy⟩ := (mapM_ok hm).2 _ hr
                unfold jonesCode at hy
                dsimp only at hy
                rw [ht] at hy
                cases hy
        obtain ⟨n, hn⟩ := hn
        by_cases hb : ByWindow c o q
        · obtain ⟨js', _, hf⟩ := j2 hb
          unfold jonesStage at p7
          rw [hjs] at p7
          dsimp only at p7
          cases hm : js.mapM (jonesCode c) with
          | error e => rw [hm] at p7; cases p7
          | ok ns =>
            rw [hm] at p7
            have p7 : (Except.bind (ns.mapM (jonesWhere o)) _) = .ok (i.chans, i.spws, i.jones) := p7
            cases hw : ns.mapM (jonesWhere o) with
            | error e => rw [hw] at p7; cases p7
            | ok ws =>
              rw [hw] at p7
              obtain ⟨n', hn', hnot⟩ := hb
              obtain ⟨x, e'⟩ := (mapM_ok hw).2 n' ((code_spec hjs hm n').2 hn')
              obtain ⟨k, hk⟩ := List.exists_mem_of_ne_nil _ ((where_spec e').2.2 hnot)
              have hne : ws.flatMap (·.2) ≠ [] := List.ne_nil_of_mem (List.mem_flatMap.2 ⟨x, ((mapM_ok hw).1 x).2 ⟨n', (code_spec hjs hm n').2 hn', e'⟩, hk⟩)
              have p7 : (if ws.flatMap (·.2) ≠ [] then (flexStage o (ws.flatMap (·.2)) f' s.2).map (fun r => (r.1, r.2, none))
                else .ok (f', s.2, some (unique (ws.flatMap (·.1))))) = Except.ok (i.chans, i.spws, i.jones) := p7
              rw [if_pos hne] at p7
              cases hfl : flexStage o (ws.flatMap (·.2)) f' s.2 with
              | error e => rw [hfl] at p7; cases p7
              | ok x =>
                rw [hfl] at p7
                have := congrArg (fun x => x.2.2) (Except.ok.inj p7)
                dsimp only at this
                rw [h0] at this
                cases this
        · have hmem : n ∈ o.jones := by
            by_contra hnot
            exact hb ⟨n, hn, hnot⟩
          obtain ⟨k, hk⟩ := List.mem_iff_getElem?.1 hmem
          exact nomatch (hJ.mem k).2 ⟨(List.getElem?_eq_some_iff.1 hk).1, Or.inr (Or.inr ⟨n, hn, hk⟩)⟩
    unfold byIndex at h
    have h2 : (onAxis takeTimes (onAxis takeAnts (o, none) i.ants) i.times).2 = none := onAxis_fine (onAxis_fine rfl hAne) hTne
    have h3 : (spwAxis (onAxis takeTimes (onAxis takeAnts (o, none) i.ants) i.times) i.spws).2 = none := by
      unfold spwAxis
      split
      · rfl
      · exact h2
    have hidl : (spwAxis (onAxis takeTimes (onAxis takeAnts (o, none) i.ants) i.times) i.spws).1.ids = o.ids := by
      have g1 : ∀ (r : Obj K R V Q × Option Err) (l : Option (List Nat)), (onAxis takeTimes r l).1.ids = r.1.ids := by
        intro r l
        unfold onAxis
        split <;> rfl
      have g2 : ∀ (r : Obj K R V Q × Option Err) (l : Option (List Nat)), (onAxis takeAnts r l).1.ids = r.1.ids := by
        intro r l
        unfold onAxis
        split <;> rfl
      have g3 : ∀ (r : Obj K R V Q × Option Err) (l : Option (List Nat)), (spwAxis r l).1.ids = r.1.ids := by
        intro r l
        unfold spwAxis
        split
        · unfold takeSpws
          dsimp only
          split <;> rfl
        · rfl
      rw [g3, g1, g2]
    have h4 : (chanAxis (spwAxis (onAxis takeTimes (onAxis takeAnts (o, none) i.ants) i.times) i.spws) i.chans).2 = none := by
      unfold chanAxis
      cases hc : i.chans with
      | none => exact h3
      | some l =>
        dsimp only
        rw [hidl]
        by_cases hw : o.wide = true
        · have := (wide_inds hfit hw p4 p5 p6 p7).1
          rw [hc] at this
          cases this
        · have hn : o.wide = false := by simpa using hw
          obtain ⟨_, _, w3, w4⟩ := narrow_inds hfit hn p4 p5 p6 p7
          by_cases ha : ChansAsked o q ∨ ByWindow c o q
          · obtain ⟨l', hl, hls, hlm⟩ := w3 ha
            rw [hc] at hl
            obtain rfl := Option.some.inj hl
            have hch : ∀ k, ChanOk o q k → k < o.ids.length := by
              rintro k (⟨ch, hc, hx⟩ | ⟨fs, _, f, _, hf⟩ | ⟨ws, _, w, _, hf⟩)
              · have := (hq.chans.2 ch hc _ hx).2
                omega
              · rw [← hfit.freq]
                exact (List.getElem?_eq_some_iff.1 hf).1
              · exact (List.getElem?_eq_some_iff.1 hf).1
            have hin : ∀ x ∈ l, 0 ≤ x ∧ x < o.ids.length := by
              intro x hx
              obtain ⟨h1, h2⟩ := (hlm x).1 hx
              by_cases hb : ByWindow c o q
              · obtain ⟨j, rfl, w, hw, _⟩ := h2 hb
                have := (List.getElem?_eq_some_iff.1 hw).1
                omega
              · rcases h1 (ha.resolve_right hb) with ⟨ch, hc, hx⟩ | ⟨j, rfl, hj⟩
                · exact hq.chans.2 ch hc x hx
                · have := hch j hj
                  omega
            have hne : l ≠ [] := by
              by_cases hb : ByWindow c o q
              · obtain ⟨js, _, hf⟩ := hJs.2.2 hb
                have := (flex_ok hf).2.2.2.2 hn
                dsimp only at this
                rw [hc] at this
                exact fun h => this (by rw [h])
              · have ha := ha.resolve_right hb
                have hex : ∃ x, NumOk o q x := by
                  rcases ha with h | h | ⟨ws, h⟩
                  · obtain ⟨ch, hch⟩ := Option.ne_none_iff_exists'.1 h
                    obtain ⟨x, hx⟩ := List.exists_mem_of_ne_nil ch (fun h => hq.chans.1 (by rw [hch, h]))
                    exact ⟨x, Or.inl ⟨ch, hch, hx⟩⟩
                  · obtain ⟨fs, hfs⟩ := Option.ne_none_iff_exists'.1 h
                    obtain ⟨x, hx⟩ := List.exists_mem_of_ne_nil fs (fun h => hq.freqs (by rw [hfs, h]))
                    have : x ∈ o.freq := by
                      unfold freqReq at p5
                      rw [if_neg (by rw [hn]; exact fun h => Bool.false_ne_true h.1), hfs] at p5
                      dsimp only at p5
                      split at p5
                      · rename_i hall
                        exact List.contains_iff_mem.1 (List.all_eq_true.1 hall x hx)
                      · cases p5
                    obtain ⟨k, hk⟩ := List.mem_iff_getElem?.1 this
                    exact ⟨k, Or.inr ⟨k, rfl, Or.inr (Or.inl ⟨fs, hfs, x, hx, hk⟩)⟩⟩
                  · obtain ⟨w, hw, hw'⟩ := hq.spws hn ws h
                    obtain ⟨k, hk⟩ := List.mem_iff_getElem?.1 hw'
                    exact ⟨k, Or.inr ⟨k, rfl, Or.inr (Or.inr ⟨ws, h, w, hw, hk⟩)⟩⟩
                obtain ⟨x, hx⟩ := hex
                exact List.ne_nil_of_mem ((hlm x).2 ⟨fun _ => hx, fun h => absurd h hb⟩)
            obtain ⟨ps, hps⟩ := positions_some hin
            rw [hps]
            dsimp only
            refine onAxis_fine h3 (fun h => ?_)
            obtain rfl := Option.some.inj h
            exact hne (positions (fun x hx => (hin x hx).1) hps).1
          · rw [w4 ha] at hc
            cases hc
    rw [onAxis_fine h4 hJne] at h
    cases h

end Verif.CalSelect
