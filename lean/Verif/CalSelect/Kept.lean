import Verif.CalSelect.Props

/-! What a selection that succeeds keeps. -/
namespace Verif.CalSelect
open Verif.Np Verif.FreqSort Verif.CalAdd

variable {K R V Q : Type} [Field K] [LinearOrder K]

/-- The positions that a selection keeps on the axes of antennas, times, channels, windows and Jones components. -/
structure Kept (c : Ctx K R) (o : Obj K R V Q) (q : Req K) (A T F W J : List Nat) : Prop where
  ants : Picks A o.ants.length (fun i => ∃ x, o.ants[i]? = some x ∧ AntOk c q x)
  times : Picks T o.times.length (fun i => ∃ r, o.times[i]? = some r ∧ TimeOk c o q i r)
  chans : o.wide = false → Picks F o.ids.length (fun i => (ChansAsked o q → ChanOk o q i) ∧
    (ByWindow c o q → ∃ k, WinAsked c o q k ∧ o.spws[k]? = o.ids[i]?))
  spws : o.wide = false → Picks W o.spws.length (fun k => (ChansAsked o q ∨ ByWindow c o q) → ∃ i ∈ F, o.ids[i]? = o.spws[k]?)
  wide : o.wide = true → F = List.range o.ids.length ∧ Picks W o.spws.length (fun k =>
    (∀ ws, SpwsAsked o q ws → ∃ w ∈ ws, o.spws[k]? = some w) ∧ (ByWindow c o q → WinAsked c o q k))
  jones : Picks J o.jones.length (fun j => q.jones = none ∨ ByWindow c o q ∨ ∃ n, Asked c q n ∧ o.jones[j]? = some n)

omit [Field K] [LinearOrder K] in
theorem onAxis_ok {f : Obj K R V Q → List Nat → Obj K R V Q} {r : Obj K R V Q × Option Err} {l : Option (List Nat)} {o' : Obj K R V Q}
    (h : onAxis f r l = (o', none)) : r.2 = none ∧ (l = none → o' = r.1) ∧ ∀ x, l = some x → o' = f r.1 x := by
  unfold onAxis at h
  split at h
  · rename_i e he
    rw [h] at he
    cases he
  · rename_i he
    rw [h]
    exact ⟨rfl, fun _ => rfl, fun x h => nomatch h⟩
  · cases h
  · rename_i i l he
    cases h
    exact ⟨he, (fun h => nomatch h), (fun x h => by cases h; rfl)⟩

theorem mem_fancy {α : Type} {L : List α} {l : List Nat} {x : α} : x ∈ fancy L l ↔ ∃ i ∈ l, L[i]? = some x := by
  unfold fancy
  rw [List.mem_filterMap]

theorem fancy_sorted {L l : List Nat} (hL : L.Pairwise (· < ·)) (hl : l.Pairwise (· < ·)) : (fancy L l).Pairwise (· < ·) := by
  unfold fancy
  refine List.Pairwise.filterMap _ ?_ hl
  intro i j hij x hx y hy
  obtain ⟨hi, rfl⟩ := List.getElem?_eq_some_iff.1 hx
  obtain ⟨hj, rfl⟩ := List.getElem?_eq_some_iff.1 hy
  exact List.pairwise_iff_getElem.1 hL i j hi hj hij

theorem fancy_range_left (n : Nat) (l : List Nat) (h : ∀ i ∈ l, i < n) : fancy (List.range n) l = l := by
  induction l with
  | nil => rfl
  | cons i l ih =>
    have hi := h i List.mem_cons_self
    rw [fancy_cons (List.getElem?_range hi), ih (fun j hj => h j (List.mem_cons_of_mem _ hj))]

theorem pos_nonneg {n : Nat} {x : Int} {k : Nat} (hx : 0 ≤ x) (h : pos n x = some k) : x = k ∧ k < n := by
  unfold pos at h
  rw [if_pos hx] at h
  split at h
  · rename_i hlt
    obtain rfl := Option.some.inj h
    omega
  · cases h

theorem positions {n : Nat} : ∀ {l : List Int} {ps : List Nat}, (∀ x ∈ l, 0 ≤ x) → l.mapM (pos n) = some ps →
    l = ps.map (fun i : Nat => (i : Int)) ∧ ∀ i ∈ ps, i < n := by
  intro l
  induction l with
  | nil =>
    intro ps _ h
    cases h
    simp
  | cons x l ih =>
    intro ps hx h
    rw [List.mapM_cons] at h
    cases hp : pos n x with
    | none => rw [hp] at h; cases h
    | some k =>
      rw [hp] at h
      cases hl : l.mapM (pos n) with
      | none => rw [hl] at h; cases h
      | some ks =>
        rw [hl] at h
        cases h
        obtain ⟨h1, h2⟩ := ih (fun y hy => hx y (List.mem_cons_of_mem _ hy)) hl
        obtain ⟨h3, h4⟩ := pos_nonneg (hx x List.mem_cons_self) hp
        refine ⟨by rw [h3, h1]; simp, fun i hi => ?_⟩
        rcases List.mem_cons.1 hi with rfl | hi
        · exact h4
        · exact h2 i hi

omit [Field K] [LinearOrder K] in
theorem flex_ok {o : Obj K R V Q} {js : List Nat} {ch : Option (List Int)} {sp : Option (List Nat)} {r : Option (List Int) × Option (List Nat)}
    (h : flexStage o js ch sp = .ok r) : r.2 = some (meet js sp) ∧ (o.wide = true → r.1 = ch) ∧
      (o.wide = false → r.1 = some (meet ((whereIdx (fun w => (fancy o.spws js).contains w) o.ids).map (fun i : Nat => (i : Int))) ch)) ∧
      r.2 ≠ some [] ∧ (o.wide = false → r.1 ≠ some []) := by
  unfold flexStage at h
  dsimp only at h
  generalize hc : (if o.wide = true then ch
    else some (meet ((whereIdx (fun w => (fancy o.spws js).contains w) o.ids).map (fun i : Nat => (i : Int))) ch)) = x at h
  by_cases h0 : meet js sp = [] ∨ o.wide = false ∧ x = some []
  · rw [if_pos h0] at h
    cases h
  · rw [if_neg h0] at h
    have h := Except.ok.inj h
    subst h
    refine ⟨rfl, fun hw => ?_, fun hw => ?_, fun h => h0 (Or.inl (Option.some.inj h)), fun hw h => h0 (Or.inr ⟨hw, h⟩)⟩
    · rw [if_pos hw] at hc
      exact hc.symm
    · rw [if_neg (by rw [hw]; exact Bool.false_ne_true)] at hc
      exact hc.symm

theorem preprocess_ok {c : Ctx K R} {o : Obj K R V Q} {q : Req K} {i : Inds} (h : preprocess c o q = .ok i) :
    ∃ nums s f f', antReq c q = .ok nums ∧ antStage o nums = .ok i.ants ∧ timeStage c o q = .ok i.times ∧ spwStage o q = .ok s ∧
      freqReq o q s.1 = .ok f ∧ freqStage o f = .ok f' ∧ jonesStage c o q f' s.2 = .ok (i.chans, i.spws, i.jones) := by
  unfold preprocess at h
  cases h1 : antReq c q with
  | error e => rw [h1] at h; cases h
  | ok nums =>
    rw [h1] at h
    cases h2 : antStage o nums with
    | error e => simp [h2, bind, Except.bind] at h
    | ok a =>
      cases h3 : timeStage c o q with
      | error e => simp [h2, h3, bind, Except.bind] at h
      | ok t =>
        cases h4 : spwStage o q with
        | error e => simp [h2, h3, h4, bind, Except.bind] at h
        | ok s =>
          cases h5 : freqReq o q s.1 with
          | error e => simp [h2, h3, h4, h5, bind, Except.bind] at h
          | ok f =>
            cases h6 : freqStage o f with
            | error e => simp [h2, h3, h4, h5, h6, bind, Except.bind] at h
            | ok f' =>
              cases h7 : jonesStage c o q f' s.2 with
              | error e => simp [h2, h3, h4, h5, h6, h7, bind, Except.bind] at h
              | ok j =>
                simp only [h2, h3, h4, h5, h6, h7, bind, Except.bind, Except.ok.injEq] at h
                subst h
                exact ⟨nums, s, f, f', rfl, h2, rfl, rfl, h5, h6, h7⟩

/-- Channels and windows of a narrow-band object: the numbers of channels and the positions of windows. -/
theorem narrow_inds {c : Ctx K R} {o : Obj K R V Q} {q : Req K} {i : Inds} {s : Option (List Int) × Option (List Nat)} {f f' : Option (List Int)}
    (hfit : Fits o) (hn : o.wide = false) (h1 : spwStage o q = .ok s) (h2 : freqReq o q s.1 = .ok f) (h3 : freqStage o f = .ok f')
    (h4 : jonesStage c o q f' s.2 = .ok (i.chans, i.spws, i.jones)) :
    (∀ k, k ∈ eff o.spws.length i.spws ↔ k < o.spws.length ∧ (ByWindow c o q → WinAsked c o q k)) ∧ (eff o.spws.length i.spws).Pairwise (· < ·) ∧
    ((ChansAsked o q ∨ ByWindow c o q) → ∃ l, i.chans = some l ∧ l.Pairwise (· < ·) ∧ ∀ x, x ∈ l ↔ (ChansAsked o q → NumOk o q x) ∧
      (ByWindow c o q → ∃ n : Nat, x = n ∧ ∃ w, o.ids[n]? = some w ∧ ∃ k, WinAsked c o q k ∧ o.spws[k]? = some w)) ∧
    (¬ (ChansAsked o q ∨ ByWindow c o q) → i.chans = none) := by
  obtain ⟨e1, e2, e3⟩ := chans_spec hn h1 h2 h3
  obtain ⟨_, j1, j2⟩ := jones_spec h4
  rw [e1] at j1 j2
  by_cases hb : ByWindow c o q
  · obtain ⟨js, hjs, hf⟩ := j2 hb
    obtain ⟨hsp, _, hch, _⟩ := flex_ok hf
    have hch := hch hn
    dsimp only at hsp hch
    rw [hsp, hch]
    refine ⟨fun k => ?_, unique_sorted js, fun _ => ⟨_, rfl, meet_sorted _ _, fun x => ?_⟩, fun h => absurd (Or.inr hb) h⟩
    · show k ∈ unique js ↔ _
      rw [mem_unique, hjs k]
      constructor
      · intro h
        obtain ⟨fj, n, h5, h6, _⟩ := id h
        refine ⟨?_, fun _ => h⟩
        rw [← hfit.flex fj h5]
        exact (List.getElem?_eq_some_iff.1 h6).1
      · exact fun h => h.2 hb
    · rw [mem_meet, mem_whereInt]
      have hw : (∃ n : Nat, x = n ∧ ∃ y, o.ids[n]? = some y ∧ (fancy o.spws js).contains y = true) ↔
          ∃ n : Nat, x = n ∧ ∃ w, o.ids[n]? = some w ∧ ∃ k, WinAsked c o q k ∧ o.spws[k]? = some w := by
        refine exists_congr fun n => and_congr_right fun _ => exists_congr fun w => and_congr_right fun _ => ?_
        rw [List.contains_iff_mem, mem_fancy]
        exact exists_congr fun k => and_congr_left fun _ => hjs k
      rw [hw]
      constructor
      · rintro ⟨h5, h6⟩
        refine ⟨fun ha => ?_, fun _ => h5⟩
        obtain ⟨l, hl, _, hm⟩ := e2 ha
        exact (hm x).1 (h6 l hl)
      · rintro ⟨h5, h6⟩
        refine ⟨h6 hb, fun l hl => ?_⟩
        by_cases ha : ChansAsked o q
        · obtain ⟨l', hl', _, hm⟩ := e2 ha
          rw [hl] at hl'
          obtain rfl := Option.some.inj hl'
          exact (hm x).2 (h5 ha)
        · rw [e3 ha] at hl
          cases hl
  · obtain ⟨j3, j4⟩ := j1 hb
    dsimp only at j3 j4
    rw [j3, j4]
    refine ⟨fun k => ?_, List.pairwise_lt_range, fun h => ?_, fun h => e3 (fun ha => h (Or.inl ha))⟩
    · show k ∈ List.range _ ↔ _
      rw [List.mem_range]
      exact ⟨fun h => ⟨h, fun h => absurd h hb⟩, fun h => h.1⟩
    · obtain ⟨l, hl, hs, hm⟩ := e2 (h.resolve_right hb)
      refine ⟨l, hl, hs, fun x => ?_⟩
      rw [hm x]
      exact ⟨fun h => ⟨fun _ => h, fun h => absurd h hb⟩, fun h' => h'.1 (h.resolve_right hb)⟩

/-- Windows of a wide-band object. -/
theorem wide_inds {c : Ctx K R} {o : Obj K R V Q} {q : Req K} {i : Inds} {s : Option (List Int) × Option (List Nat)} {f f' : Option (List Int)}
    (hfit : Fits o) (hw : o.wide = true) (h1 : spwStage o q = .ok s) (h2 : freqReq o q s.1 = .ok f) (h3 : freqStage o f = .ok f')
    (h4 : jonesStage c o q f' s.2 = .ok (i.chans, i.spws, i.jones)) :
    i.chans = none ∧ Picks (eff o.spws.length i.spws) o.spws.length (fun k =>
      (∀ ws, SpwsAsked o q ws → ∃ w ∈ ws, o.spws[k]? = some w) ∧ (ByWindow c o q → WinAsked c o q k)) := by
  obtain ⟨rfl, hp⟩ := spws_spec hw h1 h2 h3
  obtain ⟨_, j1, j2⟩ := jones_spec h4
  by_cases hb : ByWindow c o q
  · obtain ⟨js, hjs, hf⟩ := j2 hb
    obtain ⟨hsp, hch, _⟩ := flex_ok hf
    have hch := hch hw
    dsimp only at hsp hch
    refine ⟨hch, ?_⟩
    rw [hsp]
    refine ⟨meet_sorted _ _, fun k => ?_⟩
    show k ∈ meet _ _ ↔ _
    rw [mem_meet, hjs k]
    have hlt : WinAsked c o q k → k < o.spws.length := by
      rintro ⟨fj, n, h5, h6, _⟩
      rw [← hfit.flex fj h5]
      exact (List.getElem?_eq_some_iff.1 h6).1
    have hm : k < o.spws.length → ((∀ m', s.2 = some m' → k ∈ m') ↔ k ∈ eff o.spws.length s.2) := by
      intro hk
      cases s.2 with
      | none => exact ⟨fun _ => List.mem_range.2 hk, fun _ m h => nomatch h⟩
      | some m => exact ⟨fun h => h m rfl, fun h m' e => Option.some.inj e ▸ h⟩
    constructor
    · rintro ⟨h5, h6⟩
      exact ⟨hlt h5, ((hp.mem k).1 ((hm (hlt h5)).1 h6)).2, fun _ => h5⟩
    · rintro ⟨h5, h6, h7⟩
      exact ⟨h7 hb, (hm h5).2 ((hp.mem k).2 ⟨h5, h6⟩)⟩
  · obtain ⟨j3, j4⟩ := j1 hb
    dsimp only at j3 j4
    rw [j3, j4]
    refine ⟨rfl, hp.sorted, fun k => ?_⟩
    rw [hp.mem k]
    exact ⟨fun h => ⟨h.1, h.2, fun h => absurd h hb⟩, fun h => ⟨h.1, h.2.1⟩⟩

/-- What a selection keeps, with the positions that `_select_preprocess` found. -/
theorem kept_inds {c : Ctx K R} {o o' : Obj K R V Q} {q : Req K} {i : Inds} (hfit : Fits o) (hnd : o.spws.Nodup)
    (hch : ∀ ch, q.chans = some ch → ∀ x ∈ ch, 0 ≤ x) (hp : preprocess c o q = .ok i) (h : byIndex o i = (o', none)) :
    ∃ F W, Kept c o q (eff o.ants.length i.ants) (eff o.times.length i.times) F W (eff o.jones.length i.jones) ∧
      Cut o o' (eff o.ants.length i.ants) (eff o.times.length i.times) F W (eff o.jones.length i.jones) ∧
      (o.wide = true → i.chans = none ∧ W = eff o.spws.length i.spws) ∧
      (o.wide = false → (i.chans = none → F = List.range o.ids.length) ∧ ∀ l, i.chans = some l → l = F.map (fun k : Nat => (k : Int))) := by
  obtain ⟨nums, s, f, f', p1, p2, p3, p4, p5, p6, p7⟩ := preprocess_ok hp
  have hA := ants_spec p1 p2
  have hT := times_spec p3
  have hJ := (jones_spec p7).1
  dsimp only at hJ
  unfold byIndex at h
  obtain ⟨k1, k2, k3⟩ := onAxis_ok h
  generalize hr4 : chanAxis (spwAxis (onAxis takeTimes (onAxis takeAnts (o, none) i.ants) i.times) i.spws) i.chans = r4 at k1 k2 k3
  obtain ⟨o4, e4⟩ := r4
  obtain rfl : e4 = none := k1
  -- antennas and times
  have front : ∀ o3, spwAxis (onAxis takeTimes (onAxis takeAnts (o, none) i.ants) i.times) i.spws = (o3, none) → (∀ k ∈ eff o.spws.length i.spws, k < o.spws.length) →
      Cut o o3 (eff o.ants.length i.ants) (eff o.times.length i.times) (List.range o.ids.length) (eff o.spws.length i.spws) (List.range o.jones.length) := by
    intro o3 h3 hlt
    generalize hr2 : onAxis takeTimes (onAxis takeAnts (o, none) i.ants) i.times = r2 at h3
    obtain ⟨o2, e2⟩ := r2
    have he2 : e2 = none := by
      unfold spwAxis at h3
      dsimp only at h3
      split at h3
      · rfl
      · exact congrArg Prod.snd h3
    subst he2
    obtain ⟨l1, l2, l3⟩ := onAxis_ok hr2
    generalize hr1 : onAxis takeAnts (o, none) i.ants = r1 at l1 l2 l3
    obtain ⟨o1, e1⟩ := r1
    obtain rfl : e1 = none := l1
    obtain ⟨_, m2, m3⟩ := onAxis_ok hr1
    dsimp only at l2 l3 m2 m3
    have c0 := cut_refl o hfit
    have c1 : Cut o o1 (eff o.ants.length i.ants) (List.range o.times.length) (List.range o.ids.length) (List.range o.spws.length) (List.range o.jones.length) := by
      cases ha : i.ants with
      | none =>
        rw [m2 ha]
        exact c0
      | some l =>
        rw [m3 l ha]
        rw [ha] at hA
        have := cut_ants c0 l (fun j hj => by simpa using hA.lt j hj) (fun j hj => List.mem_range.1 hj)
        rwa [fancy_range_left _ l hA.lt] at this
    have c2 : Cut o o2 (eff o.ants.length i.ants) (eff o.times.length i.times) (List.range o.ids.length) (List.range o.spws.length) (List.range o.jones.length) := by
      cases ht : i.times with
      | none =>
        rw [l2 ht]
        exact c1
      | some l =>
        rw [l3 l ht]
        rw [ht] at hT
        have := cut_times c1 l (fun j hj => by simpa using hT.lt j hj) (fun j hj => List.mem_range.1 hj)
        rwa [fancy_range_left _ l hT.lt] at this
    unfold spwAxis at h3
    dsimp only at h3
    cases hs : i.spws with
    | none =>
      rw [hs] at h3
      cases h3
      exact c2
    | some l =>
      rw [hs] at h3
      cases h3
      rw [hs] at hlt
      have := cut_spws c2 hfit l (fun j hj => by simpa using hlt j hj) (fun j hj => List.mem_range.1 hj)
      rwa [fancy_range_left _ l hlt] at this
  -- Jones components at the end
  have back : ∀ F W, Cut o o4 (eff o.ants.length i.ants) (eff o.times.length i.times) F W (List.range o.jones.length) →
      Cut o o' (eff o.ants.length i.ants) (eff o.times.length i.times) F W (eff o.jones.length i.jones) := by
    intro F W hc
    cases hj : i.jones with
    | none =>
      rw [k2 hj]
      exact hc
    | some l =>
      rw [k3 l hj]
      rw [hj] at hJ
      have := cut_jones hc l (fun j hj => by simpa using hJ.lt j hj) (fun j hj => List.mem_range.1 hj)
      rwa [fancy_range_left _ l hJ.lt] at this
  unfold chanAxis at hr4
  by_cases hw : o.wide = true
  · obtain ⟨w1, w2⟩ := wide_inds hfit hw p4 p5 p6 p7
    rw [w1] at hr4
    exact ⟨_, _, ⟨hA, hT, fun hn => absurd hw (by rw [hn]; exact Bool.false_ne_true), fun hn => absurd hw (by rw [hn]; exact Bool.false_ne_true),
      fun _ => ⟨rfl, w2⟩, hJ⟩, back _ _ (front o4 hr4 w2.lt), fun _ => ⟨w1, rfl⟩, fun hn => absurd hw (by rw [hn]; exact Bool.false_ne_true)⟩
  · have hn : o.wide = false := by simpa using hw
    obtain ⟨w1, w2, w3, w4⟩ := narrow_inds hfit hn p4 p5 p6 p7
    have hlt : ∀ k ∈ eff o.spws.length i.spws, k < o.spws.length := fun k hk => ((w1 k).1 hk).1
    by_cases ha : ChansAsked o q ∨ ByWindow c o q
    · obtain ⟨l, hl, hls, hlm⟩ := w3 ha
      rw [hl] at hr4
      dsimp only at hr4
      generalize hr3 : spwAxis (onAxis takeTimes (onAxis takeAnts (o, none) i.ants) i.times) i.spws = r3 at hr4
      obtain ⟨o3, e3⟩ := r3
      have hnonneg : ∀ x ∈ l, 0 ≤ x := by
        intro x hx
        obtain ⟨h1, h2⟩ := (hlm x).1 hx
        rcases ha with ha | ha
        · rcases h1 ha with ⟨ch, hc, hx⟩ | ⟨j, rfl, _⟩
          · exact hch ch hc x hx
          · exact Int.natCast_nonneg j
        · obtain ⟨j, rfl, _⟩ := h2 ha
          exact Int.natCast_nonneg j
      cases hm : l.mapM (pos o3.ids.length) with
      | none => rw [hm] at hr4; cases hr4
      | some ps =>
        rw [hm] at hr4
        dsimp only at hr4
        obtain ⟨n1, _, n3⟩ := onAxis_ok hr4
        obtain rfl : e3 = none := n1
        have c3 := front o3 hr3 hlt
        have hids : o3.ids.length = o.ids.length := by rw [c3.ids, fancy_range]
        rw [hids] at hm
        obtain ⟨hps, hplt⟩ := positions hnonneg hm
        have hpmem : ∀ j : Nat, j ∈ ps ↔ (j : Int) ∈ l := by
          intro j
          rw [hps, List.mem_map]
          constructor
          · exact fun h => ⟨j, h, rfl⟩
          · rintro ⟨k, hk, e⟩
            exact Int.ofNat.inj e ▸ hk
        have hpsort : ps.Pairwise (· < ·) := by
          rw [hps, List.pairwise_map] at hls
          exact hls.imp (fun h => by simpa using h)
        have c4 := cut_chans c3 hfit hn ps (fun j hj => by simpa using hplt j hj) (fun j hj => List.mem_range.1 hj) hlt
        rw [fancy_range_left _ _ hplt] at c4
        have n3 := n3 ps rfl
        dsimp only at n3
        rw [← n3] at c4
        have hF : Picks ps o.ids.length (fun i => (ChansAsked o q → ChanOk o q i) ∧ (ByWindow c o q → ∃ k, WinAsked c o q k ∧ o.spws[k]? = o.ids[i]?)) := by
          refine ⟨hpsort, fun j => ?_⟩
          rw [hpmem j, hlm]
          constructor
          · rintro ⟨h1, h2⟩
            refine ⟨hplt j ((hpmem j).2 ((hlm j).2 ⟨h1, h2⟩)), fun h => numOk_nat.1 (h1 h), fun h => ?_⟩
            obtain ⟨n, e, w, hw, k, hk, hk'⟩ := h2 h
            obtain rfl := Int.ofNat.inj e
            exact ⟨k, hk, hk'.trans hw.symm⟩
          · rintro ⟨hj, h1, h2⟩
            refine ⟨fun h => numOk_nat.2 (h1 h), fun h => ?_⟩
            obtain ⟨k, hk, hk'⟩ := h2 h
            exact ⟨j, rfl, o.ids[j], List.getElem?_eq_getElem hj, k, hk, hk'.trans (List.getElem?_eq_getElem hj)⟩
        refine ⟨_, _, ⟨hA, hT, fun _ => hF, fun _ => ?_, fun h => absurd h hw, hJ⟩, back _ _ c4, fun h => absurd h hw,
          fun _ => ⟨fun h => (nomatch hl.symm.trans h), fun l' h => (Option.some.inj (hl.symm.trans h)) ▸ hps⟩⟩
        refine ⟨fancy_sorted w2 (whereIdx_sorted _ _), fun k => ?_⟩
        have hmem : k ∈ fancy (eff o.spws.length i.spws) (whereIdx (fun w => (fancy o.ids ps).contains w) (fancy o.spws (eff o.spws.length i.spws))) ↔
            k ∈ eff o.spws.length i.spws ∧ ∃ j ∈ ps, ∃ w, o.ids[j]? = some w ∧ o.spws[k]? = some w := by
          rw [mem_fancy]
          constructor
          · rintro ⟨x, hx, hk⟩
            obtain ⟨w, hw, hc⟩ := mem_whereIdx.1 hx
            obtain ⟨hx', _⟩ := List.getElem?_eq_some_iff.1 hk
            rw [fancy_get _ _ hlt x hx'] at hw
            have e : (eff o.spws.length i.spws)[x] = k := by
              rw [List.getElem?_eq_getElem hx'] at hk
              exact Option.some.inj hk
            rw [e] at hw
            obtain ⟨j, hj, hjw⟩ := mem_fancy.1 (List.contains_iff_mem.1 hc)
            exact ⟨List.mem_of_getElem? hk, j, hj, w, hjw, hw⟩
          · rintro ⟨hk, j, hj, w, hjw, hw⟩
            obtain ⟨x, hx⟩ := List.mem_iff_getElem?.1 hk
            obtain ⟨hx', e⟩ := List.getElem?_eq_some_iff.1 hx
            refine ⟨x, mem_whereIdx.2 ⟨w, ?_, List.contains_iff_mem.2 (mem_fancy.2 ⟨j, hj, hjw⟩)⟩, hx⟩
            rw [fancy_get _ _ hlt x hx', e, hw]
        rw [hmem, w1 k]
        constructor
        · rintro ⟨⟨h1, _⟩, j, hj, w, hjw, hw⟩
          exact ⟨h1, fun _ => ⟨j, hj, hjw.trans hw.symm⟩⟩
        · rintro ⟨h1, h2⟩
          obtain ⟨j, hj, e⟩ := h2 ha
          have hkw := List.getElem?_eq_getElem h1
          refine ⟨⟨h1, fun hb => ?_⟩, j, hj, o.spws[k], e.trans hkw, hkw⟩
          obtain ⟨k', hk', e'⟩ := ((hF.mem j).1 hj).2.2 hb
          have : o.spws[k']? = o.spws[k]? := e'.trans e
          rw [hkw] at this
          obtain ⟨hk'', e''⟩ := List.getElem?_eq_some_iff.1 this
          have := (List.Nodup.getElem_inj_iff hnd).1 e''
          exact this ▸ hk'
    · rw [w4 ha] at hr4
      have c3 := front o4 hr4 hlt
      refine ⟨_, _, ⟨hA, hT, fun _ => ?_, fun _ => ?_, fun h => absurd h hw, hJ⟩, back _ _ c3, fun h => absurd h hw,
        fun _ => ⟨fun _ => rfl, fun l h => (nomatch (w4 ha).symm.trans h)⟩⟩
      · exact picks_range _ (fun j _ => ⟨fun h => absurd (Or.inl h) ha, fun h => absurd (Or.inr h) ha⟩)
      · refine ⟨w2, fun k => ?_⟩
        rw [w1 k]
        exact ⟨fun h => ⟨h.1, fun h => absurd h ha⟩, fun h => ⟨h.1, fun hb => absurd (Or.inr hb) ha⟩⟩

/-- **What a selection keeps.** -/
theorem kept_partial (c : Ctx K R) (o o' : Obj K R V Q) (q : Req K) (hfit : Fits o) (hnd : o.spws.Nodup) (hch : ∀ ch, q.chans = some ch → ∀ x ∈ ch, 0 ≤ x)
    (h : select c o q = (o', none)) : ∃ A T F W J, Kept c o q A T F W J ∧ Cut o o' A T F W J := by
  unfold select at h
  cases hp : preprocess c o q with
  | error e => rw [hp] at h; cases h
  | ok i =>
    rw [hp] at h
    obtain ⟨F, W, hk, hc, _⟩ := kept_inds hfit hnd hch hp h
    exact ⟨_, _, F, W, _, hk, hc⟩

end Verif.CalSelect
