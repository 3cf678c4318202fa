import Verif.Select.Result

/-! C34 in terms of `select`, and C35: selections commute and compose. -/
namespace Verif.Select
open Verif.Np Verif.TimeSel
open Verif.Pol (Str)

variable {K D R C : Type} [Field K] [LinearOrder K] [IsStrictOrderedRing K]

/-- C34: a selection that does not raise keeps, on every axis, exactly the requested positions (the three lists are those
that `select_rows_exact` and `select_chans_exact` describe); the result is given by `select_cells`, `select_labels`,
`select_counts` and `select_windows`. -/
theorem select_exact (c : Ctx K) (o : Obj K D R C) (rows : List (Row K D R)) (ht : IsTable o rows)
    (hl : o.ids.length = o.freqs.length) (q : Req K) (ha : Angles c rows q) (o' : Obj K D R C)
    (h : select c o q = .ok o') :
    ∃ ri fi pi, preprocess c o q = .ok (ri, fi, pi) ∧ o' = byIndex o (ri, fi, pi) ∧
      (∀ l, ri = some l → l ≠ [] ∧ l.Pairwise (· < ·) ∧
        ∀ i, i ∈ l ↔ ∃ r, rows[i]? = some r ∧ Meets c rows q i r) ∧ (ri = none ↔ NoRowCriterion q) ∧
      (∀ l, ri = some l → ∀ i ∈ l, i < o.nblts) ∧ (∀ l, fi = some l → ∀ i ∈ l, i < o.freqs.length) ∧
      (∀ l, pi = some l → ∀ i ∈ l, i < o.pols.length) := by
  unfold select at h
  rw [map_ok] at h
  obtain ⟨⟨ri, fi, pi⟩, hp, rfl⟩ := h
  obtain ⟨ps, hr, -, hfi, -, hpi, -⟩ := select_chans_exact c o hl q ri fi pi hp
  obtain ⟨hn, hs⟩ := select_rows_exact c o rows ht q ha ri ps hr
  refine ⟨ri, fi, pi, hp, rfl, hs, hn, ?_, ?_, ?_⟩
  · intro l hl i hi
    obtain ⟨r, hr, -⟩ := ((hs l hl).2.2 i).1 hi
    rw [ht.nblts]
    exact (List.getElem?_eq_some_iff.1 hr).1
  · intro l hl i hi
    obtain ⟨f, hf, -⟩ := ((hfi l hl).2 i).1 hi
    exact (List.getElem?_eq_some_iff.1 hf).1
  · intro l hl i hi
    obtain ⟨f, hf, -⟩ := ((hpi l hl).2 i).1 hi
    exact (List.getElem?_eq_some_iff.1 hf).1

/-- C34, baseline numbers: if the baseline numbers of the object belong to its antennas, the rows kept by a list of
baseline numbers of the object are those with such a number. -/
theorem select_bl_numbers (c : Ctx K) (rows : List (Row K D R)) (hdec : ∀ r ∈ rows, c.decode r.bl = (r.ant1, r.ant2))
    (hinj : ∀ r ∈ rows, ∀ r' ∈ rows, r.ant1 = r'.ant1 → r.ant2 = r'.ant2 → r.bl = r'.bl) (q : Req K) (l : List Int)
    (hq : q.bls = some (.nums l)) (hl : ∀ n ∈ l, ∃ r ∈ rows, r.bl = n) (r : Row K D R) (hr : r ∈ rows) :
    BlOk c rows q r ↔ r.bl ∈ l := by
  unfold BlOk PairOk
  rw [hq]
  simp only [Option.some.injEq, reduceCtorEq, false_implies, implies_true, true_and, BlReq.nums.injEq, forall_eq']
  constructor
  · rintro ⟨n, hn, h | ⟨-, h⟩⟩
    · obtain ⟨r', hr', rfl⟩ := hl n hn
      rw [hdec r' hr'] at h
      rw [hinj r hr r' hr' h.1 h.2]
      exact hn
    · obtain ⟨r', hr', rfl⟩ := hl n hn
      rw [hdec r' hr'] at h
      exact absurd ⟨rfl, rfl⟩ (h r' hr')
  · intro h
    exact ⟨r.bl, h, Or.inl (by rw [hdec r hr]; exact ⟨rfl, rfl⟩)⟩

/-! ### Criteria on values -/

/-- The row belongs to a requested antenna pair in either direction. -/
def BlVal (c : Ctx K) (q : Req K) (r : Row K D R) : Prop :=
  (∀ l, q.bls = some (.tuples l) → ∃ t ∈ l, (r.ant1 = t.1 ∧ r.ant2 = t.2.1) ∨ (r.ant1 = t.2.1 ∧ r.ant2 = t.1)) ∧
  (∀ l, q.bls = some (.nums l) → ∃ n ∈ l, (r.ant1 = (c.decode n).1 ∧ r.ant2 = (c.decode n).2) ∨
    (r.ant1 = (c.decode n).2 ∧ r.ant2 = (c.decode n).1))

/-- The row meets every criterion of a request that has only criteria on values. -/
def ValMeets (c : Ctx K) (q : Req K) (r : Row K D R) : Prop := PcOk c q r ∧ AntOk c q r ∧ BlVal c q r ∧ TimeOk c q r

theorem pairOk_iff (rows : List (Row K D R)) (h : OneWay rows) (a b : Int) (r : Row K D R) (hr : r ∈ rows) :
    PairOk rows a b r ↔ (r.ant1 = a ∧ r.ant2 = b) ∨ (r.ant1 = b ∧ r.ant2 = a) := by
  unfold PairOk
  constructor
  · rintro (h1 | ⟨h1, -⟩)
    · exact Or.inl h1
    · exact Or.inr h1
  · rintro (h1 | h1)
    · exact Or.inl h1
    · by_cases hex : ∃ r' ∈ rows, r'.ant1 = a ∧ r'.ant2 = b
      · obtain ⟨r', hr', h2⟩ := hex
        have := h r hr r' hr' (by rw [h1.1, h2.2]) (by rw [h1.2, h2.1])
        left
        rw [h1.1, h1.2] at this
        subst this
        exact h1
      · refine Or.inr ⟨h1, ?_⟩
        intro r' hr' hc
        exact hex ⟨r', hr', hc⟩

theorem meets_iff (c : Ctx K) (rows : List (Row K D R)) (h1 : OneWay rows) (q : Req K) (hq : RowOnly q) (i : Nat)
    (r : Row K D R) (hr : r ∈ rows) : Meets c rows q i r ↔ ValMeets c q r := by
  unfold Meets ValMeets
  rw [hq.inds]
  simp only [reduceCtorEq, false_implies, implies_true, true_and]
  refine and_congr Iff.rfl (and_congr Iff.rfl (and_congr ?_ Iff.rfl))
  unfold BlOk BlVal
  simp only [pairOk_iff rows h1 _ _ r hr]

theorem rowOnly_pols (c : Ctx K) (o : Obj K D R C) (q : Req K) (hq : RowReq q) (ri : Option (List Nat))
    (ps : Option (List PolReq)) (h : rowInds c o q = .ok (ri, ps)) : ps = none := by
  unfold rowInds at h
  rw [bind_ok] at h; obtain ⟨pc, -, h⟩ := h
  rw [bind_ok] at h; obtain ⟨nums, -, h⟩ := h
  rw [bind_ok] at h; obtain ⟨ants, -, h⟩ := h
  rw [bind_ok] at h; obtain ⟨bl, hbl, h⟩ := h
  rw [bind_ok] at h; obtain ⟨t, -, h⟩ := h
  rw [bind_ok] at h; obtain ⟨r, -, h⟩ := h
  simp only [Except.ok.injEq, Prod.mk.injEq] at h
  obtain ⟨-, rfl⟩ := h
  unfold blStage at hbl
  cases hb : q.bls with
  | none =>
    rw [hb] at hbl
    simp only [Except.ok.injEq] at hbl
    rw [← hbl]; exact hq.pols
  | some b =>
    rw [hb] at hbl
    simp only at hbl
    rw [bind_ok] at hbl; obtain ⟨l, hl, hbl⟩ := hbl
    rw [bind_ok] at hbl; obtain ⟨rs, hrs, hbl⟩ := hbl
    simp only [Except.ok.injEq] at hbl
    have hno : ∀ t ∈ l, t.2.2 = none := by
      cases b with
      | nums m =>
        simp only [blReq] at hl
        split at hl
        · split at hl
          · simp at hl
          · simp only [Except.ok.injEq] at hl
            subst hl
            intro t ht
            obtain ⟨n, -, rfl⟩ := List.mem_map.1 ht
            rfl
        · simp at hl
      | tuples m =>
        simp only [blReq] at hl
        split at hl
        · simp at hl
        split at hl
        · simp at hl
        · simp only [Except.ok.injEq] at hl
          subst hl
          exact hq.bls m hb
    have hnil : ∀ x ∈ rs, x.2 = [] := by
      intro x hx
      obtain ⟨t, htm, he⟩ := forall₂_mem_right (mapM_ok hrs) x hx
      unfold blRows at he
      simp only [hno t htm] at he
      split at he
      · simp only [Except.ok.injEq] at he; rw [← he]; rfl
      · split at he
        · simp only [Except.ok.injEq] at he; rw [← he]
        · simp at he
    have : (rs.flatMap (·.2)).dedup = [] := by
      have : rs.flatMap (·.2) = [] := by
        rw [List.flatMap_eq_nil_iff]; exact hnil
      rw [this]; rfl
    rw [this] at hbl
    simp only [ne_eq, not_true_eq_false, if_false] at hbl
    rw [← hbl]; exact hq.pols

/-- A request with only row criteria: the object is cut along the rows by the positions of the rows that meet them. -/
theorem select_rowOnly (c : Ctx K) (o : Obj K D R C) (rows : List (Row K D R)) (ht : IsTable o rows)
    (hone : OneWay rows) (q : Req K) (ha : Angles c rows q) (hq : RowOnly q) (o' : Obj K D R C)
    (h : select c o q = .ok o') :
    (NoRowCriterion q ∧ o' = o) ∨ ∃ l, o' = takeRows o l ∧ l.Pairwise (· < ·) ∧
      ∀ i, i ∈ l ↔ ∃ r, rows[i]? = some r ∧ ValMeets c q r := by
  unfold select at h
  rw [map_ok] at h
  obtain ⟨⟨ri, fi, pi⟩, hp, rfl⟩ := h
  unfold preprocess at hp
  rw [bind_ok] at hp; obtain ⟨⟨ri', ps⟩, hr, hp⟩ := hp
  have hps := rowOnly_pols c o q hq.toRowReq ri' ps hr
  subst hps
  obtain ⟨hn, hs⟩ := select_rows_exact c o rows ht q ha ri' none hr
  simp only [freqReq, hq.chans, hq.freqs, freqStage, polStage, bind, Except.bind, Except.ok.injEq, Prod.mk.injEq] at hp
  obtain ⟨rfl, rfl, rfl⟩ := hp
  cases hri : ri' with
  | none =>
    left
    exact ⟨hn.1 hri, by simp [byIndex, onAxis]⟩
  | some l =>
    right
    obtain ⟨-, h2, h3⟩ := hs l hri
    refine ⟨l, by simp [byIndex, onAxis], h2, ?_⟩
    intro i
    rw [h3 i]
    apply exists_congr
    intro r
    constructor
    · rintro ⟨hr, hm⟩
      exact ⟨hr, (meets_iff c rows hone q hq i r (List.mem_of_getElem? hr)).1 hm⟩
    · rintro ⟨hr, hm⟩
      exact ⟨hr, (meets_iff c rows hone q hq i r (List.mem_of_getElem? hr)).2 hm⟩

theorem takeRows_takeRows (o : Obj K D R C) (rows : List (Row K D R)) (ht : IsTable o rows) (a b : List Nat)
    (ha : ∀ i ∈ a, i < rows.length) (hb : ∀ j ∈ b, j < a.length) :
    takeRows (takeRows o a) b = takeRows o (pick a b) := by
  have e : ∀ {α : Type} (f : Row K D R → α) (x : List α), x = rows.map f → pick (pick x a) b = pick x (pick a b) := by
    intro α f x hx
    apply pick_pick
    intro i hi
    rw [hx]; simpa using ha i hi
  have ev : (o.vis.map (fun v => pick v a)).map (fun v => pick v b) = o.vis.map (fun v => pick v (pick a b)) := by
    rcases ht.vis with ⟨h1, -⟩ | ⟨v, h1, h2⟩
    · rw [h1]; rfl
    · rw [h1]
      simp only [Option.map_some]
      rw [pick_pick]
      intro i hi
      have := congrArg List.length h2
      simp only [List.length_map] at this
      rw [← this]; exact ha i hi
  unfold takeRows
  simp only [e _ _ ht.ant1, e _ _ ht.ant2, e _ _ ht.bl, e _ _ ht.times, e _ _ ht.lsts, e _ _ ht.pc, e _ _ ht.rest,
    ev, pick_length a b hb]

theorem sorted_pick (a b : List Nat) (ha : a.Pairwise (· < ·)) (hb : b.Pairwise (· < ·)) :
    (pick a b).Pairwise (· < ·) := by
  unfold pick
  refine List.Pairwise.filterMap _ ?_ hb
  intro i j hij x hx y hy
  have hi := List.getElem?_eq_some_iff.1 hx
  have hj := List.getElem?_eq_some_iff.1 hy
  obtain ⟨hi1, hi2⟩ := hi
  obtain ⟨hj1, hj2⟩ := hj
  have := List.pairwise_iff_getElem.1 ha i j hi1 hj1 hij
  omega

theorem oneWay_sub {rows rows' : List (Row K D R)} (h : ∀ r ∈ rows', r ∈ rows) (h1 : OneWay rows) : OneWay rows' :=
  fun r hr r' hr' => h1 r (h r hr) r' (h r' hr')

theorem angles_sub {c : Ctx K} {rows rows' : List (Row K D R)} {q : Req K} (h : ∀ r ∈ rows', r ∈ rows)
    (h1 : Angles c rows q) : Angles c rows' q :=
  fun lo hi e => ⟨(h1 lo hi e).1, (h1 lo hi e).2.1, fun r hr => (h1 lo hi e).2.2 r (h r hr)⟩

theorem mem_pick {α : Type} {l : List α} {inds : List Nat} {x : α} (h : x ∈ pick l inds) : x ∈ l := by
  obtain ⟨i, _, hi⟩ := List.mem_filterMap.1 h
  exact List.mem_of_getElem? hi

/-- Two selections one after the other, by what they keep. -/
theorem select_then (c : Ctx K) (o : Obj K D R C) (rows : List (Row K D R)) (ht : IsTable o rows) (hone : OneWay rows)
    (q q' : Req K) (ha : Angles c rows q) (ha' : Angles c rows q') (hq : RowOnly q) (hq' : RowOnly q')
    (o1 o2 : Obj K D R C) (h1 : select c o q = .ok o1) (h2 : select c o1 q' = .ok o2) :
    (NoRowCriterion q ∧ NoRowCriterion q' ∧ o2 = o) ∨ ∃ l, o2 = takeRows o l ∧ l.Pairwise (· < ·) ∧
      ∀ i, i ∈ l ↔ ∃ r, rows[i]? = some r ∧ ValMeets c q r ∧ ValMeets c q' r := by
  have triv : ∀ q : Req K, NoRowCriterion q → ∀ r : Row K D R, ValMeets c q r := by
    rintro q ⟨-, b, d, e, f, g, h, i, j, k⟩ r
    simp [ValMeets, PcOk, AntOk, BlVal, TimeOk, b, d, e, f, g, h, i, j, k]
  rcases select_rowOnly c o rows ht hone q ha hq o1 h1 with ⟨hn, rfl⟩ | ⟨l, rfl, hs, hm⟩
  · rcases select_rowOnly c o1 rows ht hone q' ha' hq' o2 h2 with ⟨hn', rfl⟩ | ⟨l, rfl, hs, hm⟩
    · exact Or.inl ⟨hn, hn', rfl⟩
    · right
      refine ⟨l, rfl, hs, ?_⟩
      intro i
      rw [hm i]
      exact exists_congr fun r => and_congr Iff.rfl ⟨fun h => ⟨triv q hn r, h⟩, fun h => h.2⟩
  · have hlt : ∀ i ∈ l, i < rows.length := by
      intro i hi
      obtain ⟨r, hr, -⟩ := (hm i).1 hi
      exact (List.getElem?_eq_some_iff.1 hr).1
    have ht1 := takeRows_table o rows ht l hlt
    have hsub : ∀ r ∈ pick rows l, r ∈ rows := fun r hr => mem_pick hr
    rcases select_rowOnly c _ _ ht1 (oneWay_sub hsub hone) q' (angles_sub hsub ha') hq' o2 h2 with
      ⟨hn', rfl⟩ | ⟨l', rfl, hs', hm'⟩
    · right
      refine ⟨l, rfl, hs, ?_⟩
      intro i
      rw [hm i]
      exact exists_congr fun r => and_congr Iff.rfl ⟨fun h => ⟨h, triv q' hn' r⟩, fun h => h.1⟩
    · right
      have hlt' : ∀ j ∈ l', j < l.length := by
        intro j hj
        obtain ⟨r, hr, -⟩ := (hm' j).1 hj
        have := (List.getElem?_eq_some_iff.1 hr).1
        rwa [pick_length rows l hlt] at this
      refine ⟨pick l l', takeRows_takeRows o rows ht l l' hlt hlt', sorted_pick l l' hs hs', ?_⟩
      intro i
      constructor
      · intro hi
        obtain ⟨j, hj, hji⟩ := List.mem_filterMap.1 hi
        obtain ⟨r', hr', hv'⟩ := (hm' j).1 hj
        rw [pick_get rows l hlt, hji] at hr'
        simp only [Option.bind_some] at hr'
        obtain ⟨r, hr, hv⟩ := (hm i).1 (List.mem_of_getElem? hji)
        rw [hr'] at hr
        simp only [Option.some.injEq] at hr
        exact ⟨r', hr', hr ▸ hv, hv'⟩
      · rintro ⟨r, hr, hv, hv'⟩
        obtain ⟨j, hj⟩ := List.mem_iff_getElem?.1 ((hm i).2 ⟨r, hr, hv⟩)
        refine List.mem_filterMap.2 ⟨j, (hm' j).2 ⟨r, ?_, hv'⟩, hj⟩
        rw [pick_get rows l hlt, hj]
        exact hr

theorem noRow_time (c : Ctx K) (o : Obj K D R C) (q : Req K) (t1 : q.times.times = none) (t2 : q.times.timeRange = none)
    (t3 : q.times.lsts = none) (t4 : q.times.lstRange = none) :
    selectTimes c.P ⟨o.times, none, o.lsts, none⟩ c.timeTols c.lstTols q.times = .ok none := by
  rcases hqt : q.times with ⟨x1, x2, x3, x4⟩
  rw [hqt] at t1 t2 t3 t4
  simp only at t1 t2 t3 t4
  subst t1; subst t2; subst t3; subst t4
  rfl

theorem noRow_inds (c : Ctx K) (o : Obj K D R C) (q : Req K) (h : NoRowCriterion q) :
    rowInds c o q = .ok (none, q.pols) := by
  obtain ⟨a, b, d, e, f, g, t1, t2, t3, t4⟩ := h
  simp [rowInds, pcReq, antReq, antStage, blStage, timeStage, noRow_time c o q t1 t2 t3 t4, finalRows, a, b, d, e, f, g, bind,
    Except.bind, joinOpt, pcStage]

/-- A request without any criterion changes nothing. -/
theorem select_nothing (c : Ctx K) (o o' : Obj K D R C) (q : Req K) (h : NoRowCriterion q) (hq : RowOnly q)
    (hs : select c o q = .ok o') : o' = o := by
  have hp : preprocess c o q = .ok (none, none, none) := by
    simp [preprocess, noRow_inds c o q h, freqReq, freqStage, polStage, hq.freqs, hq.chans, hq.pols, bind, Except.bind]
  unfold select at hs
  rw [hp] at hs
  simp only [Except.map, Except.ok.injEq] at hs
  rw [← hs]; rfl

/-- C35: two selections by row criteria give the same object in either order. -/
theorem select_commute_partial (c : Ctx K) (o : Obj K D R C) (rows : List (Row K D R)) (ht : IsTable o rows)
    (hone : OneWay rows) (q q' : Req K) (ha : Angles c rows q) (ha' : Angles c rows q') (hq : RowOnly q)
    (hq' : RowOnly q') (o1 o12 o2 o21 : Obj K D R C) (h1 : select c o q = .ok o1) (h12 : select c o1 q' = .ok o12)
    (h2 : select c o q' = .ok o2) (h21 : select c o2 q = .ok o21) : o12 = o21 := by
  rcases select_then c o rows ht hone q q' ha ha' hq hq' o1 o12 h1 h12 with ⟨hn, hn', rfl⟩ | ⟨l, rfl, hs, hm⟩
  · rw [select_nothing c _ _ q hn hq h21, select_nothing c _ _ q' hn' hq' h2]
  · rcases select_then c o rows ht hone q' q ha' ha hq' hq o2 o21 h2 h21 with ⟨hn', hn, rfl⟩ | ⟨l', rfl, hs', hm'⟩
    · rw [select_nothing c _ _ q' hn' hq' h12, select_nothing c _ _ q hn hq h1]
    · have : l = l' := by
        apply strictSorted_ext hs hs'
        intro i
        rw [hm i, hm' i]
        exact exists_congr fun r => and_congr Iff.rfl and_comm
      rw [this]

/-- A request that only has row criteria computes only row positions. -/
theorem rowReq_pre (c : Ctx K) (o : Obj K D R C) (q : Req K) (hq : RowReq q) (o' : Obj K D R C)
    (h : select c o q = .ok o') : ∃ ri, rowInds c o q = .ok (ri, none) ∧ o' = onAxis takeRows o ri := by
  unfold select at h
  rw [map_ok] at h
  obtain ⟨⟨ri, fi, pi⟩, hp, rfl⟩ := h
  unfold preprocess at hp
  rw [bind_ok] at hp; obtain ⟨⟨ri', ps⟩, hr, hp⟩ := hp
  have hps := rowOnly_pols c o q hq ri' ps hr
  subst hps
  simp only [freqReq, hq.chans, hq.freqs, freqStage, polStage, bind, Except.bind, Except.ok.injEq, Prod.mk.injEq] at hp
  obtain ⟨rfl, rfl, rfl⟩ := hp
  exact ⟨ri', hr, rfl⟩

/-- The channel and polarization part of `_select_preprocess`. -/
def chanPart (c : Ctx K) (o : Obj K D R C) (q : Req K) (ps : Option (List PolReq)) :
    Except Err (Option (List Nat) × Option (List Nat)) :=
  freqReq o q >>= fun f => freqStage o f >>= fun f => polStage c o ps f

theorem pre_split (c : Ctx K) (o : Obj K D R C) (q : Req K) (ri : Option (List Nat)) (ps : Option (List PolReq))
    (h : rowInds c o q = .ok (ri, ps)) : preprocess c o q = (chanPart c o q ps).map (fun p => (ri, p.1, p.2)) := by
  unfold preprocess chanPart
  rw [h]
  simp only [bind, Except.bind]
  cases freqReq o q with
  | error e => rfl
  | ok f =>
    simp only
    cases freqStage o f with
    | error e => rfl
    | ok f =>
      simp only
      cases polStage c o ps f <;> rfl

theorem rows_both (c : Ctx K) (o : Obj K D R C) (q q' : Req K) (hq : RowReq q) (hq' : NoRowCriterion q')
    (ri : Option (List Nat)) (h : rowInds c o q = .ok (ri, none)) : rowInds c o (both q q') = .ok (ri, q'.pols) := by
  obtain ⟨a, b, d, e, f, g, t1, t2, t3, t4⟩ := hq'
  have hb : both q q' = { q with freqs := q'.freqs, chans := q'.chans, pols := q'.pols } := by
    unfold both
    rw [a, b, d, e, f, g, t1, t2, t3, t4, hq.freqs, hq.chans, hq.pols]
    simp
  rw [hb]
  unfold rowInds at h ⊢
  rw [bind_ok] at h ⊢; obtain ⟨pc, hpc, h⟩ := h
  refine ⟨pc, hpc, ?_⟩
  rw [bind_ok] at h ⊢; obtain ⟨nums, hnums, h⟩ := h
  refine ⟨nums, hnums, ?_⟩
  rw [bind_ok] at h ⊢; obtain ⟨ants, hants, h⟩ := h
  refine ⟨ants, hants, ?_⟩
  rw [bind_ok] at h ⊢; obtain ⟨bl, hbl, h⟩ := h
  refine ⟨(bl.1, q'.pols), ?_, ?_⟩
  · unfold blStage at hbl ⊢
    cases hbs : q.bls with
    | none =>
      rw [hbs] at hbl
      simp only [Except.ok.injEq] at hbl
      rw [← hbl]
    | some b =>
      rw [hbs] at hbl
      simp only at hbl ⊢
      rw [bind_ok] at hbl ⊢; obtain ⟨l, hl, hbl⟩ := hbl
      rw [bind_ok] at hbl; obtain ⟨rs, hrs, hbl⟩ := hbl
      have hl' : blReq c o b q'.pols.isSome = .ok l ∧ ∀ t ∈ l, t.2.2 = none := by
        cases b with
        | nums m =>
          refine ⟨hl, ?_⟩
          simp only [blReq] at hl
          split at hl
          · split at hl
            · simp at hl
            · simp only [Except.ok.injEq] at hl
              subst hl
              intro t ht
              obtain ⟨n, -, rfl⟩ := List.mem_map.1 ht
              rfl
          · simp at hl
        | tuples m =>
          simp only [blReq] at hl ⊢
          by_cases hm : m = []
          · rw [if_pos hm] at hl; simp at hl
          rw [if_neg hm] at hl ⊢
          have hno := hq.bls m hbs
          have hall : m.all (fun t => t.2.2.isSome) = false := by
            obtain ⟨t, ht⟩ := List.exists_mem_of_ne_nil _ hm
            rw [List.all_eq_false]
            exact ⟨t, ht, by simp [hno t ht]⟩
          rw [hall] at hl ⊢
          simp only [Bool.false_and, Bool.false_eq_true, if_false, Except.ok.injEq] at hl ⊢
          exact ⟨hl, hl ▸ hno⟩
      refine ⟨l, hl'.1, ?_⟩
      rw [bind_ok]
      refine ⟨rs, hrs, ?_⟩
      have hnil : ∀ x ∈ rs, x.2 = [] := by
        intro x hx
        obtain ⟨t, htm, he⟩ := forall₂_mem_right (mapM_ok hrs) x hx
        unfold blRows at he
        simp only [hl'.2 t htm] at he
        split at he
        · simp only [Except.ok.injEq] at he; rw [← he]; rfl
        · split at he
          · simp only [Except.ok.injEq] at he; rw [← he]
          · simp at he
      have : rs.flatMap (·.2) = [] := by
        rw [List.flatMap_eq_nil_iff]; exact hnil
      simp only [Except.ok.injEq] at hbl
      rw [← hbl, this]
      simp
  · rw [bind_ok] at h ⊢; obtain ⟨t, ht, h⟩ := h
    refine ⟨t, ht, ?_⟩
    rw [bind_ok] at h ⊢; obtain ⟨r, hr, h⟩ := h
    refine ⟨r, hr, ?_⟩
    simp only [Except.ok.injEq, Prod.mk.injEq] at h ⊢
    exact ⟨h.1, trivial⟩

theorem rows_chans_comm (o : Obj K D R C) (l f : List Nat) :
    takeRows (takeChans o f) l = takeChans (takeRows o l) f := by
  have hv : (o.vis.map (fun v => v.map (fun row => pick row f))).map (fun v => pick v l) =
      (o.vis.map (fun v => pick v l)).map (fun v => v.map (fun row => pick row f)) := by
    cases o.vis with
    | none => rfl
    | some v => simp [pick_map]
  unfold takeRows takeChans
  simp only [hv]

theorem rows_pols_comm (o : Obj K D R C) (l f : List Nat) :
    takeRows (takePols o f) l = takePols (takeRows o l) f := by
  have hv : (o.vis.map (fun v => v.map (fun row => row.map (fun ch => pick ch f)))).map (fun v => pick v l) =
      (o.vis.map (fun v => pick v l)).map (fun v => v.map (fun row => row.map (fun ch => pick ch f))) := by
    cases o.vis with
    | none => rfl
    | some v => simp [pick_map]
  unfold takeRows takePols
  simp only [hv]

theorem byIndex_comm (o : Obj K D R C) (ri fi pi : Option (List Nat)) :
    byIndex (byIndex o (none, fi, pi)) (ri, none, none) = byIndex o (ri, fi, pi) := by
  cases ri with
  | none => rfl
  | some l =>
    cases fi with
    | none =>
      cases pi with
      | none => rfl
      | some p => exact rows_pols_comm o l p
    | some f =>
      cases pi with
      | none => exact rows_chans_comm o l f
      | some p =>
        show takeRows (takePols (takeChans o f) p) l = takePols (takeChans (takeRows o l) f) p
        rw [rows_pols_comm, rows_chans_comm]

/-- C35: a selection of rows and one of channels and polarizations commute, and can be made at once. -/
theorem select_rows_chans (c : Ctx K) (o : Obj K D R C) (q q' : Req K) (hq : RowReq q) (hq' : NoRowCriterion q')
    (o1 o12 o2 : Obj K D R C) (h1 : select c o q = .ok o1) (h12 : select c o1 q' = .ok o12)
    (h2 : select c o q' = .ok o2) : select c o2 q = .ok o12 ∧ select c o (both q q') = .ok o12 := by
  obtain ⟨ri, hri, rfl⟩ := rowReq_pre c o q hq o1 h1
  have hpart : chanPart c (onAxis takeRows o ri) q' q'.pols = chanPart c o q' q'.pols := by cases ri <;> rfl
  unfold select at h12 h2
  rw [pre_split c _ q' none q'.pols (noRow_inds c _ q' hq')] at h12 h2
  rw [hpart] at h12
  cases hcp : chanPart c o q' q'.pols with
  | error e => rw [hcp] at h2; simp [Except.map] at h2
  | ok p =>
    obtain ⟨fi, pi⟩ := p
    rw [hcp] at h2 h12
    simp only [Except.map, Except.ok.injEq] at h2 h12
    subst h2
    have e12 : o12 = byIndex o (ri, fi, pi) := by
      rw [← h12]; rfl
    subst e12
    constructor
    · have hrows : rowInds c (byIndex o (none, fi, pi)) q = .ok (ri, none) := by
        rw [← hri]; cases fi <;> cases pi <;> rfl
      unfold select
      rw [pre_split c _ q ri none hrows]
      have : chanPart c (byIndex o (none, fi, pi)) q none = .ok (none, none) := by
        simp [chanPart, freqReq, freqStage, polStage, hq.freqs, hq.chans, bind, Except.bind]
      rw [this]
      simp only [Except.map, Except.ok.injEq]
      exact byIndex_comm o ri fi pi
    · unfold select
      rw [pre_split c _ (both q q') ri q'.pols (rows_both c o q q' hq hq' ri hri)]
      have hb : chanPart c o (both q q') q'.pols = chanPart c o q' q'.pols := by
        have e1 : (both q q').chans = q'.chans := by simp [both, hq.chans]
        have e2 : (both q q').freqs = q'.freqs := by simp [both, hq.freqs]
        unfold chanPart freqReq
        rw [e1, e2]
      rw [hb, hcp]
      rfl

theorem or_forall {α : Type} {a b : Option α} (h : a = none ∨ b = none) (P : α → Prop) :
    (∀ x, a.or b = some x → P x) ↔ (∀ x, a = some x → P x) ∧ (∀ x, b = some x → P x) := by
  rcases h with rfl | rfl <;> cases ‹Option α› <;> simp

theorem or_forall' {α β : Type} {f : β → α} {a b : Option α} (h : a = none ∨ b = none) (P : β → Prop) :
    (∀ x, a.or b = some (f x) → P x) ↔ (∀ x, a = some (f x) → P x) ∧ (∀ x, b = some (f x) → P x) := by
  rcases h with rfl | rfl <;> cases ‹Option α› <;> simp

theorem or_forall2 {α β γ : Type} {f : β → γ → α} {a b : Option α} (h : a = none ∨ b = none) (P : β → γ → Prop) :
    (∀ x y, a.or b = some (f x y) → P x y) ↔ (∀ x y, a = some (f x y) → P x y) ∧ (∀ x y, b = some (f x y) → P x y) := by
  rcases h with rfl | rfl <;> cases ‹Option α› <;> simp

theorem valMeets_both (c : Ctx K) (q q' : Req K) (hd : Disjoint q q') (r : Row K D R) :
    ValMeets c (both q q') r ↔ ValMeets c q r ∧ ValMeets c q' r := by
  have h1 : PcOk c (both q q') r ↔ PcOk c q r ∧ PcOk c q' r := by
    simp only [PcOk, both]
    rw [or_forall hd.pcIds, or_forall hd.catNames]; tauto
  have h2 : AntOk c (both q q') r ↔ AntOk c q r ∧ AntOk c q' r := by
    simp only [AntOk, both]
    rw [or_forall hd.antNums, or_forall hd.antNames]; tauto
  have h3 : BlVal c (both q q') r ↔ BlVal c q r ∧ BlVal c q' r := by
    simp only [BlVal, both]
    rw [or_forall' hd.bls, or_forall' hd.bls]; tauto
  have h4 : TimeOk c (both q q') r ↔ TimeOk c q r ∧ TimeOk c q' r := by
    simp only [TimeOk, both]
    rw [or_forall hd.times, or_forall2 (f := fun lo hi => [lo, hi]) hd.timeRange, or_forall hd.lsts,
      or_forall2 (f := fun lo hi => [lo, hi]) hd.lstRange]
    tauto
  unfold ValMeets
  rw [h1, h2, h3, h4]
  tauto

/-- C35: giving two row criteria at once is the same as giving them one after the other. -/
theorem select_both_partial (c : Ctx K) (o : Obj K D R C) (rows : List (Row K D R)) (ht : IsTable o rows)
    (hone : OneWay rows) (q q' : Req K) (hd : Disjoint q q') (ha : Angles c rows q) (ha' : Angles c rows q')
    (hq : RowOnly q) (hq' : RowOnly q') (o1 o12 ob : Obj K D R C)
    (h1 : select c o q = .ok o1) (h12 : select c o1 q' = .ok o12) (hb : select c o (both q q') = .ok ob) : ob = o12 := by
  have hrb : RowOnly (both q q') := by
    refine ⟨⟨?_, ?_, ?_, ?_⟩, by simp [both, hq.inds, hq'.inds]⟩
    · simp [both, hq.freqs, hq'.freqs]
    · simp [both, hq.chans, hq'.chans]
    · simp [both, hq.pols, hq'.pols]
    · simp only [both]
      rw [or_forall' hd.bls]
      exact ⟨hq.bls, hq'.bls⟩
  have hab : Angles c rows (both q q') := by
    simp only [Angles, both] at ha ha' ⊢
    rw [or_forall2 (f := fun lo hi => [lo, hi]) hd.lstRange]
    exact ⟨ha, ha'⟩
  have hnb : NoRowCriterion (both q q') → NoRowCriterion q ∧ NoRowCriterion q' := by
    intro hn
    simp only [NoRowCriterion, both, Option.or_eq_none_iff] at hn ⊢
    obtain ⟨⟨a, a'⟩, ⟨b, b'⟩, ⟨d, d'⟩, ⟨e, e'⟩, ⟨f, f'⟩, ⟨g, g'⟩, ⟨i, i'⟩, ⟨j, j'⟩, ⟨k, k'⟩, l, l'⟩ := hn
    exact ⟨⟨a, b, d, e, f, g, i, j, k, l⟩, a', b', d', e', f', g', i', j', k', l'⟩
  by_cases hne : NoRowCriterion q ∧ NoRowCriterion q'
  · rw [select_nothing c _ _ q' hne.2 hq' h12, select_nothing c _ _ q hne.1 hq h1]
    refine select_nothing c _ _ (both q q') ?_ hrb hb
    obtain ⟨⟨a, b, d, e, f, g, i, j, k, l⟩, a', b', d', e', f', g', i', j', k', l'⟩ := hne
    simp only [NoRowCriterion, both, Option.or_eq_none_iff]
    exact ⟨⟨a, a'⟩, ⟨b, b'⟩, ⟨d, d'⟩, ⟨e, e'⟩, ⟨f, f'⟩, ⟨g, g'⟩, ⟨i, i'⟩, ⟨j, j'⟩, ⟨k, k'⟩, l, l'⟩
  rcases select_rowOnly c o rows ht hone _ hab hrb ob hb with ⟨hn, -⟩ | ⟨l, rfl, hs, hm⟩
  · exact absurd (hnb hn) hne
  · rcases select_then c o rows ht hone q q' ha ha' hq hq' o1 o12 h1 h12 with ⟨hn, hn', -⟩ | ⟨l', rfl, hs', hm'⟩
    · exact absurd ⟨hn, hn'⟩ hne
    · have : l = l' := by
        apply strictSorted_ext hs hs'
        intro i
        rw [hm i, hm' i]
        exact exists_congr fun r => and_congr Iff.rfl (valMeets_both c q q' hd r)
      rw [this]

end Verif.Select
