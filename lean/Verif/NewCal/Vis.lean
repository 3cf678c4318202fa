import Verif.NewCal.Props

/-! New calibration objects for visibilities. -/

namespace Verif.NewCal
open Verif.Np
open Verif.NewData (Num timeParams freqParams spwParams inferTimes inferWidths)
open Verif.Pol (Str)

variable {K P D V : Type}

/-! ## Parts of the telescope -/

theorem take_get {α : Type} {l : List α} {idx : List Nat} (h : ∀ i ∈ idx, i < l.length) (k : Nat) :
    (take l idx)[k]? = (idx[k]?).bind (fun i => l[i]?) := by
  induction idx generalizing k with
  | nil => simp [take]
  | cons i idx ih =>
    have hi : l[i]? = some (l[i]'(h i (by simp))) := List.getElem?_eq_getElem _
    have : take l (i :: idx) = l[i]'(h i (by simp)) :: take l idx := by
      unfold take
      rw [List.filterMap_cons, hi]
    rw [this]
    cases k with
    | zero => simp [hi]
    | succ k => simpa using ih (fun j hj => h j (List.mem_cons_of_mem _ hj)) k

theorem take_length {α : Type} {l : List α} {idx : List Nat} (h : ∀ i ∈ idx, i < l.length) : (take l idx).length = idx.length := by
  induction idx with
  | nil => rfl
  | cons i idx ih =>
    have hi : l[i]? = some (l[i]'(h i (by simp))) := List.getElem?_eq_getElem _
    unfold take at ih ⊢
    rw [List.filterMap_cons, hi]
    simp only [List.length_cons]
    rw [ih (fun j hj => h j (List.mem_cons_of_mem _ hj))]

theorem take_map {l : List Int} {idx : List Nat} (h : ∀ i ∈ idx, i < l.length) : take l idx = idx.map (fun i => l.getD i 0) := by
  refine List.ext_getElem? (fun k => ?_)
  rw [take_get h, List.getElem?_map]
  cases hk : idx[k]? with
  | none => rfl
  | some i =>
    have := h i (List.mem_of_getElem? hk)
    simp [List.getD, List.getElem?_eq_getElem this]

theorem sortIdx_lt {l : List Int} : ∀ i ∈ sortIdx l, i < l.length := by
  intro i hi
  simpa using (List.perm_insertionSort _ _).mem_iff.1 hi

theorem range_getD (l : List Int) : (List.range l.length).map (fun i => l.getD i 0) = l := by
  refine List.ext_getElem? (fun k => ?_)
  rw [List.getElem?_map]
  by_cases hk : k < l.length
  · rw [List.getElem?_range hk]
    simp [List.getD, List.getElem?_eq_getElem hk]
  · simp [hk]

/-- The numbers are sorted. -/
theorem take_sort (l : List Int) : take l (sortIdx l) = l.insertionSort (· ≤ ·) := by
  rw [take_map sortIdx_lt]
  unfold sortIdx
  rw [List.map_insertionSort _ (s := fun a b : Int => a ≤ b) (fun i => l.getD i 0) _ (fun _ _ _ _ => Iff.rfl), range_getD]

theorem among_lt {α : Type} [DecidableEq α] {l part : List α} : ∀ i ∈ among l part, i < l.length := by
  intro i hi
  obtain ⟨x, hx, -⟩ := mem_whereIdx.1 hi
  exact (List.getElem?_eq_some_iff.1 hx).1

/-- The antennas of a part: each with its number, name and position, in the order of their numbers. -/
structure Part (t t' : Tel P D) (asked : Nat → Prop) : Prop where
  sorted : t'.numbers.Pairwise (· ≤ ·)
  fits : t'.names.length = t'.numbers.length ∧ t'.pos.length = t'.numbers.length
  same : ∀ (k : Nat) n s p, t'.numbers[k]? = some n → t'.names[k]? = some s → t'.pos[k]? = some p →
    ∃ i : Nat, t.numbers[i]? = some n ∧ t.names[i]? = some s ∧ t.pos[i]? = some p ∧ asked i
  all : ∀ (i : Nat) n, t.numbers[i]? = some n → asked i → n ∈ t'.numbers
  orient : t'.orient = t.orient

theorem restrict_part {t : Tel P D} (ht : TelFits t) {idx : List Nat} (hi : ∀ i ∈ idx, i < t.numbers.length) :
    Part t (restrict t idx) (· ∈ idx) := by
  obtain ⟨h1, h2, -⟩ := ht
  have l0 := take_length hi
  have hs : ∀ i ∈ sortIdx (take t.numbers idx), i < idx.length := fun i h => l0 ▸ sortIdx_lt i h
  have n1 : ∀ i ∈ idx, i < t.names.length := fun i h => h1 ▸ hi i h
  have n2 : ∀ i ∈ idx, i < t.pos.length := fun i h => h2 ▸ hi i h
  have get : ∀ {α : Type} (l : List α), (∀ i ∈ idx, i < l.length) → ∀ (k : Nat),
      (take (take l idx) (sortIdx (take t.numbers idx)))[k]? = ((sortIdx (take t.numbers idx))[k]?.bind (fun j => idx[j]?)).bind (fun i => l[i]?) := by
    intro α l hl k
    rw [take_get (by intro i h; rw [take_length hl]; exact hs i h)]
    cases (sortIdx (take t.numbers idx))[k]? with
    | none => rfl
    | some j => exact take_get hl j
  constructor
  · show (take (take t.numbers idx) (sortIdx (take t.numbers idx))).Pairwise (· ≤ ·)
    rw [take_sort]
    exact List.pairwise_insertionSort _ _
  · show (take (take t.names idx) _).length = (take (take t.numbers idx) _).length ∧ (take (take t.pos idx) _).length = (take (take t.numbers idx) _).length
    rw [take_length sortIdx_lt, take_length (by rw [take_length n1]; exact hs), take_length (by rw [take_length n2]; exact hs)]
    exact ⟨rfl, rfl⟩
  · intro k n s p hn hs' hp
    have hn : (take (take t.numbers idx) (sortIdx (take t.numbers idx)))[k]? = some n := hn
    have hs' : (take (take t.names idx) (sortIdx (take t.numbers idx)))[k]? = some s := hs'
    have hp : (take (take t.pos idx) (sortIdx (take t.numbers idx)))[k]? = some p := hp
    rw [get _ hi] at hn
    rw [get _ n1] at hs'
    rw [get _ n2] at hp
    cases hj : (sortIdx (take t.numbers idx))[k]?.bind (fun j => idx[j]?) with
    | none => rw [hj] at hn; cases hn
    | some i =>
      rw [hj] at hn hs' hp
      refine ⟨i, hn, hs', hp, ?_⟩
      obtain ⟨j, -, hj⟩ := Option.bind_eq_some_iff.1 hj
      exact List.mem_of_getElem? hj
  · intro i n hn hi'
    show n ∈ take (take t.numbers idx) (sortIdx (take t.numbers idx))
    rw [take_sort, (List.perm_insertionSort _ _).mem_iff]
    exact List.mem_filterMap.2 ⟨i, hi', hn⟩
  · rfl

/-- C211: a part of the antennas, by number or name: those that are asked for and exist, each with its name and position, sorted by number. -/
theorem antennas_part {t t' : Tel P D} (ht : TelFits t) {numbers : Option (List Int)} {names : Option (List Str)}
    (h : antennas t numbers names = .ok t') : (numbers = none ∧ names = none ∧ t' = t) ∨
      (∃ l, numbers = some l ∧ names = none ∧ Part t t' (fun i => ∃ n, t.numbers[i]? = some n ∧ n ∈ l)) ∨
      (∃ l, numbers = none ∧ names = some l ∧ Part t t' (fun i => ∃ s, t.names[i]? = some s ∧ s ∈ l)) := by
  cases numbers with
  | none =>
    cases names with
    | none => exact .inl ⟨rfl, rfl, (Except.ok.inj h).symm⟩
    | some l =>
      obtain rfl := Except.ok.inj h
      refine .inr (.inr ⟨l, rfl, rfl, ?_⟩)
      have hp := restrict_part ht (idx := among t.names l) (fun i h => ht.1 ▸ among_lt i h)
      have e : (· ∈ among t.names l) = (fun i => ∃ s, t.names[i]? = some s ∧ s ∈ l) := by
        funext i
        simp [among, mem_whereIdx]
      rw [← e]
      exact hp
  | some l =>
    cases names with
    | some _ => cases h
    | none =>
      obtain rfl := Except.ok.inj h
      refine .inr (.inl ⟨l, rfl, rfl, ?_⟩)
      have hp := restrict_part ht (idx := among t.numbers l) among_lt
      have e : (· ∈ among t.numbers l) = (fun i => ∃ n, t.numbers[i]? = some n ∧ n ∈ l) := by
        funext i
        simp [among, mem_whereIdx]
      rw [← e]
      exact hp

/-- C211: diameters belong to their antennas if the antennas of the telescope are in the order of their numbers. -/
theorem diameters_partial {t : Tel P D} (hn : t.numbers.Pairwise (· ≤ ·)) (hf : TelFits t) {d : List D} (hd : t.diam = some d) {idx : List Nat}
    (hs : idx.Pairwise (· < ·)) (hi : ∀ i ∈ idx, i < t.numbers.length) : ∃ d', (restrict t idx).diam = some d' ∧ d'.length = (restrict t idx).numbers.length ∧
      ∀ (k : Nat) n x, (restrict t idx).numbers[k]? = some n → d'[k]? = some x → ∃ i : Nat, t.numbers[i]? = some n ∧ d[i]? = some x := by
  have hl := hf.2.2 d hd
  have hid : ∀ i ∈ idx, i < d.length := fun i h => hl ▸ hi i h
  have hsort : (take t.numbers idx).Pairwise (· ≤ ·) := by
    rw [take_map hi, List.pairwise_map]
    refine List.Pairwise.imp_of_mem ?_ hs
    intro a b ha hb hab
    have := List.pairwise_iff_getElem.1 hn a b (hi a ha) (hi b hb) hab
    simpa [List.getD, List.getElem?_eq_getElem (hi a ha), List.getElem?_eq_getElem (hi b hb)] using this
  have hnum : (restrict t idx).numbers = take t.numbers idx := by
    show take (take t.numbers idx) (sortIdx (take t.numbers idx)) = _
    rw [take_sort]
    exact hsort.insertionSort_eq
  refine ⟨take d idx, by simp [restrict, hd], ?_, ?_⟩
  · rw [hnum, take_length hi, take_length hid]
  · intro k n x h1 h2
    rw [hnum, take_get hi] at h1
    rw [take_get hid] at h2
    cases hk : idx[k]? with
    | none => rw [hk] at h1; cases h1
    | some i =>
      rw [hk] at h1 h2
      exact ⟨i, h1, h2⟩

/-- C211: two antennas that are not in the order of their numbers, asked for by number, have their diameters exchanged. -/
theorem diameters_counterexample (t : Tel P D) (m n : Int) (x y : D) (hmn : m < n) (hnum : t.numbers = [n, m]) (hd : t.diam = some [x, y]) :
    ∃ t', antennas t (some [n, m]) none = .ok t' ∧ t'.numbers = [m, n] ∧ t'.diam = some [x, y] := by
  refine ⟨_, rfl, ?_, ?_⟩
  · have : among t.numbers [n, m] = [0, 1] := by
      rw [hnum]
      simp [among, whereIdx, List.range_succ]
    rw [this]
    show take (take t.numbers [0, 1]) (sortIdx (take t.numbers [0, 1])) = _
    rw [take_sort, hnum]
    have h : ¬ n ≤ m := not_le.2 hmn
    simp [take, h]
  · have : among t.numbers [n, m] = [0, 1] := by
      rw [hnum]
      simp [among, whereIdx, List.range_succ]
    rw [this]
    simp [restrict, hd, take]

/-! ## Labels of the visibilities -/

section
variable [Field K] [LinearOrder K] [Zero V] [One V]

theorem fromVis_parts {lst : K → K} {overlap : List (K × K) → Bool} {v : Vis K P D} {o : Opts K P D V} {c : Cal K P D V}
    (h : fromVis lst overlap v o = .ok c) : ∃ f t j, visFreqs v o = .ok f ∧ antennas v.tel o.antNumbers o.antNames = .ok t ∧ pickJones v o = .ok j ∧
      new lst overlap
            { tel := { t with orient := o.orient.or t.orient }, style := o.style, jones := j
              times := (visTimeArgs v o).1, ranges := (visTimeArgs v o).2.1, intg := (visTimeArgs v o).2.2
              freqs := f.freqs, freqRange := f.freqRange, calType := some o.calType, width := f.width
              ants := some (visAnts v { t with orient := o.orient.or t.orient } o.ants), ids := f.ids, spws := f.spws
              refAnt := o.refAnt, catalog := o.catalog, empty := o.empty, data := o.data } = .ok c := by
  unfold fromVis at h
  cases h1 : visFreqs v o with
  | error e => rw [h1] at h; cases h
  | ok f =>
    rw [h1] at h
    cases h2 : antennas v.tel o.antNumbers o.antNames with
    | error e => rw [h2] at h; cases h
    | ok t =>
      rw [h2] at h
      dsimp only at h
      split at h
      · cases h
      · cases h3 : pickJones v o with
        | error e => rw [h3] at h; cases h
        | ok j =>
          rw [h3] at h
          exact ⟨f, t, j, rfl, rfl, rfl, h⟩

/-- C211: the telescope is that of the visibilities, or the part of it. -/
theorem vis_telescope {lst : K → K} {overlap : List (K × K) → Bool} {v : Vis K P D} {o : Opts K P D V} {c : Cal K P D V}
    (h : fromVis lst overlap v o = .ok c) : ∃ t, antennas v.tel o.antNumbers o.antNames = .ok t ∧ c.tel = { t with orient := o.orient.or t.orient } := by
  obtain ⟨f, t, j, -, h2, -, hn⟩ := fromVis_parts h
  exact ⟨t, h2, (made _ _ _ _ hn).tel⟩

/-- C211: without times that are given, there is each time of the visibilities once, with the integration time of a row that has it. -/
theorem vis_times {lst : K → K} {overlap : List (K × K) → Bool} {v : Vis K P D} {o : Opts K P D V} {c : Cal K P D V}
    (h : fromVis lst overlap v o = .ok c) (h1 : o.times = none) (h2 : o.ranges = none) (h3 : o.intg = .none) :
    ∃ T l, c.times = some T ∧ c.ranges = none ∧ c.intg = some (.list l) ∧ T.Pairwise (· < ·) ∧ (∀ t, t ∈ T ↔ ∃ r ∈ v.rows, r.1 = t) ∧
      l.length = T.length ∧ ∀ (k : Nat) t x, T[k]? = some t → l[k]? = some x → ∃ r ∈ v.rows, r.1 = t ∧ r.2.1 = x := by
  obtain ⟨f, t, j, -, -, -, hn⟩ := fromVis_parts h
  have e : visTimeArgs v o = (some ((visTimes v).map (·.1)), none, .all ((visTimes v).map (·.2))) := by
    unfold visTimeArgs
    rw [if_neg (by simp [h1, h2, h3, NewData.Num.isNone])]
  have m := made _ _ _ _ hn
  have m1 := m.times
  have m2 := m.ranges
  obtain ⟨l, m3, m4, -, m5, -⟩ := m.intg
  dsimp only at m1 m2 m5
  rw [e] at m1 m2 m5
  obtain rfl := m5 _ rfl
  have e1 : (visTimes v).map (·.1) = unique (v.rows.map (·.1)) := by
    unfold visTimes
    rw [List.map_map]
    exact List.map_id _
  refine ⟨_, _, m1, m2, m3, ?_, ?_, ?_, ?_⟩
  · rw [e1]; exact unique_sorted _
  · intro s
    rw [e1, mem_unique, List.mem_map]
  · simp
  · intro k s x hs hx
    rw [List.getElem?_map] at hs hx
    obtain ⟨p, hp, rfl⟩ := Option.map_eq_some_iff.1 hs
    rw [hp] at hx
    obtain rfl := Option.some.inj hx
    obtain ⟨s, hm, rfl⟩ := List.mem_map.1 (List.mem_of_getElem? hp)
    rw [mem_unique, List.mem_map] at hm
    obtain ⟨r, hr, hrs⟩ := hm
    cases hf : v.rows.find? (fun r => decide (r.1 = s)) with
    | none =>
      have := List.find?_eq_none.1 hf r hr
      simp [hrs] at this
    | some r' =>
      exact ⟨r', List.mem_of_find?_eq_some hf, by simpa using List.find?_some hf, by simp⟩

/-- C211: the antennas are those of the visibilities (or those that are given) that the telescope has, in rising order. -/
theorem vis_ants {lst : K → K} {overlap : List (K × K) → Bool} {v : Vis K P D} {o : Opts K P D V} {c : Cal K P D V}
    (h : fromVis lst overlap v o = .ok c) : c.ants.Pairwise (· < ·) ∧ ∀ n, n ∈ c.ants ↔ n ∈ c.tel.numbers ∧
      match o.ants with
      | some l => n ∈ l
      | none => ∃ r ∈ v.rows, r.2.2.1 = n ∨ r.2.2.2 = n := by
  obtain ⟨f, t, j, -, -, -, hn⟩ := fromVis_parts h
  have m := made _ _ _ _ hn
  rw [m.ants, m.tel]
  dsimp only [Option.getD_some]
  unfold visAnts
  refine ⟨(unique_sorted _).filter _, fun n => ?_⟩
  rw [List.mem_filter, mem_unique, and_comm]
  refine and_congr (by simp) ?_
  cases o.ants with
  | some l => rfl
  | none =>
    simp only [Option.getD_none, List.mem_flatMap, List.mem_cons, List.not_mem_nil, or_false]
    constructor
    · rintro ⟨r, hr, h | h⟩
      · exact ⟨r, hr, .inl h.symm⟩
      · exact ⟨r, hr, .inr h.symm⟩
    · rintro ⟨r, hr, h | h⟩
      · exact ⟨r, hr, .inl h.symm⟩
      · exact ⟨r, hr, .inr h.symm⟩

/-- C211: gains for each channel have the frequencies, widths and windows of the visibilities. Windows that are given are not used. -/
theorem vis_channels {lst : K → K} {overlap : List (K × K) → Bool} {v : Vis K P D} {o : Opts K P D V} {c : Cal K P D V}
    (h : fromVis lst overlap v o = .ok c) (hg : o.calType = .gain) (hw : o.wide = false) :
    c.wide = false ∧ c.calType = .gain ∧ c.freqs = some v.freqs ∧ c.width = some v.width ∧ c.ids = some v.ids ∧ c.freqRange = none ∧
      c.spws.Pairwise (· < ·) ∧ ∀ w, w ∈ c.spws ↔ w ∈ v.ids := by
  obtain ⟨f, t, j, hf, -, -, hn⟩ := fromVis_parts h
  have e : f = ⟨some v.freqs, .all v.width, some v.ids, none, none⟩ := by
    unfold visFreqs at hf
    rw [if_pos ⟨hg, hw⟩] at hf
    split at hf
    · split at hf
      · cases hf
      · exact (Except.ok.inj hf).symm
    · exact (Except.ok.inj hf).symm
  subst e
  have m := made _ _ _ _ hn
  obtain ⟨w, hw1, -, -, hw2⟩ := m.width v.freqs rfl
  refine ⟨m.wide, ?_, m.freqs, ?_, m.ids v.freqs rfl, m.freqRange, m.spws⟩
  · rw [m.kind]; rfl
  · rw [hw1, hw2 _ rfl]

/-- C211: ranges of frequencies that are given are used, for the windows of the visibilities or those that are given. -/
theorem vis_ranges {lst : K → K} {overlap : List (K × K) → Bool} {v : Vis K P D} {o : Opts K P D V} {c : Cal K P D V}
    (h : fromVis lst overlap v o = .ok c) (hg : o.calType = .delay ∨ o.wide = true) {r : List (K × K)} (hr : o.freqRange = some r) :
    c.wide = true ∧ c.freqRange = some r ∧ (o.spws = none → c.spws.Pairwise (· < ·) ∧ ∀ w, w ∈ c.spws ↔ w ∈ v.ids) ∧
      ∀ s, o.spws = some s → c.spws = s := by
  obtain ⟨f, t, j, hf, -, -, hn⟩ := fromVis_parts h
  have hc : ¬ (o.calType = .gain ∧ o.wide = false) := by
    rintro ⟨a, b⟩
    rcases hg with g | g
    · rw [a] at g; cases g
    · rw [b] at g; cases g
  unfold visFreqs at hf
  rw [if_neg hc, hr] at hf
  dsimp only at hf
  obtain rfl := Except.ok.inj hf
  have m := made _ _ _ _ hn
  have ms : c.spws = o.spws.getD (unique v.ids) := m.spws
  refine ⟨m.wide, m.freqRange, ?_, ?_⟩
  · intro hs
    rw [ms, hs]
    exact ⟨unique_sorted _, fun w => mem_unique⟩
  · intro s hs
    rw [ms, hs]
    rfl

/-- C211: solutions for whole windows: each window of the visibilities once, with the lowest and highest frequency of its channels. -/
theorem vis_windows {lst : K → K} {overlap : List (K × K) → Bool} {v : Vis K P D} {o : Opts K P D V} {c : Cal K P D V}
    (h : fromVis lst overlap v o = .ok c) (hg : o.calType = .delay ∨ o.wide = true) (hr : o.freqRange = none) :
    c.wide = true ∧ c.calType = o.calType ∧ ∃ R, c.freqRange = some R ∧ R.length = c.spws.length ∧
      (o.spws = none → c.spws.Pairwise (· < ·) ∧ ∀ w, w ∈ c.spws ↔ w ∈ v.ids) ∧ (∀ s, o.spws = some s → c.spws = s) ∧
      ∀ (k : Nat) w lo hi, c.spws[k]? = some w → R[k]? = some (lo, hi) →
        (∃ i : Nat, v.freqs[i]? = some lo ∧ v.ids[i]? = some w) ∧ (∃ i : Nat, v.freqs[i]? = some hi ∧ v.ids[i]? = some w) ∧
        ∀ (i : Nat) x, v.freqs[i]? = some x → v.ids[i]? = some w → lo ≤ x ∧ x ≤ hi := by
  obtain ⟨f, t, j, hf, -, -, hn⟩ := fromVis_parts h
  have hc : ¬ (o.calType = .gain ∧ o.wide = false) := by
    rintro ⟨a, b⟩
    rcases hg with g | g
    · rw [a] at g; cases g
    · rw [b] at g; cases g
  unfold visFreqs at hf
  rw [if_neg hc, hr] at hf
  dsimp only at hf
  cases hm : (o.spws.getD (unique v.ids)).mapM (windowRange v) with
  | none => rw [hm] at hf; cases hf
  | some R =>
    rw [hm] at hf
    obtain rfl := Except.ok.inj hf
    have m := made _ _ _ _ hn
    have ms : c.spws = o.spws.getD (unique v.ids) := m.spws
    have key : ∀ (s : List Int) (R : List (K × K)), s.mapM (windowRange v) = some R →
        R.length = s.length ∧ ∀ (k : Nat) w lo hi, s[k]? = some w → R[k]? = some (lo, hi) → windowRange v w = some (lo, hi) := by
      intro s
      induction s with
      | nil =>
        intro R h
        obtain rfl : [] = R := by simpa using h
        exact ⟨rfl, by simp⟩
      | cons w s ih =>
        intro R h
        rw [List.mapM_cons] at h
        cases h1 : windowRange v w with
        | none => rw [h1] at h; cases h
        | some r =>
          cases h2 : s.mapM (windowRange v) with
          | none => rw [h1, h2] at h; cases h
          | some R' =>
            rw [h1, h2] at h
            obtain rfl : r :: R' = R := by simpa using h
            obtain ⟨i1, i2⟩ := ih R' h2
            refine ⟨by simp [i1], ?_⟩
            intro k w' lo hi hk hR
            cases k with
            | zero =>
              simp only [List.getElem?_cons_zero, Option.some.injEq] at hk hR
              rw [← hk, h1, hR]
            | succ k => exact i2 k w' lo hi (by simpa using hk) (by simpa using hR)
    obtain ⟨k1, k2⟩ := key _ _ hm
    refine ⟨m.wide, ?_, R, m.freqRange, by rw [ms, k1], ?_, ?_, ?_⟩
    · rw [m.kind]; rfl
    · intro hs
      rw [ms, hs]
      exact ⟨unique_sorted _, fun w => mem_unique⟩
    · intro s hs
      rw [ms, hs]
      rfl
    · intro k w lo hi hk hR
      rw [ms] at hk
      have hw := k2 k w lo hi hk hR
      have mem : ∀ x, x ∈ ((v.freqs.zip v.ids).filter (fun p => decide (p.2 = w))).map (·.1) ↔ ∃ i : Nat, v.freqs[i]? = some x ∧ v.ids[i]? = some w := by
        intro x
        rw [List.mem_map]
        simp only [List.mem_filter, decide_eq_true_eq]
        simp only [List.mem_iff_getElem?, List.getElem?_zip_eq_some]
        constructor
        · rintro ⟨p, ⟨⟨i, h1, h2⟩, h3⟩, rfl⟩
          exact ⟨i, h1, h3 ▸ h2⟩
        · rintro ⟨i, h1, h2⟩
          exact ⟨(x, w), ⟨⟨i, h1, h2⟩, rfl⟩, rfl⟩
      unfold windowRange at hw
      generalize ((v.freqs.zip v.ids).filter (fun p => decide (p.2 = w))).map (·.1) = l at hw mem
      have lo_spec : ∀ (l : List K) (y : K), (l.foldl min y = y ∨ l.foldl min y ∈ l) ∧ l.foldl min y ≤ y ∧ ∀ x ∈ l, l.foldl min y ≤ x := by
        intro l
        induction l with
        | nil => intro y; simp
        | cons z l ih =>
          intro y
          obtain ⟨i1, i2, i3⟩ := ih (min y z)
          rw [List.foldl_cons]
          refine ⟨?_, i2.trans (min_le_left _ _), ?_⟩
          · rcases i1 with i1 | i1
            · rcases min_choice y z with e | e
              · left; rw [i1, e]
              · right; rw [i1, e]; simp
            · right; exact List.mem_cons_of_mem _ i1
          · intro x hx
            rcases List.mem_cons.1 hx with rfl | hx
            · exact i2.trans (min_le_right _ _)
            · exact i3 x hx
      have hi_spec : ∀ (l : List K) (y : K), (l.foldl max y = y ∨ l.foldl max y ∈ l) ∧ y ≤ l.foldl max y ∧ ∀ x ∈ l, x ≤ l.foldl max y := by
        intro l
        induction l with
        | nil => intro y; simp
        | cons z l ih =>
          intro y
          obtain ⟨i1, i2, i3⟩ := ih (max y z)
          rw [List.foldl_cons]
          refine ⟨?_, (le_max_left _ _).trans i2, ?_⟩
          · rcases i1 with i1 | i1
            · rcases max_choice y z with e | e
              · left; rw [i1, e]
              · right; rw [i1, e]; simp
            · right; exact List.mem_cons_of_mem _ i1
          · intro x hx
            rcases List.mem_cons.1 hx with rfl | hx
            · exact (le_max_right _ _).trans i2
            · exact i3 x hx
      cases l with
      | nil => cases hw
      | cons y l =>
        have hw := Option.some.inj hw
        obtain ⟨rfl, rfl⟩ := Prod.mk.inj hw
        obtain ⟨a1, a2, a3⟩ := lo_spec l y
        obtain ⟨b1, b2, b3⟩ := hi_spec l y
        refine ⟨(mem _).1 ?_, (mem _).1 ?_, ?_⟩
        · rcases a1 with a1 | a1
          · rw [a1]; simp
          · exact List.mem_cons_of_mem _ a1
        · rcases b1 with b1 | b1
          · rw [b1]; simp
          · exact List.mem_cons_of_mem _ b1
        · intro i x h1 h2
          rcases List.mem_cons.1 ((mem x).2 ⟨i, h1, h2⟩) with rfl | hx
          · exact ⟨a2, b2⟩
          · exact ⟨a3 x hx, b3 x hx⟩

end

theorem feeds_pair : ∀ p ∈ [(-8 : Int), -7, -6, -5], ∀ q ∈ [(-8 : Int), -7, -6, -5], p ≠ q → ∀ j ∈ [(-5 : Int), -6], j ∈ feeds p ∨ j ∈ feeds q := by decide
theorem feeds_lin : ∀ p ∈ [(-8 : Int), -7, -6, -5], ∀ j ∈ feeds p, j ∈ [(-5 : Int), -6] := by decide
theorem feeds_pairC : ∀ p ∈ [(-4 : Int), -3, -2, -1], ∀ q ∈ [(-4 : Int), -3, -2, -1], p ≠ q → ∀ j ∈ [(-1 : Int), -2], j ∈ feeds p ∨ j ∈ feeds q := by decide
theorem feeds_circ : ∀ p ∈ [(-4 : Int), -3, -2, -1], ∀ j ∈ feeds p, j ∈ [(-1 : Int), -2] := by decide

/-- C211: the Jones terms are the feeds of the polarizations, no more and no less. -/
theorem jones_feeds (pols : List Int) (hne : pols ≠ []) (hnd : pols.Nodup)
    (h : (∀ p ∈ pols, -8 ≤ p ∧ p ≤ -5) ∨ (∀ p ∈ pols, -4 ≤ p ∧ p ≤ -1)) :
    ∃ l, visJones pols = .ok l ∧ ∀ j, j ∈ l ↔ ∃ p ∈ pols, j ∈ feeds p := by
  rcases h with h | h
  · have hm : ∀ p ∈ pols, p ∈ [(-8 : Int), -7, -6, -5] := by
      intro p hp
      obtain ⟨h1, h2⟩ := h p hp
      simp only [List.mem_cons, List.not_mem_nil, or_false]
      omega
    have hall : pols.all (fun p => decide (p < -4)) = true := by
      rw [List.all_eq_true]
      intro p hp
      have := h p hp
      simpa using by omega
    unfold visJones
    rw [if_pos hall]
    match pols, hne, hnd, hm with
    | [p], _, _, hm =>
      have : p = -8 ∨ p = -7 ∨ p = -6 ∨ p = -5 := by simpa using hm p (by simp)
      rcases this with rfl | rfl | rfl | rfl
      · exact ⟨_, rfl, fun j => by simp [feeds, or_comm]⟩
      · exact ⟨_, rfl, fun j => by simp [feeds]⟩
      · exact ⟨_, rfl, fun j => by simp [feeds]⟩
      · exact ⟨_, rfl, fun j => by simp [feeds]⟩
    | p :: q :: rest, _, hnd, hm =>
      rw [if_neg (by simp)]
      refine ⟨_, rfl, fun j => ⟨fun hj => ?_, ?_⟩⟩
      · have hpq : p ≠ q := by
          rintro rfl
          simp at hnd
        rcases feeds_pair p (hm p (by simp)) q (hm q (by simp)) hpq j hj with h | h
        · exact ⟨p, by simp, h⟩
        · exact ⟨q, by simp, h⟩
      · rintro ⟨r, hr, hj⟩
        exact feeds_lin r (hm r hr) j hj
  · have hm : ∀ p ∈ pols, p ∈ [(-4 : Int), -3, -2, -1] := by
      intro p hp
      obtain ⟨h1, h2⟩ := h p hp
      simp only [List.mem_cons, List.not_mem_nil, or_false]
      omega
    have hall : ¬ pols.all (fun p => decide (p < -4)) = true := by
      intro hc
      rw [List.all_eq_true] at hc
      obtain ⟨p, hp⟩ := List.exists_mem_of_ne_nil pols hne
      have h1 := h p hp
      have h2 : p < -4 := by simpa using hc p hp
      omega
    have hall2 : pols.all (fun p => decide (p < 0)) = true := by
      rw [List.all_eq_true]
      intro p hp
      have := h p hp
      simpa using by omega
    unfold visJones
    rw [if_neg hall, if_pos hall2]
    match pols, hne, hnd, hm with
    | [p], _, _, hm =>
      have : p = -4 ∨ p = -3 ∨ p = -2 ∨ p = -1 := by simpa using hm p (by simp)
      rcases this with rfl | rfl | rfl | rfl
      · exact ⟨_, rfl, fun j => by simp [feeds, or_comm]⟩
      · exact ⟨_, rfl, fun j => by simp [feeds]⟩
      · exact ⟨_, rfl, fun j => by simp [feeds]⟩
      · exact ⟨_, rfl, fun j => by simp [feeds]⟩
    | p :: q :: rest, _, hnd, hm =>
      rw [if_neg (by simp)]
      refine ⟨_, rfl, fun j => ⟨fun hj => ?_, ?_⟩⟩
      · have hpq : p ≠ q := by
          rintro rfl
          simp at hnd
        rcases feeds_pairC p (hm p (by simp)) q (hm q (by simp)) hpq j hj with h | h
        · exact ⟨p, by simp, h⟩
        · exact ⟨q, by simp, h⟩
      · rintro ⟨r, hr, hj⟩
        exact feeds_circ r (hm r hr) j hj

/-- C211: visibilities with linear and circular polarizations have no linear Jones terms. -/
theorem mixed_counterexample (pols : List Int) (h1 : -5 ∈ pols) (h2 : -1 ∈ pols) (h3 : ∀ p ∈ pols, p < 0) : visJones pols = .ok [-1, -2] := by
  unfold visJones
  rw [if_neg, if_pos, if_neg]
  · rintro ⟨h, -⟩
    obtain ⟨p, rfl⟩ := List.length_eq_one_iff.1 h
    simp at h1 h2
    omega
  · rw [List.all_eq_true]
    intro p hp
    simpa using h3 p hp
  · intro hc
    rw [List.all_eq_true] at hc
    have := hc _ h2
    simp at this

section
variable [Field K] [LinearOrder K] [Zero V] [One V]

/-- C211: without Jones terms that are given, they are the feeds of the polarizations. -/
theorem vis_jones_partial {lst : K → K} {overlap : List (K × K) → Bool} {v : Vis K P D} {o : Opts K P D V} {c : Cal K P D V}
    (h : fromVis lst overlap v o = .ok c) (hj : o.jones = none) (hne : v.pols ≠ []) (hnd : v.pols.Nodup)
    (hp : (∀ p ∈ v.pols, -8 ≤ p ∧ p ≤ -5) ∨ (∀ p ∈ v.pols, -4 ≤ p ∧ p ≤ -1)) : ∀ j, j ∈ c.jones ↔ ∃ p ∈ v.pols, j ∈ feeds p := by
  obtain ⟨f, t, j, -, -, hpick, hn⟩ := fromVis_parts h
  obtain ⟨l, hl, hfeed⟩ := jones_feeds v.pols hne hnd hp
  unfold pickJones at hpick
  rw [hj, hl] at hpick
  obtain rfl := Except.ok.inj hpick
  have m := (made _ _ _ _ hn).jones
  have m : c.jones = l := m
  rw [m]
  exact hfeed

/-- Visibilities whose labels fit together. -/
structure VisFits (v : Vis K P D) : Prop where
  tel : TelFits v.tel
  rows : v.rows ≠ []
  ants : ∀ r ∈ v.rows, r.2.2.1 ∈ v.tel.numbers ∧ r.2.2.2 ∈ v.tel.numbers
  freqs : v.freqs ≠ []
  width : v.width.length = v.freqs.length
  ids : v.ids.length = v.freqs.length
  pols : v.pols ≠ [] ∧ v.pols.Nodup ∧ ((∀ p ∈ v.pols, -8 ≤ p ∧ p ≤ -5) ∨ (∀ p ∈ v.pols, -4 ≤ p ∧ p ≤ -1))

theorem jones_range (pols : List Int) (l : List Int) (h : visJones pols = .ok l) (hne : pols ≠ []) (hp : ∀ p ∈ pols, -8 ≤ p ∧ p ≤ -1) :
    l ≠ [] ∧ ∀ j ∈ l, -8 ≤ j ∧ j ≤ 0 := by
  have hp' : pols ≠ [] ∧ ∀ j ∈ pols, -8 ≤ j ∧ j ≤ 0 := ⟨hne, fun p hq => by have := hp p hq; omega⟩
  unfold visJones at h
  split at h
  · split at h
    · obtain rfl := Except.ok.inj h
      exact hp'
    · obtain rfl := Except.ok.inj h
      decide
  · split at h
    · split at h
      · obtain rfl := Except.ok.inj h
        exact hp'
      · obtain rfl := Except.ok.inj h
        decide
    · cases h

/-- C211: for visibilities whose labels fit together, all that has to be given are the orientation of feeds, if it is not known, and for a
sky-based calibration the reference antenna and the catalog. -/
theorem vis_succeeds (lst : K → K) (overlap : List (K × K) → Bool) {v : Vis K P D} (hv : VisFits v) (o : Opts K P D V)
    (hx : o.orient.isSome ∨ v.tel.orient.isSome) (hsky : o.style = .sky → o.refAnt.isSome ∧ o.catalog.isSome)
    (h1 : o.times = none) (h2 : o.ranges = none) (h3 : o.intg = .none) (h4 : o.freqRange = none) (h5 : o.spws = none) (h6 : o.jones = none)
    (h7 : o.antNumbers = none) (h8 : o.antNames = none) (h9 : o.ants = none) (h10 : o.data = {}) : ∃ c, fromVis lst overlap v o = .ok c := by
  obtain ⟨p1, p2, p3⟩ := hv.pols
  obtain ⟨l, hl, -⟩ := jones_feeds v.pols p1 p2 p3
  obtain ⟨l1, l2⟩ := jones_range v.pols l hl p1 (by
    intro p hp
    rcases p3 with p3 | p3 <;> have := p3 p hp <;> omega)
  have hor : (o.orient.or v.tel.orient).isSome := by
    rcases hx with h | h
    · cases e : o.orient with
      | none => rw [e] at h; cases h
      | some x => rfl
    · cases e : o.orient with
      | none => simpa using h
      | some x => rfl
  have hor' : ¬ (o.orient.or v.tel.orient).isNone = true := by
    cases e : o.orient.or v.tel.orient with
    | none => rw [e] at hor; cases hor
    | some x => simp
  have hids : v.ids ≠ [] := by
    intro h
    have := hv.ids
    rw [h] at this
    exact hv.freqs (List.length_eq_zero_iff.1 this.symm)
  -- the frequencies
  have hf : ∃ f, visFreqs v o = .ok f ∧ (f = ⟨some v.freqs, .all v.width, some v.ids, none, none⟩ ∨
      ∃ R, R.length = (unique v.ids).length ∧ f = ⟨none, .none, none, some R, some (unique v.ids)⟩) := by
    unfold visFreqs
    by_cases hc : o.calType = .gain ∧ o.wide = false
    · rw [if_pos hc, h5]
      exact ⟨_, rfl, .inl rfl⟩
    · rw [if_neg hc, h4, h5]
      have hw : ∀ w ∈ v.ids, ∃ r, windowRange v w = some r := by
        intro w hw
        obtain ⟨i, hi, rfl⟩ := List.mem_iff_getElem.1 hw
        have hm : v.freqs[i]'(hv.ids ▸ hi) ∈ ((v.freqs.zip v.ids).filter (fun p => decide (p.2 = v.ids[i]))).map (·.1) := by
          refine List.mem_map.2 ⟨(v.freqs[i]'(hv.ids ▸ hi), v.ids[i]), ?_, rfl⟩
          rw [List.mem_filter]
          refine ⟨List.mem_iff_getElem?.2 ⟨i, ?_⟩, by simp⟩
          rw [List.getElem?_zip_eq_some]
          exact ⟨List.getElem?_eq_getElem _, List.getElem?_eq_getElem _⟩
        unfold windowRange
        generalize ((v.freqs.zip v.ids).filter (fun p => decide (p.2 = v.ids[i]))).map (·.1) = m at hm
        cases m with
        | nil => cases hm
        | cons y m => exact ⟨_, rfl⟩
      have hall : ∀ s : List Int, (∀ w ∈ s, w ∈ v.ids) → ∃ R, s.mapM (windowRange v) = some R ∧ R.length = s.length := by
        intro s
        induction s with
        | nil => intro _; exact ⟨[], by simp, rfl⟩
        | cons w s ih =>
          intro hs
          obtain ⟨r, hr⟩ := hw w (hs w (by simp))
          obtain ⟨R, hR, hlen⟩ := ih (fun x hx => hs x (List.mem_cons_of_mem _ hx))
          refine ⟨r :: R, ?_, by simp [hlen]⟩
          rw [List.mapM_cons, hr, hR]
          rfl
      obtain ⟨R, hR, hlen⟩ := hall (unique v.ids) (fun w hw => mem_unique.1 hw)
      refine ⟨⟨none, .none, none, some R, some (unique v.ids)⟩, ?_, .inr ⟨R, hlen, rfl⟩⟩
      dsimp only [Option.getD_none]
      rw [hR]
  obtain ⟨f, hf, hfc⟩ := hf
  unfold fromVis
  rw [hf, h7, h8]
  dsimp only [antennas]
  rw [if_neg hor']
  unfold pickJones
  rw [h6, hl]
  refine (accept lst overlap _).2 ?_
  have e : visTimeArgs v o = (some ((visTimes v).map (·.1)), none, .all ((visTimes v).map (·.2))) := by
    unfold visTimeArgs
    rw [if_neg (by simp [h1, h2, h3, NewData.Num.isNone])]
  obtain ⟨r, hr⟩ := List.exists_mem_of_ne_nil _ hv.rows
  have hant : r.2.2.1 ∈ visAnts v { v.tel with orient := o.orient.or v.tel.orient } o.ants := by
    unfold visAnts
    rw [h9, List.mem_filter, mem_unique]
    refine ⟨List.mem_flatMap.2 ⟨r, hr, by simp⟩, by simpa using (hv.ants r hr).1⟩
  refine ⟨hv.tel, hor, ?_, ?_, ?_, ?_, ?_, hsky⟩
  · exact List.ne_nil_of_mem hant
  · intro n hn
    have hn : n ∈ visAnts v { v.tel with orient := o.orient.or v.tel.orient } o.ants := hn
    unfold visAnts at hn
    simpa using (List.mem_filter.1 hn).2
  · have hm : r.1 ∈ unique (v.rows.map (·.1)) := mem_unique.2 (List.mem_map.2 ⟨r, hr, rfl⟩)
    have hlen : (visTimes v).length ≠ 0 := by
      unfold visTimes
      rw [List.length_map]
      intro h
      rw [List.length_eq_zero_iff.1 h] at hm
      cases hm
    unfold TimesFit Args.nt
    dsimp only
    rw [e]
    dsimp only
    refine ⟨by simpa using hlen, by simp⟩
  · unfold FreqsFit
    rcases hfc with rfl | ⟨R, hR, rfl⟩
    · dsimp only
      refine ⟨hv.freqs, ?_, ?_, by simp⟩
      · intro l hl
        cases hl
        exact hv.width
      · intro i hi
        cases hi
        exact hv.ids
    · dsimp only
      refine ⟨?_, rfl, rfl, ?_⟩
      · rintro rfl
        obtain ⟨w, hw⟩ := List.exists_mem_of_ne_nil _ hids
        have : w ∈ unique v.ids := mem_unique.2 hw
        rw [List.length_eq_zero_iff.1 hR.symm] at this
        cases this
      · intro s hs
        cases hs
        exact hR.symm
  · refine ⟨l, rfl, l1, l2, ?_⟩
    unfold DataFit
    rw [h10]
    simp

end
end Verif.NewCal
