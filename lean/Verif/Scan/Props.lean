import Verif.Scan.Model

/-! # What scan numbers are -/

namespace Verif.Scan

/-- A scan begins at a row: it is the first one or its phase center is another than that of the row before. -/
def Begins (ids : List Int) (r : Nat) : Prop := r < ids.length ∧ ∀ q, r = q + 1 → ids[q]? ≠ ids[r]?

/-- `n` numbers the scans of `ids`: they count up from one and go on by one where a scan begins. -/
def Numbers (ids : List Int) (n : List Nat) : Prop :=
  n.length = ids.length ∧ (∀ x, n[0]? = some x → x = 1) ∧
    ∀ r x y, n[r]? = some x → n[r + 1]? = some y → y = if ids[r]? = ids[r + 1]? then x else x + 1

theorem takeWhile_lt : ∀ (m : List Bool) (j : Nat), j < (m.takeWhile id).length ↔ ∀ t, t ≤ j → m[t]? = some true := by
  intro m
  induction m with
  | nil =>
    intro j
    simp only [List.takeWhile_nil, List.length_nil, Nat.not_lt_zero, List.getElem?_nil, false_iff]
    intro h
    exact absurd (h 0 (Nat.zero_le _)) nofun
  | cons b m ih =>
    intro j
    cases b with
    | false =>
      simp only [List.takeWhile_cons, id_eq, Bool.false_eq_true, if_false, List.length_nil, Nat.not_lt_zero, false_iff]
      intro h
      exact absurd (h 0 (Nat.zero_le _)) (by simp)
    | true =>
      simp only [List.takeWhile_cons, id_eq, if_true, List.length_cons]
      cases j with
      | zero =>
        constructor
        · rintro - t ht
          obtain rfl := Nat.le_zero.1 ht
          rfl
        · intro _
          omega
      | succ j =>
        rw [Nat.succ_lt_succ_iff, ih]
        constructor
        · intro h t ht
          cases t with
          | zero => rfl
          | succ t => simpa using h t (by omega)
        · intro h t ht
          simpa using h (t + 1) (by omega)

theorem mask_get (ids : List Int) (c : Int) (t : Nat) : (ids.map (fun x => x == c))[t]? = some true ↔ ids[t]? = some c := by
  rw [List.getElem?_map]
  cases ids[t]? with
  | none => simp
  | some x => simp

/-- A slice of a phase center: from a row where a scan begins as far as the phase center is the same. -/
theorem mem_runs (ids : List Int) (c : Int) (s : Nat × Nat) : s ∈ runs (ids.map (fun x => x == c)) ↔
    Begins ids s.1 ∧ ids[s.1]? = some c ∧ ∀ r, s.1 ≤ r → (r < s.2 ↔ ∀ t, s.1 ≤ t → t ≤ r → ids[t]? = some c) := by
  obtain ⟨a, b⟩ := s
  have key : ∀ r, a ≤ r → (r < a + (((ids.map (fun x => x == c)).drop a).takeWhile id).length ↔
      ∀ t, a ≤ t → t ≤ r → ids[t]? = some c) := by
    intro r hr
    have h1 : r < a + (((ids.map (fun x => x == c)).drop a).takeWhile id).length ↔
        r - a < (((ids.map (fun x => x == c)).drop a).takeWhile id).length := by omega
    rw [h1, takeWhile_lt]
    constructor
    · intro h t h2 h3
      have := h (t - a) (by omega)
      rw [List.getElem?_drop, mask_get] at this
      rw [← this]
      congr 1
      omega
    · intro h t ht
      rw [List.getElem?_drop, mask_get]
      exact h _ (by omega) (by omega)
  have hst : a ∈ starts (ids.map (fun x => x == c)) ↔ Begins ids a ∧ ids[a]? = some c := by
    unfold starts Begins
    rw [List.mem_filter, List.mem_range, Bool.and_eq_true, Bool.or_eq_true, beq_iff_eq, beq_iff_eq, bne_iff_ne, mask_get, ne_eq,
      mask_get, List.length_map]
    constructor
    · rintro ⟨h1, h2, h3⟩
      refine ⟨⟨h1, ?_⟩, h2⟩
      rintro q rfl
      rw [h2]
      simpa using h3
    · rintro ⟨⟨h1, h3⟩, h2⟩
      refine ⟨h1, h2, ?_⟩
      cases a with
      | zero => exact Or.inl rfl
      | succ q =>
        right
        have := h3 q rfl
        rw [h2] at this
        simpa using this
  unfold runs
  rw [List.mem_map]
  constructor
  · rintro ⟨i, hi, he⟩
    cases he
    obtain ⟨h1, h2⟩ := hst.1 hi
    exact ⟨h1, h2, key⟩
  · rintro ⟨h1, h2, h3⟩
    refine ⟨a, hst.2 ⟨h1, h2⟩, ?_⟩
    dsimp only at h1 h2 h3
    rw [Prod.mk.injEq]
    refine ⟨rfl, ?_⟩
    -- both ends bound the same rows
    have h4 : ∀ r, a ≤ r → (r < a + (((ids.map (fun x => x == c)).drop a).takeWhile id).length ↔ r < b) := fun r hr =>
      (key r hr).trans (h3 r hr).symm
    have hb : a < b := (h3 a le_rfl).2 (fun t ht1 ht2 => by rw [le_antisymm ht2 ht1]; exact h2)
    have h5 := (h4 a le_rfl).2 hb
    have h6 := h4 b hb.le
    have h7 := h4 (a + (((ids.map (fun x => x == c)).drop a).takeWhile id).length) (by omega)
    omega

theorem mem_ordered (cat ids : List Int) (s : Nat × Nat) : s ∈ ordered cat ids ↔ ∃ c ∈ cat, s ∈ runs (ids.map (fun x => x == c)) := by
  unfold ordered slices
  rw [List.mem_insertionSort, List.mem_flatMap]

theorem starts_sorted (m : List Bool) : (starts m).Pairwise (· < ·) := by
  unfold starts
  exact List.Pairwise.filter _ List.pairwise_lt_range

/-- No two slices begin at the same row. -/
theorem ordered_nodup (cat ids : List Int) (hc : cat.Nodup) : ((ordered cat ids).map (fun s => s.1)).Nodup := by
  have hp : (ordered cat ids).Perm (slices cat ids) := List.perm_insertionSort _ _
  refine ((hp.map _).nodup_iff).2 ?_
  unfold slices
  rw [List.map_flatMap]
  have hr : ∀ c, (runs (ids.map (fun x => x == c))).map (fun s => s.1) = starts (ids.map (fun x => x == c)) := by
    intro c
    unfold runs
    rw [List.map_map]
    show List.map id _ = _
    rw [List.map_id]
  simp only [hr]
  rw [List.nodup_flatMap]
  refine ⟨fun c _ => (starts_sorted _).imp (fun h => h.ne), ?_⟩
  refine hc.imp ?_
  intro c d hcd x hx hy
  have h1 : (x, x + (((ids.map (fun y => y == c)).drop x).takeWhile id).length) ∈ runs (ids.map (fun y => y == c)) :=
    List.mem_map.2 ⟨x, hx, rfl⟩
  have h2 : (x, x + (((ids.map (fun y => y == d)).drop x).takeWhile id).length) ∈ runs (ids.map (fun y => y == d)) :=
    List.mem_map.2 ⟨x, hy, rfl⟩
  have h3 := ((mem_runs _ _ _).1 h1).2.1
  have h4 := ((mem_runs _ _ _).1 h2).2.1
  dsimp only at h3 h4
  rw [h3] at h4
  exact hcd (Option.some.inj h4)

theorem ordered_sorted (cat ids : List Int) (hc : cat.Nodup) : ((ordered cat ids).map (fun s => s.1)).Pairwise (· < ·) := by
  have h1 : (ordered cat ids).Pairwise (fun a b => a.1 ≤ b.1) := by
    have : Std.Total (fun a b : Nat × Nat => a.1 ≤ b.1) := ⟨fun a b => le_total a.1 b.1⟩
    have : IsTrans (Nat × Nat) (fun a b : Nat × Nat => a.1 ≤ b.1) := ⟨fun a b c h1 h2 => h1.trans h2⟩
    exact List.pairwise_insertionSort _ _
  have h2 := ordered_nodup cat ids hc
  rw [List.pairwise_map]
  unfold List.Nodup at h2
  rw [List.pairwise_map] at h2
  exact (h1.and h2).imp (fun h => lt_of_le_of_ne h.1 h.2)

/-- The number of a row in exactly one slice. -/
theorem numAt_eq (sl : List (Nat × Nat)) (r k : Nat) (s : Nat × Nat) (hk : sl[k]? = some s) (hs : s.1 ≤ r ∧ r < s.2)
    (hu : ∀ k' s', sl[k']? = some s' → s'.1 ≤ r ∧ r < s'.2 → k' = k) : numAt sl r = k + 1 := by
  have gen : ∀ (l : List (Nat × Nat)) (off acc k : Nat) (s : Nat × Nat), l[k]? = some s → (s.1 ≤ r ∧ r < s.2) →
      (∀ (k' : Nat) s', l[k']? = some s' → s'.1 ≤ r ∧ r < s'.2 → k' = k) →
      (l.zipIdx off).foldl (fun acc x => if x.1.1 ≤ r ∧ r < x.1.2 then x.2 + 1 else acc) acc = off + k + 1 := by
    intro l
    have nope : ∀ (l : List (Nat × Nat)) (off acc : Nat), (∀ (k' : Nat) s', l[k']? = some s' → ¬ (s'.1 ≤ r ∧ r < s'.2)) →
        (l.zipIdx off).foldl (fun acc x => if x.1.1 ≤ r ∧ r < x.1.2 then x.2 + 1 else acc) acc = acc := by
      intro l
      induction l with
      | nil => intro off acc _; rfl
      | cons a l ih =>
        intro off acc h
        rw [List.zipIdx_cons, List.foldl_cons]
        dsimp only
        rw [if_neg (h 0 a rfl)]
        exact ih _ _ (fun k' s' hk' => h (k' + 1) s' (by simpa using hk'))
    induction l with
    | nil => intro off acc k s hk; simp at hk
    | cons a l ih =>
      intro off acc k s hk hs hu
      rw [List.zipIdx_cons, List.foldl_cons]
      dsimp only
      cases k with
      | zero =>
        obtain rfl : a = s := by simpa using hk
        rw [if_pos hs]
        refine nope l (off + 1) (off + 1) ?_
        intro k' s' hk' hs'
        exact absurd (hu (k' + 1) s' (by simpa using hk') hs') (by omega)
      | succ k =>
        have hna : ¬ (a.1 ≤ r ∧ r < a.2) := fun h => absurd (hu 0 a rfl h) (by omega)
        rw [if_neg hna]
        rw [ih (off + 1) acc k s (by simpa using hk) hs (fun k' s' hk' hs' => by
          have := hu (k' + 1) s' (by simpa using hk') hs'
          omega)]
        omega
  have := gen sl 0 0 k s hk hs hu
  rw [Nat.zero_add] at this
  exact this

/-- A scan begins at or before every row, and from there the phase center is that of the row. -/
theorem scan_of (ids : List Int) : ∀ (r : Nat) (c : Int), ids[r]? = some c →
    ∃ a, a ≤ r ∧ Begins ids a ∧ ∀ t, a ≤ t → t ≤ r → ids[t]? = some c := by
  intro r
  induction r with
  | zero =>
    intro c h
    refine ⟨0, le_rfl, ⟨(List.getElem?_eq_some_iff.1 h).1, fun q hq => by omega⟩, ?_⟩
    intro t _ ht
    obtain rfl := Nat.le_zero.1 ht
    exact h
  | succ r ih =>
    intro c h
    by_cases hs : ids[r]? = some c
    · obtain ⟨a, h1, h2, h3⟩ := ih c hs
      refine ⟨a, by omega, h2, ?_⟩
      intro t ht1 ht2
      rcases Nat.lt_or_ge t (r + 1) with h4 | h4
      · exact h3 t ht1 (by omega)
      · rw [show t = r + 1 by omega]
        exact h
    · refine ⟨r + 1, le_rfl, ⟨(List.getElem?_eq_some_iff.1 h).1, ?_⟩, ?_⟩
      · intro q hq
        obtain rfl : q = r := by omega
        rw [h]
        exact hs
      · intro t ht1 ht2
        rw [show t = r + 1 by omega]
        exact h

/-- The slice of a row. -/
theorem slice_of {cat ids : List Int} (hc : cat.Nodup) (hin : ∀ x ∈ ids, x ∈ cat) {r : Nat} (hr : r < ids.length) :
    ∃ (k : Nat) (s : Nat × Nat), (ordered cat ids)[k]? = some s ∧ s.1 ≤ r ∧ r < s.2 ∧ numAt (ordered cat ids) r = k + 1 ∧
      Begins ids s.1 ∧ ∀ t, s.1 ≤ t → t ≤ r → ids[t]? = ids[r]? := by
  have hr' := List.getElem?_eq_getElem hr
  obtain ⟨a, h1, h2, h3⟩ := scan_of ids r _ hr'
  have hmem : (a, a + (((ids.map (fun x => x == ids[r])).drop a).takeWhile id).length) ∈ runs (ids.map (fun x => x == ids[r])) := by
    refine List.mem_map.2 ⟨a, ?_, rfl⟩
    unfold starts
    rw [List.mem_filter, List.mem_range, Bool.and_eq_true, Bool.or_eq_true, beq_iff_eq, beq_iff_eq, bne_iff_ne, mask_get, ne_eq,
      mask_get, List.length_map]
    refine ⟨h2.1, h3 a le_rfl h1, ?_⟩
    cases a with
    | zero => exact Or.inl rfl
    | succ q =>
      right
      have := h2.2 q rfl
      rw [h3 (q + 1) le_rfl h1] at this
      simpa using this
  have hord := (mem_ordered cat ids _).2 ⟨ids[r], hin _ (List.getElem_mem hr), hmem⟩
  obtain ⟨k, hk⟩ := List.mem_iff_getElem?.1 hord
  have hlt := (((mem_runs _ _ _).1 hmem).2.2 r h1).2 h3
  refine ⟨k, _, hk, h1, hlt, ?_, h2, fun t ht1 ht2 => by rw [h3 t ht1 ht2, hr']⟩
  refine numAt_eq _ r k _ hk ⟨h1, hlt⟩ ?_
  intro k' s' hk' hs'
  -- the other slice begins at the same row
  obtain ⟨c, -, hm⟩ := (mem_ordered cat ids s').1 (List.mem_of_getElem? hk')
  obtain ⟨hb, -, hall⟩ := (mem_runs _ _ _).1 hm
  have hc' := (hall r hs'.1).1 hs'.2
  have hcr : ids[r]? = some c := hc' r hs'.1 le_rfl
  have hsame : s'.1 = a := by
    rcases lt_trichotomy s'.1 a with h | h | h
    · exfalso
      obtain ⟨q, rfl⟩ : ∃ q, a = q + 1 := ⟨a - 1, by omega⟩
      exact h2.2 q rfl (by rw [hc' q (by omega) (by omega), h3 (q + 1) le_rfl h1, ← hr', hcr])
    · exact h
    · exfalso
      obtain ⟨q, hq⟩ : ∃ q, s'.1 = q + 1 := ⟨s'.1 - 1, by omega⟩
      exact hb.2 q hq (by rw [h3 q (by omega) (by omega), h3 s'.1 (by omega) hs'.1])
  have hnd := ordered_nodup cat ids hc
  have hlt1 := (List.getElem?_eq_some_iff.1 hk').1
  have hlt2 := (List.getElem?_eq_some_iff.1 hk).1
  apply (List.Nodup.getElem_inj_iff hnd (hi := by simpa using hlt1) (hj := by simpa using hlt2)).1
  have e1 := (List.getElem?_eq_some_iff.1 hk').2
  have e2 := (List.getElem?_eq_some_iff.1 hk).2
  rw [List.getElem_map, List.getElem_map, e1, e2]
  exact hsame

theorem begin_in {cat ids : List Int} (hin : ∀ x ∈ ids, x ∈ cat) {a : Nat} (h : Begins ids a) :
    ∃ (k : Nat) (s : Nat × Nat), (ordered cat ids)[k]? = some s ∧ s.1 = a := by
  have hc := List.getElem?_eq_getElem h.1
  have hmem : (a, a + (((ids.map (fun x => x == ids[a]'h.1)).drop a).takeWhile id).length) ∈ runs (ids.map (fun x => x == ids[a]'h.1)) := by
    refine List.mem_map.2 ⟨a, ?_, rfl⟩
    unfold starts
    rw [List.mem_filter, List.mem_range, Bool.and_eq_true, Bool.or_eq_true, beq_iff_eq, beq_iff_eq, bne_iff_ne, mask_get, ne_eq,
      mask_get, List.length_map]
    refine ⟨h.1, hc, ?_⟩
    cases a with
    | zero => exact Or.inl rfl
    | succ q =>
      right
      have := h.2 q rfl
      rw [hc] at this
      simpa using this
  obtain ⟨k, hk⟩ := List.mem_iff_getElem?.1 ((mem_ordered cat ids _).2 ⟨_, hin _ (List.getElem_mem h.1), hmem⟩)
  exact ⟨k, _, hk, rfl⟩

theorem ordered_lt {cat ids : List Int} (hc : cat.Nodup) {i j : Nat} {s t : Nat × Nat} (hi : (ordered cat ids)[i]? = some s)
    (hj : (ordered cat ids)[j]? = some t) : s.1 < t.1 ↔ i < j := by
  have hs := ordered_sorted cat ids hc
  rw [List.pairwise_map, List.pairwise_iff_getElem] at hs
  obtain ⟨hi1, hi2⟩ := List.getElem?_eq_some_iff.1 hi
  obtain ⟨hj1, hj2⟩ := List.getElem?_eq_some_iff.1 hj
  constructor
  · intro h
    rcases lt_trichotomy i j with h1 | h1 | h1
    · exact h1
    · subst h1
      rw [hi] at hj
      cases hj
      exact absurd h (lt_irrefl _)
    · have := hs j i hj1 hi1 h1
      rw [hi2, hj2] at this
      omega
  · intro h
    have := hs i j hi1 hj1 h
    rwa [hi2, hj2] at this

/-- **Scans are numbered as they come**: from one, and by one more where the phase center changes. -/
theorem scans_number {cat ids : List Int} (hc : cat.Nodup) (hin : ∀ x ∈ ids, x ∈ cat) (override : Bool) {old : Option (List Nat)}
    (ho : old = none ∨ override = true) : ∃ n, setScans override old cat ids = some n ∧ Numbers ids n := by
  refine ⟨(List.range ids.length).map (numAt (ordered cat ids)), ?_, ?_, ?_, ?_⟩
  · unfold setScans
    rw [if_pos]
    rcases ho with rfl | rfl <;> simp
  · simp
  · intro x hx
    rw [List.getElem?_map] at hx
    by_cases h0 : 0 < ids.length
    · rw [List.getElem?_range h0] at hx
      obtain rfl := Option.some.inj hx
      obtain ⟨k, s, hk, h1, h2, h3, h4, -⟩ := slice_of hc hin h0
      rw [h3]
      rcases Nat.eq_zero_or_pos k with h | h
      · rw [h]
      · exfalso
        obtain ⟨hk1, -⟩ := List.getElem?_eq_some_iff.1 hk
        have hz := List.getElem?_eq_getElem (l := ordered cat ids) (i := 0) (by omega)
        have := (ordered_lt hc hz hk).2 h
        omega
    · rw [List.getElem?_eq_none (by simpa using h0)] at hx
      cases hx
  · intro r x y hx hy
    have hlen : r + 1 < ids.length := by
      have := (List.getElem?_eq_some_iff.1 hy).1
      simpa using this
    rw [List.getElem?_map, List.getElem?_range (by omega)] at hx
    rw [List.getElem?_map, List.getElem?_range hlen] at hy
    obtain rfl := Option.some.inj hx
    obtain rfl := Option.some.inj hy
    obtain ⟨k, s, hk, h1, h2, h3, h4, h5⟩ := slice_of hc hin (show r < ids.length by omega)
    obtain ⟨k', s', hk', h1', h2', h3', h4', h5'⟩ := slice_of hc hin hlen
    rw [h3, h3']
    by_cases he : ids[r]? = ids[r + 1]?
    · rw [if_pos he]
      -- the slice of the next row begins where that of this one does
      have hle : s'.1 ≤ r := by
        by_contra hcon
        exact h4'.2 r (by omega) (by rw [show s'.1 = r + 1 by omega]; exact he)
      have h6 : s.1 = s'.1 := by
        rcases lt_trichotomy s.1 s'.1 with h | h | h
        · exfalso
          obtain ⟨q, hq⟩ : ∃ q, s'.1 = q + 1 := ⟨s'.1 - 1, by omega⟩
          exact h4'.2 q hq (by rw [h5 q (by omega) (by omega), h5 s'.1 (by omega) hle])
        · exact h
        · exfalso
          obtain ⟨q, hq⟩ : ∃ q, s.1 = q + 1 := ⟨s.1 - 1, by omega⟩
          exact h4.2 q hq (by rw [h5' q (by omega) (by omega), h5' s.1 (by omega) (by omega)])
      have a1 := ordered_lt hc hk hk'
      have a2 := ordered_lt hc hk' hk
      omega
    · rw [if_neg he]
      have hs' : s'.1 = r + 1 := by
        by_contra hcon
        exact he (h5' r (by omega) (by omega))
      have a1 : k < k' := (ordered_lt hc hk hk').1 (by omega)
      -- nothing is between
      have a2 : k' ≤ k + 1 := by
        by_contra hcon
        obtain ⟨hk1, -⟩ := List.getElem?_eq_some_iff.1 hk'
        obtain ⟨u, hm⟩ : ∃ u, (ordered cat ids)[k + 1]? = some u :=
          ⟨_, List.getElem?_eq_getElem (l := ordered cat ids) (i := k + 1) (by omega)⟩
        have b1 := (ordered_lt hc hk hm).2 (by omega)
        have b2 := (ordered_lt hc hm hk').2 (by omega)
        obtain ⟨c, -, hr⟩ := (mem_ordered cat ids _).1 (List.mem_of_getElem? hm)
        have hb := ((mem_runs _ _ _).1 hr).1
        obtain ⟨q, hq⟩ : ∃ q, u.1 = q + 1 := ⟨u.1 - 1, by omega⟩
        exact hb.2 q hq (by rw [h5 q (by omega) (by omega), h5 u.1 (by omega) (by omega)])
      omega

/-- Scans that are there stay, unless they are to be replaced. -/
theorem scans_stay (old : List Nat) (cat ids : List Int) : setScans false (some old) cat ids = some old := rfl

theorem begins_iff (ids : List Int) (r : Nat) : Begins ids (r + 1) ↔ r + 1 < ids.length ∧ ids[r]? ≠ ids[r + 1]? := by
  unfold Begins
  constructor
  · rintro ⟨h1, h2⟩
    exact ⟨h1, h2 r rfl⟩
  · rintro ⟨h1, h2⟩
    refine ⟨h1, fun q hq => ?_⟩
    obtain rfl : q = r := by omega
    exact h2

/-- Such numbers never go down. -/
theorem numbers_mono {ids : List Int} {n : List Nat} (h : Numbers ids n) : ∀ (d i : Nat) (x y : Nat), n[i]? = some x →
    n[i + d]? = some y → x ≤ y := by
  intro d
  induction d with
  | zero =>
    intro i x y hx hy
    rw [Nat.add_zero, hx] at hy
    exact (Option.some.inj hy).le
  | succ d ih =>
    intro i x y hx hy
    have hlt := (List.getElem?_eq_some_iff.1 hy).1
    have hz := List.getElem?_eq_getElem (l := n) (i := i + d) (by omega)
    have h1 := ih i x _ hx hz
    have h2 := h.2.2 (i + d) _ y hz hy
    rw [h2]
    split <;> omega

/-- **Two rows have the same scan number exactly if all rows from one to the other have the same phase center.** -/
theorem same_scan {ids : List Int} {n : List Nat} (h : Numbers ids n) : ∀ (d i : Nat) (x y : Nat), n[i]? = some x →
    n[i + d]? = some y → (x = y ↔ ∀ t, t ≤ d → ids[i + t]? = ids[i]?) := by
  intro d
  induction d with
  | zero =>
    intro i x y hx hy
    rw [Nat.add_zero, hx] at hy
    constructor
    · rintro - t ht
      obtain rfl := Nat.le_zero.1 ht
      rfl
    · intro _
      exact Option.some.inj hy
  | succ d ih =>
    intro i x y hx hy
    have hlt := (List.getElem?_eq_some_iff.1 hy).1
    have hz := List.getElem?_eq_getElem (l := n) (i := i + d) (by omega)
    have h1 := ih i x _ hx hz
    have h2 := h.2.2 (i + d) _ y hz hy
    have h3 := numbers_mono h d i x _ hx hz
    constructor
    · intro hxy
      by_cases he : ids[i + d]? = ids[i + d + 1]?
      · rw [if_pos he] at h2
        have h4 := h1.1 (by omega)
        intro t ht
        rcases Nat.lt_or_ge t (d + 1) with h5 | h5
        · exact h4 t (by omega)
        · rw [show i + t = i + d + 1 by omega, ← he]
          exact h4 d le_rfl
      · rw [if_neg he] at h2
        omega
    · intro hall
      have he : ids[i + d]? = ids[i + d + 1]? := by
        rw [hall d (by omega), show i + d + 1 = i + (d + 1) by omega, hall (d + 1) le_rfl]
      rw [if_pos he] at h2
      rw [h2]
      exact h1.2 (fun t ht => hall t (by omega))

end Verif.Scan
