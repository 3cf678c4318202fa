import Verif.AntPair.Lemmas
import Verif.BltAxis.RectProps

/-!
C14: `antpair2ind` returns exactly the rows of an antenna pair; C41: `get_antpairs` and `get_ants` list exactly
the pairs and antennas present.
-/
namespace Verif.AntPair
open Verif.Np Verif.Baseline
open Verif.Slices (SlicifyOut slicify)

/-- C41: the antenna pairs listed are exactly the pairs of some row, each once. -/
theorem get_antpairs_exact (o : Obj) (hn : Numbered o) (hl : LaidOut o) :
    ∃ ps, getAntpairs o = .ok ps ∧ ps.Nodup ∧
      ∀ a b, (a, b) ∈ ps ↔ ∃ i : Nat, o.ant1[i]? = some a ∧ o.ant2[i]? = some b := by
  obtain ⟨g, h1, h2, hpos, hg, hinj, hdec⟩ := decode_sub hn
  obtain ⟨hnd, hmem, _⟩ := baseline_nums hl hpos
  have hne : getBaselineNums o ≠ [] := by
    intro h
    obtain ⟨b, hb⟩ := List.exists_mem_of_length_pos hpos
    have := (hmem b).2 hb
    rw [h] at this; simp at this
  refine ⟨(getBaselineNums o).map g, ?_, ?_, ?_⟩
  · unfold getAntpairs
    rw [hdec _ hne (fun b hb => (hmem b).1 hb)]
    simp only [zip_of_maps]
  · refine List.Nodup.map_on ?_ hnd
    intro b hb c hc e
    exact hinj b ((hmem b).1 hb) c ((hmem c).1 hc) e
  · intro a b
    rw [List.mem_map]
    constructor
    · rintro ⟨c, hc, he⟩
      obtain ⟨i, hi⟩ := List.mem_iff_getElem?.1 ((hmem c).1 hc)
      refine ⟨i, ?_⟩
      have := hg i c hi
      rw [he] at this
      exact this
    · rintro ⟨i, ha, hb⟩
      have hi : i < o.bl.length := by
        rw [← h1]; exact (List.getElem?_eq_some_iff.1 ha).1
      refine ⟨o.bl[i], (hmem _).2 (List.getElem_mem hi), ?_⟩
      have := hg i _ (List.getElem?_eq_getElem hi)
      rw [ha, hb] at this
      simp only [Option.some.injEq] at this
      rw [this.1, this.2]

/-- The slice computed for the pair at position `k` of the layout picks the rows of that pair. -/
theorem pair_slice_rows {o : Obj} (hn : Numbered o) (hl : LaidOut o) (hr : o.rect = true) {ps : List (Nat × Nat)}
    (hps : getAntpairs o = .ok ps) (a b : Nat) :
    (indexOf ps (a, b) = none → IsRowsOf o a b []) ∧
    (∀ k, indexOf ps (a, b) = some k → ∃ l, (pairSlice o k).sel o.nblts = some l ∧ l ≠ [] ∧ IsRowsOf o a b l) := by
  obtain ⟨g, h1, h2, hpos, hg, hinj, hdec⟩ := decode_sub hn
  obtain ⟨hnd, hmem, hrect⟩ := baseline_nums hl hpos
  obtain ⟨hne, hGl, ht, hnb, hlen, hget⟩ := hrect hr
  have hps' : ps = (getBaselineNums o).map g := by
    unfold getAntpairs at hps
    rw [hdec _ hne (fun b hb => (hmem b).1 hb)] at hps
    simp only [zip_of_maps, Except.ok.injEq] at hps
    exact hps.symm
  -- the pair of row i is entry (layout i) of the list of pairs
  have hrow : ∀ i, i < o.bl.length → ∀ a b, (o.ant1[i]? = some a ∧ o.ant2[i]? = some b ↔
      ps[if o.timeFaster then i / o.ntimes else i % o.nbls]? = some (a, b)) := by
    intro i hi a b
    rw [hps', List.getElem?_map, ← hget i hi, List.getElem?_eq_getElem hi]
    have := hg i _ (List.getElem?_eq_getElem hi)
    rw [this.1, this.2]
    simp [Prod.ext_iff]
  have hpsn : ps.Nodup := by
    rw [hps']
    refine List.Nodup.map_on ?_ hnd
    intro b hb c hc e
    exact hinj b ((hmem b).1 hb) c ((hmem c).1 hc) e
  have hinb : ∀ i, o.ant1[i]? = some a → i < o.bl.length := by
    intro i h; rw [← h1]; exact (List.getElem?_eq_some_iff.1 h).1
  constructor
  · intro h
    refine ⟨List.Pairwise.nil, ?_⟩
    intro i
    constructor
    · intro h; simp at h
    · intro hab
      exfalso
      have hi := hinb i hab.1
      have := (hrow i hi a b).1 hab
      unfold indexOf at h
      rw [List.findIdx?_eq_none_iff] at h
      have := h _ (List.mem_of_getElem? this)
      simp at this
  · intro k hk
    unfold indexOf at hk
    rw [List.findIdx?_eq_some_iff_getElem] at hk
    obtain ⟨hkl, hk1, _⟩ := hk
    have hk1 : ps[k] = (a, b) := by simpa using hk1
    have hk2 : ps[k]? = some (a, b) := by rw [List.getElem?_eq_getElem hkl, hk1]
    have hkn : k < o.nbls := by rw [hps', List.length_map, hGl] at hkl; exact hkl
    have hrow' : ∀ i, i < o.bl.length → (o.ant1[i]? = some a ∧ o.ant2[i]? = some b ↔
        (if o.timeFaster then i / o.ntimes else i % o.nbls) = k) := by
      intro i hi
      rw [hrow i hi a b, ← hk2]
      constructor
      · intro h; exact ((List.getElem?_inj hkl hpsn).1 h.symm).symm
      · intro h; rw [h]
    have hnbl : o.nblts = o.bl.length := h1
    cases hf : o.timeFaster with
    | true =>
      simp only [hf, if_true] at hrow'
      refine ⟨(List.range o.nblts).filter (fun i => o.ntimes * k ≤ i && i < o.ntimes * (k + 1) &&
        (i - o.ntimes * k) % 1 == 0), ?_, ?_, range_filter_sorted _ _, ?_⟩
      · simp [pairSlice, hf, PSlice.sel]
      · intro h
        have : o.ntimes * k ∈ (List.range o.nblts).filter (fun i => o.ntimes * k ≤ i && i < o.ntimes * (k + 1) &&
          (i - o.ntimes * k) % 1 == 0) := by
          simp only [List.mem_filter, List.mem_range, hnbl, hlen]
          refine ⟨?_, ?_⟩
          · rw [Nat.mul_comm]; exact Nat.mul_lt_mul_of_pos_right hkn ht
          · simp only [Nat.mod_one, beq_self_eq_true, Bool.and_true, Bool.and_eq_true, decide_eq_true_eq]
            rw [Nat.mul_succ]; omega
        rw [h] at this; simp at this
      · intro i
        simp only [List.mem_filter, List.mem_range, Nat.mod_one, beq_self_eq_true, Bool.and_true, Bool.and_eq_true,
          decide_eq_true_eq, hnbl]
        constructor
        · rintro ⟨hi, hge, hlt⟩
          refine (hrow' i hi).2 ?_
          exact Nat.div_eq_of_lt_le (by rw [Nat.mul_comm]; exact hge) (by rw [Nat.mul_comm]; exact hlt)
        · intro hab
          have hi := hinb i hab.1
          have := (hrow' i hi).1 hab
          refine ⟨hi, ?_, ?_⟩
          · rw [← this]; exact Nat.mul_div_le i o.ntimes
          · rw [← this]; exact Nat.lt_mul_div_succ i ht
    | false =>
      simp only [hf, Bool.false_eq_true, if_false] at hrow'
      have hnb0 : ¬ ((o.nbls : Int) = 0) := by omega
      have hnbp : (o.nbls : Int) > 0 := by omega
      refine ⟨(List.range o.nblts).filter (fun i => k ≤ i && i < o.nblts && (i - k) % o.nbls == 0), ?_, ?_,
        range_filter_sorted _ _, ?_⟩
      · simp only [pairSlice, hf, Bool.false_eq_true, if_false, PSlice.sel, Option.getD_some]
        rw [if_neg hnb0, if_pos hnbp]
        simp
      · intro h
        have : k ∈ (List.range o.nblts).filter (fun i => k ≤ i && i < o.nblts && (i - k) % o.nbls == 0) := by
          have hk' : k < o.nblts := by
            rw [hnbl, hlen]
            calc k < o.nbls := hkn
              _ = o.nbls * 1 := by omega
              _ ≤ o.nbls * o.ntimes := Nat.mul_le_mul_left _ ht
          simp [List.mem_filter, hk']
        rw [h] at this; simp at this
      · intro i
        simp only [List.mem_filter, List.mem_range, beq_iff_eq, Bool.and_eq_true, decide_eq_true_eq, hnbl]
        constructor
        · rintro ⟨hi, ⟨hge, _⟩, hm⟩
          refine (hrow' i hi).2 ?_
          obtain ⟨c, hc⟩ := Nat.dvd_of_mod_eq_zero hm
          have : i = k + o.nbls * c := by omega
          rw [this, Nat.add_mul_mod_self_left, Nat.mod_eq_of_lt hkn]
        · intro hab
          have hi := hinb i hab.1
          have hik := (hrow' i hi).1 hab
          have hle : k ≤ i := by rw [← hik]; exact Nat.mod_le _ _
          refine ⟨hi, ⟨hle, hi⟩, ?_⟩
          have hd := Nat.div_add_mod i o.nbls
          rw [hik] at hd
          have : i - k = o.nbls * (i / o.nbls) := by omega
          rw [this]; exact Nat.mul_mod_right _ _

theorem slicify_rows (l : List Nat) (n : Nat) (hs : l.Pairwise (· < ·)) (hn : ∀ i ∈ l, i < n) :
    (slicify l).picks n = if l = [] then none else some l := by
  split
  · subst_vars; rfl
  · exact Verif.Slices.slicify_picks l n ‹_› hs hn

/-- C14: for an object whose baseline numbers and layout claims are truthful, `antpair2ind(a, b)` selects
exactly the rows of the ordered pair (a, b), in increasing order; it is `None` exactly when there are none. -/
theorem antpair2ind_exact (o : Obj) (hn : Numbered o) (hl : LaidOut o) (a b : Nat) :
    ∃ r l, antpair2ind o a b true = .ok r ∧ IsRowsOf o a b l ∧
      r.picks o.nblts = (if l = [] then none else some l) ∧ (r = .none ↔ l = []) := by
  obtain ⟨g, h1, h2, hpos, _⟩ := decode_sub hn
  have hlen : o.ant1.length = o.ant2.length := by omega
  have hb : ∀ i ∈ rowsWhere o a b, i < o.nblts := by
    intro i hi
    exact (List.getElem?_eq_some_iff.1 ((rowsWhere_spec o hlen a b).2 i |>.1 hi).1).1
  cases hr : o.rect with
  | false =>
    refine ⟨slicify (rowsWhere o a b), rowsWhere o a b, ?_, rowsWhere_spec o hlen a b, ?_, ?_⟩
    · simp [antpair2ind, hr]
    · exact slicify_rows _ _ (rowsWhere_spec o hlen a b).1 hb
    · unfold slicify
      constructor
      · intro h
        split at h
        · rename_i h'; exact List.length_eq_zero_iff.1 h'
        · split at h <;> simp at h
      · intro h; simp [h]
  | true =>
    obtain ⟨ps, hps, _⟩ := get_antpairs_exact o hn hl
    obtain ⟨p1, p2⟩ := pair_slice_rows hn hl hr hps a b
    cases hi : indexOf ps (a, b) with
    | none => exact ⟨.none, [], by simp [antpair2ind, hr, hps, hi, ofSlice], p1 hi, rfl, by simp⟩
    | some k =>
      obtain ⟨l, hl1, hl2, hl3⟩ := p2 k hi
      refine ⟨.slice (pairSlice o k), l, by simp [antpair2ind, hr, hps, hi, ofSlice], hl3, ?_, by simp [hl2]⟩
      rw [if_neg hl2]
      exact hl1

/-- C14, `ordered=False`, with the restriction that the known fault of the slice conversion is avoided: if the
rows of (a, b) all come before those of (b, a), or one of the two sets is empty, the result selects the rows of
(a, b) followed by those of (b, a).  Missing: the general case, which is false
(`antpair2ind_unordered_counterexample`). -/
theorem antpair2ind_unordered_partial (o : Obj) (hn : Numbered o) (hl : LaidOut o) (a b : Nat) (hab : a ≠ b)
    (l k : List Nat) (hl1 : IsRowsOf o a b l) (hk1 : IsRowsOf o b a k)
    (hsep : ∀ i ∈ l, ∀ j ∈ k, i < j) :
    ∃ r, antpair2ind o a b false = .ok r ∧ r.picks o.nblts = (if l ++ k = [] then none else some (l ++ k)) := by
  obtain ⟨g, h1, h2, hpos, _⟩ := decode_sub hn
  have hlen : o.ant1.length = o.ant2.length := by omega
  have hbl : ∀ i ∈ l, i < o.nblts := by
    intro i hi
    exact (List.getElem?_eq_some_iff.1 ((hl1.2 i).1 hi).1).1
  have hbk : ∀ i ∈ k, i < o.nblts := by
    intro i hi
    exact (List.getElem?_eq_some_iff.1 ((hk1.2 i).1 hi).1).1
  have hs : (l ++ k).Pairwise (· < ·) := List.pairwise_append.2 ⟨hl1.1, hk1.1, hsep⟩
  have hb : ∀ i ∈ l ++ k, i < o.nblts := by
    intro i hi
    rcases List.mem_append.1 hi with h | h
    · exact hbl i h
    · exact hbk i h
  cases hr : o.rect with
  | false =>
    refine ⟨slicify (l ++ k), ?_, slicify_rows _ _ hs hb⟩
    simp only [antpair2ind, hr, hab, decide_false, Bool.or_false, Bool.false_eq_true, if_false]
    rw [rows_unique (rowsWhere_spec o hlen a b) hl1, rows_unique (rowsWhere_spec o hlen b a) hk1]
  | true =>
    obtain ⟨ps, hps, _⟩ := get_antpairs_exact o hn hl
    obtain ⟨p1, p2⟩ := pair_slice_rows hn hl hr hps a b
    obtain ⟨q1, q2⟩ := pair_slice_rows hn hl hr hps b a
    cases hi : indexOf ps (a, b) with
    | none =>
      obtain rfl := rows_unique hl1 (p1 hi)
      cases hj : indexOf ps (b, a) with
      | none =>
        obtain rfl := rows_unique hk1 (q1 hj)
        exact ⟨.none, by simp [antpair2ind, hr, hps, hi, hj, ofSlice, hab], rfl⟩
      | some m =>
        obtain ⟨k', e1, e2, e3⟩ := q2 m hj
        obtain rfl := rows_unique hk1 e3
        refine ⟨.slice (pairSlice o m), by simp [antpair2ind, hr, hps, hi, hj, hab], ?_⟩
        simp only [List.nil_append]
        rw [if_neg e2]; exact e1
    | some n =>
      obtain ⟨l', d1, d2, d3⟩ := p2 n hi
      obtain rfl := rows_unique hl1 d3
      cases hj : indexOf ps (b, a) with
      | none =>
        obtain rfl := rows_unique hk1 (q1 hj)
        refine ⟨.slice (pairSlice o n), by simp [antpair2ind, hr, hps, hi, hj, ofSlice, hab], ?_⟩
        rw [List.append_nil, if_neg d2]; exact d1
      | some m =>
        obtain ⟨k', e1, e2, e3⟩ := q2 m hj
        obtain rfl := rows_unique hk1 e3
        refine ⟨slicify (l ++ k), by simp [antpair2ind, hr, hps, hi, hj, hab, d1, e1], slicify_rows _ _ hs hb⟩

/-- For an auto-correlation `ordered` makes no difference. -/
theorem antpair2ind_auto (o : Obj) (a : Nat) (ordered : Bool) :
    antpair2ind o a a ordered = antpair2ind o a a true := by
  unfold antpair2ind
  cases ordered <;> simp

/-- The link with C11: an object whose rectangularity attributes come from the rectangularity test (without a
hint, or with a truthful one) satisfies the layout hypothesis. -/
theorem laidOut_of_rect {τ : Type} [LinearOrder τ] (o : Obj) (rows : List (Verif.BltAxis.Row τ))
    (order : Option (List Verif.BltAxis.Key)) (hrows : rows ≠ []) (hbl : o.bl = rows.map Verif.BltAxis.Row.bl)
    (hc : Verif.BltAxis.CountsOK rows o.nbls o.ntimes) (hh : Verif.BltAxis.HintOK rows order)
    (hr : Verif.BltAxis.determineRectangularity (rows.map Verif.BltAxis.Row.t) (rows.map Verif.BltAxis.Row.bl)
      o.nbls o.ntimes order = (o.rect, o.timeFaster)) : LaidOut o := by
  intro hrect
  obtain ⟨p1, p2⟩ := Verif.BltAxis.len_nbls hc hrows
  rw [hrect] at hr
  refine ⟨p2, p1, ?_⟩
  cases hf : o.timeFaster with
  | true =>
    rw [hf] at hr
    obtain ⟨B, T, hB, _, hBl, hTl, _, h2⟩ := Verif.BltAxis.rect_baseline_major rows _ _ order hrows hc hh hr
    refine ⟨B, hB, hBl, ?_⟩
    rw [hbl, h2, ← hTl]
    simp only [if_true]
    congr 1; funext b
    rw [List.map_const']
  | false =>
    rw [hf] at hr
    obtain ⟨B, T, hB, _, hBl, hTl, _, h2⟩ := Verif.BltAxis.rect_time_major rows _ _ order hrows hc hh hr
    refine ⟨B, hB, hBl, ?_⟩
    rw [hbl, h2, ← hTl]
    simp only [Bool.false_eq_true, if_false]
    rw [List.flatMap_def, List.map_const']

/-- Three antennas, baselines (0,1), (2,0), (0,2) at two times, time by time. -/
def demo : Obj :=
  { ant1 := [0, 2, 0, 0, 2, 0], ant2 := [1, 0, 2, 1, 0, 2],
    bl := [65537, 69632, 65538, 65537, 69632, 65538], nbls := 3, ntimes := 2, nants := 3, rect := true,
    timeFaster := false }

theorem demo_numbered : Numbered demo := ⟨false, by decide +kernel⟩

theorem demo_laidOut : LaidOut demo := fun _ => ⟨by decide, by decide, [65537, 69632, 65538], by decide, by decide, by decide⟩

example : Numbered demo ∧ LaidOut demo ∧ antpair2ind demo 2 0 true = .ok (.slice ⟨1, 6, some 3⟩) :=
  ⟨demo_numbered, demo_laidOut, by decide +kernel⟩

example : Numbered demo ∧ LaidOut demo ∧ (0 : Nat) ≠ 1 ∧ IsRowsOf demo 0 1 [0, 3] ∧ IsRowsOf demo 1 0 [] ∧
    (∀ i ∈ [0, 3], ∀ j ∈ ([] : List Nat), i < j) := by
  refine ⟨demo_numbered, demo_laidOut, by decide, ?_, ?_, by simp⟩
  · have := rowsWhere_spec demo (by decide) 0 1
    rwa [show rowsWhere demo 0 1 = [0, 3] by decide +kernel] at this
  · have := rowsWhere_spec demo (by decide) 1 0
    rwa [show rowsWhere demo 1 0 = [] by decide +kernel] at this

/-- Two rows, (1, 0) then (0, 1). -/
def swapped : Obj :=
  { ant1 := [1, 0], ant2 := [0, 1], bl := [67584, 65537], nbls := 2, ntimes := 1, nants := 2, rect := false,
    timeFaster := false }

/-- C14, the fault: with rows (1,0) at position 0 and (0,1) at position 1, `antpair2ind(0, 1, ordered=False)`
should cover rows 1 and 0 but selects no row at all (`slice(1, 1, -1)`). -/
theorem antpair2ind_unordered_counterexample :
    Numbered swapped ∧ LaidOut swapped ∧ IsRowsOf swapped 0 1 [1] ∧ IsRowsOf swapped 1 0 [0] ∧
      ∃ r, antpair2ind swapped 0 1 false = .ok r ∧ r.picks swapped.nblts = some [] := by
  refine ⟨⟨false, by decide +kernel⟩, fun h => by simp [swapped] at h, ?_, ?_, _, rfl, by decide +kernel⟩
  · have := rowsWhere_spec swapped (by decide) 0 1
    rwa [show rowsWhere swapped 0 1 = [1] by decide +kernel] at this
  · have := rowsWhere_spec swapped (by decide) 1 0
    rwa [show rowsWhere swapped 1 0 = [0] by decide +kernel] at this

theorem mem_strided {β : Type} (n : Nat) (xs : List β) (x : β) :
    x ∈ strided n xs ↔ ∃ i : Nat, i % n = 0 ∧ xs[i]? = some x := by
  unfold strided
  simp only [List.mem_filterMap, List.mem_filter, List.mem_range, beq_iff_eq]
  constructor
  · rintro ⟨i, ⟨_, h⟩, hx⟩; exact ⟨i, h, hx⟩
  · rintro ⟨i, h, hx⟩; exact ⟨i, ⟨(List.getElem?_eq_some_iff.1 hx).1, h⟩, hx⟩

/-- C41: the antennas listed are exactly those of some row, each once, in increasing order. -/
theorem get_ants_exact (o : Obj) (hn : Numbered o) (hl : LaidOut o) :
    (getAnts o).Pairwise (· < ·) ∧
      ∀ a, a ∈ getAnts o ↔ ∃ i : Nat, o.ant1[i]? = some a ∨ o.ant2[i]? = some a := by
  obtain ⟨g, h1, h2, hpos, hg, hinj, _⟩ := decode_sub hn
  obtain ⟨hnd, hmem, hrect⟩ := baseline_nums hl hpos
  have plain : ∀ a, a ∈ o.ant1 ++ o.ant2 ↔ ∃ i : Nat, o.ant1[i]? = some a ∨ o.ant2[i]? = some a := by
    intro a
    rw [List.mem_append, List.mem_iff_getElem?, List.mem_iff_getElem?]
    constructor
    · rintro (⟨i, h⟩ | ⟨i, h⟩)
      · exact ⟨i, Or.inl h⟩
      · exact ⟨i, Or.inr h⟩
    · rintro ⟨i, h | h⟩
      · exact Or.inl ⟨i, h⟩
      · exact Or.inr ⟨i, h⟩
  -- equal baselines have equal antennas
  have same : ∀ i j : Nat, i < o.bl.length → o.bl[i]? = o.bl[j]? → o.ant1[i]? = o.ant1[j]? ∧ o.ant2[i]? = o.ant2[j]? := by
    intro i j hi e
    have e1 := hg i _ (List.getElem?_eq_getElem hi)
    have e2 := hg j o.bl[i] (by rw [← e, List.getElem?_eq_getElem hi])
    exact ⟨by rw [e1.1, e2.1], by rw [e1.2, e2.2]⟩
  have bound : ∀ (i a : Nat), (o.ant1[i]? = some a ∨ o.ant2[i]? = some a) → i < o.bl.length := by
    rintro i a (h | h)
    · have := (List.getElem?_eq_some_iff.1 h).1; omega
    · have := (List.getElem?_eq_some_iff.1 h).1; omega
  unfold getAnts
  split
  · rename_i hr
    obtain ⟨hne, hGl, ht, hnb, hlen, hget⟩ := hrect hr
    split
    · rename_i hf
      simp only [hf, if_true] at hget
      refine ⟨unique_sorted _, ?_⟩
      intro a
      rw [mem_unique, List.mem_append, mem_strided, mem_strided]
      constructor
      · rintro (⟨i, _, h⟩ | ⟨i, _, h⟩)
        · exact ⟨i, Or.inl h⟩
        · exact ⟨i, Or.inr h⟩
      · rintro ⟨i, h⟩
        have hi := bound i a h
        have hj : i / o.ntimes * o.ntimes < o.bl.length := lt_of_le_of_lt (Nat.div_mul_le_self _ _) hi
        have := same i (i / o.ntimes * o.ntimes) hi (by
          rw [hget i hi, hget _ hj, Nat.mul_div_cancel _ ht])
        rcases h with h | h
        · exact Or.inl ⟨_, Nat.mul_mod_left _ _, by rw [← this.1, h]⟩
        · exact Or.inr ⟨_, Nat.mul_mod_left _ _, by rw [← this.2, h]⟩
    · rename_i hf
      have hf : o.timeFaster = false := by simpa using hf
      simp only [hf, Bool.false_eq_true, if_false] at hget
      refine ⟨unique_sorted _, ?_⟩
      intro a
      rw [mem_unique, List.mem_append]
      constructor
      · rintro (h | h)
        · obtain ⟨i, hi⟩ := List.mem_iff_getElem?.1 (List.mem_of_mem_take h); exact ⟨i, Or.inl hi⟩
        · obtain ⟨i, hi⟩ := List.mem_iff_getElem?.1 (List.mem_of_mem_take h); exact ⟨i, Or.inr hi⟩
      · rintro ⟨i, h⟩
        have hi := bound i a h
        have hj : i % o.nbls < o.bl.length := lt_of_le_of_lt (Nat.mod_le _ _) hi
        have hm : i % o.nbls < o.nbls := Nat.mod_lt _ hnb
        have := same i (i % o.nbls) hi (by
          rw [hget i hi, hget _ hj, Nat.mod_mod])
        rcases h with h | h
        · left; rw [List.mem_iff_getElem?]; exact ⟨i % o.nbls, by rw [List.getElem?_take_of_lt hm, ← this.1, h]⟩
        · right; rw [List.mem_iff_getElem?]; exact ⟨i % o.nbls, by rw [List.getElem?_take_of_lt hm, ← this.2, h]⟩
  · refine ⟨unique_sorted _, ?_⟩
    intro a
    rw [mem_unique]; exact plain a

example : getAnts demo = [0, 1, 2] := by decide +kernel

end Verif.AntPair
