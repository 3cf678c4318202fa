import Verif.GetData.Lemmas

/-!
C42: `get_data` returns exactly the visibilities of the key.
-/
namespace Verif.GetData
open Verif.Np Verif.Slices
open Verif.AntPair (IsRowsOf Numbered LaidOut antpair2ind)
open Verif.Pol (Str conjNum reorderConjPols polstr2num)

variable {V : Type}

theorem rows_of {o : Obj} {data : List (List V)} (g : Good o data) (a b : Nat) (l : List Nat)
    (hl : IsRowsOf o.pairs a b l) :
    ∃ r, antpair2ind o.pairs a b true = .ok r ∧ (r = .none ↔ l = []) ∧
      (l ≠ [] → r.picks data.length = some l) ∧ ∀ i ∈ l, i < data.length := by
  obtain ⟨r, l', h1, h2, h3, h4⟩ := Verif.AntPair.antpair2ind_exact o.pairs g.numbered g.laidOut a b
  obtain rfl := Verif.AntPair.rows_unique hl h2
  refine ⟨r, h1, h4, ?_, ?_⟩
  · intro hne
    rw [g.rows, h3, if_neg hne]
  · intro i hi
    rw [g.rows]
    exact (List.getElem?_eq_some_iff.1 ((hl.2 i).1 hi).1).1

theorem pol_index {o : Obj} (hn : o.pols.Nodup) {p : Int} (hp : p ∈ o.pols) :
    ∃ k, o.pols.findIdx? (fun q => decide (q = p)) = some k ∧ k < o.pols.length ∧
      slicify (polWhere o.pols p) ≠ .none ∧ (slicify (polWhere o.pols p)).picks o.pols.length = some [k] := by
  obtain ⟨k, hk⟩ := (findIdx_isSome o.pols p).2 hp
  have hlt : k < o.pols.length := by
    rw [List.findIdx?_eq_some_iff_getElem] at hk; exact hk.1
  rw [polWhere_eq _ hn, hk]
  refine ⟨k, rfl, hlt, ?_, ?_⟩
  · simp [slicify]
  · exact slicify_picks [k] _ (by simp) (by simp) (by simpa using hlt)

theorem pol_absent {o : Obj} (hn : o.pols.Nodup) {p : Int} (hp : p ∉ o.pols) : slicify (polWhere o.pols p) = .none := by
  rw [polWhere_eq _ hn]
  cases h : o.pols.findIdx? (fun q => decide (q = p)) with
  | none => rfl
  | some k => exact absurd ((findIdx_isSome o.pols p).1 ⟨k, h⟩) hp

/-- Reading one polarization. -/
theorem cut_pol {o : Obj} {data : List (List V)} (g : Good o data) {p : Int} (hp : p ∈ o.pols) (ind : SlicifyOut)
    (is : List Nat) (hi : ind.picks data.length = some is) (his : ∀ i ∈ is, i < data.length) :
    ∃ out, cut data o.pols.length ind (slicify (polWhere o.pols p)) = some out ∧
      out.map (List.map some) = is.map (fun i => [p].map (stored o data i)) := by
  obtain ⟨k, hk, hlt, _, hpk⟩ := pol_index g.nodup hp
  obtain ⟨out, h1, h2⟩ := cut_spec data o.pols.length ind _ is [k] hi hpk his (by simpa using hlt) g.cols
  refine ⟨out, h1, ?_⟩
  rw [h2]
  apply List.map_congr_left
  intro i _
  simp [stored, hk]

theorem map_some_inj {α : Type} {x y : List (List α)} (h : x.map (List.map some) = y.map (List.map some)) : x = y :=
  List.map_injective_iff.2 (List.map_injective_iff.2 (Option.some_injective _)) h

theorem rows_len {x : List (List V)} {is : List Nat} {m : Nat} {f : Nat → List (Option V)}
    (h : x.map (List.map some) = is.map f) (hf : ∀ i, (f i).length = m) : ∀ r ∈ x, r.length = m := by
  intro r hr
  have : r.map some ∈ x.map (List.map some) := List.mem_map.2 ⟨r, hr, rfl⟩
  rw [h] at this
  obtain ⟨i, _, hi⟩ := List.mem_map.1 this
  have := congrArg List.length hi
  rw [hf] at this
  simpa using this.symm

theorem map_cj (cj : V → V) {y : List (List V)} {is : List Nat} {f : Nat → List (Option V)}
    (h : y.map (List.map some) = is.map f) :
    (y.map (List.map cj)).map (List.map some) = is.map (fun i => (f i).map (Option.map cj)) := by
  have e : (y.map (List.map cj)).map (List.map some) = (y.map (List.map some)).map (List.map (Option.map cj)) := by
    simp only [List.map_map]
    apply List.map_congr_left
    intro r _
    simp only [Function.comp_apply, List.map_map]
    rfl
  rw [e, h, List.map_map]
  rfl

/-- Assembling the answer for the two orientations. -/
theorem smart_both (cj : V → V) {data : List (List V)} {n m : Nat} {i : Inds} {x y : List (List V)}
    (h1 : i.blt1 ≠ .none) (h2 : i.blt2 ≠ .none) (h3 : i.pol1 ≠ .none) (h4 : i.pol2 ≠ .none)
    (hx : cut data n i.blt1 i.pol1 = some x) (hy : cut data n i.blt2 i.pol2 = some y)
    (lx : ∀ r ∈ x, r.length = m) (ly : ∀ r ∈ y, r.length = m) :
    smartSlice cj data n i = .ok (x ++ y.map (List.map cj)) := by
  unfold smartSlice
  rw [if_neg (by tauto), if_neg (by tauto), hx, hy]
  simp only
  rw [if_pos]
  simp only [List.all_eq_true, decide_eq_true_eq]
  have : ∀ r ∈ x ++ y, r.length = m := by
    intro r hr
    rcases List.mem_append.1 hr with h | h
    · exact lx r h
    · exact ly r h
  intro r hr s hs
  rw [this r hr, this s hs]

/-- C42 (antenna pair and polarization).  Let `l` be the rows of (a, b) and `k` those of (b, a), a ≠ b, and let
the polarization of the key have number `p`, its conjugate `q`.  If every orientation that occurs has its
polarization in the data, the answer is the visibilities of `l` at `p` followed by the conjugates of those of
`k` at `q`. -/
theorem get_data_pair_pol (cj : V → V) (o : Obj) (data : List (List V)) (g : Good o data) (a b : Nat) (hab : a ≠ b)
    (arg : PolArg) (p q : Int) (hp : arg.number o.xo = some p) (hq : conjNum p = some q) (l k : List Nat)
    (hl : IsRowsOf o.pairs a b l) (hk : IsRowsOf o.pairs b a k) (hne : l ≠ [] ∨ k ≠ [])
    (h1 : l ≠ [] → p ∈ o.pols) (h2 : k ≠ [] → q ∈ o.pols) :
    ∃ out, getData cj o data (.pairPol a b arg) = .ok out ∧ Answers cj o data l k [p] out := by
  obtain ⟨r1, e1, n1, s1, t1⟩ := rows_of g a b l hl
  obtain ⟨r2, e2, n2, s2, t2⟩ := rows_of g b a k hk
  have hnot : ¬ (r1 = .none ∧ r2 = .none) := by rw [n1, n2]; tauto
  by_cases hk0 : k = []
  · have hl0 : l ≠ [] := by tauto
    have hr2 : r2 = .none := n2.2 hk0
    have hr1 : r1 ≠ .none := fun h => hl0 (n1.1 h)
    obtain ⟨kk, _, _, hpn, _⟩ := pol_index g.nodup (h1 hl0)
    obtain ⟨out, c1, c2⟩ := cut_pol g (h1 hl0) r1 l (s1 hl0) t1
    refine ⟨out, ?_, out, [], by simp, c2, by simp [hk0]⟩
    simp only [getData, key2inds, byPair, combine, e1, e2, if_neg hab, if_neg hnot, hp, withPol, if_neg hr1, if_pos hr2, finishPol]
    rw [if_neg (by simp [hr1, hpn])]
    simp only [smartSlice, hr2, or_true, if_true, c1, if_neg hr1]
  · have hr2 : r2 ≠ .none := fun h => hk0 (n2.1 h)
    obtain ⟨kk, _, _, hqn, _⟩ := pol_index g.nodup (h2 hk0)
    obtain ⟨y, c3, c4⟩ := cut_pol g (h2 hk0) r2 k (s2 hk0) t2
    have c5 : (y.map (List.map cj)).map (List.map some) =
        k.map (fun i => [p].map (fun p => (conjNum p).bind (fun q => (stored o data i q).map cj))) := by
      rw [map_cj cj c4]
      apply List.map_congr_left
      intro i _
      simp [hq]
    by_cases hl0 : l = []
    · have hr1 : r1 = .none := n1.2 hl0
      refine ⟨y.map (List.map cj), ?_, [], y.map (List.map cj), by simp, by simp [hl0], c5⟩
      simp only [getData, key2inds, byPair, combine, e1, e2, if_neg hab, if_neg hnot, hp, withPol, if_pos hr1, if_neg hr2, conjInd, hq,
        finishPol]
      rw [if_neg (by simp [hr2, hqn])]
      simp only [smartSlice, hr1, true_or, if_true, c3, if_neg hr2]
    · have hr1 : r1 ≠ .none := fun h => hl0 (n1.1 h)
      obtain ⟨kk, _, _, hpn, _⟩ := pol_index g.nodup (h1 hl0)
      obtain ⟨x, c1, c2⟩ := cut_pol g (h1 hl0) r1 l (s1 hl0) t1
      refine ⟨x ++ y.map (List.map cj), ?_, x, _, rfl, c2, c5⟩
      simp only [getData, key2inds, byPair, combine, e1, e2, if_neg hab, if_neg hnot, hp, withPol, if_neg hr1, if_neg hr2, conjInd, hq,
        finishPol]
      rw [if_neg (by simp [hr1, hpn])]
      exact smart_both cj (m := 1) hr1 hr2 hpn hqn c1 c3 (rows_len c2 (by simp)) (rows_len c4 (by simp))

/-- C42 (refusals for an antenna pair and polarization): neither orientation occurs; or no orientation that
occurs has its polarization in the data. -/
theorem get_data_pair_pol_refuses (cj : V → V) (o : Obj) (data : List (List V)) (g : Good o data) (a b : Nat)
    (hab : a ≠ b) (arg : PolArg) (p q : Int) (hp : arg.number o.xo = some p) (hq : conjNum p = some q)
    (l k : List Nat) (hl : IsRowsOf o.pairs a b l) (hk : IsRowsOf o.pairs b a k) :
    (l = [] → k = [] → getData cj o data (.pairPol a b arg) = .error .noPair) ∧
    ((l ≠ [] ∨ k ≠ []) → (l = [] ∨ p ∉ o.pols) → (k = [] ∨ q ∉ o.pols) →
      getData cj o data (.pairPol a b arg) = .error .noPol) := by
  obtain ⟨r1, e1, n1, _⟩ := rows_of g a b l hl
  obtain ⟨r2, e2, n2, _⟩ := rows_of g b a k hk
  constructor
  · intro h1 h2
    simp only [getData, key2inds, byPair, combine, e1, e2, if_neg hab, n1.2 h1, n2.2 h2, and_self, if_true]
  · intro hne h1 h2
    have hnot : ¬ (r1 = .none ∧ r2 = .none) := by rw [n1, n2]; tauto
    simp only [getData, key2inds, byPair, combine, e1, e2, if_neg hab, if_neg hnot, hp, withPol]
    have p1 : (if r1 = .none then SlicifyOut.none else slicify (polWhere o.pols p)) = .none := by
      split
      · rfl
      · rename_i hr
        exact pol_absent g.nodup (h1.resolve_left (fun h => hr (n1.2 h)))
    rw [p1]
    by_cases hr2 : r2 = .none
    · simp [hr2, finishPol]
    · have := pol_absent g.nodup (h2.resolve_left (fun h => hr2 (n2.2 h)))
      simp [hr2, finishPol, conjInd, hq, this]

/-- The remaining case: both orientations occur but the polarization of only one of them does.  The data that
exist are not returned; the call fails. -/
theorem get_data_pair_pol_mixed (cj : V → V) (o : Obj) (data : List (List V)) (g : Good o data) (a b : Nat)
    (hab : a ≠ b) (arg : PolArg) (p q : Int) (hp : arg.number o.xo = some p) (hq : conjNum p = some q)
    (l k : List Nat) (hl : IsRowsOf o.pairs a b l) (hk : IsRowsOf o.pairs b a k) (hl0 : l ≠ []) (hk0 : k ≠ [])
    (hx : (p ∈ o.pols ∧ q ∉ o.pols) ∨ (p ∉ o.pols ∧ q ∈ o.pols)) :
    getData cj o data (.pairPol a b arg) = .error .shape := by
  obtain ⟨r1, e1, n1, _⟩ := rows_of g a b l hl
  obtain ⟨r2, e2, n2, _⟩ := rows_of g b a k hk
  have hr1 : r1 ≠ .none := fun h => hl0 (n1.1 h)
  have hr2 : r2 ≠ .none := fun h => hk0 (n2.1 h)
  simp only [getData, key2inds, byPair, combine, e1, e2, if_neg hab, hr1, hr2, and_self, if_false, hp, withPol, conjInd, hq, finishPol,
    false_or]
  rcases hx with ⟨h1, h2⟩ | ⟨h1, h2⟩
  · obtain ⟨_, _, _, hpn, _⟩ := pol_index g.nodup h1
    rw [if_neg (by simp [hpn])]
    simp [smartSlice, hr1, hr2, pol_absent g.nodup h2]
  · obtain ⟨_, _, _, hqn, _⟩ := pol_index g.nodup h2
    rw [if_neg (by simp [hqn])]
    simp [smartSlice, hr1, hr2, pol_absent g.nodup h1]

/-- C42 (autocorrelations): the rows of (a, a), once each, never conjugated. -/
theorem get_data_auto_pol (cj : V → V) (o : Obj) (data : List (List V)) (g : Good o data) (a : Nat)
    (arg : PolArg) (p : Int) (hp : arg.number o.xo = some p) (l : List Nat)
    (hl : IsRowsOf o.pairs a a l) :
    (l ≠ [] → p ∈ o.pols → ∃ out, getData cj o data (.pairPol a a arg) = .ok out ∧ Answers cj o data l [] [p] out) ∧
    (l ≠ [] → p ∉ o.pols → getData cj o data (.pairPol a a arg) = .error .noPol) ∧
    (l = [] → getData cj o data (.pairPol a a arg) = .error .noPair) := by
  obtain ⟨r1, e1, n1, s1, t1⟩ := rows_of g a a l hl
  refine ⟨fun hl0 hpp => ?_, fun hl0 hpp => ?_, fun hl0 => ?_⟩
  · have hr1 : r1 ≠ .none := fun h => hl0 (n1.1 h)
    obtain ⟨_, _, _, hpn, _⟩ := pol_index g.nodup hpp
    obtain ⟨out, c1, c2⟩ := cut_pol g hpp r1 l (s1 hl0) t1
    refine ⟨out, ?_, out, [], by simp, c2, by simp⟩
    simp only [getData, key2inds, byPair, combine, e1, if_true, hp, withPol, hr1, if_false, false_and, finishPol]
    rw [if_neg (by simp [hpn])]
    simp only [smartSlice, or_true, if_true, c1, if_neg hr1]
  · have hr1 : r1 ≠ .none := fun h => hl0 (n1.1 h)
    simp [getData, key2inds, byPair, combine, e1, hp, withPol, hr1, finishPol, pol_absent g.nodup hpp]
  · simp [getData, key2inds, byPair, combine, e1, n1.2 hl0]

/-- C42 (polarization alone): every row, in order. -/
theorem get_data_pol (cj : V → V) (o : Obj) (data : List (List V)) (g : Good o data) (key : Key) (p : Int)
    (hkey : (∃ s, key = .polName s ∧ polstr2num o.xo s = some p) ∨ (key = .int p ∧ p < 5)) :
    (p ∈ o.pols → ∃ out, getData cj o data key = .ok out ∧ Answers cj o data (List.range data.length) [] [p] out) ∧
    (p ∉ o.pols → getData cj o data key = .error .noPol) := by
  have hk : key2inds o key = byPol o p := by
    rcases hkey with ⟨s, rfl, hs⟩ | ⟨rfl, h5⟩
    · simp [key2inds, hs]
    · simp [key2inds, h5]
  constructor
  · intro hp
    obtain ⟨k, hki, _, hpn, _⟩ := pol_index g.nodup hp
    obtain ⟨out, c1, c2⟩ := cut_pol g hp (allOf o.pairs.nblts) (List.range data.length)
      (by rw [← g.rows]; exact allOf_picks _) (by simp)
    refine ⟨out, ?_, out, [], by simp, c2, by simp⟩
    have hpos : (polWhere o.pols p).length > 0 := by
      rw [polWhere_eq _ g.nodup, hki]; simp
    simp only [getData, hk, byPol, if_pos hpos, smartSlice, or_true, if_true, c1]
    rw [if_neg]
    simp [allOf]
  · intro hp
    have : polWhere o.pols p = [] := by
      have := pol_absent g.nodup hp
      unfold slicify at this
      split at this
      · rename_i h; exact List.length_eq_zero_iff.1 h
      · split at this <;> simp at this
    simp [getData, hk, byPol, this]

/-- Reading all polarizations in the order of their conjugates. -/
theorem conj_order {o : Obj} (hn : o.pols.Nodup) {r : List Nat} (hr : reorderConjPols o.pols = some r)
    (hne : o.pols ≠ []) (hrev : ¬ (2 ≤ o.pols.length ∧ o.pols.map conjNum = o.pols.reverse.map some)) :
    slicify r ≠ .none ∧ (slicify r).picks o.pols.length = some r ∧ (∀ k ∈ r, k < o.pols.length) := by
  obtain ⟨q1, q2, q3, q4⟩ := Verif.Pol.reorder_conj_correct o.pols r hr hn
  have hnr : r ≠ [] := by
    intro h; rw [h] at q1; exact hne (List.length_eq_zero_iff.1 q1.symm)
  have hlt : ∀ k ∈ r, k < o.pols.length := fun k hk => by simpa using q4.mem_iff.1 hk
  refine ⟨?_, ?_, hlt⟩
  · unfold slicify
    rw [if_neg (by simpa using hnr)]
    split <;> simp
  · apply slicify_nodup _ r hnr (q4.nodup_iff.2 List.nodup_range) hlt
    rintro ⟨h2, hd⟩
    apply hrev
    refine ⟨by omega, ?_⟩
    have hrr := desc_range r _ q4 hd
    apply List.ext_getElem?
    intro i
    by_cases hi : i < o.pols.length
    · have hir : i < r.length := by omega
      obtain ⟨p, q, hp, hq, hpq⟩ := q2 i _ (List.getElem?_eq_getElem hir)
      have hri : r[i] = o.pols.length - 1 - i := by
        have : r[i]? = (List.range o.pols.length).reverse[i]? := by rw [← hrr]
        rw [List.getElem?_eq_getElem hir, List.getElem?_reverse (by simpa using hi)] at this
        simp only [List.length_range] at this
        rw [List.getElem?_range (by omega)] at this
        simpa using this
      rw [List.getElem?_map, hp, List.getElem?_map, List.getElem?_reverse hi, ← hri, hq]
      simp [hpq]
    · rw [List.getElem?_eq_none (by simpa using hi), List.getElem?_eq_none (by simpa using hi)]

/-- Reading a list of rows at all polarizations. -/
theorem cut_all {o : Obj} {data : List (List V)} (g : Good o data) (ind : SlicifyOut) (is : List Nat)
    (hi : ind.picks data.length = some is) (his : ∀ i ∈ is, i < data.length) :
    ∃ out, cut data o.pols.length ind (allOf o.pols.length) = some out ∧
      out.map (List.map some) = is.map (fun i => o.pols.map (stored o data i)) := by
  obtain ⟨out, h1, h2⟩ := cut_spec data o.pols.length ind _ is (List.range o.pols.length) hi (allOf_picks _) his
    (by simp) g.cols
  refine ⟨out, h1, ?_⟩
  rw [h2]
  apply List.map_congr_left
  intro i _
  apply List.ext_getElem?
  intro k
  by_cases hk : k < o.pols.length
  · rw [List.getElem?_map, List.getElem?_range hk, List.getElem?_map, List.getElem?_eq_getElem hk]
    simp only [Option.map_some, Option.some.injEq, stored]
    rw [findIdx_getElem o.pols g.nodup k _ (List.getElem?_eq_getElem hk)]
    rfl
  · rw [List.getElem?_eq_none (by simpa using hk), List.getElem?_eq_none (by simpa using hk)]

theorem cut_conj {o : Obj} {data : List (List V)} (g : Good o data) {r : List Nat} (hr : reorderConjPols o.pols = some r)
    (hpk : (slicify r).picks o.pols.length = some r) (ind : SlicifyOut) (is : List Nat)
    (hi : ind.picks data.length = some is) (his : ∀ i ∈ is, i < data.length) :
    ∃ out, cut data o.pols.length ind (slicify r) = some out ∧
      out.map (List.map some) = is.map (fun i => o.pols.map (fun p => (conjNum p).bind (stored o data i))) := by
  obtain ⟨q1, q2, q3, q4⟩ := Verif.Pol.reorder_conj_correct o.pols r hr g.nodup
  obtain ⟨out, h1, h2⟩ := cut_spec data o.pols.length ind _ is r hi hpk his
    (fun k hk => by simpa using q4.mem_iff.1 hk) g.cols
  refine ⟨out, h1, ?_⟩
  rw [h2]
  apply List.map_congr_left
  intro i _
  apply List.ext_getElem?
  intro k
  by_cases hk : k < o.pols.length
  · have hkr : k < r.length := by omega
    obtain ⟨p, q, hp, hq, hpq⟩ := q2 k _ (List.getElem?_eq_getElem hkr)
    rw [List.getElem?_map, List.getElem?_map, List.getElem?_eq_getElem hkr, hp]
    simp only [Option.map_some, Option.some.injEq, stored, hpq, Option.bind_some]
    rw [findIdx_getElem o.pols g.nodup _ q hq]
    rfl
  · rw [List.getElem?_eq_none (by simp; omega), List.getElem?_eq_none (by simpa using hk)]

/-- C42 (antenna pair, all polarizations).  For a polarization axis that contains the conjugate of each of its
entries and is not its own conjugate read backwards, the answer is the rows of (a, b) followed by the
conjugated rows of (b, a).  (`get_data_pair_counterexample` shows that the exception is real.) -/
theorem get_data_pair_partial (cj : V → V) (o : Obj) (data : List (List V)) (g : Good o data) (hpn : o.pols ≠ []) (a b : Nat)
    (hab : a ≠ b) (l k : List Nat) (hl : IsRowsOf o.pairs a b l) (hk : IsRowsOf o.pairs b a k) (hne : l ≠ [] ∨ k ≠ [])
    (hclosed : k ≠ [] → ∀ p ∈ o.pols, ∃ q ∈ o.pols, conjNum p = some q)
    (hrev : k ≠ [] → ¬ (2 ≤ o.pols.length ∧ o.pols.map conjNum = o.pols.reverse.map some)) :
    ∃ out, getData cj o data (.pair a b) = .ok out ∧ Answers cj o data l k o.pols out := by
  obtain ⟨r1, e1, n1, s1, t1⟩ := rows_of g a b l hl
  obtain ⟨r2, e2, n2, s2, t2⟩ := rows_of g b a k hk
  have hnot : ¬ (r1 = .none ∧ r2 = .none) := by rw [n1, n2]; tauto
  by_cases hk0 : k = []
  · have hl0 : l ≠ [] := by tauto
    have hr2 : r2 = .none := n2.2 hk0
    have hr1 : r1 ≠ .none := fun h => hl0 (n1.1 h)
    obtain ⟨out, c1, c2⟩ := cut_all g r1 l (s1 hl0) t1
    refine ⟨out, ?_, out, [], by simp, c2, by simp [hk0]⟩
    simp only [getData, key2inds, byPair, combine, e1, e2, if_neg hab, if_neg hnot, allPols, if_neg hr1, if_pos hr2, smartSlice,
      or_true, if_true, c1]
  · have hr2 : r2 ≠ .none := fun h => hk0 (n2.1 h)
    obtain ⟨r, hr⟩ := Option.isSome_iff_exists.1 ((Verif.Pol.reorder_conj_succeeds_iff o.pols).2 (hclosed hk0))
    obtain ⟨d1, d2, d3⟩ := conj_order g.nodup hr hpn (hrev hk0)
    obtain ⟨y, c3, c4⟩ := cut_conj g hr d2 r2 k (s2 hk0) t2
    have c5 : (y.map (List.map cj)).map (List.map some) =
        k.map (fun i => o.pols.map (fun p => (conjNum p).bind (fun q => (stored o data i q).map cj))) := by
      rw [map_cj cj c4]
      apply List.map_congr_left
      intro i _
      rw [List.map_map]
      apply List.map_congr_left
      intro p _
      simp only [Function.comp_apply]
      cases conjNum p <;> rfl
    by_cases hl0 : l = []
    · have hr1 : r1 = .none := n1.2 hl0
      refine ⟨y.map (List.map cj), ?_, [], _, by simp, by simp [hl0], c5⟩
      simp only [getData, key2inds, byPair, combine, e1, e2, if_neg hab, if_neg hnot, allPols, if_pos hr1, if_neg hr2, hr]
      rw [smartSlice, if_pos (Or.inl hr1)]
      simp only [if_neg hr2, c3, if_pos hr1]
    · have hr1 : r1 ≠ .none := fun h => hl0 (n1.1 h)
      obtain ⟨x, c1, c2⟩ := cut_all g r1 l (s1 hl0) t1
      refine ⟨x ++ y.map (List.map cj), ?_, x, _, rfl, c2, c5⟩
      simp only [getData, key2inds, byPair, combine, e1, e2, if_neg hab, if_neg hnot, allPols, if_neg hr1, if_neg hr2, hr]
      exact smart_both cj (m := o.pols.length) hr1 hr2 (by simp [allOf]) d1 c1 c3 (rows_len c2 (by simp))
        (rows_len c4 (by simp))

/-- What happens for a pair when some conjugate polarization is missing: with both orientations present the
rows of the reversed one are left out without a message; with only the reversed one the call fails. -/
theorem get_data_pair_open (cj : V → V) (o : Obj) (data : List (List V)) (g : Good o data) (a b : Nat) (hab : a ≠ b)
    (l k : List Nat) (hl : IsRowsOf o.pairs a b l) (hk : IsRowsOf o.pairs b a k) (hk0 : k ≠ [])
    (hopen : ∃ p ∈ o.pols, ∀ q ∈ o.pols, conjNum p ≠ some q) :
    (l ≠ [] → ∃ out, getData cj o data (.pair a b) = .ok out ∧ Answers cj o data l [] o.pols out) ∧
    (l = [] → getData cj o data (.pair a b) = .error .noConjPols) := by
  obtain ⟨r1, e1, n1, s1, t1⟩ := rows_of g a b l hl
  obtain ⟨r2, e2, n2, s2, t2⟩ := rows_of g b a k hk
  have hr2 : r2 ≠ .none := fun h => hk0 (n2.1 h)
  have hnone : reorderConjPols o.pols = none := by
    cases hr : reorderConjPols o.pols with
    | none => rfl
    | some r =>
      obtain ⟨p, hp, hq⟩ := hopen
      obtain ⟨q, h1, h2⟩ := (Verif.Pol.reorder_conj_succeeds_iff o.pols).1 (by rw [hr]; rfl) p hp
      exact absurd h2 (hq q h1)
  constructor
  · intro hl0
    have hr1 : r1 ≠ .none := fun h => hl0 (n1.1 h)
    obtain ⟨out, c1, c2⟩ := cut_all g r1 l (s1 hl0) t1
    refine ⟨out, ?_, out, [], by simp, c2, by simp⟩
    simp [getData, key2inds, byPair, combine, e1, e2, if_neg hab, hr1, allPols, hr2, hnone, smartSlice, c1]
  · intro hl0
    simp [getData, key2inds, byPair, combine, e1, e2, if_neg hab, n1.2 hl0, hr2, allPols, hnone]

/-- C42 (baseline number): the same as asking for the pair the number stands for. -/
theorem get_data_baseline (cj : V → V) (o : Obj) (data : List (List V)) (n : Int) (hn : 5 ≤ n) (a b : Nat)
    (h : Verif.Baseline.baselineToAntnums o.pairs.nants [n] = .ok ([(a : Int)], [(b : Int)])) :
    getData cj o data (.int n) = getData cj o data (.pair a b) := by
  have : ¬ n < 5 := by omega
  simp [getData, key2inds, this, h]

/-- C42 (reversal): if only one orientation of the pair occurs, asking for the reversed pair and the conjugate
polarization gives the complex conjugate. -/
theorem get_data_reversed (cj : V → V) (hcj : ∀ v, cj (cj v) = v) (o : Obj) (data : List (List V)) (g : Good o data)
    (a b : Nat) (hab : a ≠ b) (p q : Int) (hq : conjNum p = some q) (hp : p ∈ o.pols) (hab0 : ∃ i : Nat,
      o.pairs.ant1[i]? = some a ∧ o.pairs.ant2[i]? = some b)
    (hno : ∀ i : Nat, ¬ (o.pairs.ant1[i]? = some b ∧ o.pairs.ant2[i]? = some a)) :
    ∃ x y, getData cj o data (.pairPol a b (.num p)) = .ok x ∧ getData cj o data (.pairPol b a (.num q)) = .ok y ∧
      y = x.map (List.map cj) ∧ x = y.map (List.map cj) := by
  obtain ⟨_, l, _, hl, _⟩ := Verif.AntPair.antpair2ind_exact o.pairs g.numbered g.laidOut a b
  obtain ⟨i, hi⟩ := hab0
  have hl0 : l ≠ [] := List.ne_nil_of_mem ((hl.2 i).2 hi)
  have hk : IsRowsOf o.pairs b a [] := ⟨by simp, fun i => by simp; exact fun h1 h2 => hno i ⟨h1, h2⟩⟩
  have hqp := Verif.Pol.conj_involution p q hq
  obtain ⟨x, hx, x1, x2, rfl, hx1, hx2⟩ := get_data_pair_pol cj o data g a b hab (.num p) p q rfl hq l [] hl hk
    (Or.inl hl0) (fun _ => hp) (fun h => absurd rfl h)
  obtain ⟨y, hy, y1, y2, rfl, hy1, hy2⟩ := get_data_pair_pol cj o data g b a (Ne.symm hab) (.num q) q p rfl hqp [] l hk hl
    (Or.inr hl0) (fun h => absurd rfl h) (fun _ => hp)
  have hx2' : x2 = [] := by simpa using hx2
  have hy1' : y1 = [] := by simpa using hy1
  subst hx2' hy1'
  have e : y2 = x1.map (List.map cj) := by
    apply map_some_inj
    rw [hy2, map_cj cj hx1]
    apply List.map_congr_left
    intro i _
    simp [hqp]
  refine ⟨_, _, hx, hy, by simp [e], ?_⟩
  rw [e]
  simp only [List.append_nil, List.nil_append, List.map_map]
  conv_lhs => rw [← List.map_id x1]
  apply List.map_congr_left
  intro r _
  simp only [Function.comp_apply, List.map_map, id]
  conv_lhs => rw [← List.map_id r]
  apply List.map_congr_left
  intro v _
  simp [hcj]

/-! ### Concrete cases -/

/-- Rows (0,1), (2,0), (0,2) at two times; polarizations xx, xy, yx, yy. -/
def demo : Obj := { pairs := AntPair.demo, pols := [-5, -7, -8, -6], xo := some ['e', 'a', 's', 't'] }

def demoData : List (List Int) :=
  [[1, 2, 3, 4], [5, 6, 7, 8], [9, 10, 11, 12], [13, 14, 15, 16], [17, 18, 19, 20], [21, 22, 23, 24]]

theorem demo_good : Good demo demoData :=
  ⟨AntPair.demo_numbered, AntPair.demo_laidOut, by decide, by decide, by decide⟩

example : Good demo demoData ∧ PolArg.number demo.xo (.name ['e', 'n']) = some (-7) ∧ conjNum (-7) = some (-8) ∧
    IsRowsOf demo.pairs 0 2 [2, 5] ∧ IsRowsOf demo.pairs 2 0 [1, 4] ∧ -7 ∈ demo.pols ∧ -8 ∈ demo.pols ∧
    getData (fun x => -x) demo demoData (.pairPol 0 2 (.name ['e', 'n'])) = .ok [[10], [22], [-7], [-19]] ∧
    getData (fun x => -x) demo demoData (.pair 0 2) = .ok [[9, 10, 11, 12], [21, 22, 23, 24], [-5, -7, -6, -8],
      [-17, -19, -18, -20]] ∧
    (∀ p ∈ demo.pols, ∃ q ∈ demo.pols, conjNum p = some q) ∧ demo.pols.map conjNum ≠ demo.pols.reverse.map some ∧
    getData (fun x => -x) demo demoData (.int 65538) = getData (fun x => -x) demo demoData (.pair 0 2) ∧
    getData (fun x => -x) demo demoData (.polName ['n', 'n']) = .ok [[4], [8], [12], [16], [20], [24]] := by
  refine ⟨demo_good, by decide +kernel, by decide +kernel, ?_, ?_, by decide, by decide, by decide +kernel, by decide +kernel,
    by decide +kernel, by decide +kernel, by decide +kernel, by decide +kernel⟩
  · have := AntPair.rowsWhere_spec demo.pairs (by decide) 0 2
    rwa [show AntPair.rowsWhere demo.pairs 0 2 = [2, 5] by decide +kernel] at this
  · have := AntPair.rowsWhere_spec demo.pairs (by decide) 2 0
    rwa [show AntPair.rowsWhere demo.pairs 2 0 = [1, 4] by decide +kernel] at this

/-- One row (1, 0), polarizations xy, yx. -/
def crossOnly : Obj :=
  { pairs := { ant1 := [1], ant2 := [0], bl := [67584], nbls := 1, ntimes := 1, nants := 2, rect := false,
               timeFaster := false },
    pols := [-7, -8], xo := none }

/-- C42, the fault: with polarizations [xy, yx] the reversed baseline is read with the index `slice(1, 1, -1)`:
no polarization is returned at all. -/
theorem get_data_pair_counterexample :
    Good crossOnly [[10, 20]] ∧ (∀ p ∈ crossOnly.pols, ∃ q ∈ crossOnly.pols, conjNum p = some q) ∧
    getData (fun x => -x) crossOnly [[10, 20]] (.pair 1 0) = .ok [[10, 20]] ∧
    getData (fun x => -x) crossOnly [[10, 20]] (.pair 0 1) = .ok [[]] := by
  refine ⟨⟨⟨false, by decide +kernel⟩, fun h => by simp [crossOnly] at h, by decide, by decide, by decide⟩,
    by decide +kernel, by decide +kernel, by decide +kernel⟩

end Verif.GetData
