import Verif.Norm.Spec
import Mathlib.Tactic.Linarith
import Mathlib.Tactic.FieldSimp

/-! The binary search, the groups of times, and what one group changes. -/

namespace Verif.Norm

section search
variable {K : Type} [Field K] [LinearOrder K]

theorem bsearch_le (ts : List K) (key : K) (fuel lo hi : Nat) (h : lo ≤ hi) : bsearch ts key fuel lo hi ≤ hi := by
  induction fuel generalizing lo hi with
  | zero => exact h
  | succ fuel ih =>
    rw [bsearch]
    split
    · split
      · exact ih _ _ (by omega)
      · exact (ih _ _ (by omega)).trans (by omega)
    · exact h

/-- The search never ends before the first entry if that is not above the key. -/
theorem bsearch_pos (ts : List K) (key : K) (h0 : ts.getD 0 0 ≤ key) (fuel lo hi : Nat) (hf : hi - lo ≤ fuel)
    (hh : 0 < hi) : 0 < bsearch ts key fuel lo hi := by
  induction fuel generalizing lo hi with
  | zero => rw [bsearch]; omega
  | succ fuel ih =>
    rw [bsearch]
    split
    · split
      · exact ih _ _ (by omega) hh
      · rename_i hlt hgt
        refine ih _ _ (by omega) ?_
        by_contra hc
        have e : lo + (hi - lo) / 2 = 0 := by omega
        rw [e] at hgt
        exact hgt h0
    · omega

theorem bsearch_sorted (ts : List K) (key : K) (hs : ∀ i j, i ≤ j → j < ts.length → ts.getD i 0 ≤ ts.getD j 0)
    (fuel lo hi : Nat) (hf : hi - lo ≤ fuel) (hlh : lo ≤ hi) (hl : hi ≤ ts.length)
    (h1 : ∀ i < lo, ts.getD i 0 ≤ key) (h2 : ∀ i, hi ≤ i → i < ts.length → key < ts.getD i 0) :
    (∀ i < bsearch ts key fuel lo hi, ts.getD i 0 ≤ key) ∧
      ∀ i, bsearch ts key fuel lo hi ≤ i → i < ts.length → key < ts.getD i 0 := by
  induction fuel generalizing lo hi with
  | zero =>
    rw [bsearch]
    exact ⟨h1, fun i hi1 hi2 => h2 i (by omega) hi2⟩
  | succ fuel ih =>
    rw [bsearch]
    split
    · split
      · rename_i hlt hle
        refine ih _ _ (by omega) (by omega) hl ?_ h2
        intro i hi'
        exact (hs i _ (by omega) (by omega)).trans hle
      · rename_i hlt hgt
        refine ih _ _ (by omega) (by omega) (by omega) h1 ?_
        intro i hi1 hi2
        exact lt_of_lt_of_le (not_le.1 hgt) (hs _ i hi1 hi2)
    · exact ⟨h1, fun i hi1 hi2 => h2 i (by omega) hi2⟩

variable [IsStrictOrderedRing K]

theorem search_pos {t : K} {ts : List K} {tol : K} (ht : 0 ≤ tol) : 0 < searchRight (t :: ts) (t + tol) :=
  bsearch_pos _ _ (by simp; exact ht) _ _ _ (by omega) (by simp)

omit [IsStrictOrderedRing K] in
theorem search_le (ts : List K) (key : K) : searchRight ts key ≤ ts.length := bsearch_le _ _ _ _ _ (by omega)

/-- Every row is in one of the groups, in order. -/
theorem groups_flatten {tol : K} (ht : 0 ≤ tol) (fuel : Nat) (ts : List K) (idx : List Nat)
    (hl : idx.length = ts.length) (hf : ts.length ≤ fuel) : (timeGroups tol fuel ts idx).flatten = idx := by
  induction fuel generalizing ts idx with
  | zero =>
    have : idx = [] := List.length_eq_zero_iff.1 (by omega)
    subst this; rfl
  | succ fuel ih =>
    cases ts with
    | nil =>
      have : idx = [] := List.length_eq_zero_iff.1 (by simpa using hl)
      subst this; rfl
    | cons t ts =>
      have hp := search_pos (t := t) (ts := ts) ht
      rw [timeGroups, List.flatten_cons, ih _ _ (by simp [hl]) (by
        simp only [List.length_drop, List.length_cons] at hf ⊢; omega), List.take_append_drop]

/-- For sorted times the groups are those of equal times. -/
theorem groups_equal {tol : K} (ht : 0 ≤ tol) (time : Nat → K) (fuel : Nat) (idx : List Nat)
    (hf : idx.length ≤ fuel) (hs : (idx.map time).Pairwise (· ≤ ·))
    (ha : ∀ r ∈ idx, ∀ s ∈ idx, time r = time s ∨ tol < time r - time s ∨ tol < time s - time r) :
    ∀ g ∈ timeGroups tol fuel (idx.map time) idx, ∀ r ∈ g, ∀ s ∈ idx, s ∈ g ↔ time s = time r := by
  induction fuel generalizing idx with
  | zero =>
    intro g hg
    simp [timeGroups] at hg
  | succ fuel ih =>
    cases idx with
    | nil =>
      intro g hg
      simp [timeGroups] at hg
    | cons i idx =>
      have hmono : ∀ a b, a ≤ b → b < ((i :: idx).map time).length →
          ((i :: idx).map time).getD a 0 ≤ ((i :: idx).map time).getD b 0 := by
        intro a b hab hb
        rcases Nat.lt_or_eq_of_le hab with h | h
        · have := List.pairwise_iff_getElem.1 hs a b (by omega) hb h
          rw [List.getD_eq_getElem?_getD, List.getD_eq_getElem?_getD, List.getElem?_eq_getElem hb,
            List.getElem?_eq_getElem (by omega)]
          exact this
        · rw [h]
      have hk := bsearch_sorted ((i :: idx).map time) (time i + tol) hmono ((i :: idx).map time).length 0
        ((i :: idx).map time).length (by omega) (by omega) (le_refl _) (by simp) (fun j h1 h2 => by omega)
      have hp : 0 < searchRight ((i :: idx).map time) (time i + tol) := search_pos ht
      have hle := search_le ((i :: idx).map time) (time i + tol)
      have hk' : (∀ j < searchRight ((i :: idx).map time) (time i + tol), ((i :: idx).map time).getD j 0 ≤ time i + tol) ∧
        ∀ j, searchRight ((i :: idx).map time) (time i + tol) ≤ j → j < ((i :: idx).map time).length →
          time i + tol < ((i :: idx).map time).getD j 0 := hk
      generalize hkd : searchRight ((i :: idx).map time) (time i + tol) = k at *
      have hge : ∀ r ∈ (i :: idx), time i ≤ time r := by
        intro r hr
        rcases List.mem_cons.1 hr with rfl | hr
        · exact le_refl _
        · exact List.rel_of_pairwise_cons hs (List.mem_map_of_mem hr)
      have htake : ∀ r ∈ (i :: idx).take k, time r = time i := by
        intro r hr
        obtain ⟨j, hj, e⟩ := List.mem_iff_getElem.1 hr
        rw [List.length_take] at hj
        have hjl : j < (i :: idx).length := by omega
        have e' : (i :: idx)[j] = r := by rw [← e, List.getElem_take]
        have h1 := hk'.1 j (by omega)
        have h2 : ((i :: idx).map time).getD j 0 = time r := by
          rw [List.getD_eq_getElem?_getD, List.getElem?_eq_getElem (by simpa using hjl)]
          simp only [List.getElem_map, e', Option.getD_some]
        rw [h2] at h1
        have hm : r ∈ (i :: idx) := List.mem_of_mem_take hr
        rcases ha r hm i (by simp) with h | h | h
        · exact h
        · linarith
        · have := hge r hm; linarith
      have hdrop : ∀ r ∈ (i :: idx).drop k, time i + tol < time r := by
        intro r hr
        obtain ⟨j, hj, e⟩ := List.mem_iff_getElem.1 hr
        rw [List.length_drop] at hj
        rw [List.getElem_drop] at e
        have hjl : k + j < (i :: idx).length := by omega
        have h1 := hk'.2 (k + j) (by omega) (by simpa using hjl)
        have h2 : ((i :: idx).map time).getD (k + j) 0 = time r := by
          rw [List.getD_eq_getElem?_getD, List.getElem?_eq_getElem (by simpa using hjl)]
          simp only [List.getElem_map, e, Option.getD_some]
        rw [h2] at h1
        exact h1
      intro g hg r hr s hs'
      rw [List.map_cons, timeGroups] at hg
      have ekd : searchRight (time i :: idx.map time) (time i + tol) = k := hkd
      rw [ekd] at hg
      rcases List.mem_cons.1 hg with rfl | hg
      · constructor
        · intro h
          rw [htake s h, htake r hr]
        · intro h
          rw [htake r hr] at h
          rw [← List.take_append_drop k (i :: idx), List.mem_append] at hs'
          rcases hs' with h' | h'
          · exact h'
          · have := hdrop s h'
            rw [h] at this
            linarith
      · have ed : (time i :: idx.map time).drop k = ((i :: idx).drop k).map time := by
          rw [List.map_drop, List.map_cons]
        rw [ed] at hg
        have hfl : ((i :: idx).drop k).length ≤ fuel := by
          simp only [List.length_drop, List.length_cons] at hf ⊢; omega
        have hsub : ∀ x ∈ (i :: idx).drop k, x ∈ i :: idx := fun x hx => List.mem_of_mem_drop hx
        have hrin : r ∈ (i :: idx).drop k := by
          have := groups_flatten ht fuel (((i :: idx).drop k).map time) ((i :: idx).drop k) (by simp) (by simpa using hfl)
          rw [← this]
          exact List.mem_flatten.2 ⟨g, hg, hr⟩
        have key := ih ((i :: idx).drop k) hfl (by
            rw [List.map_drop]; exact List.Pairwise.drop hs)
          (fun r hr s hs => ha r (hsub r hr) s (hsub s hs)) g hg r hr
        rw [← List.take_append_drop k (i :: idx), List.mem_append] at hs'
        rcases hs' with h' | h'
        · constructor
          · intro h
            have hsin : s ∈ (i :: idx).drop k := by
              have := groups_flatten ht fuel (((i :: idx).drop k).map time) ((i :: idx).drop k) (by simp)
                (by simpa using hfl)
              rw [← this]
              exact List.mem_flatten.2 ⟨g, hg, h⟩
            exact (key s hsin).1 h
          · intro h
            have h1 := hdrop r hrin
            rw [← h, htake s h'] at h1
            linarith
        · exact key s h'

end search

section groups
variable {K V : Type} [LinearOrder K]

theorem timeOrdered_iff (o : Obj K V) : timeOrdered (timesOf o) = true ↔ (timesOf o).Pairwise (· ≤ ·) := by
  have : ∀ l : List K, timeOrdered l = true ↔ l.Pairwise (· ≤ ·) := by
    intro l
    rw [← List.isChain_iff_pairwise]
    induction l with
    | nil => simp [timeOrdered]
    | cons a l ih =>
      cases l with
      | nil => simp [timeOrdered]
      | cons b l =>
        rw [List.isChain_cons_cons, ← ih]
        simp [timeOrdered]
  exact this _

theorem inTime_iff (o : Obj K V) : timeOrdered (timesOf o) = true ↔ InTime o := by
  rw [timeOrdered_iff, timesOf, List.pairwise_map]
  constructor
  · intro h r s hrs hs
    rcases Nat.lt_or_eq_of_le hrs with h1 | h1
    · have := List.pairwise_iff_getElem.1 h r s (by simp; omega) (by simpa using hs) h1
      simpa using this
    · rw [h1]
  · intro h
    rw [List.pairwise_iff_getElem]
    intro i j hi hj hij
    simp only [List.getElem_range]
    exact h i j (by omega) (by simpa using hj)

omit [LinearOrder K] in
/-- Rows and what one group does with them depend on the rows of the group only. -/
theorem autoRow_congr {o o' : Obj K V} (ha : o'.a = o.a) (hb : o'.b = o.b) (g : List Nat) (ant : Nat) :
    autoRow o' g ant = autoRow o g ant := by
  unfold autoRow; rw [ha, hb]

omit [LinearOrder K] in
theorem autoRow_mem {o : Obj K V} {g : List Nat} {ant x : Nat} (h : autoRow o g ant = some x) :
    x ∈ g ∧ o.a x = ant ∧ o.b x = ant := by
  have := List.mem_of_getLast? h
  rw [List.mem_filter] at this
  simpa using this

variable [Field K] [AddCommGroup V] [Module K V]

theorem cell_congr (sqrt : K → K) (re : V → K) (skip invert : Bool) (pg : List (Nat × Nat)) {o o' : Obj K V}
    {g : List Nat} (ha : o'.a = o.a) (hb : o'.b = o.b) (hd : ∀ r ∈ g, o'.data r = o.data r)
    (hf : ∀ r ∈ g, o'.flag r = o.flag r) {r : Nat} (hr : r ∈ g) (f j : Nat) :
    cell sqrt re skip invert pg o' g r f j = cell sqrt re skip invert pg o g r f j := by
  unfold cell
  rw [autoRow_congr ha hb, autoRow_congr ha hb, ha, hb, hd r hr, hf r hr]
  cases hx : autoRow o g (o.a r) with
  | none => rfl
  | some x =>
    cases hy : autoRow o g (o.b r) with
    | none => rfl
    | some y =>
      have h1 := (autoRow_mem hx).1
      have h2 := (autoRow_mem hy).1
      have e1 : ∀ z ∈ g, ∀ p, autoFlag re o' z f p = autoFlag re o z f p := by
        intro z hz p; unfold autoFlag; rw [hd z hz, hf z hz]
      have e2 : ∀ z ∈ g, ∀ p, norm sqrt re invert o' z f p = norm sqrt re invert o z f p := by
        intro z hz p; unfold norm; rw [e1 z hz, hd z hz]
      cases pg[j]? with
      | none => rfl
      | some pq => simp only [e1 x h1, e1 y h2, e2 x h1, e2 y h2]

theorem step_meta (sqrt : K → K) (re : V → K) (skip invert : Bool) (pg : List (Nat × Nat)) (gs : List (List Nat))
    (o : Obj K V) :
    (gs.foldl (stepGroup sqrt re skip invert pg) o).n = o.n ∧ (gs.foldl (stepGroup sqrt re skip invert pg) o).nf = o.nf ∧
      (gs.foldl (stepGroup sqrt re skip invert pg) o).time = o.time ∧
      (gs.foldl (stepGroup sqrt re skip invert pg) o).a = o.a ∧ (gs.foldl (stepGroup sqrt re skip invert pg) o).b = o.b ∧
      (gs.foldl (stepGroup sqrt re skip invert pg) o).pols = o.pols := by
  induction gs generalizing o with
  | nil => exact ⟨rfl, rfl, rfl, rfl, rfl, rfl⟩
  | cons g gs ih => rw [List.foldl_cons]; exact ih _

/-- Rows outside of all groups stay. -/
theorem fold_out (sqrt : K → K) (re : V → K) (skip invert : Bool) (pg : List (Nat × Nat)) (gs : List (List Nat))
    (o : Obj K V) (r : Nat) (h : ∀ g ∈ gs, r ∉ g) :
    (gs.foldl (stepGroup sqrt re skip invert pg) o).data r = o.data r ∧
      (gs.foldl (stepGroup sqrt re skip invert pg) o).flag r = o.flag r := by
  induction gs generalizing o with
  | nil => exact ⟨rfl, rfl⟩
  | cons g gs ih =>
    rw [List.foldl_cons]
    obtain ⟨h1, h2⟩ := ih (stepGroup sqrt re skip invert pg o g) (fun g' hg' => h g' (by simp [hg']))
    have hg := h g (by simp)
    rw [h1, h2]
    simp [stepGroup, hg]

/-- Rows of a group become what that group makes of the original object. -/
theorem fold_in (sqrt : K → K) (re : V → K) (skip invert : Bool) (pg : List (Nat × Nat)) (gs : List (List Nat))
    (hn : gs.flatten.Nodup) (o : Obj K V) {g : List Nat} (hg : g ∈ gs) {r : Nat} (hr : r ∈ g) (f j : Nat) :
    (gs.foldl (stepGroup sqrt re skip invert pg) o).data r f j = (cell sqrt re skip invert pg o g r f j).1 ∧
      (gs.foldl (stepGroup sqrt re skip invert pg) o).flag r f j = (cell sqrt re skip invert pg o g r f j).2 := by
  induction gs generalizing o with
  | nil => simp at hg
  | cons g0 gs ih =>
    rw [List.foldl_cons]
    rw [List.flatten_cons, List.nodup_append] at hn
    obtain ⟨n1, n2, n3⟩ := hn
    by_cases hin : ∃ g' ∈ gs, r ∈ g'
    · have hr0 : r ∉ g0 := by
        intro h
        obtain ⟨g', h1, h2⟩ := hin
        exact n3 r h r (List.mem_flatten.2 ⟨g', h1, h2⟩) rfl
      have hg' : g ∈ gs := by
        rcases List.mem_cons.1 hg with rfl | h
        · exact absurd hr hr0
        · exact h
      obtain ⟨h1, h2⟩ := ih n2 (stepGroup sqrt re skip invert pg o g0) hg'
      have hc : cell sqrt re skip invert pg (stepGroup sqrt re skip invert pg o g0) g r f j =
          cell sqrt re skip invert pg o g r f j := by
        refine cell_congr sqrt re skip invert pg (o := o) (o' := stepGroup sqrt re skip invert pg o g0) rfl rfl ?_ ?_ hr f j
        · intro s hs
          have : s ∉ g0 := fun h => n3 s h s (List.mem_flatten.2 ⟨g, hg', hs⟩) rfl
          simp [stepGroup, this]
        · intro s hs
          have : s ∉ g0 := fun h => n3 s h s (List.mem_flatten.2 ⟨g, hg', hs⟩) rfl
          simp [stepGroup, this]
      rw [h1, h2, hc]
      exact ⟨rfl, rfl⟩
    · have hg' : g = g0 := by
        rcases List.mem_cons.1 hg with h | h
        · exact h
        · exact absurd ⟨g, h, hr⟩ hin
      subst hg'
      obtain ⟨h1, h2⟩ := fold_out sqrt re skip invert pg gs (stepGroup sqrt re skip invert pg o g) r
        (fun g' h h' => hin ⟨g', h, h'⟩)
      rw [h1, h2]
      simp [stepGroup, hr]

end groups

/-! Polarizations -/

theorem idx_get {pols : List Int} {c : Int} (h : c ∈ pols) : pols[pols.idxOf c]? = some c := by
  rw [List.getElem?_eq_getElem (List.idxOf_lt_length_iff.2 h), List.getElem_idxOf]

theorem mapM_get {α β : Type} {f : α → Option β} {l : List α} {m : List β} (h : l.mapM f = some m) {j : Nat} {x : α}
    (hj : l[j]? = some x) : ∃ y, m[j]? = some y ∧ f x = some y := by
  induction l generalizing m j with
  | nil => simp at hj
  | cons a l ih =>
    rw [List.mapM_cons] at h
    cases ha : f a with
    | none => simp [ha] at h
    | some b =>
      cases hm : l.mapM f with
      | none => simp [ha, hm] at h
      | some m' =>
        simp only [ha, hm, Option.pure_def, Option.bind_eq_bind, Option.bind_some, Option.some.injEq] at h
        subst h
        cases j with
        | zero =>
          simp only [List.getElem?_cons_zero, Option.some.injEq] at hj
          subst hj
          exact ⟨b, rfl, ha⟩
        | succ j =>
          simp only [List.getElem?_cons_succ] at hj ⊢
          exact ih hm hj

theorem mapM_len {α β : Type} {f : α → Option β} {l : List α} {m : List β} (h : l.mapM f = some m) :
    m.length = l.length := by
  induction l generalizing m with
  | nil =>
    simp at h
    subst h; rfl
  | cons a l ih =>
    rw [List.mapM_cons] at h
    cases ha : f a with
    | none => simp [ha] at h
    | some b =>
      cases hm : l.mapM f with
      | none => simp [ha, hm] at h
      | some m' =>
        simp only [ha, hm, Option.pure_def, Option.bind_eq_bind, Option.bind_some, Option.some.injEq] at h
        subst h
        simp [ih hm]

theorem autosOf_feeds (c : Int) : (autosOf c = none ∧ feeds c = none) ∨
    ∃ x y u v, autosOf c = some (x, y) ∧ feeds c = some (u, v) ∧ feeds x = some (u, u) ∧ feeds y = some (v, v) ∧
      autosOf x = some (x, x) ∧ autosOf y = some (y, y) := by
  unfold autosOf
  split <;> first
    | exact .inr ⟨_, _, _, _, rfl, rfl, rfl, rfl, rfl, rfl⟩
    | (left
       refine ⟨rfl, ?_⟩
       unfold feeds
       split <;> first
         | rfl
         | (exfalso; simp_all))

/-- The positions that are used are those of the autocorrelations of the feeds, and go with themselves. -/
theorem group_pols {pols : List Int} {pg : List (Nat × Nat)} (h : polGroups pols = some pg) {j : Nat} {p q : Nat}
    (hj : pg[j]? = some (p, q)) : AutoPols pols j p q ∧ pg[p]? = some (p, p) ∧ pg[q]? = some (q, q) := by
  have hlen := mapM_len h
  obtain ⟨hjl, _⟩ := List.getElem?_eq_some_iff.1 hj
  obtain ⟨c, hc⟩ : ∃ c, pols[j]? = some c := ⟨pols[j], List.getElem?_eq_getElem (by omega)⟩
  obtain ⟨y, hy, hg⟩ := mapM_get h hc
  rw [hj] at hy
  simp only [Option.some.injEq] at hy
  subst hy
  have hcm : c ∈ pols := List.mem_of_getElem? hc
  have own : ∀ x, x ∈ pols → polGroup pols x = some (pols.idxOf x, pols.idxOf x) →
      pg[pols.idxOf x]? = some (pols.idxOf x, pols.idxOf x) := by
    intro x hx hp
    obtain ⟨y, h1, h2⟩ := mapM_get h (idx_get hx)
    rw [hp] at h2
    simp only [Option.some.injEq] at h2
    rw [h1, ← h2]
  rcases autosOf_feeds c with ⟨h1, h2⟩ | ⟨x, y, u, v, h1, h2, h3, h4, h5, h6⟩
  · have e : polGroup pols c = some (pols.idxOf c, pols.idxOf c) := by unfold polGroup; rw [h1]
    have e' := e.symm.trans hg
    simp only [Option.some.injEq, Prod.mk.injEq] at e'
    obtain ⟨rfl, rfl⟩ := e'
    exact ⟨⟨c, hc, .inr ⟨h2, idx_get hcm, idx_get hcm⟩⟩, own c hcm e, own c hcm e⟩
  · have e : polGroup pols c = if x ∈ pols ∧ y ∈ pols then some (pols.idxOf x, pols.idxOf y) else none := by
      unfold polGroup; rw [h1]
    rw [e] at hg
    by_cases hm : x ∈ pols ∧ y ∈ pols
    · rw [if_pos hm] at hg
      simp only [Option.some.injEq, Prod.mk.injEq] at hg
      obtain ⟨rfl, rfl⟩ := hg
      refine ⟨⟨c, hc, .inl ⟨u, v, x, y, h2, idx_get hm.1, h3, idx_get hm.2, h4⟩⟩, own x hm.1 ?_, own y hm.2 ?_⟩
      · unfold polGroup; rw [h5]; simp [hm.1]
      · unfold polGroup; rw [h6]; simp [hm.2]
    · rw [if_neg hm] at hg
      simp at hg

end Verif.Norm
