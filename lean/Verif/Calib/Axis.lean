import Verif.Calib.Lemmas

/-! Matching of the frequency and time axes. -/
namespace Verif.Calib
open Verif.Np
set_option linter.unusedSectionVars false

variable {R V : Type} [Field R] [LinearOrder R] [IsStrictOrderedRing R] [Field V]

theorem close_iff (tol a b : R) : close tol a b = true ↔ |a - b| ≤ tol := by simp [close]

theorem Spaced.lt {tol : R} {l : List R} (h : Spaced tol l) (h0 : 0 ≤ tol) : l.Pairwise (· < ·) :=
  h.imp (fun h => by linarith)

theorem sort_of_sorted {l : List R} (h : l.Pairwise (· < ·)) : sort l = l := by
  unfold sort
  apply List.Perm.eq_of_pairwise (le := (· ≤ ·)) (fun a b _ _ h1 h2 => le_antisymm h1 h2)
    (List.pairwise_insertionSort _ _) (h.imp (fun h => le_of_lt h)) (List.perm_insertionSort _ _)

/-- Strictly increasing lists with the same members are equal. -/
theorem lt_ext {l₁ l₂ : List R} (h₁ : l₁.Pairwise (· < ·)) (h₂ : l₂.Pairwise (· < ·)) (h : ∀ x, x ∈ l₁ ↔ x ∈ l₂) : l₁ = l₂ :=
  List.Perm.eq_of_pairwise (le := (· < ·)) (fun _ _ _ _ h1 h2 => absurd h1 (not_lt_of_gt h2)) h₁ h₂
    ((List.perm_ext_iff_of_nodup (h₁.imp ne_of_lt) (h₂.imp ne_of_lt)).2 h)

theorem pick_where (p : R → Bool) (xs : List R) : pick (some (whereIdx p xs)) xs = xs.filter p := by
  simp only [pick, whereIdx]
  induction xs using List.reverseRecOn with
  | nil => simp
  | append_singleton xs x ih =>
    rw [List.length_append, List.length_singleton, List.range_succ, List.filter_append, List.filterMap_append,
      List.filter_append, ← ih]
    congr 1
    · have e : (List.range xs.length).filter (fun i => ((xs ++ [x])[i]?).any p) = (List.range xs.length).filter (fun i => (xs[i]?).any p) := by
        apply List.filter_congr
        intro i hi
        rw [List.getElem?_append_left (List.mem_range.1 hi)]
      rw [e]
      apply List.filterMap_congr
      intro i hi
      rw [List.getElem?_append_left (List.mem_range.1 (List.mem_filter.1 hi).1)]
    · cases hp : p x <;> simp [hp]

theorem getElem?_filterMap_some {α β : Type} (f : α → Option β) (l : List α) (h : ∀ a ∈ l, (f a).isSome) (k : Nat) :
    (l.filterMap f)[k]? = l[k]?.bind f := by
  induction l generalizing k with
  | nil => simp
  | cons a l ih =>
    obtain ⟨b, hb⟩ := Option.isSome_iff_exists.1 (h a (by simp))
    rw [List.filterMap_cons_some hb]
    cases k with
    | zero => simp [hb]
    | succ k => simpa using ih (fun a ha => h a (by simp [ha])) k

theorem sub_where (p : R → Bool) (xs : List R) (i : Nat) (y : R) (h : (xs.filter p)[i]? = some y) :
    xs[sub (some (whereIdx p xs)) i]? = some y := by
  rw [← pick_where] at h
  simp only [pick] at h
  rw [getElem?_filterMap_some] at h
  · simp only [sub, List.getD_eq_getElem?_getD]
    cases hx : (whereIdx p xs)[i]? with
    | none => rw [hx] at h; simp at h
    | some j => rw [hx] at h; simpa using h
  · intro j hj
    rw [mem_whereIdx] at hj
    obtain ⟨x, hx, _⟩ := hj
    rw [hx]; rfl

theorem mapM_get {α β : Type} {f : α → Option β} {l : List α} {r : List β} (h : l.mapM f = some r) :
    r.length = l.length ∧ ∀ (i : Nat) (a : α), l[i]? = some a → ∃ b, f a = some b ∧ r[i]? = some b := Pol.mapM_getElem? h

/-- The values found for a spaced axis are increasing. -/
theorem found_sorted (tol : R) (C D keep : List R) (hD : Spaced tol D)
    (h : D.mapM (fun f => C.find? (fun x => close tol x f)) = some keep) :
    keep.Pairwise (· < ·) ∧ (∀ x ∈ keep, x ∈ C) ∧
      (∀ (i : Nat) (x : R), D[i]? = some x → ∃ y, keep[i]? = some y ∧ |y - x| ≤ tol) := by
  obtain ⟨hlen, hget⟩ := mapM_get h
  have hval : ∀ (i : Nat) (x : R), D[i]? = some x → ∃ y, keep[i]? = some y ∧ |y - x| ≤ tol ∧ y ∈ C := by
    intro i x hx
    obtain ⟨y, hy, hk⟩ := hget i x hx
    refine ⟨y, hk, ?_, List.mem_of_find?_eq_some hy⟩
    have := List.find?_some hy
    exact (close_iff _ _ _).1 this
  refine ⟨?_, ?_, ?_⟩
  · rw [List.pairwise_iff_getElem]
    intro i j hi hj hij
    have hi' : i < D.length := by omega
    have hj' : j < D.length := by omega
    obtain ⟨y, hy, h1, _⟩ := hval i D[i] (List.getElem?_eq_getElem hi')
    obtain ⟨z, hz, h2, _⟩ := hval j D[j] (List.getElem?_eq_getElem hj')
    rw [List.getElem?_eq_getElem hi, Option.some.injEq] at hy
    rw [List.getElem?_eq_getElem hj, Option.some.injEq] at hz
    rw [hy, hz]
    have := List.pairwise_iff_getElem.1 hD i j hi' hj' hij
    rw [abs_le] at h1 h2
    linarith [h1.1, h1.2, h2.1, h2.2]
  · intro x hx
    obtain ⟨i, hi⟩ := List.mem_iff_getElem?.1 hx
    have hi' : i < D.length := by rw [← hlen]; exact (List.getElem?_eq_some_iff.1 hi).1
    obtain ⟨y, hy, _, h2⟩ := hval i D[i] (List.getElem?_eq_getElem hi')
    rw [hi, Option.some.injEq] at hy
    rw [hy]; exact h2
  · intro i x hx
    obtain ⟨y, hy, h1, _⟩ := hval i x hx
    exact ⟨y, hy, h1⟩

/-- The outcome of the checks on one axis: nothing to drop, or the values to keep. -/
def Chosen (tol : R) (C D : List R) (K : Option (List R)) : Prop :=
  (allclose tol C D = true ∧ K = none) ∨
  (allclose tol C D = false ∧ ∃ keep, D.mapM (fun f => C.find? (fun x => close tol x f)) = some keep ∧
    K = if keep.length < C.length then some keep else none)

/-- On spaced axes the entry of the calibration used at a position is the one that belongs there. -/
theorem axis_match (tol : R) (h0 : 0 ≤ tol) (C D : List R) (hC : Spaced tol C) (hD : Spaced tol D) (hne : C ≠ [])
    (K : Option (List R)) (hK : Chosen tol C D K) (I : Option (List Nat))
    (hI : ∀ keep, K = some keep → ∃ p, I = some (whereIdx p C) ∧ ∀ x ∈ C, p x = true ↔ x ∈ keep)
    (hI0 : K = none → I = none) :
    ∃ fi, freqIndex (pick I C).length D.length = some fi ∧
      ∀ (i : Nat) (x : R), D[i]? = some x → ∃ y, C[sub I (fi i)]? = some y ∧ |y - x| ≤ tol := by
  rcases hK with ⟨hall, hK⟩ | ⟨hall, keep, hkeep, hK⟩
  · have hI' := hI0 hK
    subst hI'
    simp only [pick, sub]
    unfold allclose at hall
    by_cases hl : C.length = D.length
    · rw [if_pos hl] at hall
      rw [List.all_eq_true] at hall
      have hval : ∀ (i : Nat) (x : R), D[i]? = some x → ∃ y, C[i]? = some y ∧ |y - x| ≤ tol := by
        intro i x hx
        have hi : i < C.length := by rw [hl]; exact (List.getElem?_eq_some_iff.1 hx).1
        refine ⟨C[i], List.getElem?_eq_getElem hi, ?_⟩
        have := hall (C[i], x) (by rw [mem_zip_iff]; exact ⟨i, List.getElem?_eq_getElem hi, hx⟩)
        exact (close_iff _ _ _).1 this
      by_cases h1 : C.length = 1
      · refine ⟨fun _ => 0, by simp [freqIndex, h1], ?_⟩
        intro i x hx
        have hi : i < D.length := (List.getElem?_eq_some_iff.1 hx).1
        have : i = 0 := by omega
        subst this
        exact hval 0 x hx
      · exact ⟨id, by unfold freqIndex; rw [if_neg h1, if_pos hl], fun i x hx => hval i x hx⟩
    · rw [if_neg hl] at hall
      match C, hne, hC, hl, hall with
      | [x], _, _, _, hall =>
        refine ⟨fun _ => 0, by simp [freqIndex], ?_⟩
        intro i y hy
        simp only at hall
        rw [List.all_eq_true] at hall
        exact ⟨x, rfl, (close_iff _ _ _).1 (hall y (List.mem_of_getElem? hy))⟩
      | x :: x' :: C, _, hC, hl, hall =>
        exfalso
        match D, hl, hall with
        | [], _, hall => simp at hall
        | [y], _, hall =>
          simp only [List.all_cons, Bool.and_eq_true] at hall
          have h1 := (close_iff _ _ _).1 hall.1
          have h2 := (close_iff _ _ _).1 hall.2.1
          have h3 := (List.pairwise_cons.1 hC).1 x' (by simp)
          rw [abs_le] at h1 h2
          linarith [h1.1, h1.2, h2.1, h2.2]
        | _ :: _ :: _, _, hall => simp at hall
  · obtain ⟨hs, hsub, hval⟩ := found_sorted tol C D keep hD hkeep
    have hlen := (mapM_get hkeep).1
    by_cases hlt : keep.length < C.length
    · rw [if_pos hlt] at hK
      obtain ⟨p, hIp, hp⟩ := hI keep hK
      subst hIp
      have hf : C.filter p = keep := by
        apply lt_ext (List.Pairwise.filter _ (hC.lt h0)) hs
        intro x
        rw [List.mem_filter]
        constructor
        · rintro ⟨h1, h2⟩; exact (hp x h1).1 h2
        · intro h; exact ⟨hsub x h, (hp x (hsub x h)).2 h⟩
      have hfin : ∀ (i : Nat) (x : R), D[i]? = some x → ∃ y, C[sub (some (whereIdx p C)) i]? = some y ∧ |y - x| ≤ tol := by
        intro i x hx
        obtain ⟨y, hy, h1⟩ := hval i x hx
        exact ⟨y, sub_where p C i y (by rw [hf]; exact hy), h1⟩
      rw [pick_where, hf, hlen]
      by_cases h1 : D.length = 1
      · refine ⟨fun _ => 0, by simp [freqIndex, h1], ?_⟩
        intro i x hx
        have hi : i < D.length := (List.getElem?_eq_some_iff.1 hx).1
        have : i = 0 := by omega
        subst this
        exact hfin 0 x hx
      · exact ⟨id, by simp [freqIndex, h1], hfin⟩
    · exfalso
      have hsp : keep.Subperm C := List.subperm_of_subset (hs.imp ne_of_lt) (fun x hx => hsub x hx)
      have hperm := hsp.perm_of_length_le (by omega)
      have he : keep = C := lt_ext hs (hC.lt h0) (fun x => hperm.mem_iff)
      subst he
      unfold allclose at hall
      rw [if_pos hlen] at hall
      rw [List.all_eq_false] at hall
      obtain ⟨⟨a, b⟩, hm, hn⟩ := hall
      rw [mem_zip_iff] at hm
      obtain ⟨i, h1, h2⟩ := hm
      obtain ⟨y, hy, h3⟩ := hval i b h2
      rw [h1, Option.some.injEq] at hy
      subst hy
      exact hn ((close_iff _ _ _).2 h3)

/-- The channels: if the axes are spaced, every channel gets the solution for its frequency. -/
theorem freq_match (e : Env R V) (c c' : Cal R V) (d : Dat R V) (h0 : 0 ≤ e.tolF) (hC : Spaced e.tolF c.freqs)
    (hD : Spaced e.tolF d.freqs) (hne : c.freqs ≠ []) (kt kf : Option (List R)) (hf : freqStage e c d = .ok kf)
    (hs : c.select e kt kf = .ok c') :
    ∃ fsel tsel fi, c' = c.byIndex tsel fsel ∧
      tsel = kt.map (fun ts => whereIdx (fun x => ts.any (fun t => close e.tolT x t)) c.times) ∧
      freqIndex c'.freqs.length d.freqs.length = some fi ∧
      ∀ ch < d.freqs.length, AtFreq e.tolF d c ch (sub fsel (fi ch)) := by
  unfold Cal.select at hs
  simp only at hs
  split at hs
  · simp at hs
  simp only [Except.ok.injEq] at hs
  subst hs
  have hK : Chosen e.tolF c.freqs d.freqs kf := by
    unfold freqStage at hf
    rw [sort_of_sorted (hC.lt h0), sort_of_sorted (hD.lt h0)] at hf
    unfold Chosen
    cases hall : allclose e.tolF c.freqs d.freqs with
    | true =>
      rw [hall, if_pos rfl] at hf
      simp only [Except.ok.injEq] at hf
      exact Or.inl ⟨rfl, hf.symm⟩
    | false =>
      rw [hall] at hf
      simp only [Bool.false_eq_true, if_false] at hf
      cases hm : d.freqs.mapM (fun f => c.freqs.find? (fun x => close e.tolF x f)) with
      | none => rw [hm] at hf; simp at hf
      | some keep =>
        rw [hm] at hf
        simp only [Except.ok.injEq] at hf
        exact Or.inr ⟨rfl, keep, rfl, hf.symm⟩
  obtain ⟨fi, h1, h2⟩ := axis_match e.tolF h0 c.freqs d.freqs hC hD hne kf hK
    (kf.map (fun fs => whereIdx (fun x => fs.contains x) c.freqs))
    (by
      intro keep hk
      exact ⟨fun x => keep.contains x, by rw [hk]; rfl, fun x _ => by simp⟩)
    (by intro hk; rw [hk]; rfl)
  refine ⟨_, _, fi, rfl, rfl, h1, ?_⟩
  intro ch hch
  obtain ⟨y, hy, hle⟩ := h2 ch d.freqs[ch] (List.getElem?_eq_getElem hch)
  exact ⟨_, y, List.getElem?_eq_getElem hch, hy, hle⟩

theorem rangeOf_spec (rs : List (R × R)) (x : R) (t : Nat) (h : rangeOf rs x = some t) :
    ∃ p, rs[t]? = some p ∧ p.1 ≤ x ∧ x ≤ p.2 := by
  unfold rangeOf at h
  have key : ∀ (l : List ((R × R) × Nat)) (acc : Option Nat),
      (∀ q ∈ l, rs[q.2]? = some q.1) → (∀ t, acc = some t → ∃ p, rs[t]? = some p ∧ p.1 ≤ x ∧ x ≤ p.2) →
      ∀ t, l.foldl (fun acc p => if p.1.1 ≤ x ∧ x ≤ p.1.2 then some p.2 else acc) acc = some t →
        ∃ p, rs[t]? = some p ∧ p.1 ≤ x ∧ x ≤ p.2 := by
    intro l
    induction l with
    | nil => intro acc _ ha t ht; exact ha t ht
    | cons q l ih =>
      intro acc hl ha t ht
      rw [List.foldl_cons] at ht
      refine ih _ (fun q hq => hl q (by simp [hq])) ?_ t ht
      intro t' ht'
      split at ht'
      · rename_i hc
        simp only [Option.some.injEq] at ht'
        subst ht'
        exact ⟨q.1, hl q (by simp), hc⟩
      · exact ha t' ht'
  refine key _ none ?_ (by simp) t h
  intro q hq
  rw [List.mem_iff_getElem?] at hq
  obtain ⟨i, hi⟩ := hq
  rw [List.getElem?_zipIdx] at hi
  cases hr : rs[i]? with
  | none => rw [hr] at hi; simp at hi
  | some p =>
    rw [hr] at hi
    simp only [Option.map_some, Option.some.injEq] at hi
    rw [← hi]
    simpa using hr

theorem unique_singleton (x : R) : unique [x] = [x] := by simp [unique]

theorem unique_of_sorted {l : List R} (h : l.Pairwise (· < ·)) : unique l = l :=
  lt_ext (unique_sorted l) h (fun _ => mem_unique)

theorem covered_one (p : R × R) (ts : List R) (h : ¬ uncovered [p] ts = true) (x : R) (hx : x ∈ ts) : p.1 ≤ x ∧ x ≤ p.2 := by
  unfold uncovered at h
  simp only [List.all_cons, List.all_nil, Bool.and_true, Bool.or_eq_true, List.any_eq_true, decide_eq_true_eq, not_or,
    not_exists, not_and, not_lt] at h
  exact ⟨h.1 x hx, h.2 x hx⟩

theorem time_match_ranges (e : Env R V) (o : Opts) (c : Cal R V) (d : Dat R V) (rs : List (R × R)) (hr : c.ranges = some rs)
    (tp : TimePlan R) (ht : rangeStage o rs d.times = .ok tp) (rows : List Nat) (hne : rows ≠ [])
    (hrows : ∀ r ∈ rows, r < d.times.length) :
    tp.keep = none ∧ ∃ ti, timeIndex rs.length tp.ind rows = some ti ∧
      ∀ (i r : Nat), rows[i]? = some r → TimeOk e o c d r (ti i) := by
  have hget : ∀ (i r : Nat), rows[i]? = some r → ∃ x, d.times[r]? = some x ∧ x ∈ d.times := by
    intro i r h
    have := hrows r (List.mem_of_getElem? h)
    exact ⟨_, List.getElem?_eq_getElem this, List.getElem_mem this⟩
  unfold rangeStage at ht
  split at ht
  · simp at ht
  rename_i hc
  split at ht
  · cases hm : d.times.mapM (rangeOf rs) with
    | none => rw [hm] at ht; simp at ht
    | some l =>
      rw [hm] at ht
      simp only [Except.ok.injEq] at ht
      subst ht
      refine ⟨rfl, _, rfl, ?_⟩
      intro i r hir
      obtain ⟨x, hx, _⟩ := hget i r hir
      obtain ⟨t, h1, h2⟩ := (mapM_get hm).2 r x hx
      left
      have e1 : rows.getD i 0 = r := by rw [List.getD_eq_getElem?_getD, hir]; rfl
      have e2 : l.getD r 0 = t := by rw [List.getD_eq_getElem?_getD, h2]; rfl
      rw [e1, e2]
      refine ⟨x, hx, ?_⟩
      rw [hr]
      exact rangeOf_spec rs x t h1
  · rename_i hlen
    simp only [Except.ok.injEq] at ht
    subst ht
    have h1 : rs.length = 1 := by
      by_contra hne1
      have h0 : rs = [] := List.length_eq_zero_iff.1 (by omega)
      apply hc
      refine ⟨?_, fun h => hne1 h.2⟩
      obtain ⟨r, hr'⟩ := List.exists_mem_of_ne_nil _ hne
      have := hrows r hr'
      unfold uncovered
      rw [h0]
      simp only [List.all_nil, Bool.or_eq_true, List.any_eq_true, and_true, or_self]
      exact ⟨_, List.getElem_mem this⟩
    refine ⟨rfl, fun _ => 0, by simp [timeIndex, h1], ?_⟩
    intro i r hir
    obtain ⟨x, hx, hx'⟩ := hget i r hir
    match rs, h1, hr, hc with
    | [p], _, hr, hc =>
      by_cases hu : uncovered [p] d.times = true
      · right
        have : o.timeCheck = false := by
          by_contra h
          exact hc ⟨hu, fun h' => h h'.1⟩
        exact ⟨this, by simp [Cal.ntimes, hr], rfl⟩
      · left
        refine ⟨x, hx, ?_⟩
        rw [hr]
        exact ⟨p, rfl, covered_one p d.times hu x hx'⟩

theorem time_match_one (e : Env R V) (o : Opts) (c : Cal R V) (d : Dat R V) (hr : c.ranges = none)
    (y : R) (hy : c.times = [y]) (tp : TimePlan R) (ht : instantStage e o c.times d.times = .ok tp) (r : Nat) (hrr : r < d.times.length) :
    tp = ⟨none, none⟩ ∧ TimeOk e o c d r 0 := by
  unfold instantStage at ht
  rw [hy] at ht
  rw [if_neg (by simp)] at ht
  rw [unique_singleton] at ht
  have hx := List.getElem?_eq_getElem hrr
  have hmem : d.times[r] ∈ unique d.times := mem_unique.2 (List.getElem_mem hrr)
  split at ht
  · rename_i hall
    simp only [Except.ok.injEq] at ht
    refine ⟨ht.symm, Or.inl ⟨_, hx, ?_⟩⟩
    rw [hr]
    refine ⟨y, by rw [hy]; rfl, ?_⟩
    rw [← close_iff]
    unfold allclose at hall
    split at hall
    · rename_i hl
      rw [List.all_eq_true] at hall
      obtain ⟨i, hi⟩ := List.mem_iff_getElem?.1 hmem
      have hi' : i < (unique d.times).length := (List.getElem?_eq_some_iff.1 hi).1
      have : i = 0 := by simp only [List.length_singleton] at hl; omega
      subst this
      exact hall (y, d.times[r]) (by rw [mem_zip_iff]; exact ⟨0, rfl, hi⟩)
    · rw [List.all_eq_true] at hall
      exact hall _ hmem
  · simp only [List.length_singleton, if_true] at ht
    split at ht
    · simp at ht
    · rename_i htc
      simp only [Except.ok.injEq] at ht
      exact ⟨ht.symm, Or.inr ⟨by simpa using htc, by simp [Cal.ntimes, hr, hy], rfl⟩⟩

theorem instant_chosen (e : Env R V) (o : Opts) (ct ts : List R) (h0 : 0 ≤ e.tolT) (hC : Spaced e.tolT ct) (h1 : ct.length ≠ 1)
    (tp : TimePlan R) (ht : instantStage e o ct ts = .ok tp) : tp.ind = none ∧ Chosen e.tolT ct (unique ts) tp.keep := by
  unfold instantStage at ht
  split at ht
  · simp at ht
  rw [unique_of_sorted (hC.lt h0)] at ht
  split at ht
  · rename_i hall
    simp only [Except.ok.injEq] at ht
    subst ht
    exact ⟨rfl, Or.inl ⟨hall, rfl⟩⟩
  · rename_i hall
    split at ht
    · simp at ht
    · rename_i keep hk
      simp only [Except.ok.injEq] at ht
      subst ht
      exact ⟨rfl, Or.inr ⟨by simpa using hall, keep, hk, rfl⟩⟩

theorem time_match_many (e : Env R V) (o : Opts) (c : Cal R V) (d : Dat R V) (h0 : 0 ≤ e.tolT) (hr : c.ranges = none)
    (h1 : c.times.length ≠ 1) (hT : TimesInOrder e c d) (tp : TimePlan R) (ht : instantStage e o c.times d.times = .ok tp)
    (tsel : Option (List Nat)) (hts : tsel = tp.keep.map (fun ts => whereIdx (fun x => ts.any (fun t => close e.tolT x t)) c.times))
    (a b : Nat) (rows : List Nat) (hrows : AntPair.IsRowsOf d.blts a b rows) (hne : rows ≠ []) :
    tp.ind = none ∧ ∃ ti, timeIndex (pick tsel c.times).length tp.ind rows = some ti ∧
      ∀ (i r : Nat), rows[i]? = some r → TimeOk e o c d r (sub tsel (ti i)) := by
  obtain ⟨hne', hC, hD, hfull⟩ := hT hr h1
  obtain ⟨hind, hK⟩ := instant_chosen e o c.times d.times h0 hC h1 tp ht
  have hmap := hfull a b rows hrows hne
  have hlen : rows.length = (unique d.times).length := by
    have := congrArg List.length hmap
    simpa using this
  obtain ⟨ti, h2, h3⟩ := axis_match e.tolT h0 c.times (unique d.times) hC hD hne' tp.keep hK tsel
    (by
      intro keep hk
      refine ⟨fun x => keep.any (fun t => close e.tolT x t), by rw [hts, hk]; rfl, ?_⟩
      have hsub : ∀ t ∈ keep, t ∈ c.times := by
        rcases hK with ⟨_, hK⟩ | ⟨_, keep', hk', hK⟩
        · rw [hK] at hk; simp at hk
        · rw [hk] at hK
          split at hK
          · simp only [Option.some.injEq] at hK
            subst hK
            exact (found_sorted _ _ _ _ hD hk').2.1
          · simp at hK
      intro x hx
      rw [List.any_eq_true]
      constructor
      · rintro ⟨t, ht, hcl⟩
        rw [close_iff] at hcl
        have htc := hsub t ht
        obtain ⟨i, hi⟩ := List.mem_iff_getElem?.1 hx
        obtain ⟨j, hj⟩ := List.mem_iff_getElem?.1 htc
        obtain ⟨hi1, hi2⟩ := List.getElem?_eq_some_iff.1 hi
        obtain ⟨hj1, hj2⟩ := List.getElem?_eq_some_iff.1 hj
        rw [abs_le] at hcl
        rcases Nat.lt_trichotomy i j with hij | hij | hij
        · have := List.pairwise_iff_getElem.1 hC i j hi1 hj1 hij
          rw [hi2, hj2] at this
          linarith [hcl.1, hcl.2]
        · subst hij
          rw [← hi2, hj2]; exact ht
        · have := List.pairwise_iff_getElem.1 hC j i hj1 hi1 hij
          rw [hi2, hj2] at this
          linarith [hcl.1, hcl.2]
      · intro hx'
        exact ⟨x, hx', (close_iff _ _ _).2 (by simpa using h0)⟩)
    (by intro hk; rw [hts, hk]; rfl)
  refine ⟨hind, ti, ?_, ?_⟩
  · rw [hind]
    unfold timeIndex freqIndex at *
    rw [hlen]; exact h2
  · intro i r hir
    left
    have hx : d.times[r]? = (unique d.times)[i]? := by
      have := congrArg (fun l => l[i]?) hmap
      simp only [List.getElem?_map, hir, Option.map_some] at this
      cases hu : (unique d.times)[i]? with
      | none => rw [hu] at this; simp at this
      | some x => rw [hu] at this; simpa using this
    have hi : i < (unique d.times).length := by rw [← hlen]; exact (List.getElem?_eq_some_iff.1 hir).1
    rw [List.getElem?_eq_getElem hi] at hx
    obtain ⟨y, hy, hle⟩ := h3 i _ (List.getElem?_eq_getElem hi)
    refine ⟨_, hx, ?_⟩
    rw [hr]
    exact ⟨y, hy, hle⟩

/-- The times: every row gets the solution for its time. -/
theorem time_match (e : Env R V) (o : Opts) (c : Cal R V) (d : Dat R V) (h0 : 0 ≤ e.tolT) (hT : TimesInOrder e c d)
    (tp : TimePlan R) (ht : timeStage e o c d = .ok tp) (tsel fsel : Option (List Nat))
    (hts : tsel = tp.keep.map (fun ts => whereIdx (fun x => ts.any (fun t => close e.tolT x t)) c.times))
    (a b : Nat) (rows : List Nat) (hrows : AntPair.IsRowsOf d.blts a b rows) (hne : rows ≠ [])
    (hlt : ∀ r ∈ rows, r < d.times.length) :
    ∃ ti, timeIndex (c.byIndex tsel fsel).ntimes tp.ind rows = some ti ∧
      ∀ (i r : Nat), rows[i]? = some r → TimeOk e o c d r (sub tsel (ti i)) := by
  unfold timeStage at ht
  cases hr : c.ranges with
  | some rs =>
    rw [hr] at ht
    obtain ⟨hk, ti, h1, h2⟩ := time_match_ranges e o c d rs hr tp ht rows hne hlt
    rw [hk] at hts
    simp only [Option.map_none] at hts
    subst hts
    refine ⟨ti, ?_, h2⟩
    simpa [Cal.ntimes, Cal.byIndex, hr] using h1
  | none =>
    rw [hr] at ht
    simp only at ht
    by_cases h1 : c.times.length = 1
    · obtain ⟨y, hy⟩ := List.length_eq_one_iff.1 h1
      obtain ⟨r0, hr0⟩ := List.exists_mem_of_ne_nil _ hne
      have hp := (time_match_one e o c d hr y hy tp ht r0 (hlt r0 hr0)).1
      subst hp
      simp only [Option.map_none] at hts
      subst hts
      refine ⟨fun _ => 0, by simp [Cal.ntimes, Cal.byIndex, hr, pick, timeIndex, h1], ?_⟩
      intro i r hir
      exact (time_match_one e o c d hr y hy _ ht r (hlt r (List.mem_of_getElem? hir))).2
    · obtain ⟨_, ti, h2, h3⟩ := time_match_many e o c d h0 hr h1 hT tp ht tsel hts a b rows hrows hne
      refine ⟨ti, ?_, h3⟩
      simpa [Cal.ntimes, Cal.byIndex, hr] using h2

end Verif.Calib
