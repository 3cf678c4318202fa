import Verif.Resample.Auto

/-! # C222: resampling to a target time -/
set_option linter.unusedSectionVars false

namespace Verif.Resample

variable {K V ι : Type} [Field K] [LinearOrder K] [IsStrictOrderedRing K] [FloorRing K] [AddCommGroup V] [Module K V]

/-! ### Specification -/

/-- There is a row of at most half the target. -/
def HasShort (target : K) (rows : List (Row K V ι)) : Prop := ∃ r ∈ rows, 2 * r.integ ≤ target

/-- There is a row of at least twice the target. -/
def HasLong (target : K) (rows : List (Row K V ι)) : Prop := ∃ r ∈ rows, 2 * target ≤ r.integ

/-! ### When something is done -/

theorem min_mem (l : List K) (x : K) : extremum min (x :: l) ∈ x :: l := by
  unfold extremum
  dsimp only
  induction l generalizing x with
  | nil => simp
  | cons a l ih =>
    rw [List.foldl_cons]
    have := ih (min x a)
    rcases List.mem_cons.1 this with h | h
    · rw [h]
      rcases min_choice x a with h | h <;> rw [h] <;> simp
    · simp [h]

theorem max_mem (l : List K) (x : K) : extremum max (x :: l) ∈ x :: l := by
  unfold extremum
  dsimp only
  induction l generalizing x with
  | nil => simp
  | cons a l ih =>
    rw [List.foldl_cons]
    have := ih (max x a)
    rcases List.mem_cons.1 this with h | h
    · rw [h]
      rcases max_choice x a with h | h <;> rw [h] <;> simp
    · simp [h]

theorem min_le_all {l : List K} {z : K} (hz : z ∈ l) : extremum min l ≤ z := by
  cases l with
  | nil => simp at hz
  | cons x l =>
    by_contra h
    exact absurd ((extremum_min_iff z l x).1 (not_le.1 h) z hz) (lt_irrefl _)

theorem le_max_all {l : List K} {z : K} (hz : z ∈ l) : z ≤ extremum max l := by
  cases l with
  | nil => simp at hz
  | cons x l =>
    by_contra h
    exact absurd ((extremum_max_iff z l x).1 (not_le.1 h) z hz) (lt_irrefl _)

theorem wantsDown_iff {target : K} {rows : List (Row K V ι)} (hne : rows ≠ []) (hp : ∀ r ∈ rows, 0 < r.integ) (o : Bool) :
    wantsDown target rows o = true ↔ HasShort target rows ∧ o = false := by
  obtain ⟨r, l, rfl⟩ := List.exists_cons_of_ne_nil hne
  have hm := min_mem (l.map Row.integ) r.integ
  rw [← List.map_cons] at hm
  obtain ⟨q, hq, hqe⟩ := List.mem_map.1 hm
  have hpos : 0 < extremum min ((r :: l).map Row.integ) := hqe ▸ hp q hq
  unfold wantsDown
  rw [Bool.and_eq_true, decide_eq_true_eq, Bool.not_eq_true', Int.le_floor, le_div_iff₀ hpos]
  refine and_congr_left fun _ => ?_
  push_cast
  constructor
  · intro h
    exact ⟨q, hq, by rw [hqe]; exact h⟩
  · rintro ⟨x, hx, h⟩
    have := min_le_all (List.mem_map_of_mem hx (f := Row.integ))
    linarith

theorem wantsUp_iff {target : K} (ht : 0 < target) {rows : List (Row K V ι)} (hne : rows ≠ []) (o : Bool) :
    wantsUp target rows o = true ↔ HasLong target rows ∧ o = false := by
  obtain ⟨r, l, rfl⟩ := List.exists_cons_of_ne_nil hne
  have hm := max_mem (l.map Row.integ) r.integ
  rw [← List.map_cons] at hm
  obtain ⟨q, hq, hqe⟩ := List.mem_map.1 hm
  unfold wantsUp
  rw [Bool.and_eq_true, decide_eq_true_eq, Bool.not_eq_true', Int.le_floor, le_div_iff₀ ht]
  refine and_congr_left fun _ => ?_
  push_cast
  constructor
  · intro h
    exact ⟨q, hq, by rw [hqe]; exact h⟩
  · rintro ⟨x, hx, h⟩
    have := le_max_all (List.mem_map_of_mem hx (f := Row.integ))
    linarith

section
variable {t : Tols K} {target : K} {onlyDown onlyUp keep summing : Bool} {nphase : Nat}
  {sort : List (Row K V ι) → List (Row K V ι)} {rows out : List (Row K V ι)}

/-- **C222.** Nothing is changed if there is no row of at most half or at least twice the target (or what would have to be done is
excluded). -/
theorem resample_nothing (ht : 0 < target) (hne : rows ≠ []) (hp : ∀ r ∈ rows, 0 < r.integ)
    (h1 : HasShort target rows → onlyUp = true) (h2 : HasLong target rows → onlyDown = true) :
    resample t target onlyDown onlyUp keep summing nphase sort rows = .ok rows := by
  have d : wantsDown target rows onlyUp = false := by
    rw [Bool.eq_false_iff, ne_eq, wantsDown_iff hne hp]
    rintro ⟨h, ho⟩
    rw [h1 h] at ho
    simp at ho
  have u : wantsUp target rows onlyDown = false := by
    rw [Bool.eq_false_iff, ne_eq, wantsUp_iff ht hne]
    rintro ⟨h, ho⟩
    rw [h2 h] at ho
    simp at ho
  simp [resample, d, u]

/-- **C222.** With rows of at most half the target and none of twice the target, this is averaging (C38). -/
theorem resample_down (ht : 0 < target) (hne : rows ≠ []) (hp : ∀ r ∈ rows, 0 < r.integ) (h1 : HasShort target rows)
    (ho : onlyUp = false) (h2 : HasLong target rows → onlyDown = true) :
    (resample t target onlyDown onlyUp keep summing nphase sort rows = .ok out ↔
      downsample t (.minInt target) keep summing nphase sort rows = .ok out) := by
  have d : wantsDown target rows onlyUp = true := (wantsDown_iff hne hp _).2 ⟨h1, ho⟩
  have u : wantsUp target rows onlyDown = false := by
    rw [Bool.eq_false_iff, ne_eq, wantsUp_iff ht hne]
    rintro ⟨h, ho⟩
    rw [h2 h] at ho
    simp at ho
  simp only [resample, d, u, Bool.not_true, Bool.false_and, Bool.false_eq_true, if_false, downIf, if_true, upIf]
  cases downsample t (.minInt target) keep summing nphase sort rows <;> simp

/-- **C222.** With rows of at least twice the target and none of half the target, this is cutting (C37). -/
theorem resample_up (ht : 0 < target) (hne : rows ≠ []) (hp : ∀ r ∈ rows, 0 < r.integ) (h1 : HasShort target rows → onlyUp = true)
    (h2 : HasLong target rows) (ho : onlyDown = false) :
    (resample t target onlyDown onlyUp keep summing nphase sort rows = .ok out ↔ upsample t target summing rows = some out) := by
  have d : wantsDown target rows onlyUp = false := by
    rw [Bool.eq_false_iff, ne_eq, wantsDown_iff hne hp]
    rintro ⟨h, ho⟩
    rw [h1 h] at ho
    simp at ho
  have u : wantsUp target rows onlyDown = true := (wantsUp_iff ht hne _).2 ⟨h2, ho⟩
  simp only [resample, d, u, Bool.not_false, Bool.not_true, Bool.and_false, Bool.false_eq_true, if_false, downIf, upIf, if_true]
  cases upsample t target summing rows <;> simp

/-- With both kinds of rows, this is averaging and then cutting. -/
theorem resample_both (ht : 0 < target) (hne : rows ≠ []) (hp : ∀ r ∈ rows, 0 < r.integ) (h1 : HasShort target rows)
    (h2 : HasLong target rows) (hu : onlyUp = false) (hd : onlyDown = false) :
    (resample t target onlyDown onlyUp keep summing nphase sort rows = .ok out ↔
      ∃ mid, downsample t (.minInt target) keep summing nphase sort rows = .ok mid ∧ upsample t target summing mid = some out) := by
  have d : wantsDown target rows onlyUp = true := (wantsDown_iff hne hp _).2 ⟨h1, hu⟩
  have u : wantsUp target rows onlyDown = true := (wantsUp_iff ht hne _).2 ⟨h2, hd⟩
  simp only [resample, d, u, Bool.not_true, Bool.and_self, Bool.false_eq_true, if_false, downIf, upIf, if_true]
  cases downsample t (.minInt target) keep summing nphase sort rows with
  | error e => simp
  | ok mid =>
    dsimp only
    cases hup : upsample t target summing mid with
    | none => simp [hup]
    | some o => simp [hup]

/-- **C222.** If rows of at least twice the target are there, no row is longer than the target in the end, up to the tolerances. -/
theorem resample_short (ht : 0 < target) (hr : 0 ≤ t.r) (ha : 0 ≤ t.a) (hri : 0 ≤ t.rInt) (hai : 0 ≤ t.aInt) (hne : rows ≠ [])
    (h2 : HasLong target rows) (hd : onlyDown = false)
    (h : resample t target onlyDown onlyUp keep summing nphase sort rows = .ok out) :
    ∀ p ∈ out, p.integ ≤ target * (1 + t.r + t.a) ∨ p.integ ≤ target * (1 + t.rInt) + t.aInt := by
  have u : wantsUp target rows onlyDown = true := (wantsUp_iff ht hne _).2 ⟨h2, hd⟩
  simp only [resample, u, Bool.not_true, Bool.and_false, Bool.false_eq_true, if_false] at h
  cases hdn : downIf t target keep summing nphase sort (wantsDown target rows onlyUp) rows with
  | error e => rw [hdn] at h; simp at h
  | ok mid =>
    rw [hdn] at h
    simp only [upIf, if_true] at h
    cases hup : upsample t target summing mid with
    | none => rw [hup] at h; simp at h
    | some o =>
      rw [hup] at h
      simp only [Except.ok.injEq] at h
      subst h
      exact upsample_short ht hr ha hri hai hup

/-- **C222.** With ragged ends kept, no time observed is lost on any baseline, if no row, and no average, is longer than the target
by less than the tolerance. -/
theorem resample_conserves_partial (hr : 0 ≤ t.r) (ha : 0 ≤ t.a) (ht : 0 < target) (hs : ∀ l, (sort l).Perm l)
    (hp : ∀ x ∈ rows, 0 < x.integ) (hb : ∀ r ∈ rows, ¬ Borderline t target r)
    (hb' : ∀ mid, downsample t (.minInt target) true summing nphase sort rows = .ok mid → ∀ r ∈ mid, ¬ Borderline t target r)
    [Nonempty ι]
    (h : resample t target onlyDown onlyUp true summing nphase sort rows = .ok out) (b : Int) :
    over (ofBl b out) Row.integ = over (ofBl b rows) Row.integ := by
  unfold resample at h
  dsimp only at h
  split at h
  · simp only [Except.ok.injEq] at h
    rw [h]
  · obtain ⟨c⟩ := ‹Nonempty ι›
    have mid_ok : ∀ mid, downIf t target true summing nphase sort (wantsDown target rows onlyUp) rows = .ok mid →
        over (ofBl b mid) Row.integ = over (ofBl b rows) Row.integ ∧ ∀ r ∈ mid, ¬ Borderline t target r := by
      intro mid hm
      unfold downIf at hm
      split at hm
      · cases hdn : downsample t (.minInt target) true summing nphase sort rows with
        | error e => rw [hdn] at hm; simp at hm
        | ok m =>
          rw [hdn] at hm
          simp only [Except.ok.injEq] at hm
          subst hm
          exact ⟨downsample_conserves (mode := .minInt target) hr ha hs trivial hp hdn b, hb' _ hdn⟩
      · simp only [Except.ok.injEq] at hm
        subst hm
        exact ⟨rfl, hb⟩
    cases hdn : downIf t target true summing nphase sort (wantsDown target rows onlyUp) rows with
    | error e => rw [hdn] at h; simp at h
    | ok mid =>
      rw [hdn] at h
      dsimp only at h
      obtain ⟨m1, m2⟩ := mid_ok mid hdn
      rw [← m1]
      unfold upIf at h
      split at h
      · cases hup : upsample t target summing mid with
        | none => rw [hup] at h; simp at h
        | some o =>
          rw [hup] at h
          simp only [Except.ok.injEq] at h
          subst h
          exact (upsample_conserves_partial ht m2 hup b c).1
      · simp only [Except.ok.injEq] at h
        rw [h]

/-- **C222 is false** if both kinds of rows are there: averages that are longer than the target are cut again.  On a baseline with
integrations of at most half the target, no multiple of which is close to the target, every row is shorter than the target in
the end. -/
theorem both_counterexample (hr : 0 ≤ t.r) (ha : 0 ≤ t.a) (ht : 0 < target) (hs : ∀ l, (sort l).Perm l)
    (hp : ∀ r ∈ rows, 0 < r.integ) (h2 : HasLong target rows) (hu : onlyUp = false) (hd : onlyDown = false) {b : Int} {a : K}
    (hb : ∃ r ∈ rows, r.bl = b) (hall : ∀ r ∈ rows, r.bl = b → r.integ = a) (ha2 : 2 * a ≤ target)
    (hfar : ∀ k : Nat, k * a ≠ target ∧ isclose t.rInt t.aInt (k * a) target = false ∧ isclose t.r t.a (k * a / target) 1 = false)
    (h : resample t target onlyDown onlyUp keep summing nphase sort rows = .ok out) :
    ∀ p ∈ out, p.bl = b → p.integ < target := by
  obtain ⟨r0, hr0, hr0b⟩ := hb
  have hne : rows ≠ [] := List.ne_nil_of_mem hr0
  have hapos : 0 < a := hall r0 hr0 hr0b ▸ hp r0 hr0
  have halt : a < target := by linarith
  obtain ⟨mid, hm, hup⟩ := (resample_both ht hne hp ⟨r0, hr0, by rw [hall r0 hr0 hr0b]; exact ha2⟩ h2 hu hd).1 h
  have hshort : tooShort t target r0 = true := by
    have := (hfar 1).2.1
    simp only [Nat.cast_one, one_mul] at this
    simp [tooShort, hall r0 hr0 hr0b, halt, this]
  have hrows := (downsample_rows (mode := .minInt target) hr ha hs trivial hp ⟨r0, hr0, fun m hm => by cases hm; exact hshort⟩ hm b).1
    ⟨r0, hr0, hr0b, fun m hm => by cases hm; exact hshort⟩
  obtain ⟨ws, tail, hw, hf⟩ := hrows
  -- every averaged row has a multiple of `a`, less than twice the target
  have hmid : ∀ q ∈ mid, q.bl = b → ∃ k : Nat, q.integ = k * a ∧ q.integ < 2 * target := by
    intro q hq hqb
    have hq' : q ∈ ofBl b mid := by simp [ofBl, hq, hqb]
    obtain ⟨w, hwm, hav⟩ : ∃ w ∈ ws, Averages summing b w q := by
      clear hw
      generalize ofBl b mid = o at hf hq'
      induction hf with
      | nil => simp at hq'
      | cons h1 _ ih =>
        rcases List.mem_cons.1 hq' with rfl | hq'
        · exact ⟨_, by simp, h1⟩
        · obtain ⟨w, h3, h4⟩ := ih hq'
          exact ⟨w, by simp [h3], h4⟩
    have hwa : ∀ x ∈ w, x.integ = a := by
      intro x hx
      have hx' : x ∈ ofBl b (sort rows) := by
        rw [← hw.cover]
        exact List.mem_append_left _ (List.mem_flatten.2 ⟨w, hwm, hx⟩)
      simp only [ofBl, List.mem_filter, decide_eq_true_eq] at hx'
      exact hall x ((hs rows).mem_iff.1 hx'.1) hx'.2
    have hsum : ∀ l : List (Row K V ι), (∀ x ∈ l, x.integ = a) → total Row.integ l = l.length * a := by
      intro l hl
      induction l with
      | nil => simp [total]
      | cons x l ih =>
        have := ih fun y hy => hl y (by simp [hy])
        simp only [total, List.map_cons, List.sum_cons, List.length_cons] at this ⊢
        rw [this, hl x (by simp)]
        push_cast
        ring
    have hqi : q.integ = w.length * a := by
      rw [hav.integ]
      exact hsum w hwa
    refine ⟨w.length, hqi, ?_⟩
    rw [hqi]
    by_cases hlen : w.length ≤ 1
    · have : (w.length : K) ≤ 1 := by exact_mod_cast hlen
      nlinarith
    · have hdl := hw.early w hwm w.dropLast (List.dropLast_prefix w) (by
        intro he
        have := congrArg List.length he
        simp at this
        omega) (by
        intro he
        have := congrArg List.length he
        simp at this
        omega)
      rw [hsum _ fun x hx => hwa x (List.dropLast_subset w hx)] at hdl
      simp only [enough, Bool.or_eq_false_iff, decide_eq_false_iff_not, not_lt, List.length_dropLast] at hdl
      have h3 : ((w.length - 1 : Nat) : K) = w.length - 1 := by
        rw [Nat.cast_sub (by omega)]
        simp
      rw [h3] at hdl
      nlinarith [hdl.1]
  intro p hpm hpb
  rcases upsample_some hup with ⟨h1, rfl⟩ | ⟨_, rfl⟩
  · obtain ⟨k, hk, _⟩ := hmid p hpm hpb
    have := h1 p hpm
    simp only [tooLong, Bool.and_eq_false_iff, decide_eq_false_iff_not, not_lt, Bool.not_eq_false'] at this
    rcases this with h3 | h3
    · exact lt_of_le_of_ne h3 (by rw [hk]; exact (hfar k).1)
    · rw [hk, (hfar k).2.1] at h3
      simp at h3
  · rcases List.mem_append.1 hpm with h3 | h3
    · simp only [List.mem_filter, decide_eq_true_eq] at h3
      obtain ⟨k, hk, _⟩ := hmid p h3.1 hpb
      exact lt_of_le_of_ne h3.2 (by rw [hk]; exact (hfar k).1)
    · obtain ⟨q, hq, hqp⟩ := List.mem_flatMap.1 h3
      rw [List.mem_filter] at hq
      simp only [pieces, List.mem_map] at hqp
      obtain ⟨_, _, rfl⟩ := hqp
      obtain ⟨k, hk, hk2⟩ := hmid q hq.1 hpb
      have hlong := hq.2
      simp only [tooLong, Bool.and_eq_true, decide_eq_true_eq] at hlong
      have hx1 : 1 < q.integ / target := by rw [lt_div_iff₀ ht]; linarith [hlong.1]
      have hx2 : q.integ / target < 2 := by rw [div_lt_iff₀ ht]; exact hk2
      have hfl : ⌊q.integ / target⌋ = 1 := by
        rw [Int.floor_eq_iff]
        constructor
        · push_cast; exact hx1.le
        · push_cast; linarith
      have hce : ⌈q.integ / target⌉ = 2 := by
        rw [Int.ceil_eq_iff]
        constructor
        · push_cast; linarith
        · push_cast; exact hx2.le
      have hn : nNew t target q.integ = 2 := by
        unfold nNew
        dsimp only
        rw [hfl, hce]
        have := (hfar k).2.2
        rw [← hk] at this
        rw [Int.cast_one, this]
        rfl
      dsimp only
      rw [hn]
      push_cast
      linarith

end

end Verif.Resample
