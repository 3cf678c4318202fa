import Verif.Norm.Lemmas

/-!
What normalization makes of data in the order of time (C140), and that it can be undone (C141).
-/

namespace Verif.Norm

variable {K V : Type} [Field K] [LinearOrder K] [IsStrictOrderedRing K] [AddCommGroup V] [Module K V]

omit [IsStrictOrderedRing K] in
theorem normalize_ok {sqrt : K → K} {re : V → K} {argsort : List K → List Nat} {tol : K} {skip invert : Bool}
    {o o' : Obj K V} (h : normalize sqrt re argsort tol skip invert o = .ok o') :
    ∃ pg, polGroups o.pols = some pg ∧ o' = (groups argsort tol o).foldl (stepGroup sqrt re skip invert pg) o := by
  unfold normalize at h
  split at h
  · split at h
    · simp at h
    · rename_i pg hpg
      simp only [Except.ok.injEq] at h
      exact ⟨pg, hpg, h.symm⟩
  · simp at h

omit [AddCommGroup V] [Module K V] in
/-- The groups have every row once, if `argsort` gives an order of the rows. -/
theorem groups_rows (argsort : List K → List Nat) (tol : K) (ht : 0 ≤ tol) (o : Obj K V)
    (ha : timeOrdered (timesOf o) = false → (argsort (timesOf o)).Perm (List.range o.n)) :
    (groups argsort tol o).flatten.Nodup ∧ ∀ r, r < o.n ↔ ∃ g ∈ groups argsort tol o, r ∈ g := by
  have hp : (groups argsort tol o).flatten.Perm (List.range o.n) := by
    unfold groups
    cases hto : timeOrdered (timesOf o) with
    | true =>
      simp only [if_true]
      rw [groups_flatten ht _ _ _ (by simp [timesOf]) (by simp [timesOf])]
    | false =>
      simp only [Bool.false_eq_true, if_false]
      have hpe := ha hto
      rw [groups_flatten ht _ _ _ (by rw [hpe.length_eq]; simp [timesOf]) (by simp [timesOf])]
      exact hpe
  refine ⟨hp.nodup_iff.2 List.nodup_range, fun r => ?_⟩
  rw [← List.mem_range, ← hp.mem_iff, List.mem_flatten]

omit [AddCommGroup V] [Module K V] in
/-- For data in the order of time the groups are those of equal times. -/
theorem groups_times (argsort : List K → List Nat) (tol : K) (ht : 0 ≤ tol) (o : Obj K V) (hi : InTime o)
    (hap : Apart tol o) :
    ∀ g ∈ groups argsort tol o, ∀ r ∈ g, ∀ s, s ∈ g ↔ s < o.n ∧ o.time s = o.time r := by
  have hto := (inTime_iff o).2 hi
  have hr := groups_rows argsort tol ht o (fun h => by rw [hto] at h; simp at h)
  intro g hg r hrg s
  have hg' := hg
  unfold groups at hg'
  rw [if_pos hto] at hg'
  have key := groups_equal ht o.time o.n (List.range o.n) (by simp) ((timeOrdered_iff o).1 hto)
    (fun r hr s hs => hap r (by simpa using hr) s (by simpa using hs)) g hg' r hrg s
  constructor
  · intro h
    have hs : s < o.n := (hr.2 s).2 ⟨g, hg, h⟩
    exact ⟨hs, (key (by simpa using hs)).1 h⟩
  · rintro ⟨h1, h2⟩
    exact (key (by simpa using h1)).2 h2

omit [Field K] [LinearOrder K] [IsStrictOrderedRing K] [AddCommGroup V] [Module K V] in
/-- The autocorrelation that is used is the one at that time. -/
theorem autoRow_auto {o : Obj K V} (ho : OneAuto o) {g : List Nat} {t : K}
    (hg : ∀ s, s ∈ g ↔ s < o.n ∧ o.time s = t) (ant : Nat) :
    (∀ x, Auto o ant t x → autoRow o g ant = some x) ∧
      ((¬ ∃ x, Auto o ant t x) → autoRow o g ant = none) := by
  have hm : ∀ x, x ∈ g.filter (fun r => o.a r == ant && o.b r == ant) ↔ Auto o ant t x := by
    intro x
    rw [List.mem_filter, hg]
    simp only [Bool.and_eq_true, beq_iff_eq, Auto]
    tauto
  constructor
  · intro x hx
    cases hl : autoRow o g ant with
    | none =>
      have : g.filter (fun r => o.a r == ant && o.b r == ant) = [] := List.getLast?_eq_none_iff.1 hl
      have h2 := (hm x).2 hx
      rw [this] at h2
      simp at h2
    | some y =>
      have := (hm y).1 (List.mem_of_getLast? hl)
      rw [ho ant t x y hx this]
  · intro hno
    cases hl : autoRow o g ant with
    | none => rfl
    | some y => exact absurd ⟨y, (hm y).1 (List.mem_of_getLast? hl)⟩ hno

omit [IsStrictOrderedRing K] [AddCommGroup V] [Module K V] in
theorem good_flag {re : V → K} {o : Obj K V} {x f p : Nat} : autoFlag re o x f p = false ↔ Good re o x f p := by
  simp [autoFlag, Good]

/-- C140: for data in the order of time, whose times are equal or further apart than the tolerance, with one
autocorrelation of an antenna at a time.  Each visibility is divided by the geometric mean of the autocorrelations of
its antennas and feeds at its time (or multiplied with it); it gets a flag where one of them is flagged or not positive,
and everywhere if one is missing; autocorrelations stay if that is asked for. -/
theorem normalized_partial {sqrt : K → K} {re : V → K} {argsort : List K → List Nat} {tol : K} {skip invert : Bool}
    {o o' : Obj K V} (ht : 0 ≤ tol) (hi : InTime o) (hap : Apart tol o) (ho : OneAuto o) (hs : Roots sqrt re o)
    (h : normalize sqrt re argsort tol skip invert o = .ok o') :
    (o'.n = o.n ∧ o'.time = o.time ∧ o'.a = o.a ∧ o'.b = o.b ∧ o'.pols = o.pols) ∧
    ∀ r < o.n, ∀ f j, j < o.pols.length → ∃ p q, AutoPols o.pols j p q ∧
      (skip = true → o.a r = o.b r → p = q → o'.data r f j = o.data r f j ∧ o'.flag r f j = o.flag r f j) ∧
      (¬ (skip = true ∧ o.a r = o.b r ∧ p = q) → ∀ x y, Auto o (o.a r) (o.time r) x → Auto o (o.b r) (o.time r) y →
        (Good re o x f p → Good re o y f q → o'.flag r f j = o.flag r f j ∧
          ∃ g, 0 < g ∧ g * g = re (o.data x f p) * re (o.data y f q) ∧
            o'.data r f j = (if invert then g else g⁻¹) • o.data r f j) ∧
        (¬ (Good re o x f p ∧ Good re o y f q) → o'.flag r f j = true)) ∧
      ((¬ ∃ x, Auto o (o.a r) (o.time r) x) ∨ (¬ ∃ y, Auto o (o.b r) (o.time r) y) →
        o'.flag r f j = true ∧ o'.data r f j = o.data r f j) := by
  obtain ⟨pg, hpg, rfl⟩ := normalize_ok h
  obtain ⟨m1, _, m2, m3, m4, m5⟩ := step_meta sqrt re skip invert pg (groups argsort tol o) o
  refine ⟨⟨m1, m2, m3, m4, m5⟩, ?_⟩
  intro r hr f j hj
  have hto := (inTime_iff o).2 hi
  have hrows := groups_rows argsort tol ht o (fun h => by rw [hto] at h; simp at h)
  obtain ⟨g, hg, hrg⟩ := (hrows.2 r).1 hr
  have hgt := groups_times argsort tol ht o hi hap g hg r hrg
  obtain ⟨e1, e2⟩ := fold_in sqrt re skip invert pg (groups argsort tol o) hrows.1 o hg hrg f j
  rw [e1, e2]
  have hlen := mapM_len hpg
  obtain ⟨⟨p, q⟩, hpq⟩ : ∃ x, pg[j]? = some x := ⟨pg[j], List.getElem?_eq_getElem (by omega)⟩
  refine ⟨p, q, (group_pols hpg hpq).1, ?_, ?_, ?_⟩
  · intro h1 h2 h3
    have hauto : Auto o (o.a r) (o.time r) r := ⟨hr, rfl, h2.symm, rfl⟩
    have ea := (autoRow_auto ho hgt (o.a r)).1 r hauto
    unfold cell
    rw [← h2, ea, hpq]
    simp [h1, h3]
  · intro hns x y hx hy
    have ex := (autoRow_auto ho hgt (o.a r)).1 x hx
    have ey := (autoRow_auto ho hgt (o.b r)).1 y hy
    have hcell : cell sqrt re skip invert pg o g r f j =
        ((norm sqrt re invert o x f p * norm sqrt re invert o y f q) • o.data r f j,
        o.flag r f j || (autoFlag re o x f p || autoFlag re o y f q)) := by
      unfold cell
      rw [ex, ey, hpq]
      simp only
      rw [if_neg (by simpa [and_assoc] using hns)]
    rw [hcell]
    constructor
    · intro hgx hgy
      have fx := good_flag.2 hgx
      have fy := good_flag.2 hgy
      obtain ⟨⟨ax, bx⟩, cx, dx⟩ := hs x hx.1 (hx.2.1.trans hx.2.2.1.symm) f p hgx.2
      obtain ⟨⟨ay, by'⟩, cy, dy⟩ := hs y hy.1 (hy.2.1.trans hy.2.2.1.symm) f q hgy.2
      refine ⟨by simp [fx, fy], ?_⟩
      cases invert with
      | true =>
        refine ⟨sqrt (re (o.data x f p)) * sqrt (re (o.data y f q)), mul_pos ax ay, ?_, ?_⟩
        · rw [mul_mul_mul_comm, bx, by']
        · simp [norm, fx, fy]
      | false =>
        have hX := hgx.2
        have hY := hgy.2
        refine ⟨(sqrt (re (o.data x f p))⁻¹ * sqrt (re (o.data y f q))⁻¹)⁻¹, inv_pos.2 (mul_pos cx cy), ?_, ?_⟩
        · rw [← mul_inv, mul_mul_mul_comm, dx, dy, mul_inv, inv_inv, inv_inv]
        · simp [norm, fx, fy]
    · intro hng
      have : autoFlag re o x f p = true ∨ autoFlag re o y f q = true := by
        by_contra hc
        push Not at hc
        exact hng ⟨good_flag.1 (by simpa using hc.1), good_flag.1 (by simpa using hc.2)⟩
      rcases this with h | h <;> simp [h]
  · intro hno
    have hcell : cell sqrt re skip invert pg o g r f j = (o.data r f j, true) := by
      unfold cell
      rcases hno with hno | hno
      · rw [(autoRow_auto ho hgt (o.a r)).2 hno]
      · rw [(autoRow_auto ho hgt (o.b r)).2 hno]
        cases autoRow o g (o.a r) <;> rfl
    rw [hcell]
    exact ⟨rfl, rfl⟩

omit [IsStrictOrderedRing K] in
/-- Exactly when it is refused. -/
theorem refused (sqrt : K → K) (re : V → K) (argsort : List K → List Nat) (tol : K) (skip invert : Bool)
    (o : Obj K V) :
    normalize sqrt re argsort tol skip invert o = .error .noAutos ↔ ¬ ∃ r < o.n, o.a r = o.b r := by
  unfold normalize
  split
  · rename_i h
    simp only [List.any_eq_true, List.mem_range, beq_iff_eq] at h
    constructor
    · intro h'
      split at h' <;> simp at h'
    · intro h'; exact absurd h h'
  · rename_i h
    simp only [List.any_eq_true, List.mem_range, beq_iff_eq] at h
    simp only [true_iff]
    exact h

theorem root_inv {sqrt : K → K} {v : K} (hv : v ≠ 0) (h1 : IsRoot sqrt v) (h2 : IsRoot sqrt v⁻¹) :
    sqrt v * sqrt v⁻¹ = 1 := by
  have hp : 0 < sqrt v * sqrt v⁻¹ := mul_pos h1.1 h2.1
  have hq : (sqrt v * sqrt v⁻¹) * (sqrt v * sqrt v⁻¹) = 1 := by
    rw [mul_mul_mul_comm, h1.2, h2.2, mul_inv_cancel₀ hv]
  rcases mul_self_eq_one_iff.1 hq with h | h
  · exact h
  · rw [h] at hp
    exact absurd hp (by simp)

/-- C141: normalizing and undoing it, both without the autocorrelations, gives all visibilities back that are not flagged
afterwards, whatever the order of the rows (and whatever autocorrelations were taken for it). -/
theorem undone {sqrt : K → K} {re : V → K} {argsort : List K → List Nat} {tol : K} {o o1 o2 : Obj K V} (ht : 0 ≤ tol)
    (ha : timeOrdered (timesOf o) = false → (argsort (timesOf o)).Perm (List.range o.n)) (hs : Roots sqrt re o)
    (h1 : normalize sqrt re argsort tol true false o = .ok o1)
    (h2 : normalize sqrt re argsort tol true true o1 = .ok o2) :
    ∀ r < o.n, ∀ f j, j < o.pols.length → o1.flag r f j = false →
      o2.data r f j = o.data r f j ∧ o2.flag r f j = o.flag r f j := by
  obtain ⟨pg, hpg, e1⟩ := normalize_ok h1
  obtain ⟨pg', hpg', e2⟩ := normalize_ok h2
  obtain ⟨m1, _, m2, m3, m4, m5⟩ := step_meta sqrt re true false pg (groups argsort tol o) o
  rw [← e1] at m1 m2 m3 m4 m5
  rw [m5, hpg] at hpg'
  simp only [Option.some.injEq] at hpg'
  subst hpg'
  have hgr : groups argsort tol o1 = groups argsort tol o := by
    have : timesOf o1 = timesOf o := by unfold timesOf; rw [m1, m2]
    unfold groups
    rw [this, m1]
  rw [hgr] at e2
  intro r hr f j hj hfl
  have hrows := groups_rows argsort tol ht o ha
  obtain ⟨g, hg, hrg⟩ := (hrows.2 r).1 hr
  have step1 := fun s (hsg : s ∈ g) j => fold_in sqrt re true false pg (groups argsort tol o) hrows.1 o hg hsg f j
  have step2 := fold_in sqrt re true true pg (groups argsort tol o) hrows.1 o1 hg hrg f j
  rw [← e1] at step1
  rw [← e2] at step2
  rw [(step1 r hrg j).2] at hfl
  rw [step2.1, step2.2]
  have hlen := mapM_len hpg
  obtain ⟨⟨p, q⟩, hpq⟩ : ∃ x, pg[j]? = some x := ⟨pg[j], List.getElem?_eq_getElem (by omega)⟩
  obtain ⟨_, hpp, hqq⟩ := group_pols hpg hpq
  -- autocorrelations stay
  have stay : ∀ x, x ∈ g → o.a x = o.b x → ∀ p, pg[p]? = some (p, p) →
      o1.data x f p = o.data x f p ∧ o1.flag x f p = o.flag x f p := by
    intro x hx hab p hp
    have hc : cell sqrt re true false pg o g x f p = (o.data x f p, o.flag x f p) := by
      have : ∃ z, autoRow o g (o.a x) = some z := by
        cases hl : autoRow o g (o.a x) with
        | none =>
          have he : g.filter (fun r => o.a r == o.a x && o.b r == o.a x) = [] := List.getLast?_eq_none_iff.1 hl
          have hm : x ∈ g.filter (fun r => o.a r == o.a x && o.b r == o.a x) :=
            List.mem_filter.2 ⟨hx, by simp [hab]⟩
          rw [he] at hm
          simp at hm
        | some z => exact ⟨z, rfl⟩
      obtain ⟨z, hz⟩ := this
      unfold cell
      rw [← hab, hz, hp]
      simp
    obtain ⟨s1, s2⟩ := step1 x hx p
    rw [s1, s2, hc]
    exact ⟨rfl, rfl⟩
  have row := step1 r hrg j
  unfold cell at hfl row ⊢
  rw [autoRow_congr m3 m4, autoRow_congr m3 m4, m3, m4]
  cases hx : autoRow o g (o.a r) with
  | none => rw [hx] at hfl; simp at hfl
  | some x =>
    cases hy : autoRow o g (o.b r) with
    | none => rw [hx, hy] at hfl; simp at hfl
    | some y =>
      rw [hx, hy] at hfl row
      rw [hpq] at hfl row ⊢
      simp only at hfl row ⊢
      by_cases hsk : (true && o.a r == o.b r && p == q) = true
      · rw [if_pos hsk] at hfl row ⊢
        exact row
      · rw [if_neg hsk] at hfl row ⊢
        simp only at row hfl
        obtain ⟨x1, x2, x3⟩ := autoRow_mem hx
        obtain ⟨y1, y2, y3⟩ := autoRow_mem hy
        obtain ⟨dx, fx⟩ := stay x x1 (x2.trans x3.symm) p hpp
        obtain ⟨dy, fy⟩ := stay y y1 (y2.trans y3.symm) q hqq
        simp only [Bool.or_eq_false_iff] at hfl
        obtain ⟨hf0, hfx, hfy⟩ := hfl
        have hfx' : autoFlag re o1 x f p = false := by unfold autoFlag at hfx ⊢; rw [dx, fx]; exact hfx
        have hfy' : autoFlag re o1 y f q = false := by unfold autoFlag at hfy ⊢; rw [dy, fy]; exact hfy
        have gx := good_flag.1 hfx
        have gy := good_flag.1 hfy
        have rx := hs x ((hrows.2 x).2 ⟨g, hg, x1⟩) (x2.trans x3.symm) f p gx.2
        have ry := hs y ((hrows.2 y).2 ⟨g, hg, y1⟩) (y2.trans y3.symm) f q gy.2
        rw [row.1, row.2, hf0, hfx, hfy, hfx', hfy']
        refine ⟨?_, rfl⟩
        have n1 : norm sqrt re true o1 x f p = sqrt (re (o.data x f p)) := by simp [norm, hfx', dx]
        have n2 : norm sqrt re true o1 y f q = sqrt (re (o.data y f q)) := by simp [norm, hfy', dy]
        have n3 : norm sqrt re false o x f p = sqrt (re (o.data x f p))⁻¹ := by simp [norm, hfx]
        have n4 : norm sqrt re false o y f q = sqrt (re (o.data y f q))⁻¹ := by simp [norm, hfy]
        rw [n1, n2, n3, n4, smul_smul, mul_mul_mul_comm, root_inv (ne_of_gt gx.2) rx.1 rx.2,
          root_inv (ne_of_gt gy.2) ry.1 ry.2, mul_one, one_smul]

end Verif.Norm
