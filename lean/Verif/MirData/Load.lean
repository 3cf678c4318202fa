import Verif.MirData.Model

/-!
# Loading of visibilities
-/

namespace Verif.MirData

variable {R V : Type}

/-- What one record should be, with or without system temperatures. -/
def want (disk : Nat → R) (conv : R → V) (cal tsysOf : Nat → V → V) (tsys : Bool) (i : Nat) : V :=
  if tsys then tsysOf i (cal i (conv (disk i))) else cal i (conv (disk i))

/-- All that is loaded is what it should be. -/
structure Good (disk : Nat → R) (conv : R → V) (cal tsysOf : Nat → V → V) (s : St R V) : Prop where
  vis : ∀ v, s.vis = some v → ∀ x ∈ v, x.2 = want disk conv cal tsysOf s.tsys x.1
  raw : ∀ r, s.raw = some r → ∀ x ∈ r, x.2 = disk x.1

theorem choose_some {W : Type} {ids : List Nat} {d e : List (Nat × W)} (h : choose ids d = some e) :
    e.map (fun x => x.1) = ids ∧ ∀ x ∈ e, x ∈ d := by
  unfold choose at h
  induction ids generalizing e with
  | nil =>
    rw [List.mapM_nil] at h
    cases h
    exact ⟨rfl, fun x hx => by simp at hx⟩
  | cons i ids ih =>
    rw [List.mapM_cons] at h
    cases hl : d.lookup i with
    | none => rw [hl] at h; cases h
    | some w =>
      rw [hl] at h
      cases hm : (ids.mapM fun i => (d.lookup i).map fun w => (i, w)) with
      | none =>
        rw [hm] at h
        cases h
      | some e' =>
        rw [hm] at h
        cases h
        obtain ⟨h1, h2⟩ := ih hm
        refine ⟨by rw [List.map_cons, h1], ?_⟩
        intro x hx
        rcases List.mem_cons.mp hx with rfl | hx
        · exact lookup_mem hl
        · exact h2 x hx
where
  lookup_mem {W : Type} {i : Nat} {w : W} {d : List (Nat × W)} (h : d.lookup i = some w) : (i, w) ∈ d := by
    induction d with
    | nil => cases h
    | cons y d ih =>
      obtain ⟨j, z⟩ := y
      rw [List.lookup_cons] at h
      by_cases hij : i = j
      · subst hij
        simp at h
        subst h
        simp
      · rw [show (i == j) = false from by simpa using hij] at h
        exact List.mem_cons_of_mem _ (ih h)

theorem choose_isSome {W : Type} (ids : List Nat) (d : List (Nat × W)) (h : ∀ i ∈ ids, i ∈ d.map (fun x => x.1)) :
    ∃ e, choose ids d = some e := by
  induction ids with
  | nil => exact ⟨[], rfl⟩
  | cons i ids ih =>
    obtain ⟨e, he⟩ := ih (fun j hj => h j (List.mem_cons_of_mem _ hj))
    have hi := h i (by simp)
    obtain ⟨w, hw⟩ : ∃ w, d.lookup i = some w := by
      clear ih he h
      induction d with
      | nil => simp at hi
      | cons y d ihd =>
        obtain ⟨j, z⟩ := y
        rw [List.lookup_cons]
        by_cases hij : i = j
        · subst hij
          exact ⟨z, by simp⟩
        · rw [show (i == j) = false from by simpa using hij]
          rw [List.map_cons, List.mem_cons] at hi
          exact ihd (hi.resolve_left hij)
    refine ⟨(i, w) :: e, ?_⟩
    unfold choose at he ⊢
    rw [List.mapM_cons, hw, he]
    rfl

theorem fresh_good (disk : Nat → R) (conv : R → V) (cal tsysOf : Nat → V → V) (ids : List Nat) (useTsys : Bool) :
    ∀ x ∈ (if useTsys then applyTsys tsysOf ids (ids.map fun i => (i, cal i (conv (disk i)))) else ids.map fun i => (i, cal i (conv (disk i)))),
      x.2 = want disk conv cal tsysOf useTsys x.1 := by
  intro x hx
  cases useTsys
  · simp only [Bool.false_eq_true, if_false, List.mem_map] at hx
    obtain ⟨i, _, rfl⟩ := hx
    rfl
  · simp only [if_true, applyTsys, List.mem_map] at hx
    obtain ⟨_, ⟨i, hi, rfl⟩, rfl⟩ := hx
    simp [hi, want]

theorem fresh_keys (disk : Nat → R) (conv : R → V) (cal tsysOf : Nat → V → V) (ids : List Nat) (useTsys : Bool) :
    (if useTsys then applyTsys tsysOf ids (ids.map fun i => (i, cal i (conv (disk i)))) else ids.map fun i => (i, cal i (conv (disk i)))).map
      (fun x => x.1) = ids := by
  cases useTsys
  · simp [Function.comp_def]
  · simp only [if_true, applyTsys, List.map_map]
    conv_rhs => rw [← List.map_id ids]
    apply List.map_congr_left
    intro i hi
    simp [hi]

theorem split_false {A B C : Prop} (h : A ∧ C) : A ∧ (false = true → B) ∧ (false = false → C) :=
  ⟨h.1, fun h => (by cases h), fun _ => h.2⟩

theorem split_true {A B C : Prop} (h : A ∧ B) : A ∧ (true = true → B) ∧ (true = false → C) :=
  ⟨h.1, fun _ => h.2, fun h => (by cases h)⟩

/-- Values after loading, when no solution for gains is used or packed data were not loaded before: each record of the table is there, once
and in order, and is what it should be for the state of the system temperatures. -/
theorem load_good_partial (disk : Nat → R) (conv : R → V) (cal tsysOf : Nat → V → V) (ids : List Nat) (loadRaw useTsys : Bool)
    (allowDown allowConv : Option Bool) (s : St R V) (hs : Good disk conv cal tsysOf s) (hc : s.raw = none ∨ ∀ i x, cal i x = x) :
    let t := load disk conv cal tsysOf ids loadRaw useTsys allowDown allowConv s
    Good disk conv cal tsysOf t ∧
      (loadRaw = true → t.vis = none ∧ t.tsys = false ∧ ∃ r, t.raw = some r ∧ r.map (fun x => x.1) = ids) ∧
      (loadRaw = false → t.raw = none ∧ ∃ v, t.vis = some v ∧ v.map (fun x => x.1) = ids) := by
  intro t
  generalize hs1 : convStep conv tsysOf ids loadRaw useTsys allowConv s = s1
  have hraw : s1.raw = s.raw := by
    rw [← hs1]
    unfold convStep
    split
    · rfl
    · rename_i r hr
      split
      · exact hr.symm
      · rfl
  have hvis : ∀ v, s1.vis = some v → ∀ x ∈ v, x.1 ∈ ids → x.2 = want disk conv cal tsysOf s1.tsys x.1 := by
    intro v hv x hx hi
    rw [← hs1] at hv ⊢
    unfold convStep at hv ⊢
    cases hr : s.raw with
    | none =>
      rw [hr] at hv
      exact hs.vis v hv x hx
    | some r =>
      rw [hr] at hv
      dsimp only at hv ⊢
      have hc' : ∀ i x, cal i x = x := by
        rcases hc with hc | hc
        · rw [hc] at hr; cases hr
        · exact hc
      by_cases hk : allowConv ≠ some false ∧ loadRaw = false ∧ ∀ i ∈ ids, i ∈ r.map (fun (x : Nat × R) => x.1)
      · rw [if_pos hk] at hv ⊢
        cases hv
        cases useTsys
        · simp only [Bool.false_eq_true, if_false, List.mem_map] at hx
          obtain ⟨y, hy, rfl⟩ := hx
          simp only [want, Bool.false_eq_true, if_false]
          rw [hc', hs.raw r hr y hy]
        · simp only [if_true, applyTsys, List.mem_map] at hx
          obtain ⟨_, ⟨y, hy, rfl⟩, rfl⟩ := hx
          have hy1 : y.1 ∈ ids := by
            by_cases h : y.1 ∈ ids
            · exact h
            · simp only [h, if_false] at hi
          simp only [want, hy1, if_true]
          rw [hc', hs.raw r hr y hy]
      · rw [if_neg hk] at hv ⊢
        exact hs.vis v hv x hx
  have ht : t = (keepStep ids loadRaw allowDown (unload loadRaw s1)).getD (readStep disk conv cal tsysOf ids loadRaw useTsys (unload loadRaw s1)) := by
    rw [← hs1]
    rfl
  clear_value t
  subst ht
  cases loadRaw
  · refine split_false ?_
    cases hk : keepStep ids false allowDown (unload false s1) with
    | none =>
      rw [Option.getD_none]
      unfold readStep unload
      simp only [Bool.false_eq_true, if_false]
      refine ⟨⟨?_, ?_⟩, trivial, _, rfl, fresh_keys disk conv cal tsysOf ids useTsys⟩
      · intro v hv
        cases hv
        exact fresh_good disk conv cal tsysOf ids useTsys
      · intro r hr
        cases hr
    | some s2 =>
      rw [Option.getD_some]
      unfold keepStep unload at hk
      split at hk
      · cases hk
      · simp only [Bool.false_eq_true, if_false] at hk
        obtain ⟨e, he, rfl⟩ := Option.map_eq_some_iff.mp hk
        obtain ⟨v, hv, he⟩ := Option.bind_eq_some_iff.mp he
        obtain ⟨h1, h2⟩ := choose_some he
        refine ⟨⟨?_, ?_⟩, rfl, e, rfl, h1⟩
        · intro v' hv' x hx
          cases hv'
          refine hvis v hv x (h2 x hx) ?_
          rw [← h1]
          exact List.mem_map.mpr ⟨x, hx, rfl⟩
        · intro r hr
          cases hr
  · refine split_true ?_
    cases hk : keepStep ids true allowDown (unload true s1) with
    | none =>
      rw [Option.getD_none]
      unfold readStep unload
      rw [if_pos rfl, if_pos rfl]
      refine ⟨⟨?_, ?_⟩, rfl, rfl, _, rfl, by simp [Function.comp_def]⟩
      · intro v hv
        cases hv
      · intro r' hr' x hx
        cases hr'
        obtain ⟨i, _, rfl⟩ := List.mem_map.mp hx
        rfl
    | some s2 =>
      rw [Option.getD_some]
      unfold keepStep unload at hk
      split at hk
      · cases hk
      · simp only [if_true] at hk
        obtain ⟨e, he, rfl⟩ := Option.map_eq_some_iff.mp hk
        obtain ⟨r, hr, he⟩ := Option.bind_eq_some_iff.mp he
        obtain ⟨h1, h2⟩ := choose_some he
        refine ⟨⟨?_, ?_⟩, rfl, rfl, e, rfl, h1⟩
        · intro v hv
          cases hv
        · intro r' hr' x hx
          cases hr'
          exact hs.raw r (hraw ▸ hr) x (h2 x hx)

/-- With `allow_downselect=False` system temperatures are used exactly if asked for, whatever was loaded before, also for gains. -/
theorem load_again (disk : Nat → R) (conv : R → V) (cal tsysOf : Nat → V → V) (ids : List Nat) (useTsys : Bool) (allowConv : Option Bool) (s : St R V) :
    load disk conv cal tsysOf ids false useTsys (some false) allowConv s =
      ⟨some (ids.map fun i => (i, want disk conv cal tsysOf useTsys i)), none, useTsys⟩ := by
  unfold load keepStep readStep unload
  simp only [if_true, Bool.false_eq_true, if_false, Option.getD_none]
  congr 2
  cases useTsys
  · rfl
  · simp only [if_true, applyTsys, List.map_map]
    apply List.map_congr_left
    intro i hi
    simp [hi, want]

/-- "System temperatures are used as asked for" fails: when all visibilities are loaded already, what was asked for is ignored. -/
theorem loadTsys_counterexample (disk : Nat → R) (conv : R → V) (cal tsysOf : Nat → V → V) (ids : List Nat) (useTsys applied : Bool)
    (allowConv : Option Bool) :
    load disk conv cal tsysOf ids false useTsys none allowConv ⟨some (ids.map fun i => (i, want disk conv cal tsysOf applied i)), none, applied⟩ =
      ⟨some (ids.map fun i => (i, want disk conv cal tsysOf applied i)), none, applied⟩ := by
  obtain ⟨e, hc⟩ := choose_isSome ids (ids.map fun i => (i, want disk conv cal tsysOf applied i)) (by simp)
  obtain ⟨k1, k2⟩ := choose_some hc
  have hee : e = ids.map fun i => (i, want disk conv cal tsysOf applied i) := by
    rw [← k1, List.map_map]
    conv_lhs => rw [← List.map_id e]
    apply List.map_congr_left
    intro x hx
    obtain ⟨i, hi, rfl⟩ := List.mem_map.mp (k2 x hx)
    rfl
  unfold load keepStep unload convStep
  simp only [Bool.false_eq_true, if_false, Option.bind_some, hc, hee]
  simp

/-- "Gains are used" fails: when packed data of one record were loaded before, they are converted without gains. -/
theorem loadCal_counterexample (disk : Nat → R) (conv : R → V) (cal tsysOf : Nat → V → V) (i : Nat) :
    load disk conv cal tsysOf [i] false false none none (load disk conv cal tsysOf [i] true false none none ⟨none, none, false⟩) =
      ⟨some [(i, conv (disk i))], none, false⟩ ∧
    load disk conv cal tsysOf [i] false false none none ⟨none, none, false⟩ = ⟨some [(i, cal i (conv (disk i)))], none, false⟩ := by
  constructor
  · simp [load, choose, keepStep, unload, convStep, readStep]
  · simp [load, keepStep, unload, convStep, readStep]

end Verif.MirData
