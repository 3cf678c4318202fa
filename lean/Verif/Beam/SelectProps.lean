import Verif.Beam.Select

/-! What a selection from a beam object keeps. -/
namespace Verif.Beam
open Verif.Np Verif.FreqSort Verif.Add

variable {K V B C X : Type} [LinearOrder K]

theorem except_map_ok {ε α β : Type} {f : α → β} {x : Except ε α} {r : β} (h : x.map f = .ok r) : ∃ a, x = .ok a ∧ r = f a := by
  cases x with
  | error e => cases h
  | ok a => cases h; exact ⟨a, rfl, rfl⟩

omit [LinearOrder K] in
theorem eq_of_all {α : Type} {l L : List α} (h : l.Sublist L) (hm : ∀ x ∈ L, x ∈ l) (hn : L.Nodup) : l = L :=
  h.eq_of_length ((List.perm_ext_iff_of_nodup (h.nodup hn) hn).2 (fun x => ⟨fun hx => h.subset hx, hm x⟩)).length_eq

omit [LinearOrder K] in
theorem runAll_cons (o r : Obj K V B C X) (s : Obj K V B C X → Except Err (Obj K V B C X)) (ss : List (Obj K V B C X → Except Err (Obj K V B C X)))
    (h : runAll o (s :: ss) = (r, none)) : ∃ o', s o = .ok o' ∧ runAll o' ss = (r, none) := by
  unfold runAll at h
  cases hs : s o with
  | error e => rw [hs] at h; simp at h
  | ok o' => rw [hs] at h; exact ⟨o', rfl, h⟩

theorem selAx1_part {o r : Obj K V B C X} (hd : Distinct o) (a : Option (List Int)) (h : opt selAx1 a o = .ok r) :
    Part o r (fun _ => True) (fun _ => True) (fun _ => True) (fun x => ∀ l, a = some l → ∃ i ∈ l, 0 ≤ i ∧ o.ax1[i.toNat]? = some x) := by
  cases a with
  | none => cases h; exact (Part.refl o).congr (by simp) (by simp) (by simp) (by simp)
  | some l =>
    simp only [opt, selAx1] at h
    split at h
    · cases h
    · obtain ⟨inds, hi, rfl⟩ := except_map_ok h
      exact (takeAx1_part o (axisInds_sel hd.ax1 hi)).congr (by simp) (by simp) (by simp) (by simp)

theorem selAx2_part {o r : Obj K V B C X} (hd : Distinct o) (a : Option (List Int)) (h : opt selAx2 a o = .ok r) :
    Part o r (fun _ => True) (fun _ => True) (fun y => ∀ l, a = some l → ∃ i ∈ l, 0 ≤ i ∧ o.ax2[i.toNat]? = some y) (fun _ => True) := by
  cases a with
  | none => cases h; exact (Part.refl o).congr (by simp) (by simp) (by simp) (by simp)
  | some l =>
    simp only [opt, selAx2] at h
    split at h
    · cases h
    · obtain ⟨inds, hi, rfl⟩ := except_map_ok h
      exact (takeAx2_part o (axisInds_sel hd.ax2 hi)).congr (by simp) (by simp) (by simp) (by simp)

theorem selPixels_part {o r : Obj K V B C X} (a : Option (List K)) (h : opt selPixels a o = .ok r) :
    Part o r (fun _ => True) (fun _ => True) (fun _ => True) (fun x => ∀ l, a = some l → x ∈ l) := by
  cases a with
  | none => cases h; exact (Part.refl o).congr (by simp) (by simp) (by simp) (by simp)
  | some l =>
    simp only [opt, selPixels] at h
    split at h
    · obtain ⟨inds, hi, rfl⟩ := except_map_ok h
      exact (takeAx1_part o (findInds_sel hi)).congr (by simp) (by simp) (by simp) (by simp)
    · cases h

theorem pyTake_mem {α : Type} {xs l : List α} {inds : List Int} (h : pyTake xs inds = .ok l) (x : α) : x ∈ l ↔ ∃ i ∈ inds, PyAt xs i x := by
  unfold pyTake at h
  split at h
  · cases h
  · rename_i hr
    cases h
    simp only [List.any_eq_true, not_exists, not_and, Bool.or_eq_true, decide_eq_true_eq, not_or] at hr
    unfold fancy
    rw [List.mem_filterMap]
    constructor
    · rintro ⟨n, hn, hx⟩
      rw [List.mem_map] at hn
      obtain ⟨i, hi, rfl⟩ := hn
      refine ⟨i, hi, ?_⟩
      have := hr i hi
      unfold PyAt
      split at hx
      · rename_i hneg
        exact Or.inr ⟨hneg, by omega, hx⟩
      · exact Or.inl ⟨by omega, hx⟩
    · rintro ⟨i, hi, hx⟩
      refine ⟨_, List.mem_map.2 ⟨i, hi, rfl⟩, ?_⟩
      rcases hx with ⟨h1, h2⟩ | ⟨h1, -, h2⟩
      · rw [if_neg (by omega)]; exact h2
      · rw [if_pos h1]; exact h2

theorem selFreqs_part {o r : Obj K V B C X} (q : Req K) (h : selFreqs q.chans q.freqs o = .ok r) :
    Part o r (fun _ => True) (WantF q o) (fun _ => True) (fun _ => True) := by
  unfold selFreqs at h
  cases hw : wantedFreqs o q.chans q.freqs with
  | error e => rw [hw] at h; cases h
  | ok w =>
    rw [hw] at h
    unfold wantedFreqs at hw
    cases hc : q.chans with
    | none =>
      rw [hc] at hw
      cases hw
      cases hf : q.freqs with
      | none =>
        rw [hf] at h
        cases h
        exact (Part.refl o).congr (by simp) (by simp [WantF, hc, hf]) (by simp) (by simp)
      | some l =>
        rw [hf] at h
        obtain ⟨inds, hi, rfl⟩ := except_map_ok h
        exact (takeFreqs_part o (findInds_sel hi)).congr (by simp) (by simp [WantF, hc, hf]) (by simp) (by simp)
    | some c =>
      rw [hc] at hw
      obtain ⟨l, hl, rfl⟩ := except_map_ok hw
      obtain ⟨inds, hi, rfl⟩ := except_map_ok h
      refine (takeFreqs_part o (findInds_sel hi)).congr (by simp) ?_ (by simp) (by simp)
      intro f _
      cases hf : q.freqs with
      | none =>
        simp only [WantF, hc, hf]
        rw [pyTake_mem hl]
        simp
      | some m =>
        simp only [WantF, hc, hf]
        rw [mem_unique, List.mem_append, pyTake_mem hl]
        simp

theorem selFeeds_part {o r : Obj K V B C X} (names : List (Int × Int)) (a : Option (List Int)) (h : opt (selFeeds names) a o = .ok r) :
    Part o r (fun p => ∀ l, a = some l → ∃ f ∈ l, Names names o f p) (fun _ => True) (fun _ => True) (fun _ => True) := by
  cases a with
  | none => cases h; exact (Part.refl o).congr (by simp) (by simp) (by simp) (by simp)
  | some l =>
    simp only [opt, selFeeds] at h
    split at h
    · cases h
    · obtain ⟨inds, hi, rfl⟩ := except_map_ok h
      refine (takeFeeds_part o (findInds_sel hi)).congr ?_ (by simp) (by simp) (by simp)
      intro p hp
      simp only [List.mem_map, Option.some.injEq, forall_eq']
      apply exists_congr
      intro f
      apply and_congr_right
      intro _
      unfold feedOf Names
      by_cases hm : f ∈ o.pols
      · rw [if_pos (by simpa using hm)]
        simp [hm, eq_comm]
      · rw [if_neg (by simpa using hm)]
        cases hfi : names.find? (fun a => decide (a.1 = f)) with
        | none =>
          simp only [hm, false_and, reduceCtorEq, exists_false, and_false, or_false, iff_false]
          rintro rfl
          exact hm hp
        | some a => simp [hm, eq_comm]

theorem selPols_part {o r : Obj K V B C X} (hd : Distinct o) (hc : o.power = true → o.coupling = none) (a : Option (List Int)) (hs : ∀ l, a = some l → l.Sublist o.pols)
    (h : opt selPols a o = .ok r) : Part o r (fun p => ∀ l, a = some l → p ∈ l) (fun _ => True) (fun _ => True) (fun _ => True) := by
  cases a with
  | none => cases h; exact (Part.refl o).congr (by simp) (by simp) (by simp) (by simp)
  | some l =>
    simp only [opt, selPols] at h
    split at h
    · rename_i hp
      obtain ⟨inds, hi, rfl⟩ := except_map_ok h
      have h1 := findInds_sorted hi
      rw [sublist_filter hd.pols (hs l rfl)] at h1
      have h2 := (findInds_labels hd.pols hi).1
      have := (takeFeeds_part o (findInds_sel hi)).congr (SP' := fun p => ∀ m, some l = some m → p ∈ m) (by simp) (SF' := fun _ => True) (by simp)
        (S2' := fun _ => True) (by simp) (S1' := fun _ => True) (by simp)
      rw [h1] at this
      rw [h2]
      simpa [hc hp] using this
    · cases h

/-- Only power beams have polarizations, only phased arrays a coupling matrix, and there are no power beams of phased arrays. -/
def NoCoupling (o : Obj K V B C X) : Prop := o.power = true → o.coupling = none

/-- A selection that succeeds keeps what was asked for, with its labels; polarizations have to be given in the order of the object. -/
theorem select_keeps_partial (names : List (Int × Int)) (q : Req K) (rc : Bool) (o r : Obj K V B C X) (hd : Distinct o) (hc : NoCoupling o)
    (h : select names q rc o = (r, none)) (hp : ∀ l, q.pols = some l → l.Sublist o.pols) :
    Part o r (WantP names q o) (WantF q o) (Want2 q o) (Want1 q o) := by
  unfold select at h
  obtain ⟨o1, h1, h⟩ := runAll_cons _ _ _ _ h
  obtain ⟨o2, h2, h⟩ := runAll_cons _ _ _ _ h
  obtain ⟨o3, h3, h⟩ := runAll_cons _ _ _ _ h
  obtain ⟨o4, h4, h⟩ := runAll_cons _ _ _ _ h
  obtain ⟨o5, h5, h⟩ := runAll_cons _ _ _ _ h
  obtain ⟨o6, h6, h⟩ := runAll_cons _ _ _ _ h
  obtain ⟨o7, h7, h⟩ := runAll_cons _ _ _ _ h
  have e7 : o7 = o6 := by
    unfold checkStep at h7
    split at h7
    · cases h7
    · cases h7; rfl
  have er : r = o6 := by
    rw [← e7]
    unfold runAll at h
    exact (Prod.mk.inj h).1.symm
  subst er
  have p1 := selAx1_part hd q.ax1 h1
  have p2 := selAx2_part (p1.distinct hd) q.ax2 h2
  have p12 := p1.trans p2
  have p3 := selPixels_part q.pixels h3
  have p13 := p12.trans p3
  have p4 := selFreqs_part q h4
  have p14 := p13.trans p4
  have p5 := selFeeds_part names q.feeds h5
  have p15 := p14.trans p5
  have e2 : o1.ax2 = o.ax2 := eq_of_all p1.ax2.1 (fun y hy => (p1.ax2.2 y).2 ⟨hy, trivial⟩) hd.ax2
  have e3 : o3.freqs = o.freqs := eq_of_all p13.freqs.1 (fun y hy => (p13.freqs.2 y).2 ⟨hy, ⟨trivial, trivial⟩, trivial⟩) hd.freqs
  have e4 : o4.pols = o.pols := eq_of_all p14.pols.1 (fun y hy => (p14.pols.2 y).2 ⟨hy, ⟨⟨trivial, trivial⟩, trivial⟩, trivial⟩) hd.pols
  have e5 : ∀ l, q.pols = some l → o5.pols = o.pols := by
    intro l hl
    rw [← e4]
    cases hf : q.feeds with
    | none => rw [hf] at h5; cases h5; rfl
    | some m =>
      exfalso
      rw [hf] at h5
      rw [hl] at h6
      simp only [opt, selFeeds] at h5
      simp only [opt, selPols] at h6
      split at h5
      · cases h5
      · rename_i hpw
        rw [p5.power, if_neg hpw] at h6
        cases h6
  have hc5 : o5.power = true → o5.coupling = none := by
    intro hp5
    have h0 := hc (by rw [← p15.power]; exact hp5)
    have h1 := p15.present.2.2
    rw [h0] at h1
    simpa using h1
  have p6 := selPols_part (p15.distinct hd) hc5 q.pols (fun l hl => by rw [e5 l hl]; exact hp l hl) h6
  refine (p15.trans p6).congr ?_ ?_ ?_ ?_
  · intro p _
    simp only [true_and]
    unfold WantP Names
    rw [e4]
  · intro f _
    simp only [true_and, and_true]
    unfold WantF
    rw [e3]
  · intro y _
    simp only [true_and, and_true]
    unfold Want2
    rw [e2]
  · intro x _
    simp only [and_true]
    rfl

/-! ### When a selection is refused -/

/-- What is asked for is there, and is asked for in a way that fits the object. -/
structure Askable (names : List (Int × Int)) (q : Req K) (o : Obj K V B C X) : Prop where
  ax1 : ∀ l, q.ax1 = some l → o.healpix = false ∧ l ≠ [] ∧ ∀ i ∈ l, 0 ≤ i ∧ i < o.ax1.length
  ax2 : ∀ l, q.ax2 = some l → o.healpix = false ∧ l ≠ [] ∧ ∀ i ∈ l, 0 ≤ i ∧ i < o.ax2.length
  pixels : ∀ l, q.pixels = some l → o.healpix = true ∧ ∀ x ∈ l, x ∈ o.ax1
  chans : ∀ l, q.chans = some l → ∀ i ∈ l, -(o.freqs.length : Int) ≤ i ∧ i < o.freqs.length
  freqs : ∀ l, q.freqs = some l → ∀ f ∈ l, f ∈ o.freqs
  feeds : ∀ l, q.feeds = some l → o.power = false ∧ ∀ f ∈ l, ∃ p ∈ o.pols, Names names o f p
  pols : ∀ l, q.pols = some l → o.power = true ∧ ∀ p ∈ l, p ∈ o.pols

/-- The result has arrays that fit its labels. -/
structure Fits (q : Req K) (o : Obj K V B C X) : Prop where
  once : ∀ l, q.pols = some l → l.Nodup
  basis : o.power = true → o.basis.isSome = true → (∀ y ∈ o.ax2, Want2 q o y) ∧ ∀ x ∈ o.ax1, Want1 q o x

omit [LinearOrder K] in
theorem axisInds_ok_iff (n : Nat) (l : List Int) : (∃ inds, axisInds n l = .ok inds) ↔ l ≠ [] ∧ ∀ i ∈ l, 0 ≤ i ∧ i < n := by
  unfold axisInds
  by_cases h1 : l = []
  · rw [if_pos h1]; simp [h1]
  · rw [if_neg h1]
    split
    · rename_i h2
      simp only [reduceCtorEq, exists_false, false_iff, not_and]
      intro _ hall
      simp only [List.any_eq_true, Bool.or_eq_true, decide_eq_true_eq] at h2
      obtain ⟨i, hi, h3⟩ := h2
      have := hall i hi
      omega
    · rename_i h2
      simp only [List.any_eq_true, not_exists, not_and, Bool.or_eq_true, decide_eq_true_eq, not_or] at h2
      refine ⟨fun _ => ⟨h1, fun i hi => ?_⟩, fun _ => ⟨_, rfl⟩⟩
      have := h2 i hi
      omega

theorem findInds_ok_iff {α : Type} [DecidableEq α] (L l : List α) : (∃ inds, findInds L l = .ok inds) ↔ ∀ x ∈ l, x ∈ L := by
  constructor
  · rintro ⟨inds, h⟩
    exact findInds_all h
  · intro h
    unfold findInds
    rw [if_neg]
    · exact ⟨_, rfl⟩
    · simp only [List.any_eq_true, not_exists, not_and, Bool.not_eq_true', List.contains_eq_mem, decide_eq_false_iff_not, not_not]
      exact h

theorem except_map_ok_iff {ε α β : Type} (f : α → β) (x : Except ε α) : (∃ r, x.map f = .ok r) ↔ ∃ a, x = .ok a := by
  cases x with
  | error e => simp [Except.map]
  | ok a => simp [Except.map]

omit [LinearOrder K] in
theorem selAx1_ok_iff (a : Option (List Int)) (o : Obj K V B C X) :
    (∃ r, opt selAx1 a o = .ok r) ↔ ∀ l, a = some l → o.healpix = false ∧ l ≠ [] ∧ ∀ i ∈ l, 0 ≤ i ∧ i < o.ax1.length := by
  cases a with
  | none => simp [opt]
  | some l =>
    simp only [opt, selAx1, Option.some.injEq, forall_eq']
    cases o.healpix with
    | true => simp
    | false => simp only [Bool.false_eq_true, if_false, true_and]; rw [except_map_ok_iff, axisInds_ok_iff]

omit [LinearOrder K] in
theorem selAx2_ok_iff (a : Option (List Int)) (o : Obj K V B C X) :
    (∃ r, opt selAx2 a o = .ok r) ↔ ∀ l, a = some l → o.healpix = false ∧ l ≠ [] ∧ ∀ i ∈ l, 0 ≤ i ∧ i < o.ax2.length := by
  cases a with
  | none => simp [opt]
  | some l =>
    simp only [opt, selAx2, Option.some.injEq, forall_eq']
    cases o.healpix with
    | true => simp
    | false => simp only [Bool.false_eq_true, if_false, true_and]; rw [except_map_ok_iff, axisInds_ok_iff]

theorem selPixels_ok_iff (a : Option (List K)) (o : Obj K V B C X) :
    (∃ r, opt selPixels a o = .ok r) ↔ ∀ l, a = some l → o.healpix = true ∧ ∀ x ∈ l, x ∈ o.ax1 := by
  cases a with
  | none => simp [opt]
  | some l =>
    simp only [opt, selPixels, Option.some.injEq, forall_eq']
    cases o.healpix with
    | false => simp
    | true => simp only [if_true, true_and]; rw [except_map_ok_iff, findInds_ok_iff]

theorem pyTake_ok_iff {α : Type} (xs : List α) (inds : List Int) : (∃ r, pyTake xs inds = .ok r) ↔ ∀ i ∈ inds, -(xs.length : Int) ≤ i ∧ i < xs.length := by
  unfold pyTake
  split
  · rename_i h
    simp only [reduceCtorEq, exists_false, false_iff]
    intro hall
    simp only [List.any_eq_true, Bool.or_eq_true, decide_eq_true_eq] at h
    obtain ⟨i, hi, h⟩ := h
    have := hall i hi
    omega
  · rename_i h
    simp only [List.any_eq_true, not_exists, not_and, Bool.or_eq_true, decide_eq_true_eq, not_or] at h
    refine ⟨fun _ i hi => ?_, fun _ => ⟨_, rfl⟩⟩
    have := h i hi
    omega

theorem pyAt_mem {α : Type} {xs : List α} {i : Int} {x : α} (h : PyAt xs i x) : x ∈ xs := by
  rcases h with h | h
  · exact List.mem_of_getElem? h.2
  · exact List.mem_of_getElem? h.2.2

theorem selFreqs_ok_iff (q : Req K) (o : Obj K V B C X) :
    (∃ r, selFreqs q.chans q.freqs o = .ok r) ↔
      (∀ l, q.chans = some l → ∀ i ∈ l, -(o.freqs.length : Int) ≤ i ∧ i < o.freqs.length) ∧ ∀ l, q.freqs = some l → ∀ f ∈ l, f ∈ o.freqs := by
  unfold selFreqs wantedFreqs
  cases hc : q.chans with
  | none =>
    cases hf : q.freqs with
    | none => simp
    | some l => simp only [reduceCtorEq, false_implies, implies_true, true_and, Option.some.injEq, forall_eq']; rw [except_map_ok_iff, findInds_ok_iff]
  | some c =>
    simp only [Option.some.injEq, forall_eq']
    rw [← pyTake_ok_iff]
    cases hp : pyTake o.freqs c with
    | error e => simp [Except.map]
    | ok l =>
      have hl : ∀ x ∈ l, x ∈ o.freqs := by
        intro x hx
        obtain ⟨i, _, hi⟩ := (pyTake_mem hp x).1 hx
        exact pyAt_mem hi
      cases hf : q.freqs with
      | none =>
        show (∃ r, (findInds o.freqs l).map (fun inds => o.takeFreqs (unique inds)) = .ok r) ↔ _
        rw [except_map_ok_iff, findInds_ok_iff]
        simpa using hl
      | some m =>
        show (∃ r, (findInds o.freqs (unique (m ++ l))).map (fun inds => o.takeFreqs (unique inds)) = .ok r) ↔ _
        rw [except_map_ok_iff, findInds_ok_iff]
        simp only [mem_unique, List.mem_append, Except.ok.injEq, exists_eq', true_and, Option.some.injEq, forall_eq']
        exact ⟨fun h f hf => h f (Or.inl hf), fun h x hx => hx.elim (h x) (hl x)⟩

omit [LinearOrder K] in
theorem selFeeds_ok_iff (names : List (Int × Int)) (a : Option (List Int)) (o : Obj K V B C X) :
    (∃ r, opt (selFeeds names) a o = .ok r) ↔ ∀ l, a = some l → o.power = false ∧ ∀ f ∈ l, ∃ p ∈ o.pols, Names names o f p := by
  cases a with
  | none => simp [opt]
  | some l =>
    simp only [opt, selFeeds, Option.some.injEq, forall_eq']
    cases o.power with
    | true => simp
    | false =>
      simp only [Bool.false_eq_true, if_false, true_and]
      rw [except_map_ok_iff, findInds_ok_iff]
      simp only [List.mem_map, forall_exists_index, and_imp, forall_apply_eq_imp_iff₂]
      apply forall_congr'
      intro f
      apply imp_congr_right
      intro _
      unfold feedOf Names
      by_cases hm : f ∈ o.pols
      · rw [if_pos (by simpa using hm)]
        simp [hm]
      · rw [if_neg (by simpa using hm)]
        cases hfi : names.find? (fun a => decide (a.1 = f)) with
        | none => simp [hm]
        | some a => simp [hm]

omit [LinearOrder K] in
theorem selPols_ok_iff (a : Option (List Int)) (o : Obj K V B C X) :
    (∃ r, opt selPols a o = .ok r) ↔ ∀ l, a = some l → o.power = true ∧ ∀ p ∈ l, p ∈ o.pols := by
  cases a with
  | none => simp [opt]
  | some l =>
    simp only [opt, selPols, Option.some.injEq, forall_eq']
    cases o.power with
    | false => simp
    | true => simp only [if_true, true_and]; rw [except_map_ok_iff, findInds_ok_iff]

/-! Shapes. -/

/-- What is known about the shapes along the way. -/
structure Track (o r : Obj K V B C X) : Prop where
  npol : o.npol = o.pols.length → r.npol = r.pols.length
  efield : o.power = false → o.shapes = true → r.shapes = true
  power : o.power = true → r.basis = o.basis

omit [LinearOrder K] in
theorem shapes_iff (o : Obj K V B C X) :
    o.shapes = true ↔ o.npol = o.pols.length ∧ ∀ b, o.basis = some b → b.1 = o.ax2.length ∧ b.2.1 = o.ax1.length := by
  unfold Obj.shapes
  cases o.basis with
  | none => simp
  | some b => simp

omit [LinearOrder K] in
theorem Track.refl (o : Obj K V B C X) : Track o o := ⟨id, fun _ h => h, fun _ => rfl⟩

omit [LinearOrder K] in
theorem Track.trans {o r t : Obj K V B C X} (h : Track o r) (hp : r.power = o.power) (h' : Track r t) : Track o t :=
  ⟨fun x => h'.npol (h.npol x), fun x y => h'.efield (by rw [hp, x]) (h.efield x y), fun x => (h'.power (by rw [hp, x])).trans (h.power x)⟩

omit [LinearOrder K] in
theorem takeAx1_track (o : Obj K V B C X) (inds : List Nat) (h : ∀ i ∈ inds, i < o.ax1.length) : Track o (o.takeAx1 inds) := by
  refine ⟨id, ?_, fun hp => by simp [Obj.takeAx1, hp]⟩
  intro hp hs
  rw [shapes_iff] at hs ⊢
  refine ⟨hs.1, ?_⟩
  intro b hb
  simp only [Obj.takeAx1, hp, Bool.false_eq_true, if_false, Option.map_eq_some_iff] at hb
  obtain ⟨a, ha, rfl⟩ := hb
  exact ⟨(hs.2 a ha).1, (fancy_length _ _ h).symm⟩

omit [LinearOrder K] in
theorem takeAx2_track (o : Obj K V B C X) (inds : List Nat) (h : ∀ i ∈ inds, i < o.ax2.length) : Track o (o.takeAx2 inds) := by
  refine ⟨id, ?_, fun hp => by simp [Obj.takeAx2, hp]⟩
  intro hp hs
  rw [shapes_iff] at hs ⊢
  refine ⟨hs.1, ?_⟩
  intro b hb
  simp only [Obj.takeAx2, hp, Bool.false_eq_true, if_false, Option.map_eq_some_iff] at hb
  obtain ⟨a, ha, rfl⟩ := hb
  exact ⟨(fancy_length _ _ h).symm, (hs.2 a ha).2⟩

omit [LinearOrder K] in
theorem selAx1_track {o r : Obj K V B C X} (hd : Distinct o) (a : Option (List Int)) (h : opt selAx1 a o = .ok r) : Track o r := by
  cases a with
  | none => cases h; exact Track.refl o
  | some l =>
    simp only [opt, selAx1] at h
    split at h
    · cases h
    · obtain ⟨inds, hi, rfl⟩ := except_map_ok h
      exact takeAx1_track o _ (axisInds_sel hd.ax1 hi).lt

omit [LinearOrder K] in
theorem selAx2_track {o r : Obj K V B C X} (hd : Distinct o) (a : Option (List Int)) (h : opt selAx2 a o = .ok r) : Track o r := by
  cases a with
  | none => cases h; exact Track.refl o
  | some l =>
    simp only [opt, selAx2] at h
    split at h
    · cases h
    · obtain ⟨inds, hi, rfl⟩ := except_map_ok h
      exact takeAx2_track o _ (axisInds_sel hd.ax2 hi).lt

theorem selPixels_track {o r : Obj K V B C X} (a : Option (List K)) (h : opt selPixels a o = .ok r) : Track o r := by
  cases a with
  | none => cases h; exact Track.refl o
  | some l =>
    simp only [opt, selPixels] at h
    split at h
    · obtain ⟨inds, hi, rfl⟩ := except_map_ok h
      exact takeAx1_track o _ (findInds_sel hi).lt
    · cases h

theorem selFreqs_track {o r : Obj K V B C X} (c : Option (List Int)) (f : Option (List K)) (h : selFreqs c f o = .ok r) : Track o r := by
  unfold selFreqs at h
  split at h
  · cases h
  · cases h; exact Track.refl o
  · obtain ⟨inds, _, rfl⟩ := except_map_ok h
    exact ⟨id, fun _ hs => by rw [shapes_iff] at hs ⊢; exact hs, fun _ => rfl⟩

omit [LinearOrder K] in
theorem selFeeds_track {o r : Obj K V B C X} (names : List (Int × Int)) (a : Option (List Int)) (h : opt (selFeeds names) a o = .ok r) : Track o r := by
  cases a with
  | none => cases h; exact Track.refl o
  | some l =>
    simp only [opt, selFeeds] at h
    split at h
    · cases h
    · obtain ⟨inds, hi, rfl⟩ := except_map_ok h
      have hn : (unique inds).length = (fancy o.pols (unique inds)).length := (fancy_length _ _ (findInds_sel hi).lt).symm
      exact ⟨fun _ => hn, fun _ hs => by rw [shapes_iff] at hs ⊢; exact ⟨hn, hs.2⟩, fun _ => rfl⟩

/-- Polarizations: one that is asked for twice does not fit. -/
theorem selPols_shape {o r : Obj K V B C X} (hd : Distinct o) (a : Option (List Int)) (h : opt selPols a o = .ok r) :
    r.basis = o.basis ∧ r.ax1 = o.ax1 ∧ r.ax2 = o.ax2 ∧ (o.npol = o.pols.length → (r.npol = r.pols.length ↔ ∀ l, a = some l → l.Nodup)) := by
  cases a with
  | none => cases h; simp
  | some l =>
    simp only [opt, selPols] at h
    split at h
    · obtain ⟨inds, hi, rfl⟩ := except_map_ok h
      refine ⟨rfl, rfl, rfl, fun _ => ?_⟩
      have h1 := findInds_labels hd.pols hi
      have hall := findInds_all hi
      show (unique inds).length = (fancy o.pols inds).length ↔ _
      rw [h1.1, unique_length]
      simp only [Option.some.injEq, forall_eq']
      have hnd : inds.Nodup ↔ l.Nodup := by
        rw [h1.2]
        refine ⟨List.Nodup.of_map _, fun hn => List.Nodup.map_on ?_ hn⟩
        intro x hx y hy hxy
        have e1 := List.getElem?_idxOf (hall x hx)
        have e2 := List.getElem?_idxOf (hall y hy)
        rw [hxy, e2] at e1
        exact (Option.some.inj e1).symm
      have hl : l.length = inds.length := by rw [h1.2, List.length_map]
      rw [hl, ← hnd]
      constructor
      · intro he
        have := (List.dedup_sublist inds).eq_of_length he
        rw [← this]
        exact List.nodup_dedup inds
      · intro hn
        rw [hn.dedup]
    · cases h

omit [LinearOrder K] in
theorem runAll_ok_iff (o : Obj K V B C X) (s : Obj K V B C X → Except Err (Obj K V B C X)) (ss : List (Obj K V B C X → Except Err (Obj K V B C X))) :
    (runAll o (s :: ss)).2 = none ↔ ∃ o', s o = .ok o' ∧ (runAll o' ss).2 = none := by
  rw [runAll]
  cases hs : s o with
  | error e => simp
  | ok o' => simp

omit [LinearOrder K] in
theorem length_eq_iff {α : Type} {l L : List α} {S : α → Prop} (h : l.Sublist L ∧ ∀ x, x ∈ l ↔ x ∈ L ∧ S x) (hn : L.Nodup) :
    L.length = l.length ↔ ∀ x ∈ L, S x := by
  constructor
  · intro he x hx
    have := h.1.eq_of_length he.symm
    rw [← this] at hx
    exact ((h.2 x).1 hx).2
  · intro hs
    rw [eq_of_all h.1 (fun x hx => (h.2 x).2 ⟨hx, hs x hx⟩) hn]

/-- A selection succeeds exactly if what is asked for is there, and, unless the check is switched off, no polarization is asked for twice and the
pixels of a power beam with basis vectors are all kept. -/
theorem select_accepted_iff (names : List (Int × Int)) (q : Req K) (rc : Bool) (o : Obj K V B C X) (hd : Distinct o) (hs : o.shapes = true) :
    (select names q rc o).2 = none ↔ Askable names q o ∧ (rc = true → Fits q o) := by
  have tail : ∀ (o1 o2 o3 o4 o5 : Obj K V B C X), opt selAx1 q.ax1 o = .ok o1 → opt selAx2 q.ax2 o1 = .ok o2 → opt selPixels q.pixels o2 = .ok o3 →
      selFreqs q.chans q.freqs o3 = .ok o4 → opt (selFeeds names) q.feeds o4 = .ok o5 →
      o1.healpix = o.healpix ∧ o1.ax2 = o.ax2 ∧ o5.power = o.power ∧ o4.pols = o.pols ∧
      (∀ o6, opt selPols q.pols o5 = .ok o6 → (o6.shapes = true ↔ Fits q o)) := by
    intro o1 o2 o3 o4 o5 h1 h2 h3 h4 h5
    have p1 := selAx1_part hd q.ax1 h1
    have t1 := selAx1_track hd q.ax1 h1
    have p2 := selAx2_part (p1.distinct hd) q.ax2 h2
    have t2 := t1.trans p1.power (selAx2_track (p1.distinct hd) q.ax2 h2)
    have p12 := p1.trans p2
    have p3 := selPixels_part q.pixels h3
    have t3 := t2.trans p12.power (selPixels_track q.pixels h3)
    have p13 := p12.trans p3
    have p4 := selFreqs_part q h4
    have t4 := t3.trans p13.power (selFreqs_track q.chans q.freqs h4)
    have p14 := p13.trans p4
    have p5 := selFeeds_part names q.feeds h5
    have t5 := t4.trans p14.power (selFeeds_track names q.feeds h5)
    have p15 := p14.trans p5
    have e2 : o1.ax2 = o.ax2 := eq_of_all p1.ax2.1 (fun y hy => (p1.ax2.2 y).2 ⟨hy, trivial⟩) hd.ax2
    have e4 : o4.pols = o.pols := eq_of_all p14.pols.1 (fun y hy => (p14.pols.2 y).2 ⟨hy, ⟨⟨trivial, trivial⟩, trivial⟩, trivial⟩) hd.pols
    refine ⟨p1.healpix, e2, p15.power, e4, ?_⟩
    intro o6 h6
    obtain ⟨b1, b2, b3, b4⟩ := selPols_shape (p15.distinct hd) q.pols h6
    rw [shapes_iff] at hs
    have b4 := b4 (t5.npol hs.1)
    rw [shapes_iff, b4, b1, b2, b3]
    have w2 := length_eq_iff (p15.ax2) hd.ax2
    have w1 := length_eq_iff (p15.ax1) hd.ax1
    have e2' : (∀ y ∈ o.ax2, Want2 q o y) ↔ o.ax2.length = o5.ax2.length := by
      rw [w2]
      unfold Want2
      simp only [e2, true_and, and_true]
    have e1' : (∀ x ∈ o.ax1, Want1 q o x) ↔ o.ax1.length = o5.ax1.length := by
      rw [w1]
      unfold Want1
      simp only [and_true]
    cases hp : o.power with
    | false =>
      have hs5 := t5.efield hp ((shapes_iff o).2 hs)
      rw [shapes_iff] at hs5
      exact ⟨fun h => ⟨h.1, fun hc => absurd hp (by rw [hc]; simp)⟩, fun h => ⟨h.once, hs5.2⟩⟩
    | true =>
      rw [t5.power hp]
      constructor
      · rintro ⟨h1, h2⟩
        refine ⟨h1, fun _ hb => ?_⟩
        obtain ⟨b, hb⟩ := Option.isSome_iff_exists.1 hb
        have x1 := h2 b hb
        have x2 := hs.2 b hb
        rw [e2', e1']
        exact ⟨x2.1.symm.trans x1.1, x2.2.symm.trans x1.2⟩
      · intro h
        refine ⟨h.once, fun b hb => ?_⟩
        have x1 := h.basis hp (by rw [hb]; rfl)
        rw [e2', e1'] at x1
        have x2 := hs.2 b hb
        exact ⟨x2.1.trans x1.1, x2.2.trans x1.2⟩
  have mid : ∀ (o1 o2 o3 o4 o5 : Obj K V B C X), opt selAx1 q.ax1 o = .ok o1 → opt selAx2 q.ax2 o1 = .ok o2 → opt selPixels q.pixels o2 = .ok o3 →
      selFreqs q.chans q.freqs o3 = .ok o4 → opt (selFeeds names) q.feeds o4 = .ok o5 → q.pols ≠ none → o.power = true → o5.pols = o.pols := by
    intro o1 o2 o3 o4 o5 h1 h2 h3 h4 h5 _ hp
    obtain ⟨-, -, f3, f4, -⟩ := tail o1 o2 o3 o4 o5 h1 h2 h3 h4 h5
    rw [← f4]
    cases hf : q.feeds with
    | none => rw [hf] at h5; cases h5; rfl
    | some m =>
      have := ((selFeeds_ok_iff names q.feeds o4).1 ⟨o5, h5⟩ m hf).1
      have h6 := (selFeeds_part names q.feeds h5).power
      rw [f3, hp, this] at h6
      cases h6
  unfold select
  constructor
  · intro h
    obtain ⟨o1, h1, h⟩ := (runAll_ok_iff _ _ _).1 h
    obtain ⟨o2, h2, h⟩ := (runAll_ok_iff _ _ _).1 h
    obtain ⟨o3, h3, h⟩ := (runAll_ok_iff _ _ _).1 h
    obtain ⟨o4, h4, h⟩ := (runAll_ok_iff _ _ _).1 h
    obtain ⟨o5, h5, h⟩ := (runAll_ok_iff _ _ _).1 h
    obtain ⟨o6, h6, h⟩ := (runAll_ok_iff _ _ _).1 h
    obtain ⟨o7, h7, -⟩ := (runAll_ok_iff _ _ _).1 h
    obtain ⟨f1, f2, f3, f4, f5⟩ := tail o1 o2 o3 o4 o5 h1 h2 h3 h4 h5
    have p1 := selAx1_part hd q.ax1 h1
    have p12 := p1.trans (selAx2_part (p1.distinct hd) q.ax2 h2)
    have p13 := p12.trans (selPixels_part q.pixels h3)
    have e3 : o3.freqs = o.freqs := eq_of_all p13.freqs.1 (fun y hy => (p13.freqs.2 y).2 ⟨hy, ⟨trivial, trivial⟩, trivial⟩) hd.freqs
    have p14 := p13.trans (selFreqs_part q h4)
    have c2 := (selAx2_ok_iff q.ax2 o1).1 ⟨o2, h2⟩
    have c3 := (selPixels_ok_iff q.pixels o2).1 ⟨o3, h3⟩
    have c4 := (selFreqs_ok_iff q o3).1 ⟨o4, h4⟩
    have c5 := (selFeeds_ok_iff names q.feeds o4).1 ⟨o5, h5⟩
    have c6 := (selPols_ok_iff q.pols o5).1 ⟨o6, h6⟩
    refine ⟨⟨(selAx1_ok_iff q.ax1 o).1 ⟨o1, h1⟩, ?_, ?_, ?_, ?_, ?_, ?_⟩, ?_⟩
    · rw [f1, f2] at c2; exact c2
    · intro l hl
      have := c3 l hl
      exact ⟨by rw [← p12.healpix]; exact this.1, fun x hx => p12.ax1.1.subset (this.2 x hx)⟩
    · rw [e3] at c4; exact c4.1
    · rw [e3] at c4; exact c4.2
    · intro l hl
      have := c5 l hl
      unfold Names at this ⊢
      rw [p14.power, f4] at this
      exact this
    · intro l hl
      have := c6 l hl
      rw [f3] at this
      refine ⟨this.1, ?_⟩
      rw [mid o1 o2 o3 o4 o5 h1 h2 h3 h4 h5 (by rw [hl]; simp) this.1] at this
      exact this.2
    · intro hrc
      rw [← f5 o6 h6]
      unfold checkStep at h7
      split at h7
      · cases h7
      · rename_i hn
        simpa [hrc] using hn
  · rintro ⟨ha, hf⟩
    obtain ⟨o1, h1⟩ := (selAx1_ok_iff q.ax1 o).2 ha.ax1
    have p1 := selAx1_part hd q.ax1 h1
    have e2 : o1.ax2 = o.ax2 := eq_of_all p1.ax2.1 (fun y hy => (p1.ax2.2 y).2 ⟨hy, trivial⟩) hd.ax2
    obtain ⟨o2, h2⟩ := (selAx2_ok_iff q.ax2 o1).2 (by rw [p1.healpix, e2]; exact ha.ax2)
    have p12 := p1.trans (selAx2_part (p1.distinct hd) q.ax2 h2)
    obtain ⟨o3, h3⟩ := (selPixels_ok_iff q.pixels o2).2 (by
      intro l hl
      have := ha.pixels l hl
      rw [p12.healpix]
      refine ⟨this.1, fun x hx => (p12.ax1.2 x).2 ⟨this.2 x hx, ?_, trivial⟩⟩
      intro m hm
      have := (ha.ax1 m hm).1
      simp_all)
    have p13 := p12.trans (selPixels_part q.pixels h3)
    have e3 : o3.freqs = o.freqs := eq_of_all p13.freqs.1 (fun y hy => (p13.freqs.2 y).2 ⟨hy, ⟨trivial, trivial⟩, trivial⟩) hd.freqs
    obtain ⟨o4, h4⟩ := (selFreqs_ok_iff q o3).2 (by rw [e3]; exact ⟨ha.chans, ha.freqs⟩)
    have p14 := p13.trans (selFreqs_part q h4)
    have e4 : o4.pols = o.pols := eq_of_all p14.pols.1 (fun y hy => (p14.pols.2 y).2 ⟨hy, ⟨⟨trivial, trivial⟩, trivial⟩, trivial⟩) hd.pols
    obtain ⟨o5, h5⟩ := (selFeeds_ok_iff names q.feeds o4).2 (by
      have := ha.feeds
      unfold Names at this ⊢
      rw [p14.power, e4]
      exact this)
    obtain ⟨f1, f2, f3, f4, f5⟩ := tail o1 o2 o3 o4 o5 h1 h2 h3 h4 h5
    obtain ⟨o6, h6⟩ := (selPols_ok_iff q.pols o5).2 (by
      intro l hl
      have := ha.pols l hl
      rw [f3, mid o1 o2 o3 o4 o5 h1 h2 h3 h4 h5 (by rw [hl]; simp) this.1]
      exact this)
    refine (runAll_ok_iff _ _ _).2 ⟨o1, h1, (runAll_ok_iff _ _ _).2 ⟨o2, h2, (runAll_ok_iff _ _ _).2 ⟨o3, h3, (runAll_ok_iff _ _ _).2 ⟨o4, h4,
      (runAll_ok_iff _ _ _).2 ⟨o5, h5, (runAll_ok_iff _ _ _).2 ⟨o6, h6, (runAll_ok_iff _ _ _).2 ⟨o6, ?_, rfl⟩⟩⟩⟩⟩⟩⟩
    unfold checkStep
    rw [if_neg]
    simp only [Bool.and_eq_true, Bool.not_eq_true', not_and, Bool.not_eq_false]
    intro hrc
    exact (f5 o6 h6).2 (hf hrc)

/-- Polarizations that are given in another order than that of the object: the selection succeeds, the object has the labels as they were given, and
some polarization has the values of another one. -/
theorem select_pols_swapped (names : List (Int × Int)) (rc : Bool) (o : Obj K V B C X) (hd : Distinct o) (hs : o.shapes = true) (hp : o.power = true)
    (l : List Int) (hl : ∀ p ∈ l, p ∈ o.pols) (hn : l.Nodup) (ho : ¬l.Sublist o.pols) :
    ∃ r, select names { pols := some l } rc o = (r, none) ∧ r.pols = l ∧
      ∃ p ∈ l, ∃ p' ∈ l, p ≠ p' ∧ ∀ f y x v, Has o p' f y x v → Has r p f y x v := by
  have hok : (select names { pols := some l } rc o).2 = none := by
    rw [select_accepted_iff names _ rc o hd hs]
    refine ⟨⟨by simp, by simp, by simp, by simp, by simp, by simp, ?_⟩, fun _ => ⟨?_, ?_⟩⟩
    · intro m hm
      cases hm
      exact ⟨hp, hl⟩
    · intro m hm
      cases hm
      exact hn
    · intro _ _
      exact ⟨fun y _ => by simp [Want2], fun x _ => by simp [Want1]⟩
  obtain ⟨r, h0⟩ : ∃ r, select names { pols := some l } rc o = (r, none) := ⟨_, Prod.ext rfl hok⟩
  refine ⟨r, h0, ?_⟩
  obtain ⟨inds, hi⟩ := (findInds_ok_iff o.pols l).2 hl
  have hl1 := findInds_labels hd.pols hi
  have hsel := findInds_sel hi
  have hfil := findInds_sorted hi
  have hr : r.pols = l ∧ r.freqs = o.freqs ∧ r.ax2 = o.ax2 ∧ r.ax1 = o.ax1 ∧ r.data = fun i j k l => o.data ((unique inds).getD i 0) j k l := by
    unfold select at h0
    obtain ⟨o1, h1, h0⟩ := runAll_cons _ _ _ _ h0; cases h1
    obtain ⟨o2, h2, h0⟩ := runAll_cons _ _ _ _ h0; cases h2
    obtain ⟨o3, h3, h0⟩ := runAll_cons _ _ _ _ h0; cases h3
    obtain ⟨o4, h4, h0⟩ := runAll_cons _ _ _ _ h0; cases h4
    obtain ⟨o5, h5, h0⟩ := runAll_cons _ _ _ _ h0; cases h5
    obtain ⟨o6, h6, h0⟩ := runAll_cons _ _ _ _ h0
    obtain ⟨o7, h7, h0⟩ := runAll_cons _ _ _ _ h0
    have e7 : o7 = o6 := by
      unfold checkStep at h7
      split at h7
      · cases h7
      · cases h7; rfl
    have h00 : o7 = r := (Prod.mk.inj h0).1
    rw [← h00, e7]
    simp only [opt, selPols, hp, if_true, hi] at h6
    cases h6
    exact ⟨hl1.1, rfl, rfl, rfl, rfl⟩
  refine ⟨hr.1, ?_⟩
  have hperm : l.Perm (fancy o.pols (unique inds)) := by
    rw [List.perm_ext_iff_of_nodup hn (by rw [hfil]; exact hd.pols.filter _)]
    intro p
    rw [hsel.mem]
    exact ⟨fun h => ⟨hl p h, h⟩, fun h => h.2⟩
  have hne : ∃ i : Nat, ∃ p p', l[i]? = some p ∧ (fancy o.pols (unique inds))[i]? = some p' ∧ p ≠ p' := by
    by_contra hcon
    push Not at hcon
    apply ho
    have : l = fancy o.pols (unique inds) := by
      apply List.ext_getElem?
      intro i
      by_cases hlt : i < l.length
      · have hlt' : i < (fancy o.pols (unique inds)).length := by rw [← hperm.length_eq]; exact hlt
        have := hcon i _ _ (List.getElem?_eq_getElem hlt) (List.getElem?_eq_getElem hlt')
        rw [List.getElem?_eq_getElem hlt, List.getElem?_eq_getElem hlt', this]
      · rw [List.getElem?_eq_none (by omega), List.getElem?_eq_none (by rw [← hperm.length_eq]; omega)]
    rw [this]
    exact hsel.sublist
  obtain ⟨i, p, p', h1, h2, h3⟩ := hne
  refine ⟨p, List.mem_of_getElem? h1, p', hperm.mem_iff.2 (List.mem_of_getElem? h2), h3, ?_⟩
  rintro f y x v ⟨i', j, k, m, g1, g2, g3, g4, g5⟩
  refine ⟨i, j, k, m, by rw [hr.1]; exact h1, by rw [hr.2.1]; exact g2, by rw [hr.2.2.1]; exact g3, by rw [hr.2.2.2.1]; exact g4, ?_⟩
  rw [hr.2.2.2.2, ← g5]
  rw [fancy_get _ _ hsel.lt, Option.bind_eq_some_iff] at h2
  obtain ⟨n, hn1, hn2⟩ := h2
  have : n = i' := (List.getElem?_inj (List.getElem?_eq_some_iff.1 hn2).1 hd.pols).1 (hn2.trans g1.symm)
  subst this
  simp only [List.getD_eq_getElem?_getD, hn1, Option.getD_some]

end Verif.Beam
