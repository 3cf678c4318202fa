import Verif.Phasing.RotSpec

/-!
# Rotations of whole arrays
-/

namespace Verif.Phasing

open Verif.Coord (V3)

theorem bget_map {α β : Type} (f : α → β) (l : List α) (i : Nat) :
    bget (l.map f) i = (bget l i).map f := by
  unfold bget
  rw [List.length_map]
  split <;> rw [List.getElem?_map]

theorem bget_isSome {α : Type} {l : List α} {n i : Nat} (h : Fits l n) (hi : i < n) :
    ∃ a, bget l i = some a ∧ a ∈ l := by
  unfold bget
  split
  · rename_i h1
    exact ⟨l[0], List.getElem?_eq_getElem (by omega), List.getElem_mem _⟩
  · rename_i h1
    have : l.length = n := h.resolve_left h1
    exact ⟨l[i], List.getElem?_eq_getElem (by omega), List.getElem_mem _⟩

theorem bget_one {α : Type} (a : α) (i : Nat) : bget [a] i = some a := rfl

theorem bget_full {α : Type} {l : List α} {n i : Nat} (h : l.length = n) (hi : i < n) :
    bget l i = l[i]? := by
  unfold bget
  split
  · have : i = 0 := by omega
    rw [this]
  · rfl

/-- Rows of singletons, flattened and wrapped again, are themselves. -/
theorem rewrap : ∀ {rows : List (List V3)}, (∀ r ∈ rows, r.length = 1) →
    ∀ f : V3 → V3, (rows.flatten.map f).map (fun v => [v]) = rows.map fun r => r.map f := by
  intro rows
  induction rows with
  | nil => intro _ f; rfl
  | cons r rs ih =>
    intro h f
    obtain ⟨v, rfl⟩ := List.length_eq_one_iff.1 (h r (by simp))
    have := ih (fun r hr => h r (by simp [hr])) f
    simp only [List.flatten_cons, List.map_append, List.map_cons, List.map_nil,
      List.singleton_append, this]

/-- What `applyMatrices` does: it succeeds when the shapes allow it, and every row is multiplied
by its matrix. -/
theorem applyMatrices_spec {x : Arr} {ms : List M3} {n : Nat} (hx : x.Ok n) (hm : Fits ms n)
    (hs : x.nVec = 1 ∨ x.rows.length = 1 ∨ ms.length = n) :
    ∃ y : Arr, applyMatrices x ms = .ok y ∧ y.Ok n ∧ y.nVec = x.nVec ∧
      (ms.length = n ∨ x.rows.length = n → y.rows.length = n) ∧
      ∀ i, i < n → ∀ r m, bget x.rows i = some r → bget ms i = some m →
        bget y.rows i = some (r.map m.mulVec) := by
  unfold applyMatrices
  by_cases h1 : ms.length = 1 ∧ x.nVec = 1
  · rw [if_pos h1]
    obtain ⟨m, rfl⟩ := List.length_eq_one_iff.1 h1.1
    have h2 : ∀ r ∈ x.rows, r.length = 1 := fun r hr => (hx.vecs r hr).trans h1.2
    refine ⟨⟨1, x.rows.map fun r => r.map m.mulVec⟩, ?_, ⟨?_, ?_⟩, h1.2.symm, ?_, ?_⟩
    · simp only [matmulWrapper, List.length_singleton, if_true, List.zipWith_cons_cons,
        List.zipWith_nil_left, List.flatten_singleton]
      rw [rewrap h2]
    · have := hx.fits
      unfold Fits at *
      simpa using this
    · intro r hr
      simp only [List.mem_map] at hr
      obtain ⟨r', hr', rfl⟩ := hr
      rw [List.length_map]; exact h2 r' hr'
    · intro hn
      simp only [List.length_singleton] at hn
      have := hx.fits
      unfold Fits at this
      simp only [List.length_map]
      omega
    · intro i hi r m' hr hm'
      rw [bget_one] at hm'
      obtain rfl := Option.some.inj hm'
      rw [bget_map, hr]; rfl
  · rw [if_neg h1]
    unfold matmulWrapper
    by_cases h2 : x.rows.length = ms.length
    · rw [if_pos h2]
      refine ⟨_, rfl, ⟨?_, ?_⟩, rfl, ?_, ?_⟩
      · unfold Fits at *
        simp only [List.length_zipWith]
        have := hx.fits
        unfold Fits at this
        omega
      · intro r hr
        simp only at hr
        obtain ⟨i, hi⟩ := List.getElem?_of_mem hr
        rw [List.getElem?_zipWith] at hi
        split at hi
        · rename_i m r' hm' hr'
          simp only [Option.some.injEq] at hi
          rw [← hi, List.length_map]
          exact hx.vecs r' (List.mem_of_getElem? hr')
        · simp at hi
      · intro hn
        simp only [List.length_zipWith]; omega
      · intro i hi r m hr hm'
        unfold bget at hr hm' ⊢
        simp only [List.length_zipWith, h2, min_self]
        rw [h2] at hr
        split_ifs at hr hm' ⊢ with h3
        · rw [List.getElem?_zipWith, hm', hr]
        · rw [List.getElem?_zipWith, hm', hr]
    · rw [if_neg h2]
      have h3 : x.rows.length = 1 := by
        rcases hs with h | h | h
        · rcases hx.fits with h4 | h4
          · exact h4
          · rcases hm with h5 | h5
            · exact absurd ⟨h5, h⟩ h1
            · exact absurd (h4.trans h5.symm) h2
        · exact h
        · rcases hx.fits with h4 | h4
          · exact h4
          · exact absurd (h4.trans h.symm) h2
      obtain ⟨r0, hr0⟩ := List.length_eq_one_iff.1 h3
      rw [hr0]
      refine ⟨_, rfl, ⟨?_, ?_⟩, rfl, ?_, ?_⟩
      · unfold Fits at *; simpa using hm
      · intro r hr
        simp only [List.mem_map] at hr
        obtain ⟨m, -, rfl⟩ := hr
        rw [List.length_map]
        exact hx.vecs r0 (by rw [hr0]; simp)
      · rintro (hn | hn)
        · simpa using hn
        · unfold Fits at hm
          simp only [List.length_map]
          omega
      · intro i hi r m hr hm'
        rw [bget_one] at hr
        obtain rfl := Option.some.inj hr
        simp only
        rw [bget_map, hm']; rfl

theorem NoRot.at_zero {a : Amount} {n i : Nat} (h : a.NoRot) (hf : a.Fits n) (hi : i < n) :
    a.at i = some 0 := by
  cases a with
  | none => rfl
  | scalar a => simp only [Amount.NoRot] at h; rw [h]; rfl
  | array as =>
    obtain ⟨a, h1, h2⟩ := bget_isSome (l := as) hf hi
    rw [Amount.at, h1, h a h2]

theorem list_fits {a : Amount} {n : Nat} (h : ¬ a.NoRot) (hf : a.Fits n) : Fits a.list n := by
  cases a with
  | none => exact absurd trivial h
  | scalar a => exact .inl rfl
  | array as => exact hf

theorem list_at {a : Amount} {i : Nat} (h : ¬ a.NoRot) : bget a.list i = a.at i := by
  cases a with
  | none => exact absurd trivial h
  | scalar a => rfl
  | array as => rfl

/-- The shapes for which a rotation is possible: one vector per row, or one row, or one angle per
row. -/
def Usable (x : Arr) (a : Amount) (n : Nat) : Prop :=
  x.nVec = 1 ∨ x.rows.length = 1 ∨ a.list.length = n

theorem map_id_of {f : V3 → V3} (h : ∀ v, f v = v) (r : List V3) : r.map f = r := by
  conv_rhs => rw [← List.map_id r]
  exact List.map_congr_left fun v _ => h v

/-- **C68.** Rotation about one axis: every vector of row `i` is rotated by angle `i`. -/
theorem rotateOne_spec {x : Arr} {a : Amount} {n : Nat} (axis : Fin 3) (hx : x.Ok n)
    (ha : a.Fits n) (hu : a.NoRot ∨ Usable x a n) :
    ∃ y : Arr, rotateOne x a axis = .ok y ∧ y.Ok n ∧ y.nVec = x.nVec ∧
      (¬ a.NoRot ∧ a.list.length = n ∨ x.rows.length = n → y.rows.length = n) ∧
      (a.NoRot → y = x) ∧
      ∀ i, i < n → ∀ r θ, bget x.rows i = some r → a.at i = some θ →
        bget y.rows i = some (r.map (rotAbout axis θ)) := by
  unfold rotateOne
  by_cases h : a.NoRot
  · rw [if_pos h]
    refine ⟨x, rfl, hx, rfl, fun h' => h'.elim (fun h' => absurd h h'.1) id, fun _ => rfl, ?_⟩
    intro i hi r θ hr hθ
    rw [NoRot.at_zero h ha hi] at hθ
    obtain rfl := Option.some.inj hθ
    rw [map_id_of (rotAbout_zero axis), hr]
  · rw [if_neg h]
    have hf := list_fits h ha
    have hu' := hu.resolve_left h
    obtain ⟨y, h1, h2, h3, h4, h5⟩ := applyMatrices_spec (ms := a.list.map (oneMatrix axis)) hx
      (by unfold Fits at *; simpa using hf) (by unfold Usable at hu'; simpa using hu')
    refine ⟨y, h1, h2, h3, fun hn => h4 (hn.imp (fun hn => by simpa using hn.2) id),
      fun h' => absurd h' h, ?_⟩
    intro i hi r θ hr hθ
    rw [← list_at h] at hθ
    have := h5 i hi r (oneMatrix axis θ) hr (by rw [bget_map, hθ]; rfl)
    rw [this]
    congr 1
    exact List.map_congr_left fun v _ => oneMatrix_mulVec axis θ v

theorem broadcast2_spec {l1 l2 : List ℝ} {n : Nat} (h1 : Fits l1 n) (h2 : Fits l2 n) :
    ∃ l, broadcast2 l1 l2 = .ok l ∧ Fits l n ∧ (l1.length = n ∨ l2.length = n → l.length = n) ∧
      ∀ i, i < n → ∀ a b, bget l1 i = some a → bget l2 i = some b → bget l i = some (a, b) := by
  unfold broadcast2
  by_cases h : l1.length = l2.length
  · rw [if_pos h]
    refine ⟨_, rfl, ?_, ?_, ?_⟩
    · unfold Fits at *; rw [List.length_zip]; omega
    · rw [List.length_zip]; omega
    · intro i hi a b ha hb
      unfold bget at *
      rw [List.length_zip, ← h, min_self]
      rw [← h] at hb
      split_ifs at ha hb ⊢ with h3
      · exact List.getElem?_zip_eq_some.2 ⟨ha, hb⟩
      · exact List.getElem?_zip_eq_some.2 ⟨ha, hb⟩
  · rw [if_neg h]
    by_cases h3 : l1.length = 1
    · obtain ⟨a0, rfl⟩ := List.length_eq_one_iff.1 h3
      refine ⟨l2.map fun b => (a0, b), rfl, ?_, ?_, ?_⟩
      · unfold Fits at *; simpa using h2
      · simp only [List.length_singleton, List.length_map] at *
        rcases h2 with h2 | h2 <;> omega
      · intro i hi a b ha hb
        rw [bget_one] at ha
        obtain rfl := Option.some.inj ha
        rw [bget_map, hb]; rfl
    · have h4 : l1.length = n := h1.resolve_left h3
      have h5 : l2.length = 1 := by
        rcases h2 with h2 | h2
        · exact h2
        · omega
      obtain ⟨b0, rfl⟩ := List.length_eq_one_iff.1 h5
      refine ⟨l1.map fun a => (a, b0), ?_, ?_, ?_, ?_⟩
      · match l1, h3 with
        | [], _ => rfl
        | a :: b :: t, _ => rfl
      · unfold Fits; right; simpa using h4
      · intro _; simpa using h4
      · intro i hi a b ha hb
        rw [bget_one] at hb
        obtain rfl := Option.some.inj hb
        rw [bget_map, ha]; rfl

/-- **C68.** Rotation about two axes: every vector of row `i` is rotated about the first axis by
the first angle `i`, then about the second axis by the second angle `i`, for every pair of axes
and whichever special case the code takes. -/
theorem rotateTwo_spec (junk : M3) {x : Arr} {a1 a2 : Amount} {n : Nat} (axis1 axis2 : Fin 3)
    (hx : x.Ok n) (ha1 : a1.Fits n) (ha2 : a2.Fits n) (hu : x.nVec = 1 ∨ x.rows.length = 1) :
    ∃ y : Arr, rotateTwo junk x a1 a2 axis1 axis2 = .ok y ∧ y.Ok n ∧ y.nVec = x.nVec ∧
      ((¬ a1.NoRot ∧ a1.list.length = n ∨ ¬ a2.NoRot ∧ a2.list.length = n) →
        axis1 ≠ axis2 → y.rows.length = n) ∧
      (x.rows.length = n → y.rows.length = n) ∧
      (a1.NoRot ∧ a2.NoRot → y = x) ∧
      ∀ i, i < n → ∀ r θ φ, bget x.rows i = some r → a1.at i = some θ → a2.at i = some φ →
        bget y.rows i = some (r.map fun v => rotAbout axis2 φ (rotAbout axis1 θ v)) := by
  have hus : ∀ a : Amount, a.NoRot ∨ Usable x a n := by
    intro a; right; unfold Usable
    rcases hu with h | h
    · exact .inl h
    · exact .inr (.inl h)
  unfold rotateTwo
  by_cases h1 : a1.NoRot
  · by_cases h2 : a2.NoRot
    · rw [if_pos ⟨h1, h2⟩]
      refine ⟨x, rfl, hx, rfl, ?_, id, fun _ => rfl, ?_⟩
      · rintro (⟨h, -⟩ | ⟨h, -⟩)
        · exact absurd h1 h
        · exact absurd h2 h
      · intro i hi r θ φ hr hθ hφ
        rw [NoRot.at_zero h1 ha1 hi] at hθ
        rw [NoRot.at_zero h2 ha2 hi] at hφ
        obtain rfl := Option.some.inj hθ
        obtain rfl := Option.some.inj hφ
        rw [map_id_of (fun v => by rw [rotAbout_zero, rotAbout_zero]), hr]
    · rw [if_neg (fun h => h2 h.2), if_pos h1]
      obtain ⟨y, y1, y2, y3, y4, y5, y6⟩ := rotateOne_spec axis2 hx ha2 (hus a2)
      refine ⟨y, y1, y2, y3, ?_, fun h => y4 (.inr h), fun h => absurd h.2 h2, ?_⟩
      · rintro (⟨h, -⟩ | ⟨-, h⟩) -
        · exact absurd h1 h
        · exact y4 (.inl ⟨h2, h⟩)
      · intro i hi r θ φ hr hθ hφ
        rw [NoRot.at_zero h1 ha1 hi] at hθ
        obtain rfl := Option.some.inj hθ
        rw [y6 i hi r φ hr hφ]
        simp only [rotAbout_zero]
  · rw [if_neg (fun h => h1 h.1), if_neg h1]
    by_cases h2 : a2.NoRot
    · rw [if_pos h2]
      obtain ⟨y, y1, y2, y3, y4, y5, y6⟩ := rotateOne_spec axis1 hx ha1 (hus a1)
      refine ⟨y, y1, y2, y3, ?_, fun h => y4 (.inr h), fun h => absurd h.1 h1, ?_⟩
      · rintro (⟨-, h⟩ | ⟨h, -⟩) -
        · exact y4 (.inl ⟨h1, h⟩)
        · exact absurd h2 h
      · intro i hi r θ φ hr hθ hφ
        rw [NoRot.at_zero h2 ha2 hi] at hφ
        obtain rfl := Option.some.inj hφ
        rw [y6 i hi r θ hr hθ]
        simp only [rotAbout_zero]
    · rw [if_neg h2]
      by_cases h3 : axis1 = axis2
      · rw [if_pos h3]
        obtain ⟨l, l1, l2, l3, l4⟩ := broadcast2_spec (list_fits h1 ha1) (list_fits h2 ha2)
        have key : ∃ a : Amount, addAmounts a1 a2 = .ok a ∧ a.Fits n ∧
            ∀ i, i < n → ∀ θ φ, a1.at i = some θ → a2.at i = some φ → a.at i = some (θ + φ) := by
          by_cases hsc : ∃ s t, a1 = .scalar s ∧ a2 = .scalar t
          · obtain ⟨s, t, rfl, rfl⟩ := hsc
            refine ⟨_, rfl, trivial, ?_⟩
            intro i hi θ φ hθ hφ
            obtain rfl := Option.some.inj hθ
            obtain rfl := Option.some.inj hφ
            rfl
          · have : addAmounts a1 a2
                = .ok (.array (l.map fun p => p.1 + p.2)) := by
              have hgen : addAmounts a1 a2 = (broadcast2 a1.list a2.list).map
                  fun l => .array (l.map fun p => p.1 + p.2) := by
                cases a1 <;> cases a2 <;> first | rfl | exact absurd ⟨_, _, rfl, rfl⟩ hsc
              rw [hgen, l1]; rfl
            refine ⟨_, this, ?_, ?_⟩
            · unfold Amount.Fits
              simp only
              unfold Fits at *
              simpa using l2
            · intro i hi θ φ hθ hφ
              rw [← list_at h1] at hθ
              rw [← list_at h2] at hφ
              rw [Amount.at, bget_map, l4 i hi θ φ hθ hφ]; rfl
        obtain ⟨a, k1, k2, k3⟩ := key
        rw [k1]
        obtain ⟨y, y1, y2, y3, y4, y5, y6⟩ := rotateOne_spec axis1 hx k2 (hus a)
        refine ⟨y, y1, y2, y3, fun _ h => absurd h3 h, fun h => y4 (.inr h),
          fun h => absurd h.1 h1, ?_⟩
        intro i hi r θ φ hr hθ hφ
        rw [y6 i hi r _ hr (k3 i hi θ φ hθ hφ), ← h3]
        simp only [rotAbout_add]
      · rw [if_neg h3]
        obtain ⟨l, l1, l2, l3, l4⟩ := broadcast2_spec (list_fits h1 ha1) (list_fits h2 ha2)
        rw [l1]
        obtain ⟨y, y1, y2, y3, y4, y5⟩ := applyMatrices_spec
          (ms := l.map fun p => twoMatrix junk axis1 axis2 p.1 p.2) hx
          (by unfold Fits at *; simpa using l2)
          (by rcases hu with h | h
              · exact .inl h
              · exact .inr (.inl h))
        refine ⟨y, y1, y2, y3, ?_, fun h => y4 (.inr h), fun h => absurd h.1 h1, ?_⟩
        · intro h _
          have hl : l.length = n := l3 (h.imp And.right And.right)
          exact y4 (.inl (by rw [List.length_map]; exact hl))
        · intro i hi r θ φ hr hθ hφ
          rw [← list_at h1] at hθ
          rw [← list_at h2] at hφ
          rw [y5 i hi r (twoMatrix junk axis1 axis2 θ φ) hr
            (by rw [bget_map, l4 i hi θ φ hθ hφ]; rfl)]
          congr 1
          exact List.map_congr_left fun v _ => twoMatrix_mulVec junk axis1 axis2 h3 θ φ v

end Verif.Phasing
