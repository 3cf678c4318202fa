import Verif.MirShift.Whole

/-!
# Shifts with a kernel
-/

namespace Verif.MirShift

theorem assign_eq {α : Type} (n : Nat) (l : List α) (h : l.length = n) : assign n l = some l := by
  subst h
  unfold assign
  split
  · simp
  · simp

section
variable {K V : Type} [Field K] [AddCommGroup V] [Module K V]

/-- Sum over the kernel at one position, given the values it meets. -/
def kernSum {W : Type} [AddCommGroup W] [Module K W] (kern : List K) (g : Nat → Option W) : Option W :=
  (kern.zipIdx.mapM fun x => (g x.2).map fun y => x.1 • y).map List.sum

theorem conv_get {W : Type} [AddCommGroup W] [Module K W] (kern : List K) (l : List (Option W)) (i : Nat)
    (h : i < l.length + 1 - kern.length) :
    (conv kern l)[i]? = some (kernSum kern fun j => (l[i + kern.length - 1 - j]?).join) := by
  unfold conv kernSum
  rw [List.getElem?_map, List.getElem?_range h]
  rfl

theorem conv_length {W : Type} [AddCommGroup W] [Module K W] (kern : List K) (l : List (Option W)) :
    (conv kern l).length = l.length + 1 - kern.length := by
  simp [conv]

/-- Only the positions of the kernel matter. -/
theorem kernSum_congr {W : Type} [AddCommGroup W] [Module K W] (kern : List K) (g g' : Nat → Option W)
    (h : ∀ j < kern.length, g j = g' j) : kernSum kern g = kernSum kern g' := by
  unfold kernSum
  congr 1
  have : ∀ x ∈ kern.zipIdx, ((g x.2).map fun y => x.1 • y) = (g' x.2).map fun y => x.1 • y := by
    intro x hx
    have := List.mem_zipIdx hx
    rw [h x.2 (by omega)]
  clear h
  revert this
  generalize kern.zipIdx = z
  intro h
  induction z with
  | nil => rfl
  | cons x z ih =>
    rw [List.mapM_cons, List.mapM_cons, ih fun y hy => h y (by simp [hy]), h x (by simp)]

/-- The value met by entry `j` of the kernel for channel `k`. -/
def met {W : Type} [Zero W] (adj : Bool) (pick : Chan V K → W) (l : List (Chan V K)) (p : Int) (j : Nat) : Option W :=
  (at? l (p - j)).bind fun ch => masked adj ch.fl (pick ch)

/-- A shift with a kernel of `2 h` entries. -/
theorem kernel_get (c : Int) (kern : List K) (h : Nat) (hl : kern.length = 2 * h) (hh : 1 ≤ h) (adj : Bool) (l : List (Chan V K))
    (hn : 2 * h + c.natAbs ≤ l.length) :
    ∃ out, shiftKernel c kern adj l = some out ∧ out.length = l.length ∧
      ∀ k < l.length, out[k]? = some (if 0 ≤ (k : Int) - c - h ∧ (k : Int) - c + h ≤ l.length then
        inner adj (kernSum kern (met adj Chan.v l (k - c + h - 1)), kernSum kern (met adj Chan.w l (k - c + h - 1))) else blank) := by
  unfold shiftKernel
  have hdiv : kern.length / 2 = h := by omega
  simp only [hdiv]
  -- lengths
  set le : Int := (h : Int) + c with hle
  set re : Int := 1 - (h : Int) + c with hre
  set le' : Int := if le < 0 then 0 else le with hle'
  set re' : Int := if 0 ≤ re then (l.length : Int) else re with hre'
  set lclip : Option Int := if le < 0 then some (-le) else none with hlc
  set rclip : Option Int := if 0 ≤ re then some ((l.length : Int) - re) else none with hrc
  have hA : (lclip.map (pyIdx l.length)).getD 0 = (-le).toNat := by
    rw [hlc]; split
    · simp only [Option.map_some, Option.getD_some, pyIdx]; split <;> omega
    · simp only [Option.map_none, Option.getD_none]; omega
  have hB : (rclip.map (pyIdx l.length)).getD l.length = l.length - re.toNat := by
    rw [hrc]; split
    · simp only [Option.map_some, Option.getD_some, pyIdx]; split <;> omega
    · simp only [Option.map_none, Option.getD_none]; omega
  have hC : pyIdx l.length le' = le.toNat := by
    have : le' = max le 0 := by rw [hle']; split <;> omega
    unfold pyIdx; rw [this]; split <;> omega
  have hD : pyIdx l.length re' = l.length - (-re).toNat := by
    have : (0 ≤ re ∧ re' = l.length) ∨ (re < 0 ∧ re' = re) := by rw [hre']; split <;> omega
    unfold pyIdx; split <;> omega
  have htl : (pySlice lclip rclip l).length = l.length - re.toNat - (-le).toNat := by
    rw [pySlice_length, hA, hB]; omega
  have hcv : l.length - re.toNat - (-le).toNat + 1 - kern.length = l.length - (-re).toNat - le.toNat := by omega
  rw [if_neg (by omega)]
  have hz : ((conv kern ((pySlice lclip rclip l).map fun ch => masked adj ch.fl ch.v)).zip
      (conv kern ((pySlice lclip rclip l).map fun ch => masked adj ch.fl ch.w))).length =
      (pySlice (some le') (some re') l).length := by
    rw [List.length_zip, conv_length, conv_length, List.length_map, List.length_map, htl, pySlice_length]
    simp only [Option.map_some, Option.getD_some, hC, hD]
    omega
  rw [assign_eq _ _ hz]
  have e1 : (pySlice none (some le') l).length = le.toNat := by
    rw [pySlice_length]; simp only [Option.map_some, Option.map_none, Option.getD_some, Option.getD_none, hC]; omega
  have e2 : (pySlice (some re') none l).length = (-re).toNat := by
    rw [pySlice_length]; simp only [Option.map_some, Option.map_none, Option.getD_some, Option.getD_none, hD]; omega
  have e3 : (pySlice (some le') (some re') l).length = l.length - (-re).toNat - le.toNat := by
    rw [pySlice_length]; simp only [Option.map_some, Option.getD_some, hC, hD]; omega
  rw [e3] at hz
  refine ⟨_, rfl, ?_, ?_⟩
  · simp only [List.length_append, List.length_replicate, List.length_map, hz, e1, e2]; omega
  · intro k hk
    dsimp only
    rw [List.append_assoc, List.getElem?_append]
    rw [List.length_replicate, e1]
    by_cases hk1 : k < le.toNat
    · rw [if_pos hk1, List.getElem?_replicate, if_pos hk1, if_neg (by omega)]
    · rw [if_neg hk1, List.getElem?_append]
      rw [List.length_map, hz]
      by_cases hk2 : k - le.toNat < l.length - (-re).toNat - le.toNat
      · have g1 := conv_get kern ((pySlice lclip rclip l).map fun ch => masked adj ch.fl ch.v) (k - le.toNat)
          (by rw [List.length_map, htl]; omega)
        have g2 := conv_get kern ((pySlice lclip rclip l).map fun ch => masked adj ch.fl ch.w) (k - le.toNat)
          (by rw [List.length_map, htl]; omega)
        have key : ∀ {W : Type} [AddCommGroup W] [Module K W] (pick : Chan V K → W),
            kernSum kern (fun j => (((pySlice lclip rclip l).map fun ch => masked adj ch.fl (pick ch))[k - le.toNat + kern.length - 1 - j]?).join) =
            kernSum kern (met adj pick l (k - c + h - 1)) := by
          intro W _ _ pick
          apply kernSum_congr
          intro j hj
          rw [List.getElem?_map, pySlice_get, hA, hB, if_pos (by omega)]
          unfold met at?
          rw [if_pos (by omega)]
          have : ((k : Int) - c + h - 1 - j).toNat = (-le).toNat + (k - le.toNat + kern.length - 1 - j) := by omega
          rw [this]
          cases l[(-le).toNat + (k - le.toNat + kern.length - 1 - j)]? <;> rfl
        rw [key Chan.v] at g1
        rw [key Chan.w] at g2
        rw [if_pos hk2, if_pos (by omega), List.getElem?_map,
          (List.getElem?_zip_eq_some (z := (kernSum kern (met adj Chan.v l (k - c + h - 1)), kernSum kern (met adj Chan.w l (k - c + h - 1))))).2
            ⟨g1, g2⟩]
        rfl
      · rw [if_neg hk2, if_neg (by omega), List.getElem?_replicate, e2, if_pos (by omega)]

end

end Verif.MirShift
