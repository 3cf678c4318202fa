import Verif.FreqAvg.Model
import Mathlib.Algebra.Order.Ring.Nat
import Mathlib.Tactic.Ring
import Mathlib.Tactic.Linarith

/-! # Frequency averaging: groups, labels, flags, weighted means, and when it fails -/
set_option linter.unusedSectionVars false

namespace Verif.FreqAvg

variable {K V κ : Type} [Field K] [CharZero K] [DecidableEq K] [AddCommGroup V] [Module K V]

/-! ### Specification -/

/-- `cs` cuts `l`, in order, into groups of `k`; what is left over is a shorter last group, or `tail` if it is not to be kept. -/
structure Groups {α : Type} (k : Nat) (keep : Bool) (l : List α) (cs : List (List α)) (tail : List α) : Prop where
  cover : cs.flatten ++ tail = l
  full : ∀ g ∈ cs.dropLast, g.length = k
  last : ∀ g ∈ cs, 0 < g.length ∧ g.length ≤ k ∧ (keep = false → g.length = k)
  rest : tail.length < k
  kept : keep = true → tail = []

/-- The sum of a quantity over channels. -/
def over {α β : Type} [AddCommMonoid β] (l : List α) (f : α → β) : β := (l.map f).sum

/-- The channels that count for a cell: those not flagged, or all if all are flagged. -/
def used (g : List (Chan K V κ)) (c : κ) : List (Chan K V κ) :=
  if ∀ h ∈ g, h.flag c = true then g else g.filter (fun h => h.flag c = false)

/-- Frequency, width, window and flags of a new channel. -/
structure Labels (propagate : Bool) (s : Int) (g : List (Chan K V κ)) (o : Chan K V κ) : Prop where
  freq : (g.length : K) * o.freq = over g Chan.freq
  width : o.width = over g Chan.width
  spw : o.spw = s
  flag_all : propagate = false → ∀ c, (o.flag c = true ↔ ∀ h ∈ g, h.flag c = true)
  flag_any : propagate = true → ∀ c, (o.flag c = true ↔ ∃ h ∈ g, h.flag c = true)

/-- Visibility and number of samples of a new channel in one cell. -/
structure Mean (summing : Bool) (g : List (Chan K V κ)) (o : Chan K V κ) (c : κ) : Prop where
  nsample : (g.length : K) * o.nsample c = over (used g c) (fun h => h.nsample c)
  data_sum : summing = true → o.data c = over (used g c) (fun h => h.data c)
  data_mean : summing = false → over (used g c) (fun h => h.nsample c) ≠ 0 →
    over (used g c) (fun h => h.nsample c) • o.data c = over (used g c) (fun h => h.nsample c • h.data c)

/-! ### Groups -/

theorem regular_length (k : Nat) (l : List (Chan K V κ)) : (regular k l).length = l.length / k := by simp [regular]

theorem regular_get {k : Nat} {l : List (Chan K V κ)} {i : Nat} (hi : i < l.length / k) :
    (regular k l)[i]? = some ((l.drop (i * k)).take k) := by
  simp [regular, hi]

theorem regular_mem {k : Nat} {l : List (Chan K V κ)} {g : List (Chan K V κ)} (hg : g ∈ regular k l) : g.length = k := by
  simp only [regular, List.mem_map, List.mem_range] at hg
  obtain ⟨i, hi, rfl⟩ := hg
  have h1 : l.length / k * k ≤ l.length := Nat.div_mul_le_self _ _
  have h2 : (i + 1) * k ≤ l.length / k * k := Nat.mul_le_mul_right k hi
  rw [Nat.add_mul] at h2
  simp only [List.length_take, List.length_drop]
  omega

theorem regular_flatten (k : Nat) (l : List (Chan K V κ)) : (regular k l).flatten = l.take (l.length / k * k) := by
  unfold regular
  have key : ∀ n, ((List.range n).map (fun i => (l.drop (i * k)).take k)).flatten = l.take (n * k) := by
    intro n
    induction n with
    | zero => simp
    | succ n ih =>
      rw [List.range_succ, List.map_append, List.flatten_append, ih, Nat.add_mul, Nat.one_mul, List.take_add]
      simp
  exact key _

/-- The groups of a window, with the ragged one. -/
def groups (k : Nat) (keep : Bool) (l : List (Chan K V κ)) : List (List (Chan K V κ)) :=
  if l.length % k ≠ 0 ∧ keep = true then regular k l ++ [l.drop (l.length / k * k)] else regular k l

theorem groups_spec {k : Nat} (hk : 0 < k) (keep : Bool) (l : List (Chan K V κ)) :
    ∃ tail, Groups k keep l (groups k keep l) tail := by
  have hlen : (l.drop (l.length / k * k)).length = l.length % k := by
    rw [List.length_drop]
    have := Nat.div_add_mod l.length k
    rw [Nat.mul_comm] at this
    omega
  have hmod := Nat.mod_lt l.length hk
  unfold groups
  split
  · rename_i h
    refine ⟨[], ?_, ?_, ?_, by simpa using hk, fun _ => rfl⟩
    · rw [List.flatten_append, regular_flatten]; simp
    · intro g hg
      rw [List.dropLast_concat] at hg
      exact regular_mem hg
    · intro g hg
      rcases List.mem_append.1 hg with hg | hg
      · have := regular_mem hg
        exact ⟨by omega, by omega, fun _ => this⟩
      · simp only [List.mem_singleton] at hg
        subst hg
        rw [hlen]
        refine ⟨by omega, by omega, fun hx => ?_⟩
        rw [h.2] at hx
        simp at hx
  · rename_i h
    refine ⟨l.drop (l.length / k * k), ?_, ?_, ?_, ?_, ?_⟩
    · rw [regular_flatten, List.take_append_drop]
    · intro g hg
      exact regular_mem ((List.dropLast_sublist _).mem hg)
    · intro g hg
      have := regular_mem hg
      exact ⟨by omega, by omega, fun _ => this⟩
    · rw [hlen]; exact hmod
    · intro hkp
      rw [← List.length_eq_zero_iff, hlen]
      by_contra hne
      exact h ⟨hne, hkp⟩

theorem groups_length {k : Nat} (hk : 0 < k) (keep : Bool) (l : List (Chan K V κ)) :
    (groups k keep l).length = finalCount k keep l.length := by
  have hd := Nat.div_add_mod l.length k
  rw [Nat.mul_comm] at hd
  have hmod := Nat.mod_lt l.length hk
  unfold groups finalCount
  cases keep with
  | false => simp [regular_length]
  | true =>
    simp only [and_true, if_true]
    by_cases hm : l.length % k = 0
    · rw [if_neg (by simpa using hm), regular_length]
      have : l.length + k - 1 = (k - 1) + l.length / k * k := by omega
      rw [this, Nat.add_mul_div_right _ _ hk, Nat.div_eq_of_lt (Nat.sub_lt hk Nat.one_pos), Nat.zero_add]
    · rw [if_pos hm, List.length_append, regular_length]
      have : l.length + k - 1 = (l.length % k - 1) + (l.length / k + 1) * k := by rw [Nat.add_mul]; omega
      have hlt : l.length % k - 1 < k := by omega
      rw [this, Nat.add_mul_div_right _ _ hk, Nat.div_eq_of_lt hlt, Nat.zero_add]
      simp

/-! ### Masks -/

/-- All channels of a group are flagged in a cell. -/
def AllFlagged (g : List (Chan K V κ)) (c : κ) : Prop := ∀ h ∈ g, h.flag c = true

instance (g : List (Chan K V κ)) (c : κ) : Decidable (AllFlagged g c) := inferInstanceAs (Decidable (∀ h ∈ g, h.flag c = true))

/-- The mask that gives the right means. -/
def GoodMask (g : List (Chan K V κ)) (c : κ) (m : Nat → Bool) : Prop :=
  ∀ j h, g[j]? = some h → m j = if AllFlagged g c then false else h.flag c

theorem msum_good {α : Type} [AddCommMonoid α] {g : List (Chan K V κ)} {c : κ} {m : Nat → Bool} (h : GoodMask g c m)
    (f : Chan K V κ → α) : msum g m f = over (used g c) f := by
  unfold msum over
  have h1 : g.zipIdx.filter (fun p => !m p.2) = g.zipIdx.filter (fun p => !(if AllFlagged g c then false else p.1.flag c)) := by
    apply List.filter_congr
    rintro ⟨x, j⟩ hx
    rw [List.mem_zipIdx_iff_getElem?] at hx
    rw [h j x hx]
  rw [h1]
  have h2 : (g.zipIdx.filter (fun p => !(if AllFlagged g c then false else p.1.flag c))).map (fun p => f p.1) =
      (g.filter (fun x => !(if AllFlagged g c then false else x.flag c))).map f := by
    generalize (if AllFlagged g c then (fun _ => false) else (fun x : Chan K V κ => x.flag c)) = q
    have : ∀ (q : Chan K V κ → Bool) (l : List (Chan K V κ)) (n : Nat),
        ((l.zipIdx n).filter (fun p => !q p.1)).map (fun p => f p.1) = (l.filter (fun x => !q x)).map f := by
      intro q l
      induction l with
      | nil => intro n; rfl
      | cons a l ih =>
        intro n
        simp only [List.zipIdx_cons, List.filter_cons]
        split <;> simp [ih]
    exact this (fun x => if AllFlagged g c then false else x.flag c) g 0
  rw [h2]
  congr 2
  unfold used
  by_cases ha : AllFlagged g c
  · have ha' : ∀ h ∈ g, h.flag c = true := ha
    rw [if_pos ha']
    simp [ha]
  · have ha' : ¬ ∀ h ∈ g, h.flag c = true := ha
    rw [if_neg ha']
    apply List.filter_congr
    intro x _
    simp only [ha, if_false]
    cases x.flag c <;> simp

theorem combine_labels (summing propagate : Bool) (s : Int) {g : List (Chan K V κ)} (hg : 0 < g.length) (m : κ → Nat → Bool) :
    Labels propagate s g (combine summing propagate s g m) := by
  have hne : (g.length : K) ≠ 0 := by exact_mod_cast hg.ne'
  refine ⟨?_, rfl, rfl, ?_, ?_⟩
  · simp only [combine]
    rw [mul_div_cancel₀ _ hne]
    rfl
  · rintro rfl c
    simp [combine, finalFlag]
  · rintro rfl c
    simp [combine, finalFlag]

theorem combine_mean (summing propagate : Bool) (s : Int) {g : List (Chan K V κ)} (hg : 0 < g.length) {m : κ → Nat → Bool} {c : κ}
    (hm : GoodMask g c (m c)) : Mean summing g (combine summing propagate s g m) c := by
  have hne : (g.length : K) ≠ 0 := by exact_mod_cast hg.ne'
  refine ⟨?_, ?_, ?_⟩
  · simp only [combine, msum_good hm]
    rw [mul_div_cancel₀ _ hne]
  · rintro rfl
    simp [combine, msum_good hm]
  · rintro rfl h0
    simp only [combine, msum_good hm, Bool.false_eq_true, if_false, wmean, if_neg h0]
    rw [smul_smul, mul_inv_cancel₀ h0, one_smul]

theorem ragMask_good (propagate : Bool) {g : List (Chan K V κ)} (hg : 0 < g.length) (c : κ) : GoodMask g c (ragMask propagate g c) := by
  intro j h hj
  unfold ragMask
  by_cases ha : AllFlagged g c
  · have h1 : (g.all fun h => h.flag c) = true := by simpa [AllFlagged] using ha
    have h2 : finalFlag propagate g c = true := by
      unfold finalFlag
      cases propagate with
      | false => simpa using h1
      | true =>
        simp only [if_true, List.any_eq_true]
        cases g with
        | nil => simp at hg
        | cons a b => exact ⟨a, by simp, ha a (by simp)⟩
    simp [h1, h2, ha]
  · have h1 : (g.all fun h => h.flag c) = false := by
      rw [Bool.eq_false_iff]
      intro hx
      exact ha (by simpa [AllFlagged] using hx)
    simp [h1, ha, hj]

section masks
variable {k : Nat} {cells : List κ} {propagate : Bool} {offset : Nat} {gs : List (List (Chan K V κ))}

/-- New channel `ci` of the window is flagged in cell `c`. -/
def sel (propagate : Bool) (gs : List (List (Chan K V κ))) (ci : Nat) (c : κ) : Bool := finalFlag propagate ((gs[ci]?).getD []) c

/-- The mask after the first `n` steps. -/
def maskAt (k : Nat) (propagate : Bool) (offset : Nat) (cells : List κ) (gs : List (List (Chan K V κ))) (n : Nat) : Mask κ :=
  fun i c j => if offset ≤ i ∧ i - offset < n ∧ sel propagate gs (i - offset) c = true ∧
    cells.any (sel propagate gs (i - offset)) = true ∧ (List.range k).all (flagMask gs i c) = true then false else flagMask gs i c j

theorem maskAt_step (n : Nat) (ha : cells.any (sel propagate gs n) = true) :
    clear k (sel propagate gs n) (offset + n) (maskAt k propagate offset cells gs n) = maskAt k propagate offset cells gs (n + 1) := by
  funext i c j
  unfold clear
  have hself : ∀ c j, maskAt k propagate offset cells gs n (offset + n) c j = flagMask gs (offset + n) c j := by
    intro c j
    unfold maskAt
    rw [if_neg]
    omega
  have hself' : ∀ c, maskAt k propagate offset cells gs n (offset + n) c = flagMask gs (offset + n) c := fun c => funext (hself c)
  rw [hself' c]
  by_cases hi : i = offset + n
  · subst hi
    rw [hself c j]
    unfold maskAt
    have e : offset + n - offset = n := by omega
    rw [e]
    by_cases hs : sel propagate gs n c = true <;> by_cases hf : (List.range k).all (flagMask gs (offset + n) c) = true
    · rw [if_pos ⟨rfl, hs, hf⟩, if_pos ⟨by omega, by omega, hs, ha, hf⟩]
    · rw [if_neg (fun h => hf h.2.2), if_neg (fun h => hf h.2.2.2.2)]
    · rw [if_neg (fun h => hs h.2.1), if_neg (fun h => hs h.2.2.1)]
    · rw [if_neg (fun h => hs h.2.1), if_neg (fun h => hs h.2.2.1)]
  · rw [if_neg (fun h => hi h.1)]
    unfold maskAt
    have : (offset ≤ i ∧ i - offset < n) ↔ (offset ≤ i ∧ i - offset < n + 1) := by omega
    by_cases hc : offset ≤ i ∧ i - offset < n
    · have hc' := this.1 hc
      simp only [hc.1, hc.2, hc'.2, true_and]
    · have hc' : ¬ (offset ≤ i ∧ i - offset < n + 1) := fun h => hc (this.2 h)
      rw [if_neg (fun h => hc ⟨h.1, h.2.1⟩), if_neg (fun h => hc' ⟨h.1, h.2.1⟩)]

theorem maskAt_skip (n : Nat) (ha : ¬ cells.any (sel propagate gs n) = true) :
    maskAt k propagate offset cells gs n = maskAt k propagate offset cells gs (n + 1) := by
  funext i c j
  unfold maskAt
  by_cases hi : offset ≤ i ∧ i - offset = n
  · rw [if_neg (by omega), if_neg]
    intro h
    rw [hi.2] at h
    exact ha h.2.2.2.1
  · have : (offset ≤ i ∧ i - offset < n) ↔ (offset ≤ i ∧ i - offset < n + 1) := by omega
    by_cases hc : offset ≤ i ∧ i - offset < n
    · have hc' := this.1 hc
      simp only [hc.1, hc.2, hc'.2, true_and]
    · have hc' : ¬ (offset ≤ i ∧ i - offset < n + 1) := fun h => hc (this.2 h)
      rw [if_neg (fun h => hc ⟨h.1, h.2.1⟩), if_neg (fun h => hc' ⟨h.1, h.2.1⟩)]

/-- Some channel that is flagged lies, counted from the first new channel of all windows, behind this window's mask. -/
def Beyond (propagate : Bool) (offset : Nat) (cells : List κ) (gs : List (List (Chan K V κ))) (n : Nat) : Prop :=
  ∃ ci < n, cells.any (sel propagate gs ci) = true ∧ gs.length ≤ offset + ci

theorem fold_masks (n : Nat) :
    (Beyond propagate offset cells gs n ∧
      (List.range n).foldlM (maskStep k cells propagate offset gs) (flagMask gs) = .error .indexError) ∨
    (¬ Beyond propagate offset cells gs n ∧
      (List.range n).foldlM (maskStep k cells propagate offset gs) (flagMask gs) = .ok (maskAt k propagate offset cells gs n)) := by
  induction n with
  | zero =>
    right
    refine ⟨by rintro ⟨ci, h, _⟩; omega, ?_⟩
    have : maskAt k propagate offset cells gs 0 = flagMask gs := by
      funext i c j
      unfold maskAt
      rw [if_neg]
      omega
    rw [this]
    rfl
  | succ n ih =>
    rw [List.range_succ, List.foldlM_append]
    rcases ih with ⟨⟨ci, h1, h2, h3⟩, h⟩ | ⟨hb, h⟩
    · left
      refine ⟨⟨ci, by omega, h2, h3⟩, ?_⟩
      rw [h]; rfl
    · rw [h]
      have hstep : ([n].foldlM (maskStep k cells propagate offset gs) (maskAt k propagate offset cells gs n)) =
          maskStep k cells propagate offset gs (maskAt k propagate offset cells gs n) n := by
        simp
      change (_ ∧ ([n].foldlM (maskStep k cells propagate offset gs) (maskAt k propagate offset cells gs n)) = _) ∨
        (_ ∧ ([n].foldlM (maskStep k cells propagate offset gs) (maskAt k propagate offset cells gs n)) = _)
      rw [hstep]
      unfold maskStep
      simp only
      by_cases ha : cells.any (sel propagate gs n) = true
      · have ha' : cells.any (finalFlag propagate ((gs[n]?).getD [])) = true := ha
        rw [if_pos ha']
        by_cases hlt : offset + n < gs.length
        · right
          rw [if_pos hlt]
          refine ⟨?_, congrArg _ (maskAt_step n ha)⟩
          rintro ⟨ci, h1, h2, h3⟩
          exact hb ⟨ci, by omega, h2, h3⟩
        · left
          rw [if_neg hlt]
          exact ⟨⟨n, by omega, ha, by omega⟩, rfl⟩
      · have ha' : ¬ cells.any (finalFlag propagate ((gs[n]?).getD [])) = true := ha
        rw [if_neg ha']
        right
        refine ⟨?_, congrArg _ (maskAt_skip n ha)⟩
        rintro ⟨ci, h1, h2, h3⟩
        by_cases hci : ci = n
        · subst hci; exact ha h2
        · exact hb ⟨ci, by omega, h2, h3⟩

theorem flagMask_all {g : List (Chan K V κ)} {i : Nat} (hi : gs[i]? = some g) (hg : g.length = k) (c : κ) :
    (List.range k).all (flagMask gs i c) = true ↔ AllFlagged g c := by
  rw [List.all_eq_true]
  unfold AllFlagged flagMask
  constructor
  · intro h x hx
    obtain ⟨j, hj, rfl⟩ := List.getElem_of_mem hx
    have := h j (by simpa [← hg] using hj)
    simpa [hi, hj] using this
  · intro h j hj
    have hj' : j < g.length := by simpa [hg] using hj
    simp [hi, hj', h _ (List.getElem_mem hj')]

/-- The mask is right unless all of the group is flagged and it has not been cleared. -/
theorem maskAt_good {g : List (Chan K V κ)} {i n : Nat} (hi : gs[i]? = some g) (hg : g.length = k) {c : κ} (hc : c ∈ cells)
    (h : AllFlagged g c → offset ≤ i ∧ i - offset < n ∧ sel propagate gs (i - offset) c = true) :
    GoodMask g c (maskAt k propagate offset cells gs n i c) := by
  intro j x hj
  unfold maskAt
  have hfa := flagMask_all hi hg c
  by_cases ha : AllFlagged g c
  · obtain ⟨h1, h2, h3⟩ := h ha
    rw [if_pos ha, if_pos ⟨h1, h2, h3, List.any_eq_true.2 ⟨c, hc, h3⟩, hfa.2 ha⟩]
  · rw [if_neg ha, if_neg (fun hx => ha (hfa.1 hx.2.2.2.2))]
    simp [flagMask, hi, hj]

end masks

/-! ### One window -/

/-- What one window becomes: labels and flags are right everywhere, means are right for a cell unless all of the group is flagged
there; in a window that starts at the first new channel, and in the ragged group, they are right everywhere. -/
structure Window (k : Nat) (keep summing propagate first : Bool) (cells : List κ) (s : Int) (l : List (Chan K V κ))
    (new : List (Chan K V κ)) : Prop where
  groups : ∃ cs tail, Groups k keep l cs tail ∧ List.Forall₂ (fun g o => Labels propagate s g o ∧
    ∀ c ∈ cells, (first = true ∨ g.length < k ∨ ¬ ∀ h ∈ g, h.flag c = true) → Mean summing g o c) cs new

theorem averageSpw_eq {k : Nat} (hk : 0 < k) (cells : List κ) (summing propagate keep : Bool) (s : Int) (offset : Nat)
    (l : List (Chan K V κ)) :
    (Beyond propagate offset cells (regular k l) (l.length / k) ∧
      averageSpw k cells summing propagate keep s offset l = .error .indexError) ∨
    (¬ Beyond propagate offset cells (regular k l) (l.length / k) ∧ ∃ new,
      averageSpw k cells summing propagate keep s offset l = .ok new ∧
        Window k keep summing propagate (decide (offset = 0)) cells s l new) := by
  unfold averageSpw
  simp only
  rw [regular_length]
  rcases fold_masks (k := k) (cells := cells) (propagate := propagate) (offset := offset) (gs := regular k l) (l.length / k) with
    ⟨h1, h2⟩ | ⟨h1, h2⟩
  · left
    rw [h2]
    exact ⟨h1, rfl⟩
  · right
    refine ⟨h1, ?_⟩
    rw [h2]
    simp only
    have hreg : List.Forall₂ (fun g o => Labels propagate s g o ∧
        ∀ c ∈ cells, (decide (offset = 0) = true ∨ g.length < k ∨ ¬ ∀ h ∈ g, h.flag c = true) → Mean summing g o c)
        (regular k l) ((regular k l).zipIdx.map (fun p => combine summing propagate s p.1
          (maskAt k propagate offset cells (regular k l) (l.length / k) p.2))) := by
      rw [List.forall₂_map_right_iff]
      rw [List.forall₂_iff_get]
      refine ⟨by simp, ?_⟩
      intro i hi1 hi2
      simp only [List.get_eq_getElem, List.getElem_zipIdx, Nat.zero_add]
      have hgi : (regular k l)[i]? = some (regular k l)[i] := List.getElem?_eq_getElem _
      have hlen := regular_mem (List.getElem_mem hi1)
      refine ⟨combine_labels _ _ _ (by omega) _, ?_⟩
      intro c hc hcond
      apply combine_mean _ _ _ (by omega)
      apply maskAt_good hgi hlen hc
      intro ha
      rcases hcond with h0 | h0 | h0
      · have h0 : offset = 0 := of_decide_eq_true h0
        subst h0
        refine ⟨Nat.zero_le _, by rw [Nat.sub_zero, ← regular_length]; exact hi1, ?_⟩
        unfold sel finalFlag
        rw [Nat.sub_zero, hgi]
        simp only [Option.getD_some]
        split
        · rw [List.any_eq_true]
          have hpos : 0 < (regular k l)[i].length := by omega
          exact ⟨_, List.getElem_mem hpos, ha _ (List.getElem_mem hpos)⟩
        · rw [List.all_eq_true]; exact ha
      · omega
      · exact absurd ha h0
    obtain ⟨tail, ht⟩ := groups_spec hk keep l
    by_cases hr : l.length % k ≠ 0 ∧ keep = true
    · refine ⟨_, by rw [if_pos hr], ⟨groups k keep l, tail, ht, ?_⟩⟩
      unfold groups
      rw [if_pos hr]
      have hpos : 0 < (l.drop (l.length / k * k)).length := by
        rw [List.length_drop]
        have := Nat.div_add_mod l.length k
        rw [Nat.mul_comm] at this
        omega
      exact List.rel_append hreg (.cons ⟨combine_labels _ _ _ hpos _, fun c _ _ => combine_mean _ _ _ hpos (ragMask_good _ hpos c)⟩ .nil)
    · refine ⟨_, by rw [if_neg hr], ⟨groups k keep l, tail, ht, ?_⟩⟩
      unfold groups
      rw [if_neg hr]
      exact hreg

/-! ### All windows -/

/-- The channels of a window. -/
def ofSpw (s : Int) (chans : List (Chan K V κ)) : List (Chan K V κ) := chans.filter (fun h => decide (h.spw = s))

/-- Averaging fails: in some window, a regular new channel that is flagged somewhere has, counted over all windows, a number not
less than the number of regular new channels of its own window. -/
def Fails (k : Nat) (cells : List κ) (propagate keep : Bool) (chans : List (Chan K V κ)) (offset : Nat) (spws : List Int) : Prop :=
  ∃ pre s post, spws = pre ++ s :: post ∧ ∃ ci < (ofSpw s chans).length / k,
    (∃ c ∈ cells, (propagate = false ∧ ∀ h ∈ ((ofSpw s chans).drop (ci * k)).take k, h.flag c = true) ∨
      (propagate = true ∧ ∃ h ∈ ((ofSpw s chans).drop (ci * k)).take k, h.flag c = true)) ∧
    (ofSpw s chans).length / k ≤ offset + (pre.map (fun p => finalCount k keep (ofSpw p chans).length)).sum + ci

theorem beyond_iff {k : Nat} {cells : List κ} {propagate : Bool} {offset : Nat} {l : List (Chan K V κ)} :
    Beyond propagate offset cells (regular k l) (l.length / k) ↔ ∃ ci < l.length / k,
      (∃ c ∈ cells, (propagate = false ∧ ∀ h ∈ (l.drop (ci * k)).take k, h.flag c = true) ∨
        (propagate = true ∧ ∃ h ∈ (l.drop (ci * k)).take k, h.flag c = true)) ∧ l.length / k ≤ offset + ci := by
  unfold Beyond
  apply exists_congr
  intro ci
  apply and_congr_right
  intro hci
  rw [regular_length]
  apply and_congr_left
  intro _
  rw [List.any_eq_true]
  apply exists_congr
  intro c
  apply and_congr_right
  intro _
  unfold sel finalFlag
  rw [regular_get hci]
  cases propagate <;> simp

theorem averageSpws_eq {k : Nat} (hk : 0 < k) (cells : List κ) (summing propagate keep : Bool) (chans : List (Chan K V κ))
    (spws : List Int) (offset : Nat) :
    (Fails k cells propagate keep chans offset spws ∧
      averageSpws k cells summing propagate keep chans offset spws = .error .indexError) ∨
    (¬ Fails k cells propagate keep chans offset spws ∧ ∃ blocks,
      averageSpws k cells summing propagate keep chans offset spws = .ok blocks.flatten ∧
      List.Forall₂ (fun s new => Window k keep summing propagate false cells s (ofSpw s chans) new) spws blocks ∧
      ∀ s new, spws.head? = some s → blocks.head? = some new → offset = 0 →
        Window k keep summing propagate true cells s (ofSpw s chans) new) := by
  induction spws generalizing offset with
  | nil =>
    right
    refine ⟨?_, [], rfl, .nil, by simp⟩
    rintro ⟨pre, s, post, h, _⟩
    simp at h
  | cons s spws ih =>
    have hweak : ∀ {new : List (Chan K V κ)} {b : Bool}, Window k keep summing propagate b cells s (ofSpw s chans) new →
        Window k keep summing propagate false cells s (ofSpw s chans) new := by
      rintro new b ⟨cs, tail, h1, h2⟩
      refine ⟨cs, tail, h1, h2.imp ?_⟩
      rintro g o ⟨h3, h4⟩
      refine ⟨h3, fun c hc h5 => h4 c hc ?_⟩
      rcases h5 with h5 | h5
      · simp at h5
      · exact Or.inr h5
    unfold averageSpws
    simp only
    rcases averageSpw_eq hk cells summing propagate keep s offset (ofSpw s chans) with ⟨h1, h2⟩ | ⟨h1, new, h2, h3⟩
    · left
      unfold ofSpw at h2
      rw [h2]
      obtain ⟨ci, h4, h5, h6⟩ := beyond_iff.1 h1
      exact ⟨⟨[], s, spws, rfl, ci, h4, h5, by simpa using h6⟩, rfl⟩
    · have h2' := h2
      unfold ofSpw at h2'
      rw [h2']
      simp only
      have hfc : (List.filter (fun h : Chan K V κ => decide (h.spw = s)) chans).length = (ofSpw s chans).length := rfl
      rw [hfc]
      have hfail : Fails k cells propagate keep chans offset (s :: spws) ↔
          Fails k cells propagate keep chans (offset + finalCount k keep (ofSpw s chans).length) spws := by
        constructor
        · rintro ⟨pre, s', post, he, ci, h4, h5, h6⟩
          cases pre with
          | nil =>
            simp only [List.nil_append, List.cons.injEq] at he
            obtain ⟨rfl, rfl⟩ := he
            exact absurd (beyond_iff.2 ⟨ci, h4, h5, by simpa using h6⟩) h1
          | cons a pre =>
            simp only [List.cons_append, List.cons.injEq] at he
            obtain ⟨rfl, rfl⟩ := he
            refine ⟨pre, s', post, rfl, ci, h4, h5, ?_⟩
            simp only [List.map_cons, List.sum_cons] at h6
            omega
        · rintro ⟨pre, s', post, he, ci, h4, h5, h6⟩
          refine ⟨s :: pre, s', post, by rw [he]; rfl, ci, h4, h5, ?_⟩
          simp only [List.map_cons, List.sum_cons]
          omega
      rcases ih (offset + finalCount k keep (ofSpw s chans).length) with ⟨h4, h5⟩ | ⟨h4, blocks, h5, h6, _⟩
      · left
        rw [h5]
        exact ⟨hfail.2 h4, rfl⟩
      · right
        rw [h5]
        refine ⟨fun h => h4 (hfail.1 h), new :: blocks, rfl, .cons (hweak h3) h6, ?_⟩
        intro s' new' hs hn h0
        simp only [List.head?_cons, Option.some.injEq] at hs hn
        subst hs; subst hn
        have : decide (offset = 0) = true := decide_eq_true h0
        rw [this] at h3
        exact h3

/-- **C39.** Averaging fails with `IndexError` exactly in the case described by `Fails`. -/
theorem frequencyAverage_error {k : Nat} (hk : 0 < k) (cells : List κ) (summing propagate keep : Bool) (spws : List Int)
    (chans : List (Chan K V κ)) :
    frequencyAverage k cells summing propagate true keep spws chans = .error .indexError ↔
      Fails k cells propagate keep chans 0 spws := by
  unfold frequencyAverage
  simp only [Bool.not_true, Bool.and_false, Bool.false_eq_true, if_false]
  rcases averageSpws_eq hk cells summing propagate keep chans spws 0 with ⟨h1, h2⟩ | ⟨h1, b, h2, _⟩
  · exact ⟨fun _ => h1, fun _ => h2⟩
  · constructor
    · intro h; rw [h2] at h; simp at h
    · intro h; exact absurd h h1

/-- **C39.** The result consists, window by window, of the groups of `k` consecutive channels of the window, with frequency, width,
window and flags of each; visibilities and numbers of samples are right wherever not all of the group is flagged, and everywhere in
the first window. -/
theorem frequencyAverage_windows_partial {k : Nat} (hk : 0 < k) {cells : List κ} {summing propagate keep : Bool} {spws : List Int}
    {chans out : List (Chan K V κ)} (h : frequencyAverage k cells summing propagate true keep spws chans = .ok out) :
    ∃ blocks, out = blocks.flatten ∧
      List.Forall₂ (fun s new => Window k keep summing propagate false cells s (ofSpw s chans) new) spws blocks ∧
      ∀ s new, spws.head? = some s → blocks.head? = some new → Window k keep summing propagate true cells s (ofSpw s chans) new := by
  unfold frequencyAverage at h
  simp only [Bool.not_true, Bool.and_false, Bool.false_eq_true, if_false] at h
  rcases averageSpws_eq hk cells summing propagate keep chans spws 0 with ⟨h1, h2⟩ | ⟨_, b, h2, h3, h4⟩
  · rw [h2] at h; simp at h
  · rw [h2] at h
    simp only [Except.ok.injEq] at h
    exact ⟨b, h.symm, h3, fun s new hs hn => h4 s new hs hn rfl⟩

theorem not_fails_one {k : Nat} {cells : List κ} {propagate keep : Bool} {chans : List (Chan K V κ)} (s : Int) :
    ¬ Fails k cells propagate keep chans 0 [s] := by
  rintro ⟨pre, s', post, he, ci, h4, _, h6⟩
  cases pre with
  | nil =>
    simp only [List.nil_append, List.cons.injEq] at he
    obtain ⟨rfl, _⟩ := he
    simp only [List.map_nil, List.sum_nil] at h6
    omega
  | cons a pre => simp at he

/-- **C39.** With one window averaging always succeeds and everything is right. -/
theorem frequencyAverage_one {k : Nat} (hk : 0 < k) (cells : List κ) (summing propagate keep : Bool) (s : Int)
    (chans : List (Chan K V κ)) : ∃ out, frequencyAverage k cells summing propagate true keep [s] chans = .ok out ∧
      Window k keep summing propagate true cells s (ofSpw s chans) out := by
  rcases averageSpws_eq hk cells summing propagate keep chans [s] 0 with ⟨h1, _⟩ | ⟨_, b, h2, h3, h4⟩
  · exact absurd h1 (not_fails_one s)
  · cases h3 with
    | cons h5 h6 =>
      cases h6
      rename_i new
      refine ⟨new, ?_, h4 s new rfl rfl rfl⟩
      unfold frequencyAverage
      simpa using h2

/-- **C39.** Not respecting the windows, all channels are one window. -/
theorem frequencyAverage_merged {k : Nat} (hk : 0 < k) (cells : List κ) (summing propagate keep : Bool) {spws : List Int}
    (hs : 1 < spws.length) (chans : List (Chan K V κ)) :
    ∃ out, frequencyAverage k cells summing propagate false keep spws chans = .ok out ∧
      Window k keep summing propagate true cells 0 (chans.map (fun h => { h with spw := 0 })) out := by
  obtain ⟨out, h1, h2⟩ := frequencyAverage_one hk cells summing propagate keep 0 (chans.map (fun h => { h with spw := 0 }))
  refine ⟨out, ?_, ?_⟩
  · unfold frequencyAverage at h1 ⊢
    simpa [hs] using h1
  · have : ofSpw 0 (chans.map (fun h => { h with spw := 0 })) = chans.map (fun h => { h with spw := 0 }) := by
      unfold ofSpw
      rw [List.filter_eq_self]
      intro a ha
      obtain ⟨b, _, rfl⟩ := List.mem_map.1 ha
      simp
    rwa [this] at h2

theorem over_flatten {α : Type} (ws : List (List α)) (f : α → K) : over ws.flatten f = (ws.map (fun w => over w f)).sum := by
  induction ws with
  | nil => rfl
  | cons w ws ih =>
    rw [List.flatten_cons]
    simp only [over, List.map_append, List.sum_append, List.map_cons, List.sum_cons] at ih ⊢
    rw [ih]

/-- **C39.** With ragged ends kept the widths of a window add up to what they were. -/
theorem width_conserved {k : Nat} {summing propagate first : Bool} {cells : List κ} {s : Int} {l new : List (Chan K V κ)}
    (h : Window k true summing propagate first cells s l new) : over new Chan.width = over l Chan.width := by
  obtain ⟨cs, tail, h1, h2⟩ := h.groups
  rw [← h1.cover, h1.kept rfl, List.append_nil, over_flatten]
  clear h1 h
  induction h2 with
  | nil => rfl
  | cons h3 _ ih =>
    simp only [over, List.map_cons, List.sum_cons] at ih ⊢
    rw [ih, h3.1.width]
    rfl

/-- **C39.** In a window not larger than what the windows before it make, every regular new channel that is flagged anywhere makes
averaging fail. -/
theorem frequencyAverage_fails {k : Nat} (hk : 0 < k) {cells : List κ} {summing keep : Bool} {s0 s : Int} {chans : List (Chan K V κ)}
    (hle : (ofSpw s chans).length / k ≤ finalCount k keep (ofSpw s0 chans).length) {ci : Nat} (hci : ci < (ofSpw s chans).length / k)
    {c : κ} (hc : c ∈ cells) (hf : ∀ h ∈ ((ofSpw s chans).drop (ci * k)).take k, h.flag c = true) :
    frequencyAverage k cells summing false true keep [s0, s] chans = .error .indexError := by
  rw [frequencyAverage_error hk]
  refine ⟨[s0], s, [], rfl, ci, hci, ⟨c, hc, Or.inl ⟨rfl, hf⟩⟩, ?_⟩
  simp only [List.map_cons, List.map_nil, List.sum_cons, List.sum_nil]
  omega

end Verif.FreqAvg
