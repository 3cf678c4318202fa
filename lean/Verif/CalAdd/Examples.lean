import Verif.CalAdd.Jones
import Verif.FreqSort.Examples

/-! Concrete cases and counterexamples for C89–C92. -/
namespace Verif.CalAdd
open Verif.Np Verif.FreqSort Verif.Add

/-! ### C89 -/

/-- An `argsort` that puts two equal times in reverse order. -/
def swapped : Argsort Int where
  run l := if l = [0, 0] then [1, 0] else (stable Int).run l
  sorts l := by
    split
    · rename_i h
      subst h
      refine ⟨by decide, ?_⟩
      simp
    · exact (stable Int).sorts l

/-- The theorems apply: 1–3 and 2–5 overlap, 1–3, 5–6 and 3–5 do not. -/
example : (∃ b, rangeOverlap (stable Int) [(2, 5), (1, 3)] = .ok b ∧ (b = true ↔ SomeOverlap [((2 : Int), (5 : Int)), (1, 3)])) ∧
    ¬ SomeOverlap [((1 : Int), (3 : Int)), (5, 6), (3, 5)] ∧ rangeOverlap (stable Int) [(1, 3), (2, 1)] = .error .illFormed :=
  ⟨range_overlap_iff _ _ (by decide), range_overlap_false (stable Int) _ (by decide +kernel), (range_overlap_refused _ _).2 ⟨(2, 1), by decide, by decide⟩⟩

/-- **C89, counterexample.** With an empty range the answer depends on the sorting method: the ranges 0–5 and 0–0. -/
theorem range_overlap_counterexample : ¬ SomeOverlap [((0 : Int), (5 : Int)), (0, 0)] ∧ rangeOverlap (stable Int) [((0 : Int), (5 : Int)), (0, 0)] = .ok true ∧
    rangeOverlap swapped [((0 : Int), (5 : Int)), (0, 0)] = .ok false :=
  ⟨range_overlap_false swapped _ (by decide +kernel), by decide +kernel, by decide +kernel⟩

/-! ### C90, C91 -/

/-- Run a check on a result. -/
def accepted {α : Type} (e : Except Err α) (f : α → Bool) : Bool :=
  match e with
  | .ok r => f r
  | .error _ => false

theorem accepted_ok {α : Type} {e : Except Err α} {f : α → Bool} (h : accepted e f = true) : ∃ r, e = .ok r ∧ f r = true := by
  cases e with
  | error _ => simp [accepted] at h
  | ok r => exact ⟨r, rfl, h⟩

def so : Sorts Int := ⟨stable Int, stable Int⟩

abbrev O := Obj Int Int Int Int

abbrev addI (this other : O) : Except Err O := add so (-1) this other

def row (t : Int) : Row Int Int := ⟨t, none, some 0, some 1, 10 * t⟩

/-- Antennas 4 and 1, two channels, two times, one Jones component. The solution at positions `i j k l` is `1000 i + 100 j + 10 k + l`. -/
def one : O where
  wide := false
  delay := false
  ranged := false
  ants := [4, 1]
  freq := [50, 40]
  ids := [1, 1]
  width := [5, 4]
  ranges := []
  spws := [1]
  flexJones := none
  times := [row 2, row 1]
  jones := [-6]
  data i j k l := 1000 * i + 100 * j + 10 * k + l
  quality := some (fun i j k l => 1000 * i + 100 * j + 10 * k + l + 5)
  total := some (fun j k l => 100 * j + 10 * k + l + 7)

/-- The same antennas in another order, one channel that `one` has and a new one in a new window, the times of `one` in another order and a new one, and
another Jones component. -/
def two : O where
  wide := false
  delay := false
  ranged := false
  ants := [1, 4]
  freq := [40, 9]
  ids := [1, 0]
  width := [4, 3]
  ranges := []
  spws := [1, 0]
  flexJones := none
  times := [row 1, row 2, row 0]
  jones := [-5]
  data i j k l := 5000 + 1000 * i + 100 * j + 10 * k + l
  quality := none
  total := some (fun j k l => 100 * j + 10 * k + l + 70)

theorem one_valid : Valid one := by
  refine ⟨by decide, by decide, by decide, by decide, by decide, by decide, (fun _ => by decide), ?_, (fun h => by cases h), (fun j h => by cases h), (fun h => by cases h)⟩
  intro _ w; simp [one]

theorem two_valid : Valid two := by
  refine ⟨by decide, by decide, by decide, by decide, by decide, by decide, (fun _ => by decide), ?_, (fun h => by cases h), (fun j h => by cases h), (fun h => by cases h)⟩
  intro _ w; simp [two]

theorem one_two_first : OverlapsFirst one two := by
  refine ⟨?_, ?_, ?_, ?_⟩ <;> (unfold OverlapFirst; decide +kernel)

theorem one_two_ok : ∃ r, addI one two = .ok r ∧ r.ants = [1, 4] ∧ r.lab = [(0, some 9), (1, some 50), (1, some 40)] ∧ r.keys = [0, 1, 2] ∧ r.jones = [-5, -6] ∧
    r.spws = [0, 1] := by
  have h : accepted (addI one two) (fun r => decide (r.ants = [1, 4] ∧ r.lab = [(0, some 9), (1, some 50), (1, some 40)] ∧ r.keys = [0, 1, 2] ∧
    r.jones = [-5, -6] ∧ r.spws = [0, 1])) = true := by decide +kernel
  obtain ⟨r, h1, h2⟩ := accepted_ok h
  exact ⟨r, h1, by simpa using h2⟩

/-- The theorems apply to a solution of this object, to one of the other, to labels of neither, to the times and to the total quality. -/
example : ∃ r, addI one two = .ok r ∧ Sol r 1 (1, some 40) 2 (-6) 1100 ∧ Qual r 1 (1, some 40) 2 (-6) 1105 ∧ Sol r 4 (0, some 9) 0 (-5) 6120 ∧
    Qual r 4 (0, some 9) 0 (-5) 0 ∧ Sol r 4 (0, some 9) 0 (-6) (-1) ∧ r.ants.Nodup ∧ row 0 ∈ r.times ∧ Tot r (1, some 40) 2 (-6) 107 ∧
    Tot r (0, some 9) 0 (-5) 190 ∧ r.keys.Pairwise (· ≤ ·) := by
  obtain ⟨r, h, ha, hc, ht, hj, -⟩ := one_two_ok
  have k := cal_add_keeps_this one_valid two_valid h 1 (1, some 40) 2 (-6)
  have tt := cal_add_total_partial one_valid two_valid h (by decide) (by decide)
  have hs : Has two 4 (0, some 9) 0 (-5) := ⟨by decide, by decide, by decide, by decide⟩
  refine ⟨r, h, k.1 _ ⟨1, 1, 0, 0, by decide, by decide, by decide, by decide, by decide⟩,
    k.2 _ ⟨_, rfl, 1, 1, 0, 0, by decide, by decide, by decide, by decide, by decide⟩,
    (cal_add_keeps_other_partial one_valid two_valid one_two_first h 4 (0, some 9) 0 (-5)).1 _ ⟨1, 1, 2, 0, by decide, by decide, by decide, by decide, by decide⟩,
    (cal_add_no_quality one_valid two_valid h 4 (0, some 9) 0 (-5)).2.1 rfl rfl hs,
    (cal_add_pads one_valid two_valid h 4 (0, some 9) 0 (-6) ?_ ?_ ?_).1, (cal_add_label_sets one_valid two_valid h).1.1,
    (cal_add_rows one_valid two_valid h _).2 (.inr ⟨by decide, by decide⟩),
    (tt _ _ _).1 _ ⟨_, rfl, 1, 0, 0, by decide, by decide, by decide, by decide⟩,
    (tt _ _ _).2.1 one_two_first _ ⟨_, rfl, 1, 2, 0, by decide, by decide, by decide, by decide⟩,
    (cal_add_sorted one_valid two_valid h).2.1 ⟨0, by decide, by decide⟩⟩
  · exact ⟨by rw [ha]; decide, by rw [hc]; decide, by rw [ht]; decide, by rw [hj]; decide⟩
  · rintro ⟨-, -, -, h4⟩; revert h4; decide
  · rintro ⟨-, h4, -⟩; revert h4; decide

/-- Channels keep their widths. -/
example : ∃ r, addI one two = .ok r ∧ Follows r.lab one.lab r.width one.width (1, some 40) ∧ Follows r.lab two.lab r.width two.width (0, some 9) := by
  obtain ⟨r, h, -⟩ := one_two_ok
  exact ⟨r, h, ((cal_add_widths one_valid two_valid h _).1 rfl).1 (by decide), ((cal_add_widths one_valid two_valid h _).1 rfl).2 (by decide)⟩

/-- `two` at time 1 only, with another reference antenna. -/
def otherRef : O := { two with times := [⟨1, none, some 0, some 9, 0⟩] }

/-- An object cannot be added to itself; different reference antennas at a shared time are refused. -/
example : (¬ ∃ r, addI one one = .ok r) ∧ (¬ ∃ r, addI one otherRef = .ok r) := by
  have hv : Valid otherRef := by
    refine ⟨by decide, by decide, by decide, by decide, by decide, by decide, (fun _ => by decide), ?_, (fun h => by cases h), (fun j h => by cases h), (fun h => by cases h)⟩
    intro _ w; simp [otherRef, two]
  constructor
  · rw [cal_add_outcome one_valid one_valid]
    rintro ⟨-, -, -, -, h, -⟩
    exact h ⟨4, (1, some 50), 2, -6, ⟨by decide, by decide, by decide, by decide⟩, by decide, by decide, by decide, by decide⟩
  · rw [cal_add_outcome one_valid hv]
    rintro ⟨-, -, -, -, -, -, h, -⟩
    exact h ⟨row 1, by decide, ⟨1, none, some 0, some 9, 0⟩, by decide, rfl, by decide⟩

/-- One channel and time, the given antennas. -/
def ants (a : List Int) (t : Row Int Int) (base : Int) : O where
  wide := false
  delay := false
  ranged := t.stop.isSome
  ants := a
  freq := [50]
  ids := [1]
  width := [5]
  ranges := []
  spws := [1]
  flexJones := none
  times := [t]
  jones := [-5]
  data i _ _ _ := base + i
  quality := none
  total := none

theorem ants_valid (a : List Int) (t : Row Int Int) (b : Int) (ha : a.Nodup) (ht : ∀ s, t.stop = some s → t.time < s) : Valid (ants a t b) := by
  refine ⟨ha, by simp [ants, Obj.keys], by simp [ants], by simp [ants], fun _ => rfl, fun _ => rfl, (fun _ => by simp [ants]), ?_, (fun h => by cases h),
    (fun j h => by cases h), ?_⟩
  · intro _ w; simp [ants]
  · intro h r hr
    simp only [ants, List.mem_singleton] at hr
    subst hr
    obtain ⟨s, hs⟩ := Option.isSome_iff_exists.1 h
    exact ⟨s, hs, ht s hs⟩

/-- **C90, counterexample.** The sum can exchange the solutions of two antennas of the other object: here it has 20 for antenna 0 and 21 for antenna 1 at
time 1, and the sum has 21 for antenna 0 and 20 for antenna 1. The objects have no time in common. -/
theorem cal_add_keeps_other_counterexample : Valid (ants [1, 2] (row 0) 10) ∧ Valid (ants [0, 1] (row 1) 20) ∧
    Sol (ants [0, 1] (row 1) 20) 0 (1, some 50) 1 (-5) 20 ∧ Sol (ants [0, 1] (row 1) 20) 1 (1, some 50) 1 (-5) 21 ∧
    ∃ r, addI (ants [1, 2] (row 0) 10) (ants [0, 1] (row 1) 20) = .ok r ∧ Sol r 0 (1, some 50) 1 (-5) 21 ∧ Sol r 1 (1, some 50) 1 (-5) 20 := by
  refine ⟨ants_valid _ _ _ (by decide) (fun s h => by cases h), ants_valid _ _ _ (by decide) (fun s h => by cases h),
    ⟨0, 0, 0, 0, by decide, by decide, by decide, by decide, by decide⟩, ⟨1, 0, 0, 0, by decide, by decide, by decide, by decide, by decide⟩, ?_⟩
  have h : accepted (addI (ants [1, 2] (row 0) 10) (ants [0, 1] (row 1) 20)) (fun r => decide (r.ants = [0, 1, 2] ∧ r.lab = [(1, some 50)] ∧ r.keys = [0, 1] ∧
    r.jones = [-5] ∧ r.data 0 0 1 0 = 21 ∧ r.data 1 0 1 0 = 20)) = true := by decide +kernel
  obtain ⟨r, h1, h2⟩ := accepted_ok h
  simp only [decide_eq_true_eq] at h2
  obtain ⟨a, b, c, d, e, f⟩ := h2
  exact ⟨r, h1, ⟨0, 0, 1, 0, by rw [a]; rfl, by rw [b]; rfl, by rw [c]; rfl, by rw [d]; rfl, e⟩,
    ⟨1, 0, 1, 0, by rw [a]; rfl, by rw [b]; rfl, by rw [c]; rfl, by rw [d]; rfl, f⟩⟩

/-- **C91, witness.** Two objects for different antennas and the same time range are refused, although they have no solution in common. -/
theorem cal_add_shared_range_witness : Valid (ants [1] ⟨0, some 5, none, none, 0⟩ 10) ∧ Valid (ants [2] ⟨0, some 5, none, none, 0⟩ 20) ∧
    ¬ Shares (ants [1] ⟨0, some 5, none, none, 0⟩ 10) (ants [2] ⟨0, some 5, none, none, 0⟩ 20) ∧
    ¬ ∃ r, addI (ants [1] ⟨0, some 5, none, none, 0⟩ 10) (ants [2] ⟨0, some 5, none, none, 0⟩ 20) = .ok r := by
  have h1 : Valid (ants [1] ⟨0, some 5, none, none, 0⟩ 10) := ants_valid _ _ _ (by decide) (fun s h => by cases h; decide)
  have h2 : Valid (ants [2] ⟨0, some 5, none, none, 0⟩ 20) := ants_valid _ _ _ (by decide) (fun s h => by cases h; decide)
  refine ⟨h1, h2, ?_, cal_add_shared_range_refused h1 h2 rfl ⟨0, some 5, none, none, 0⟩ ⟨0, some 5, none, none, 0⟩ (by decide) (by decide) rfl⟩
  rintro ⟨x, c, t, z, ⟨a, -⟩, b, -⟩
  simp [ants] at a b
  omega

/-- **C91, witness.** Two gain objects for different times, without qualities but one with a total quality, cannot be combined. -/
theorem cal_add_total_witness : Valid { ants [1] (row 0) 10 with total := some (fun _ _ _ => 3) } ∧ Valid (ants [1] (row 1) 20) ∧
    addI { ants [1] (row 0) 10 with total := some (fun _ _ _ => 3) } (ants [1] (row 1) 20) = .error .total := by
  refine ⟨?_, ants_valid _ _ _ (by decide) (fun s h => by cases h), ?_⟩
  · have h := ants_valid [1] (row 0) 10 (by decide) (fun s h => by cases h)
    exact ⟨h.ants, h.keys, h.jones, h.spws, h.ids, h.width, h.chan, h.listed, h.ranges, h.flex, h.stops⟩
  · have : (match addI { ants [1] (row 0) 10 with total := some (fun _ _ _ => 3) } (ants [1] (row 1) 20) with
      | .error .total => true
      | _ => false) = true := by decide +kernel
    revert this
    cases addI { ants [1] (row 0) 10 with total := some (fun _ _ _ => 3) } (ants [1] (row 1) 20) with
    | ok r => simp
    | error e => cases e <;> simp

/-! ### C92 -/

/-- A wide-band object with windows and their Jones components. -/
def wideObj (s j : List Int) (t : Int) (base : Int) : O where
  wide := true
  delay := true
  ranged := false
  ants := [1]
  freq := []
  ids := []
  width := []
  ranges := s.map (fun w => (w, w + 1))
  spws := s
  flexJones := some j
  times := [row t]
  jones := [0]
  data _ j _ _ := base + j
  quality := none
  total := none

theorem wide_valid (s j : List Int) (t b : Int) (h : s.Nodup) (hl : j.length = s.length) : Valid (wideObj s j t b) := by
  refine ⟨by simp [wideObj], by simp [wideObj, Obj.keys], by simp [wideObj], h, (fun h => by cases h), (fun h => by cases h), (fun h => by cases h), (fun h => by cases h),
    (fun _ => by simp [wideObj]), ?_, (fun h => by cases h)⟩
  intro j' h'
  simp only [wideObj, Option.some.injEq] at h'
  subst h'
  exact hl

/-- Channels, one per window, with Jones components. -/
def chanObj (s j : List Int) (t : Int) (base : Int) : O where
  wide := false
  delay := false
  ranged := false
  ants := [1]
  freq := s.map (fun w => 10 * w)
  ids := s
  width := s.map (fun _ => 1)
  ranges := []
  spws := s
  flexJones := some j
  times := [row t]
  jones := [0]
  data _ j _ _ := base + j
  quality := none
  total := none

theorem chan_valid (s j : List Int) (t b : Int) (h : s.Nodup) (hl : j.length = s.length) : Valid (chanObj s j t b) := by
  refine ⟨by simp [chanObj], by simp [chanObj, Obj.keys], by simp [chanObj], h, (fun _ => by simp [chanObj]), (fun _ => by simp [chanObj]), fun _ => ?_,
    fun _ w => Iff.rfl, (fun h => by cases h), ?_, (fun h => by cases h)⟩
  · apply List.Nodup.of_map Prod.fst
    rw [List.map_fst_zip (by simp [chanObj])]
    exact h
  · intro j' h'
    simp only [chanObj, Option.some.injEq] at h'
    subst h'
    exact hl

/-- The theorems apply: windows 1, 2 and then 2, 5; and windows 1, 2 and then 4, 5. -/
example : (∃ r, addI (wideObj [1, 2] [-5, -6] 0 10) (wideObj [2, 5] [-6, -5] 1 20) = .ok r ∧ WinJones r 5 (-5) ∧ WinJones r 2 (-6)) ∧
    (∃ r, addI (chanObj [1, 2] [-5, -6] 0 10) (chanObj [4, 5] [-6, -5] 1 20) = .ok r ∧ WinJones r 4 (-6) ∧ WinJones r 1 (-5)) := by
  constructor
  · have h : accepted (addI (wideObj [1, 2] [-5, -6] 0 10) (wideObj [2, 5] [-6, -5] 1 20)) (fun _ => true) = true := by decide +kernel
    obtain ⟨r, h1, -⟩ := accepted_ok h
    have k := cal_add_wide_jones_partial (wide_valid [1, 2] [-5, -6] 0 10 (by decide) (by decide)) (wide_valid [2, 5] [-6, -5] 1 20 (by decide) (by decide)) h1 rfl rfl
      (.inr ⟨by decide, by decide, by decide⟩)
    exact ⟨r, h1, (k 5 (-5)).2 (.inr ⟨⟨_, rfl, by decide⟩, by decide⟩), (k 2 (-6)).2 (.inl ⟨_, rfl, by decide⟩)⟩
  · have h : accepted (addI (chanObj [1, 2] [-5, -6] 0 10) (chanObj [4, 5] [-6, -5] 1 20)) (fun _ => true) = true := by decide +kernel
    obtain ⟨r, h1, -⟩ := accepted_ok h
    have k := cal_add_jones_partial (chan_valid [1, 2] [-5, -6] 0 10 (by decide) (by decide)) (chan_valid [4, 5] [-6, -5] 1 20 (by decide) (by decide)) h1 rfl rfl
      (.inr ⟨⟨by decide, by decide, by decide⟩, by decide⟩)
    exact ⟨r, h1, (k 4 (-6)).2 (.inr ⟨⟨_, rfl, by decide⟩, by decide⟩), (k 1 (-5)).2 (.inl ⟨_, rfl, by decide⟩)⟩

/-- No new window: the Jones components stay with the windows when this object is put in the order of the other. -/
example : ∃ r, addI (chanObj [3, 1] [-5, -6] 0 10) (chanObj [1, 3] [-6, -5] 1 20) = .ok r ∧ WinJones r 3 (-5) ∧ ¬ WinJones r 3 (-6) := by
  have h : accepted (addI (chanObj [3, 1] [-5, -6] 0 10) (chanObj [1, 3] [-6, -5] 1 20)) (fun _ => true) = true := by decide +kernel
  obtain ⟨r, h1, -⟩ := accepted_ok h
  have k := cal_add_jones_partial (chan_valid [3, 1] [-5, -6] 0 10 (by decide) (by decide)) (chan_valid [1, 3] [-6, -5] 1 20 (by decide) (by decide)) h1 rfl rfl
    (.inl (by decide))
  refine ⟨r, h1, (k 3 (-5)).2 (.inl ⟨_, rfl, by decide⟩), ?_⟩
  rw [k]
  rintro (⟨l, hl, hm⟩ | ⟨-, hn⟩)
  · simp only [chanObj, Option.some.injEq] at hl
    subst hl
    revert hm
    decide
  · exact hn (by decide)

/-- **C92, counterexample.** Wide-band: a window 2 with Jones component -5 and a window 1 with -6 become a window 1 with -5 and a window 2 with -6, while the
solutions stay with the windows. -/
theorem cal_add_wide_jones_counterexample : Valid (wideObj [2] [-5] 0 10) ∧ Valid (wideObj [1] [-6] 0 20) ∧
    WinJones (wideObj [2] [-5] 0 10) 2 (-5) ∧ WinJones (wideObj [1] [-6] 0 20) 1 (-6) ∧
    ∃ r, addI (wideObj [2] [-5] 0 10) (wideObj [1] [-6] 0 20) = .ok r ∧ WinJones r 1 (-5) ∧ WinJones r 2 (-6) ∧ Sol r 1 (2, none) 0 0 10 ∧
      Sol r 1 (1, none) 0 0 20 := by
  refine ⟨wide_valid _ _ _ _ (by decide) rfl, wide_valid _ _ _ _ (by decide) rfl, ⟨_, rfl, by decide⟩, ⟨_, rfl, by decide⟩, ?_⟩
  have h : accepted (addI (wideObj [2] [-5] 0 10) (wideObj [1] [-6] 0 20)) (fun r => decide (r.spws = [1, 2] ∧ r.flexJones = some [-5, -6] ∧ r.ants = [1] ∧
    r.lab = [(1, none), (2, none)] ∧ r.keys = [0] ∧ r.jones = [0] ∧ r.data 0 1 0 0 = 10 ∧ r.data 0 0 0 0 = 20)) = true := by decide +kernel
  obtain ⟨r, h1, h2⟩ := accepted_ok h
  simp only [decide_eq_true_eq] at h2
  obtain ⟨a, b, c, d, e, f, g, i⟩ := h2
  exact ⟨r, h1, ⟨_, b, by rw [a]; decide⟩, ⟨_, b, by rw [a]; decide⟩, ⟨0, 1, 0, 0, by rw [c]; rfl, by rw [d]; rfl, by rw [e]; rfl, by rw [f]; rfl, g⟩,
    ⟨0, 0, 0, 0, by rw [c]; rfl, by rw [d]; rfl, by rw [e]; rfl, by rw [f]; rfl, i⟩⟩

/-- **C92, counterexample.** The same with channels. -/
theorem cal_add_jones_counterexample : Valid (chanObj [2] [-5] 0 10) ∧ Valid (chanObj [1] [-6] 0 20) ∧
    WinJones (chanObj [2] [-5] 0 10) 2 (-5) ∧ WinJones (chanObj [1] [-6] 0 20) 1 (-6) ∧
    ∃ r, addI (chanObj [2] [-5] 0 10) (chanObj [1] [-6] 0 20) = .ok r ∧ WinJones r 1 (-5) ∧ WinJones r 2 (-6) ∧ Sol r 1 (2, some 20) 0 0 10 ∧
      Sol r 1 (1, some 10) 0 0 20 := by
  refine ⟨chan_valid _ _ _ _ (by decide) rfl, chan_valid _ _ _ _ (by decide) rfl, ⟨_, rfl, by decide⟩, ⟨_, rfl, by decide⟩, ?_⟩
  have h : accepted (addI (chanObj [2] [-5] 0 10) (chanObj [1] [-6] 0 20)) (fun r => decide (r.spws = [1, 2] ∧ r.flexJones = some [-5, -6] ∧ r.ants = [1] ∧
    r.lab = [(1, some 10), (2, some 20)] ∧ r.keys = [0] ∧ r.jones = [0] ∧ r.data 0 1 0 0 = 10 ∧ r.data 0 0 0 0 = 20)) = true := by decide +kernel
  obtain ⟨r, h1, h2⟩ := accepted_ok h
  simp only [decide_eq_true_eq] at h2
  obtain ⟨a, b, c, d, e, f, g, i⟩ := h2
  exact ⟨r, h1, ⟨_, b, by rw [a]; decide⟩, ⟨_, b, by rw [a]; decide⟩, ⟨0, 1, 0, 0, by rw [c]; rfl, by rw [d]; rfl, by rw [e]; rfl, by rw [f]; rfl, g⟩,
    ⟨0, 0, 0, 0, by rw [c]; rfl, by rw [d]; rfl, by rw [e]; rfl, by rw [f]; rfl, i⟩⟩

/-- **C92, counterexample.** If both objects have window 1, but with different Jones components, the solutions of the other object become solutions of this
object's Jones component without an error. -/
theorem cal_add_jones_relabelled_counterexample : WinJones (wideObj [1] [-6] 1 20) 1 (-6) ∧ ¬ WinJones (wideObj [1] [-5] 0 10) 1 (-6) ∧
    ∃ r, addI (wideObj [1] [-5] 0 10) (wideObj [1] [-6] 1 20) = .ok r ∧ Sol r 1 (1, none) 1 0 20 ∧ WinJones r 1 (-5) ∧ ¬ WinJones r 1 (-6) := by
  have not5 : ∀ (o : O), o.spws = [1] → o.flexJones = some [-5] → ¬ WinJones o 1 (-6) := by
    rintro o h1 h2 ⟨l, hl, hm⟩
    rw [h2, Option.some.injEq] at hl
    subst hl
    rw [h1] at hm
    revert hm
    decide
  refine ⟨⟨_, rfl, by decide⟩, not5 _ rfl rfl, ?_⟩
  have h : accepted (addI (wideObj [1] [-5] 0 10) (wideObj [1] [-6] 1 20)) (fun r => decide (r.spws = [1] ∧ r.flexJones = some [-5] ∧ r.ants = [1] ∧
    r.lab = [(1, none)] ∧ r.keys = [0, 1] ∧ r.jones = [0] ∧ r.data 0 0 1 0 = 20)) = true := by decide +kernel
  obtain ⟨r, h1, h2⟩ := accepted_ok h
  simp only [decide_eq_true_eq] at h2
  obtain ⟨a, b, c, d, e, f, g⟩ := h2
  exact ⟨r, h1, ⟨0, 0, 1, 0, by rw [c]; rfl, by rw [d]; rfl, by rw [e]; rfl, by rw [f]; rfl, g⟩, ⟨_, b, by rw [a]; decide⟩, not5 r a b⟩

end Verif.CalAdd
