import Mathlib.Algebra.Order.Field.Basic
import Mathlib.Tactic.Linarith
import Verif.CalGet.Model

/-! # Solutions that are found by antenna and Jones term -/

namespace Verif.CalGet

open Verif.Pol (Str jstr2num)

/-- The nearest of numbers that contain the one that is looked for is this one. -/
theorem argmin_get {n : Int} : ∀ {l : List Int}, n ∈ l → l[argminAbs n l]? = some n ∧ ∀ k < argminAbs n l, l[k]? ≠ some n
  | [], h => by cases h
  | x :: l, h => by
    unfold argminAbs
    split
    · next hall =>
      refine ⟨?_, fun k hk => by omega⟩
      rcases List.mem_cons.1 h with rfl | hm
      · rfl
      · have := of_decide_eq_true (List.all_eq_true.1 hall n hm)
        simp only [sub_self, abs_zero, abs_nonpos_iff] at this
        simp only [List.getElem?_cons_zero, Option.some.injEq]
        omega
    · next hall =>
      have hx : x ≠ n := by
        rintro rfl
        apply hall
        rw [List.all_eq_true]
        intro y _
        simp
      have hm : n ∈ l := by
        rcases List.mem_cons.1 h with rfl | hm
        · exact absurd rfl hx
        · exact hm
      obtain ⟨h1, h2⟩ := argmin_get hm
      refine ⟨by simpa using h1, ?_⟩
      intro k hk
      cases k with
      | zero => simpa using hx
      | succ k => simpa using h2 k (by omega)

variable {V : Type}

/-- The number that a Jones argument says. -/
def Says (xo : Option Str) : JArg → Int → Prop
  | .name s, n => jstr2num xo s = some n
  | .num m, n => m = n

theorem says_iff {xo : Option Str} {j : JArg} {n : Int} : Says xo j n ↔ j.number xo = .ok n := by
  cases j with
  | name s =>
    show jstr2num xo s = some n ↔ (match jstr2num xo s with
      | some n => Except.ok n
      | none => .error Err.unknown) = .ok n
    generalize jstr2num xo s = z
    cases z with
    | none => simp
    | some m => simp
  | num m =>
    unfold Says JArg.number
    exact ⟨fun h => by rw [h], fun h => by cases h; rfl⟩

theorem ant_ok {o : Obj} {n : Int} (h : n ∈ o.ants) : o.ant2ind n = .ok (argminAbs n o.ants) := by
  unfold Obj.ant2ind; rw [if_pos h]

theorem jones_ok {o : Obj} {j : JArg} {m : Int} (hj : Says o.xo j m) (h : m ∈ o.jones) : o.jpol2ind j = .ok (argminAbs m o.jones) := by
  unfold Obj.jpol2ind; rw [says_iff.1 hj]; dsimp only; rw [if_pos h]

/-- **C207.** An antenna and a Jones term, given together or apart, by name or by number: the result has the values of this antenna and Jones term, for all
frequencies and times. -/
theorem get_pair {o : Obj} {a : Nat → Nat → Nat → Nat → V} {n : Int} {j : JArg} {m : Int} (hn : n ∈ o.ants) (hj : Says o.xo j m) (hm : m ∈ o.jones)
    (sq : Bool) (other : Option JArg) : ∃ i k : Nat, o.ants[i]? = some n ∧ o.jones[k]? = some m ∧
      o.get a (.int n) (some j) sq = .ok (.two fun f t => a i f t k) ∧ o.get a (.two n j) other sq = .ok (.two fun f t => a i f t k) := by
  refine ⟨_, _, (argmin_get hn).1, (argmin_get hm).1, ?_, ?_⟩ <;>
    simp only [Obj.get, parseKey, Obj.slice, ant_ok hn, jones_ok hj hm]

/-- **C207.** An antenna alone: the result has its values for all Jones terms; the axis of these is dropped exactly if there is one and this was asked for. -/
theorem get_antenna {o : Obj} {a : Nat → Nat → Nat → Nat → V} {n : Int} (hn : n ∈ o.ants) (sq : Bool) (other : Option JArg) :
    ∃ i : Nat, o.ants[i]? = some n ∧ o.get a (.one n) other sq = o.get a (.int n) none sq ∧
      (sq = true ∧ o.jones.length = 1 → o.get a (.int n) none sq = .ok (.two fun f t => a i f t 0)) ∧
      (¬ (sq = true ∧ o.jones.length = 1) → o.get a (.int n) none sq = .ok (.three (a i))) := by
  refine ⟨_, (argmin_get hn).1, rfl, ?_, ?_⟩
  · rintro ⟨rfl, h⟩
    simp only [Obj.get, parseKey, Obj.slice, ant_ok hn, h, decide_true, Bool.and_true, if_true]
  · intro h
    simp only [Obj.get, parseKey, Obj.slice, ant_ok hn]
    rw [if_neg (by simpa using h)]

/-- **C207.** Antennas and Jones terms that are not there are refused, and gains of other calibrations. -/
theorem get_refused {o : Obj} {a : Nat → Nat → Nat → Nat → V} {ant : AntArg} {jpol : Option JArg} {sq : Bool} :
    ((parseKey ant jpol).1 ∉ o.ants → o.get a ant jpol sq = .error .noAnt) ∧
    (∀ j, (parseKey ant jpol).2 = some j → (¬ ∃ m ∈ o.jones, Says o.xo j m) → ∃ e, o.get a ant jpol sq = .error e) ∧
    (o.isGain = false → o.getGains a ant jpol sq = .error .calType) ∧ (o.isGain = true → o.getGains a ant jpol sq = o.get a ant jpol sq) := by
  refine ⟨fun h => ?_, fun j hj h => ?_, fun h => ?_, fun h => ?_⟩
  · unfold Obj.get Obj.slice Obj.ant2ind
    split <;> rw [if_neg h]
  · unfold Obj.get Obj.slice
    rw [hj]
    dsimp only
    cases hi : o.ant2ind (parseKey ant jpol).1 with
    | error e => exact ⟨e, rfl⟩
    | ok i =>
      cases hk : o.jpol2ind j with
      | error e => exact ⟨e, rfl⟩
      | ok k =>
        unfold Obj.jpol2ind at hk
        split at hk
        · cases hk
        · next n hn =>
          split at hk
          · next hmem => exact absurd ⟨n, hmem, says_iff.2 hn⟩ h
          · cases hk
  · unfold Obj.getGains; rw [h]; rfl
  · unfold Obj.getGains; rw [h]; rfl

/-- **C207.** Times of ranges are their centers, as far from both ends. -/
theorem times_center {K : Type} [Field K] [LinearOrder K] [IsStrictOrderedRing K] {l : List (K × K)} {times : Option (List K)} {i : Nat} {p : K × K}
    (h : l[i]? = some p) : ∃ r t, getTimes (some l) times = some r ∧ r.length = l.length ∧ r[i]? = some t ∧ t - p.1 = p.2 - t := by
  refine ⟨_, (p.1 + p.2) / 2, rfl, by simp, by simp [h], ?_⟩
  linarith

theorem times_given {K : Type} [Field K] {times : Option (List K)} : getTimes none times = times := rfl

end Verif.CalGet
