import Mathlib.Tactic.Ring
import Mathlib.Tactic.FieldSimp
import Mathlib.Tactic.Linarith
import Verif.Lst.Model

/-! Theorems about sidereal times. -/

namespace Verif.Lst
open Verif.Np

variable {K : Type} [Field K] [LinearOrder K] [FloorRing K]

omit [FloorRing K] in
/-- Values of different times are found again. -/
theorem perTime_eq (f : K → K) (jd : List K) : perTime f jd = jd.map f := by
  unfold perTime
  refine List.map_congr_left (fun t ht => ?_)
  have hm : t ∈ unique jd := mem_unique.2 ht
  have hi := List.idxOf_lt_length_of_mem hm
  rw [List.getD_eq_getElem?_getD, List.getElem?_map, List.getElem?_eq_getElem hi, List.getElem_idxOf hi]
  rfl

variable [IsStrictOrderedRing K]

/-- In one turn, and a whole number of turns away. -/
def InTurn (turn x y : K) : Prop := 0 ≤ x ∧ x < turn ∧ ∃ n : ℤ, y = x + turn * n

theorem mod_turn {x m : K} (hm : 0 < m) : InTurn m (mod x m) x := by
  have h1 := Int.floor_le (x / m)
  have h2 := Int.lt_floor_add_one (x / m)
  rw [le_div_iff₀ hm] at h1
  rw [div_lt_iff₀ hm] at h2
  refine ⟨?_, ?_, ⌊x / m⌋, ?_⟩
  · unfold mod; linarith
  · unfold mod; linarith
  · unfold mod; ring

/-- C214: the sidereal time of each time is that at longitude zero, with the drift of the pole, and the longitude, in one turn. -/
theorem erfa_times {pi : K} (hpi : 0 < pi) (sky : Sky K) (p : Place K) (hp : p.isMoon = false) (jd : List K) :
    ∃ l, getLst pi sky p (some .erfa) jd = .ok l ∧ l.length = jd.length ∧
      ∀ (i : Nat) t x, jd[i]? = some t → l[i]? = some x → InTurn (2 * pi) x (sky.gast t + sky.sp t + p.rad pi) := by
  refine ⟨_, by unfold getLst; rw [if_neg (by simp [hp])]; rfl, ?_, ?_⟩
  · rw [perTime_eq, List.length_map]
  · intro i t x ht hx
    rw [perTime_eq, List.getElem?_map, ht] at hx
    obtain rfl := Option.some.inj hx
    exact mod_turn (by linarith)

omit [IsStrictOrderedRing K] in
/-- C214: the same with astropy, also on the Moon: the sidereal time of the place. -/
theorem astropy_times (pi : K) (sky : Sky K) (p : Place K) (jd : List K) :
    getLst pi sky p (some .astropy) jd = .ok (jd.map (sky.localTime p.isMoon (p.rad pi))) := by
  unfold getLst
  rw [if_neg (by simp [library])]
  show Except.ok (perTime _ jd) = _
  rw [perTime_eq]

/-- C214: libraries that agree about longitude zero agree everywhere, though one counts in hours and the other in radians. -/
theorem novas_agrees {pi : K} (hpi : 0 < pi) (sky : Sky K) (lon : K) (f : List Char) (hf : (Place.degrees lon f).isMoon = false) (jd : List K)
    (h : ∀ t ∈ jd, sky.gastH t * pi / 12 = sky.gast t + sky.sp t) :
    getLst pi sky (.degrees lon f) (some .novas) jd = getLst pi sky (.degrees lon f) (some .erfa) jd := by
  unfold getLst
  rw [if_neg (by simp [hf]), if_neg (by simp [hf])]
  show Except.ok _ = Except.ok _
  rw [perTime_eq, perTime_eq, List.map_map]
  congr 1
  refine List.map_congr_left (fun t ht => ?_)
  have hp : pi ≠ 0 := ne_of_gt hpi
  have e : sky.gast t + sky.sp t + (Place.degrees lon f).rad pi = (sky.gastH t + lon / 15) * (pi / 12) := by
    rw [← h t ht]
    unfold Place.rad
    ring
  rw [e]
  have e2 : (sky.gastH t + lon / 15) * (pi / 12) / (2 * pi) = (sky.gastH t + lon / 15) / 24 := by
    field_simp
    ring
  show mod (sky.gastH t + lon / 15) 24 * (pi / 12) = mod _ _
  unfold mod
  rw [e2]
  ring

omit [IsStrictOrderedRing K] in
/-- C214: the library novas cannot be used with a location object. -/
theorem location_counterexample (pi : K) (sky : Sky K) (lon : K) (jd : List K) : getLst pi sky (.earth lon) (some .novas) jd = .error .noLongitude := by
  rfl

omit [Field K] [LinearOrder K] [FloorRing K] [IsStrictOrderedRing K] in
/-- C214: the library for an EarthLocation is astropy, though the documentation says erfa. -/
theorem default_counterexample (lon : K) : library (.earth lon) none = .astropy ∧ library (.degrees lon "itrs".toList) none = .erfa :=
  ⟨if_neg (c := "ITRS".toList = "itrs".toList) (t := Lib.erfa) (by decide), if_pos (c := "itrs".toList = "itrs".toList) (e := Lib.astropy) rfl⟩

omit [Field K] [LinearOrder K] [FloorRing K] [IsStrictOrderedRing K] in
theorem library_none (p : Place K) : library p none = .erfa ∨ library p none = .astropy := by
  unfold library
  dsimp only
  by_cases h : (match p with
      | .earth _ => "ITRS".toList
      | .moon _ => "MCMF".toList
      | .degrees _ f => f) = "itrs".toList
  · exact Or.inl (if_pos h)
  · exact Or.inr (if_neg h)

omit [Field K] [LinearOrder K] [FloorRing K] [IsStrictOrderedRing K] in
/-- C214: without a choice of the library, a place on the Moon works. -/
theorem moon_library {p : Place K} (hp : p.isMoon = true) : library p none = .astropy := by
  cases p with
  | earth l => cases hp
  | moon l => exact if_neg (c := "MCMF".toList = "itrs".toList) (t := Lib.erfa) (by decide)
  | degrees l f =>
    refine if_neg (c := f = "itrs".toList) (t := Lib.erfa) ?_
    rintro rfl
    have h : "itrs".toList.map Char.toUpper = "MCMF".toList := of_decide_eq_true hp
    exact absurd h (by decide)

/-- Each sidereal time is close to the one of its time. -/
def Close (rtol atol : K) (l m : List K) : Prop := ∀ (i : Nat) x y, l[i]? = some x → m[i]? = some y → |x - y| ≤ atol + rtol * |y|

omit [FloorRing K] [IsStrictOrderedRing K] in
theorem close_iff (rtol atol : K) (l m : List K) :
    (l.zip m).all (fun q => decide (max (q.1 - q.2) (-(q.1 - q.2)) ≤ atol + rtol * max q.2 (-q.2))) = true ↔ Close rtol atol l m := by
  rw [List.all_eq_true]
  unfold Close
  constructor
  · intro h i x y hx hy
    have hm : (x, y) ∈ l.zip m := List.mem_iff_getElem?.2 ⟨i, by rw [List.getElem?_zip_eq_some]; exact ⟨hx, hy⟩⟩
    exact of_decide_eq_true (h _ hm)
  · rintro h ⟨x, y⟩ hq
    obtain ⟨i, hi⟩ := List.mem_iff_getElem?.1 hq
    rw [List.getElem?_zip_eq_some] at hi
    exact decide_eq_true (h i x y hi.1 hi.2)

/-- C214: there is no warning exactly if each sidereal time is close to the one that is calculated for its time. -/
theorem warns_iff (pi : K) (sky : Sky K) (p : Place K) (rtol atol : K) (jd lst : List K) :
    ∃ l, getLst pi sky p none jd = .ok l ∧ (warns pi sky p rtol atol jd lst = .ok false ↔ Close rtol atol lst l) := by
  have hl : ∃ l, getLst pi sky p none jd = .ok l := by
    unfold getLst
    rw [if_neg (by rintro ⟨h1, h2⟩; exact h2 (moon_library h1))]
    rcases library_none p with h | h <;> rw [h] <;> exact ⟨_, rfl⟩
  obtain ⟨l, hl⟩ := hl
  refine ⟨l, hl, ?_⟩
  unfold warns
  rw [hl, ← close_iff]
  simp

/-- C214: a sidereal time just before the end of a turn is said to be wrong for a time at the beginning of the turn, though they are as close
as one likes on the circle. -/
theorem wrap_counterexample {pi : K} (sky : Sky K) (p : Place K) (rtol atol t eps : K) (hl : getLst pi sky p none [t] = .ok [0])
    (he : eps < 2 * pi - atol) (h0 : eps < 2 * pi) :
    warns pi sky p rtol atol [t] [2 * pi - eps] = .ok true ∧ ∃ n : ℤ, |2 * pi - eps - (0 + 2 * pi * n)| = |eps| := by
  constructor
  · unfold warns
    rw [hl]
    have h1 : |(2 * pi - eps) - 0| = 2 * pi - eps := by
      rw [sub_zero, abs_of_pos (by linarith)]
    have : ¬ Close rtol atol [2 * pi - eps] [0] := by
      intro h
      have := h 0 (2 * pi - eps) 0 rfl rfl
      rw [h1] at this
      simp at this
      linarith
    rw [← close_iff, Bool.not_eq_true] at this
    simp only [this]
    rfl
  · refine ⟨1, ?_⟩
    have : 2 * pi - eps - (0 + 2 * pi * ((1 : ℤ) : K)) = -eps := by push_cast; ring
    rw [this, abs_neg]

end Verif.Lst
