import Mathlib.Algebra.Order.Field.Basic
import Mathlib.Algebra.Order.Floor.Semifield
import Mathlib.Tactic.Linarith
import Mathlib.Tactic.FieldSimp
import Mathlib.Tactic.Ring
import Mathlib.Tactic.Positivity
import Verif.Cst.Model

/-! # The grid of a beam -/

namespace Verif.Cst

variable {K α : Type}

/-- The rows of a file with all pairs of zenith angles `T` and azimuths `P`, where the zenith angle changes fastest. -/
def fileRows (T P : List K) (f : K → K → α) : List (Row K α) := P.flatMap fun p => T.map fun t => ⟨t, p, f t p⟩

theorem fileRows_get {T P : List K} {f : K → K → α} : ∀ {i j : Nat} {t p : K} (_ : T[i]? = some t) (_ : P[j]? = some p),
    (fileRows T P f)[i + T.length * j]? = some ⟨t, p, f t p⟩ := by
  unfold fileRows
  induction P with
  | nil => intro i j t p _ h; simp at h
  | cons a P ih =>
    intro i j t p ht hp
    have hi : i < T.length := (List.getElem?_eq_some_iff.1 ht).1
    rw [List.flatMap_cons]
    cases j with
    | zero =>
      rw [List.getElem?_append_left (by simpa using hi)]
      simp only [List.getElem?_cons_zero, Option.some.injEq] at hp
      subst hp
      simp [ht]
    | succ j =>
      rw [List.getElem?_append_right (by simp [Nat.mul_add]; omega)]
      have e : i + T.length * (j + 1) - (T.map fun t => (⟨t, a, f t a⟩ : Row K α)).length = i + T.length * j := by
        simp [Nat.mul_add]; omega
      rw [e]
      exact ih ht (by simpa using hp)

theorem fileRows_length {T P : List K} {f : K → K → α} : (fileRows T P f).length = T.length * P.length := by
  unfold fileRows
  simp [List.length_flatMap, Nat.mul_comm]

variable [LinearOrder K]

theorem unique_za {T P : List K} {f : K → K → α} (hT : T.Pairwise (· < ·)) (hP : P ≠ []) : Np.unique ((fileRows T P f).map Row.za) = T := by
  apply (Np.unique_sorted _).eq_of_mem_iff hT
  intro x
  rw [Np.mem_unique]
  unfold fileRows
  obtain ⟨p, l, rfl⟩ := List.exists_cons_of_ne_nil hP
  simp only [List.map_flatMap, List.map_map, List.mem_flatMap, List.mem_map, Function.comp]
  constructor
  · rintro ⟨_, _, t, ht, rfl⟩; exact ht
  · intro hx; exact ⟨p, by simp, x, hx, rfl⟩

theorem unique_az {T P : List K} {f : K → K → α} (hP : P.Pairwise (· < ·)) (hT : T ≠ []) : Np.unique ((fileRows T P f).map Row.az) = P := by
  apply (Np.unique_sorted _).eq_of_mem_iff hP
  intro x
  rw [Np.mem_unique]
  unfold fileRows
  obtain ⟨t, l, rfl⟩ := List.exists_cons_of_ne_nil hT
  simp only [List.map_flatMap, List.map_map, List.mem_flatMap, List.mem_map, Function.comp]
  constructor
  · rintro ⟨p, hp, _, _, rfl⟩; exact hp
  · intro hx; exact ⟨x, hx, t, by simp, rfl⟩

variable [Field K] [IsStrictOrderedRing K] [FloorSemiring K]

/-- What a beam holds that was read right: its axes are those of the file, and at each position is the value of the row of these angles. -/
structure Good (T P : List K) (f : K → K → α) (b : Beam K α) : Prop where
  az : b.axis1 = P
  za : b.axis2 = T
  val : ∀ (i j : Nat) (t p : K), T[i]? = some t → P[j]? = some p → b.first i j = some (f t p)

omit [IsStrictOrderedRing K] in
/-- **C183.** A regular grid that is written in the order of CST (zenith angles change fastest, all angles increase) is read with the value of each
row at its own zenith angle and azimuth; it is only refused if a rotation is asked for and fails. -/
theorem grid_read_partial {T P : List K} {f : K → K → α} {t : Tols K} {q : K} (rotate : Bool) (hT : T.Pairwise (· < ·)) (hP : P.Pairwise (· < ·))
    (hT0 : T ≠ []) (hP2 : 2 ≤ P.length) (hTs : spaced t.za.1 t.za.2 T) (hPs : spaced t.az.1 t.az.2 P) :
    (∃ b, readGrid t q rotate (fileRows T P f) = .ok b ∧ Good T P f b ∧ (b.second = none ↔ rotate = false)) ∨
      (rotate = true ∧ readGrid t q rotate (fileRows T P f) = .error .rot) := by
  have hP0 : P ≠ [] := by rintro rfl; simp at hP2
  have hv : ∀ (i j : Nat) (t p : K), T[i]? = some t → P[j]? = some p → vals (fileRows T P f) T.length i j = some (f t p) := by
    intro i j t p ht hp
    unfold vals cell
    rw [fileRows_get ht hp]
    rfl
  unfold readGrid
  simp only [unique_za hT hP0, unique_az hP hT0, fileRows_length, ne_eq, not_true_eq_false, if_false, hTs, hPs]
  match P, hP2 with
  | a0 :: a1 :: l, _ =>
    dsimp only
    cases rotate with
    | false => left; exact ⟨_, rfl, ⟨rfl, rfl, hv⟩, by simp⟩
    | true =>
      simp only [Bool.true_eq_false, if_false]
      split
      · left; exact ⟨_, rfl, ⟨rfl, rfl, hv⟩, by simp⟩
      · right; simp

omit [IsStrictOrderedRing K] in
/-- **C183.** The order of rows is not looked at: a file with decreasing zenith angles is read upside down. -/
theorem reversed_counterexample {T P : List K} {f : K → K → α} {t : Tols K} {q : K} (hT : T.Pairwise (· < ·)) (hP : P.Pairwise (· < ·))
    (hT0 : T ≠ []) (hP2 : 2 ≤ P.length) (hTs : spaced t.za.1 t.za.2 T) (hPs : spaced t.az.1 t.az.2 P) :
    ∃ b, readGrid t q false (fileRows T.reverse P f) = .ok b ∧ b.axis1 = P ∧ b.axis2 = T ∧
      ∀ (i j : Nat) (t p : K), T[T.length - 1 - i]? = some t → i < T.length → P[j]? = some p → b.first i j = some (f t p) := by
  have hP0 : P ≠ [] := by rintro rfl; simp at hP2
  have hrz : Np.unique ((fileRows T.reverse P f).map Row.za) = T := by
    apply (Np.unique_sorted _).eq_of_mem_iff hT
    intro x
    rw [Np.mem_unique]
    unfold fileRows
    obtain ⟨p, l, rfl⟩ := List.exists_cons_of_ne_nil hP0
    simp only [List.map_flatMap, List.map_map, List.mem_flatMap, List.mem_map, Function.comp, List.mem_reverse]
    constructor
    · rintro ⟨_, _, t, ht, rfl⟩; exact ht
    · intro hx; exact ⟨p, by simp, x, hx, rfl⟩
  unfold readGrid
  simp only [hrz, unique_az hP (show T.reverse ≠ [] by simpa using hT0), fileRows_length, List.length_reverse, ne_eq, not_true_eq_false, if_false, hTs,
    hPs]
  match P, hP2 with
  | a0 :: a1 :: l, _ =>
    dsimp only
    refine ⟨_, if_pos trivial, rfl, rfl, ?_⟩
    intro i j t p ht hi hp
    dsimp only
    unfold vals cell
    have := fileRows_get (T := T.reverse) (f := f) (i := i) (t := t) (by rw [List.getElem?_reverse hi]; exact ht) hp
    rw [List.length_reverse] at this
    rw [this]
    rfl

omit [IsStrictOrderedRing K] in
/-- **C183.** Only numbers of angles and rows are compared: a file in which one point is missing and another one is given twice is read, and the
missing point gets the value of the other. -/
theorem hole_counterexample {t : Tols K} {q t0 t1 p0 p1 : K} (ht : t0 < t1) (hp : p0 < p1) (a b c d : α) :
    ∃ r, readGrid t q false [⟨t0, p0, a⟩, ⟨t1, p0, b⟩, ⟨t0, p1, c⟩, ⟨t0, p1, d⟩] = .ok r ∧ r.axis1 = [p0, p1] ∧ r.axis2 = [t0, t1] ∧
      r.first 1 1 = some d := by
  have hz : Np.unique [t0, t1, t0, t0] = [t0, t1] := by
    apply (Np.unique_sorted _).eq_of_mem_iff (by simpa using ht)
    intro x; rw [Np.mem_unique]; simp; tauto
  have ha : Np.unique [p0, p0, p1, p1] = [p0, p1] := by
    apply (Np.unique_sorted _).eq_of_mem_iff (by simpa using hp)
    intro x; rw [Np.mem_unique]; simp
  unfold readGrid
  simp only [List.map_cons, List.map_nil, hz, ha]
  simp only [spaced, List.length_cons, List.length_nil, Nat.reduceAdd, Nat.le_refl, true_or, not_true_eq_false, if_false, ne_eq, Nat.reduceMul]
  exact ⟨_, rfl, rfl, rfl, rfl⟩

/-! ### The second polarization -/

omit [IsStrictOrderedRing K] in
theorem rollIdx_lt {m k j : Nat} (hm : 0 < m) : rollIdx m k j < m := by
  unfold rollIdx
  have := Int.emod_lt_of_pos ((j : Int) - k) (by exact_mod_cast hm : (0 : Int) < m)
  have := Int.emod_nonneg ((j : Int) - k) (by exact_mod_cast hm.ne' : (m : Int) ≠ 0)
  omega

omit [IsStrictOrderedRing K] in
theorem rollIdx_eq {m k j : Nat} (hj : j < m) (hk : k ≤ m) : rollIdx m k j = if k ≤ j then j - k else j + m - k := by
  unfold rollIdx
  split
  · rw [Int.emod_eq_of_lt (by omega) (by omega)]; omega
  · rw [← Int.add_emod_right, Int.emod_eq_of_lt (by omega) (by omega)]; omega

omit [IsStrictOrderedRing K] in
/-- **C184.** In any beam that was read with rotation, the second polarization holds at the place of each row the value of a row with the same
position of zenith angle whose azimuth, turned by a right angle, is the azimuth here, within the tolerance. -/
theorem second_meaning {t : Tols K} {q : K} {rows : List (Row K α)} {b : Beam K α} (h : readGrid t q true rows = .ok b) :
    ∃ g, b.second = some g ∧ ∀ i < b.axis2.length, ∀ j < b.axis1.length, ∀ s, rows[i + b.axis2.length * j]? = some s →
      ∃ j' r, j' < b.axis1.length ∧ rows[i + b.axis2.length * j']? = some r ∧ b.first i j' = some r.val ∧ g i j = some r.val ∧
        (|r.az + q - s.az| ≤ t.rot.2 + t.rot.1 * |s.az| ∨ |r.az - 3 * q - s.az| ≤ t.rot.2 + t.rot.1 * |s.az|) := by
  unfold readGrid at h
  simp only [] at h
  split at h
  · simp at h
  rename_i hsize
  split at h
  · simp at h
  split at h
  · simp at h
  split at h
  · rename_i a0 a1 l haz
    simp only [Bool.true_eq_false, if_false] at h
    split at h
    · rename_i hrot
      simp only [Except.ok.injEq] at h
      subst h
      refine ⟨_, rfl, ?_⟩
      dsimp only
      intro i hi j hj s hs
      rw [ne_eq, not_not] at hsize
      have hm : rollIdx (Np.unique (rows.map Row.az)).length ⌊q / (a1 - a0)⌋₊ j < (Np.unique (rows.map Row.az)).length := rollIdx_lt (by omega)
      generalize hj' : rollIdx (Np.unique (rows.map Row.az)).length ⌊q / (a1 - a0)⌋₊ j = j' at hm
      have hlt : i + (Np.unique (rows.map Row.za)).length * j' < rows.length := by
        rw [← hsize]
        generalize (Np.unique (rows.map Row.za)).length = n at hi
        generalize (Np.unique (rows.map Row.az)).length = m at hm
        calc i + n * j' < n + n * j' := by omega
          _ = n * (j' + 1) := by ring
          _ ≤ n * m := Nat.mul_le_mul_left _ hm
      refine ⟨j', _, hm, List.getElem?_eq_getElem hlt, ?_, ?_, ?_⟩
      · unfold vals cell; rw [List.getElem?_eq_getElem hlt]; rfl
      · unfold vals cell; rw [List.getElem?_eq_getElem hlt]; rfl
      · have hc := hrot i hi j hj (rows[i + (Np.unique (rows.map Row.za)).length * j']) (by rw [hj']; unfold cell; rw [List.getElem?_eq_getElem hlt]; rfl) s
          (by unfold cell; rw [hs]; rfl)
        unfold close turn at hc
        split at hc
        · right
          have e : rows[i + (Np.unique (rows.map Row.za)).length * j'].az - 3 * q - s.az =
            rows[i + (Np.unique (rows.map Row.za)).length * j'].az + q - 4 * q - s.az := by ring
          rw [e]; exact hc
        · left; exact hc
    · simp at h
  · simp at h

/-! ### The whole circle -/

omit [LinearOrder K] [IsStrictOrderedRing K] [FloorSemiring K] in
/-- Azimuths `0, d, 2 d, ...`. -/
def steps (d : K) (m : Nat) : List K := (List.range m).map fun (j : Nat) => d * (j : K)

omit [LinearOrder K] [IsStrictOrderedRing K] [FloorSemiring K] in
theorem steps_get {d : K} {m j : Nat} (hj : j < m) : (steps d m)[j]? = some (d * (j : K)) := by
  unfold steps; simp [hj]

omit [FloorSemiring K] in
theorem steps_sorted {d : K} (hd : 0 < d) (m : Nat) : (steps d m).Pairwise (· < ·) := by
  unfold steps
  rw [List.pairwise_map]
  exact List.pairwise_lt_range.imp (fun h => mul_lt_mul_of_pos_left (by exact_mod_cast h) hd)

omit [LinearOrder K] [IsStrictOrderedRing K] [FloorSemiring K] in
theorem diffs_all {d : K} : ∀ {l : List K} (_ : ∀ (i : Nat) (a b : K), l[i]? = some a → l[i + 1]? = some b → b - a = d), ∀ x ∈ diffs l, x = d
  | [], _ => by simp [diffs]
  | [a], _ => by simp [diffs]
  | a :: b :: l, h => by
    intro x hx
    rw [diffs, List.mem_cons] at hx
    rcases hx with rfl | hx
    · exact h 0 a b rfl rfl
    · exact diffs_all (l := b :: l) (fun i u v hu hv => h (i + 1) u v (by simpa using hu) (by simpa using hv)) x hx

omit [LinearOrder K] [Field K] [IsStrictOrderedRing K] [FloorSemiring K] in
theorem foldl_const {op : K → K → K} {d : K} (ho : op d d = d) : ∀ {l : List K} (_ : ∀ x ∈ l, x = d), l.foldl op d = d
  | [], _ => rfl
  | x :: l, h => by
    rw [List.foldl_cons, h x (by simp), ho]
    exact foldl_const ho (fun y hy => h y (by simp [hy]))

omit [IsStrictOrderedRing K] [FloorSemiring K] in
/-- Equal steps are always regular. -/
theorem spaced_const {r a d : K} {l : List K} (h : ∀ (i : Nat) (a b : K), l[i]? = some a → l[i + 1]? = some b → b - a = d) : spaced r a l := by
  unfold spaced
  right; left
  have hall := diffs_all h
  cases hl : diffs l with
  | nil => rfl
  | cons x s =>
    have hx : x = d := hall x (by rw [hl]; simp)
    rw [hl] at hall
    subst hx
    simp only [List.headD_cons]
    rw [foldl_const (by simp) hall, foldl_const (by simp) hall]

omit [IsStrictOrderedRing K] [FloorSemiring K] in
theorem steps_spaced {r a d : K} (m : Nat) : spaced r a (steps d m) := by
  apply spaced_const (d := d)
  intro i u v hu hv
  have hi : i + 1 < m := by
    have := (List.getElem?_eq_some_iff.1 hv).1
    simpa [steps] using this
  rw [steps_get (by omega)] at hu
  rw [steps_get hi] at hv
  obtain rfl := Option.some.inj hu
  obtain rfl := Option.some.inj hv
  push_cast; ring

theorem floor_quarter {q d : K} {m : Nat} (hd : 0 < d) (hm : d * (m : K) = 4 * q) : ⌊q / d⌋₊ = m / 4 := by
  have : q / d = (m : K) / ((4 : Nat) : K) := by
    field_simp
    push_cast
    linarith
  rw [this, Nat.floor_div_eq_div]

omit [FloorSemiring K] in
theorem quarter_rest {q d : K} {m : Nat} (hm : d * (m : K) = 4 * q) : q - d * ((m / 4 : Nat) : K) = d * ((m % 4 : Nat) : K) / 4 := by
  have h : (m : K) = 4 * ((m / 4 : Nat) : K) + ((m % 4 : Nat) : K) := by
    exact_mod_cast (Nat.div_add_mod m 4).symm
  rw [h] at hm
  linarith

omit [FloorSemiring K] in
/-- Turned azimuths of the whole circle differ by the rest of a quarter from the azimuths. -/
theorem turn_steps {q d : K} {m j : Nat} (hd : 0 < d) (hm : d * (m : K) = 4 * q) (hj : j < m) :
    turn q (d * ((rollIdx m (m / 4) j : Nat) : K)) = d * (j : K) + d * ((m % 4 : Nat) : K) / 4 := by
  have hr := quarter_rest hm
  have hmod : ((m % 4 : Nat) : K) ≤ 3 := by exact_mod_cast (by omega : m % 4 ≤ 3)
  have hmod0 : (0 : K) ≤ ((m % 4 : Nat) : K) := by positivity
  have hdm : d * ((m % 4 : Nat) : K) / 4 < d := by
    have := mul_le_mul_of_nonneg_left hmod hd.le
    linarith
  have hdm0 : 0 ≤ d * ((m % 4 : Nat) : K) / 4 := by positivity
  rw [rollIdx_eq hj (by omega)]
  have hj0 : 0 ≤ d * (j : K) := by positivity
  split
  · rename_i hk
    rw [Nat.cast_sub hk]
    have hjm : d * (j : K) + d ≤ d * (m : K) := by
      have : ((j + 1 : Nat) : K) ≤ (m : K) := by exact_mod_cast hj
      have := mul_le_mul_of_nonneg_left this hd.le
      push_cast at this
      linarith
    unfold turn
    rw [if_neg (by rw [mul_sub]; intro hh; linarith)]
    rw [mul_sub]; linarith
  · rename_i hk
    rw [Nat.cast_sub (by omega)]
    push_cast
    unfold turn
    have e : d * ((j : K) + (m : K) - ((m / 4 : Nat) : K)) + q = d * (j : K) + 4 * q + (q - d * ((m / 4 : Nat) : K)) := by
      rw [← hm]; ring
    rw [e, if_pos (by rw [hr]; linarith), hr]
    ring

/-- **C184.** On the whole circle of azimuths in `m` equal steps the rotation succeeds exactly if `m` is a multiple of four; then the second
polarization has at each azimuth the value of the first at the azimuth a right angle before. -/
theorem circle_rotated {T : List K} {f : K → K → α} {t : Tols K} {q d : K} {m : Nat} (hT : T.Pairwise (· < ·)) (hT0 : T ≠ [])
    (hTs : spaced t.za.1 t.za.2 T) (hd : 0 < d) (hm : d * (m : K) = 4 * q) (hm2 : 2 ≤ m) (ht1 : 0 ≤ t.rot.1) (ht2 : 0 ≤ t.rot.2) (htol : t.rot.2 < d / 4) :
    (4 ∣ m → ∃ b g, readGrid t q true (fileRows T (steps d m) f) = .ok b ∧ Good T (steps d m) f b ∧ b.second = some g ∧
      ∀ (i j : Nat) (z : K), T[i]? = some z → j < m →
        g i j = some (f z (if q ≤ d * (j : K) then d * (j : K) - q else d * (j : K) + 3 * q))) ∧
    (¬ 4 ∣ m → readGrid t q true (fileRows T (steps d m) f) = .error .rot) := by
  have hlen : (steps d m).length = m := by simp [steps]
  have hs0 : steps d m ≠ [] := by intro e; rw [e] at hlen; simp at hlen; omega
  have hdiv := floor_quarter hd hm
  have hgen : readGrid t q true (fileRows T (steps d m) f) =
      if rotOk t.rot q (fileRows T (steps d m) f) T.length m (m / 4) then
        .ok ⟨steps d m, T, vals (fileRows T (steps d m) f) T.length, some fun i j => vals (fileRows T (steps d m) f) T.length i (rollIdx m (m / 4) j)⟩
      else .error .rot := by
    unfold readGrid
    simp only [unique_za hT hs0, unique_az (steps_sorted hd m) hT0, fileRows_length, ne_eq, not_true_eq_false, if_false, hTs, steps_spaced]
    obtain ⟨m', rfl⟩ : ∃ m', m = m' + 2 := ⟨m - 2, by omega⟩
    have e : steps d (m' + 2) = (d * ((0 : Nat) : K)) :: (d * ((1 : Nat) : K)) :: ((List.range m').map fun (j : Nat) => d * ((j + 2 : Nat) : K)) := by
      unfold steps
      rw [List.range_succ_eq_map, List.map_cons, List.map_map, List.range_succ_eq_map, List.map_cons, List.map_map]
      rfl
    have hk : ⌊q / (d * ((1 : Nat) : K) - d * ((0 : Nat) : K))⌋₊ = (m' + 2) / 4 := by
      rw [← hdiv]; congr 2; push_cast; ring
    rw [e] at hlen
    rw [e]
    simp only [Bool.true_eq_false, if_false, hk, hlen]
  have hcell : ∀ {i j : Nat} {z : K}, T[i]? = some z → j < m →
      cell (fileRows T (steps d m) f) T.length i j = some ⟨z, d * (j : K), f z (d * (j : K))⟩ := by
    intro i j z hz hj
    unfold cell
    exact fileRows_get hz (steps_get hj)
  refine ⟨?_, ?_⟩
  · intro h4
    have h40 : m % 4 = 0 := Nat.mod_eq_zero_of_dvd h4
    have hok : rotOk t.rot q (fileRows T (steps d m) f) T.length m (m / 4) := by
      intro i hi j hj r hr s hs
      rw [Option.mem_def, hcell (List.getElem?_eq_getElem hi) (rollIdx_lt (by omega))] at hr
      rw [Option.mem_def, hcell (List.getElem?_eq_getElem hi) hj] at hs
      obtain rfl := Option.some.inj hr
      obtain rfl := Option.some.inj hs
      unfold close
      dsimp only
      rw [turn_steps hd hm hj, h40]
      simp only [Nat.cast_zero, mul_zero, zero_div, add_zero, sub_self, abs_zero]
      positivity
    rw [hgen, if_pos hok]
    refine ⟨_, _, rfl, ⟨rfl, rfl, ?_⟩, rfl, ?_⟩
    · intro i j z p hz hp
      dsimp only
      unfold vals
      have hj : j < m := by
        have := (List.getElem?_eq_some_iff.1 hp).1
        omega
      rw [hcell hz hj]
      rw [steps_get hj] at hp
      obtain rfl := Option.some.inj hp
      rfl
    · intro i j z hz hj
      unfold vals
      rw [hcell hz (rollIdx_lt (by omega))]
      simp only [Option.map_some, Option.some.injEq]
      congr 1
      have hr := quarter_rest hm
      rw [h40] at hr
      simp only [Nat.cast_zero, mul_zero, zero_div] at hr
      have hq : q = d * ((m / 4 : Nat) : K) := by linarith
      rw [rollIdx_eq hj (by omega)]
      by_cases hk : m / 4 ≤ j
      · rw [if_pos hk, if_pos (by rw [hq]; exact mul_le_mul_of_nonneg_left (by exact_mod_cast hk) hd.le), Nat.cast_sub hk, mul_sub, ← hq]
      · rw [if_neg hk, if_neg (by rw [hq, not_le]; exact mul_lt_mul_of_pos_left (by exact_mod_cast (by omega : j < m / 4)) hd),
          Nat.cast_sub (by omega)]
        push_cast
        rw [mul_sub, mul_add, hm, ← hq]; ring
  · intro h4
    rw [hgen, if_neg]
    intro hok
    have hi : 0 < T.length := List.length_pos_iff.2 hT0
    have := hok 0 hi 0 (by omega) _ (by rw [hcell (List.getElem?_eq_getElem hi) (rollIdx_lt (by omega))]; rfl) _
      (by rw [hcell (List.getElem?_eq_getElem hi) (by omega)]; rfl)
    unfold close at this
    dsimp only at this
    rw [turn_steps hd hm (by omega)] at this
    simp only [Nat.cast_zero, mul_zero, zero_add, sub_zero, abs_zero, add_zero] at this
    have h1 : (1 : K) ≤ ((m % 4 : Nat) : K) := by
      exact_mod_cast Nat.one_le_iff_ne_zero.2 (fun h => h4 (Nat.dvd_of_mod_eq_zero h))
    have h2 : d ≤ d * ((m % 4 : Nat) : K) := le_mul_of_one_le_right hd.le h1
    rw [abs_of_nonneg (by linarith)] at this
    linarith

/-- **C184.** A circle that is closed (the first azimuth is there again after a whole turn) cannot be rotated. -/
theorem closed_refused {T : List K} {f : K → K → α} {t : Tols K} {q d : K} {m : Nat} (hT : T.Pairwise (· < ·)) (hT0 : T ≠ [])
    (hTs : spaced t.za.1 t.za.2 T) (hd : 0 < d) (hm : d * (m : K) = 4 * q) (hm2 : 1 ≤ m) (htol : t.rot.2 < d / 4) :
    readGrid t q true (fileRows T (steps d (m + 1)) f) = .error .rot := by
  have hlen : (steps d (m + 1)).length = m + 1 := by simp [steps]
  have hs0 : steps d (m + 1) ≠ [] := by intro e; rw [e] at hlen; simp at hlen
  have hdiv := floor_quarter hd hm
  have hgen : readGrid t q true (fileRows T (steps d (m + 1)) f) =
      if rotOk t.rot q (fileRows T (steps d (m + 1)) f) T.length (m + 1) (m / 4) then
        .ok ⟨steps d (m + 1), T, vals (fileRows T (steps d (m + 1)) f) T.length,
          some fun i j => vals (fileRows T (steps d (m + 1)) f) T.length i (rollIdx (m + 1) (m / 4) j)⟩
      else .error .rot := by
    unfold readGrid
    simp only [unique_za hT hs0, unique_az (steps_sorted hd _) hT0, fileRows_length, ne_eq, not_true_eq_false, if_false, hTs, steps_spaced]
    obtain ⟨m', rfl⟩ : ∃ m', m = m' + 1 := ⟨m - 1, by omega⟩
    have e : steps d (m' + 1 + 1) = (d * ((0 : Nat) : K)) :: (d * ((1 : Nat) : K)) :: ((List.range m').map fun (j : Nat) => d * ((j + 2 : Nat) : K)) := by
      unfold steps
      rw [List.range_succ_eq_map, List.map_cons, List.map_map, List.range_succ_eq_map, List.map_cons, List.map_map]
      rfl
    have hk : ⌊q / (d * ((1 : Nat) : K) - d * ((0 : Nat) : K))⌋₊ = (m' + 1) / 4 := by
      rw [← hdiv]; congr 2; push_cast; ring
    rw [e] at hlen
    rw [e]
    simp only [Bool.true_eq_false, if_false, hk, hlen]
  rw [hgen, if_neg]
  intro hok
  have hi : 0 < T.length := List.length_pos_iff.2 hT0
  have hcell : ∀ {j : Nat}, j < m + 1 →
      cell (fileRows T (steps d (m + 1)) f) T.length 0 j = some ⟨T[0], d * (j : K), f T[0] (d * (j : K))⟩ := by
    intro j hj
    unfold cell
    exact fileRows_get (List.getElem?_eq_getElem hi) (steps_get hj)
  have := hok 0 hi 0 (by omega) _ (by rw [hcell (rollIdx_lt (by omega))]; rfl) _ (by rw [hcell (by omega)]; rfl)
  unfold close at this
  dsimp only at this
  rw [rollIdx_eq (by omega) (by omega)] at this
  have hr := quarter_rest hm
  have hr0 : 0 ≤ d * ((m % 4 : Nat) : K) / 4 := by positivity
  have hm1 : (1 : K) ≤ (m : K) := by exact_mod_cast hm2
  have hqd : d / 4 ≤ q := by
    have := le_mul_of_one_le_right hd.le hm1
    linarith
  by_cases hk : m / 4 ≤ 0
  · have hk0 : m / 4 = 0 := by omega
    rw [if_pos hk, hk0] at this
    simp only [Nat.sub_zero, Nat.cast_zero, mul_zero, abs_zero, add_zero, sub_zero] at this
    unfold turn at this
    rw [zero_add, if_neg (by linarith), abs_of_nonneg (by linarith)] at this
    linarith
  · rw [if_neg hk, Nat.cast_sub (by omega)] at this
    push_cast at this
    have e : d * (0 + ((m : K) + 1) - ((m / 4 : Nat) : K)) + q = 4 * q + d + (q - d * ((m / 4 : Nat) : K)) := by
      rw [← hm]; ring
    unfold turn at this
    rw [e, hr, if_pos (by linarith)] at this
    simp only [mul_zero, abs_zero, add_zero, sub_zero] at this
    rw [abs_of_nonneg (by linarith)] at this
    linarith

end Verif.Cst
