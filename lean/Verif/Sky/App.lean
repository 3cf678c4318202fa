import Verif.Sky.Angle

/-!
# Apparent positions and ephemerides
-/

namespace Verif.Sky

open Verif.Coord (V3 atan2)
open Verif.PhaseCat (Entry Val unprojected driftscan sidereal ephem)

/-! ## Apparent positions -/

theorem sequence_ok {α : Type} : ∀ {l : List (Except Err α)} {as : List α}, sequence l = .ok as →
    l = as.map .ok := by
  intro l
  induction l with
  | nil => intro as h; simp only [sequence, Except.ok.injEq] at h; subst h; rfl
  | cons x l ih =>
    intro as h
    cases x with
    | error e => simp [sequence] at h
    | ok a =>
      unfold sequence at h
      cases hs : sequence l with
      | error e => rw [hs] at h; simp at h
      | ok bs =>
        rw [hs] at h
        simp only [Except.ok.injEq] at h
        subst h
        rw [ih hs]
        rfl

theorem sequence_all {α : Type} : ∀ (as : List α), sequence (as.map Except.ok) = .ok as := by
  intro as
  induction as with
  | nil => rfl
  | cons a as ih => simp only [List.map_cons, sequence, ih]

theorem mem_uniqueTimes {time lst : List ℝ} {u : ℝ × ℝ} : u ∈ uniqueTimes time lst ↔
    ∃ i, FirstAt time i ∧ u = (time.getD i 0, lst.getD i 0) := by
  unfold uniqueTimes
  simp only [List.mem_map, List.mem_filter, List.mem_range, decide_eq_true_eq]
  constructor
  · rintro ⟨i, ⟨-, h⟩, rfl⟩; exact ⟨i, h, rfl⟩
  · rintro ⟨i, h, rfl⟩; exact ⟨i, ⟨h.1, h⟩, rfl⟩

theorem first_unique {l : List ℝ} {i j : Nat} (hi : FirstAt l i) (hj : FirstAt l j) (h : l[i]? = l[j]?) : i = j := by
  rcases lt_trichotomy i j with h1 | h1 | h1
  · exact absurd h (hj.2 i h1)
  · exact h1
  · exact absurd h.symm (hi.2 j h1)

/-- The LST that goes with a time: that of the first row with this time. -/
theorem uniqueTimes_lst {time lst : List ℝ} (hl : lst.length = time.length) {u : ℝ × ℝ}
    (hu : u ∈ uniqueTimes time lst) : ∃ i, FirstAt time i ∧ time[i]? = some u.1 ∧ lst[i]? = some u.2 := by
  obtain ⟨i, h, rfl⟩ := mem_uniqueTimes.1 hu
  refine ⟨i, h, ?_, ?_⟩
  · simp only
    rw [List.getD_eq_getElem _ _ h.1]
    exact List.getElem?_eq_getElem _
  · simp only
    rw [List.getD_eq_getElem _ _ (by rw [hl]; exact h.1)]
    exact List.getElem?_eq_getElem _

/-- What every row gets: the place of the source at its time, with the LST of the first row that has this time. -/
theorem app_rows {s : Site} {e : Entry} {time lst ra dec : List ℝ} (h : appCoords s e time lst = .ok (ra, dec)) :
    lst.length = time.length ∧ ra.length = time.length ∧ dec.length = time.length ∧
    ∀ (j : Nat) (t l : ℝ), FirstAt time j → time[j]? = some t → lst[j]? = some l →
      ∃ p, place s e t l = .ok p ∧ ∀ i : Nat, time[i]? = some t → ra[i]? = some p.1 ∧ dec[i]? = some p.2 := by
  classical
  unfold appCoords at h
  split_ifs at h with hl
  rw [not_not] at hl
  simp only at h
  cases hs : sequence ((uniqueTimes time lst).map fun u => place s e u.1 u.2) with
  | error err => rw [hs] at h; simp at h
  | ok ps =>
    rw [hs] at h
    simp only [Except.ok.injEq, Prod.mk.injEq] at h
    obtain ⟨rfl, rfl⟩ := h
    have hps := sequence_ok hs
    refine ⟨hl, by simp, by simp, ?_⟩
    intro j t l hj ht hlj
    have hmem : ((t, l) : ℝ × ℝ) ∈ uniqueTimes time lst :=
      mem_uniqueTimes.2 ⟨j, hj, by rw [getD_of ht, getD_of hlj]⟩
    have hzip : ∀ {u : ℝ × ℝ} {p : ℝ × ℝ}, (u, p) ∈ (uniqueTimes time lst).zip ps → place s e u.1 u.2 = .ok p := by
      intro u p hup
      obtain ⟨k, hk⟩ := List.getElem?_of_mem hup
      rw [List.getElem?_zip_eq_some] at hk
      have := congrArg (fun q => q[k]?) hps
      simp only [List.getElem?_map, hk.1, hk.2, Option.map_some, Option.some.injEq] at this
      exact this
    have hlen : (uniqueTimes time lst).length = ps.length := by
      have := congrArg List.length hps
      simpa using this
    obtain ⟨k, hk⟩ := List.getElem?_of_mem hmem
    have hk' := (List.getElem?_eq_some_iff.1 hk).1
    have hp : ps[k]? = some (ps[k]'(by omega)) := List.getElem?_eq_getElem _
    set p := ps[k]'(by omega)
    have hin : ((t, l), p) ∈ (uniqueTimes time lst).zip ps :=
      List.mem_of_getElem? (List.getElem?_zip_eq_some.2 ⟨hk, hp⟩)
    refine ⟨p, hzip hin, ?_⟩
    have hfill : fillTime ((uniqueTimes time lst).zip ps) t = p := by
      unfold fillTime
      have := foldl_pick (fun u : (ℝ × ℝ) × (ℝ × ℝ) => t = u.1.1) Prod.snd p ((uniqueTimes time lst).zip ps) (0, 0) (by
        rintro ⟨u, q⟩ hu ht'
        simp only at ht' ⊢
        obtain ⟨k', f', t', l'⟩ := uniqueTimes_lst hl (List.of_mem_zip hu).1
        have : k' = j := first_unique f' hj (by rw [t', ht, ht'])
        subst this
        rw [hlj] at l'
        have hu' : u = (t, l) := Prod.ext ht'.symm (Option.some.inj l').symm
        have a1 := hzip hu
        have a2 := hzip hin
        rw [hu'] at a1
        rw [a1] at a2
        exact Except.ok.inj a2)
      rw [if_pos ⟨_, hin, rfl⟩] at this
      convert this
    intro i hi
    rw [List.getElem?_map, List.getElem?_map, hi]
    simp only [Option.map_some, hfill]
    exact ⟨trivial, trivial⟩

/-- **C75.** The apparent position of a row is the place of the source at the time and the LST of this row, if
rows with the same time have the same LST. -/
theorem app_row_partial {s : Site} {e : Entry} {time lst ra dec : List ℝ} (h : appCoords s e time lst = .ok (ra, dec))
    (hf : Fixed time lst) (i : Nat) (t l : ℝ) (ht : time[i]? = some t) (hl : lst[i]? = some l) :
    ∃ p, place s e t l = .ok p ∧ ra[i]? = some p.1 ∧ dec[i]? = some p.2 := by
  obtain ⟨h1, -, -, h2⟩ := app_rows h
  obtain ⟨j, -, hj, he⟩ := first_exists (List.getElem?_eq_some_iff.1 ht).1
  have hjl : lst[j]? = some (lst[j]'(by rw [h1]; exact hj.1)) := List.getElem?_eq_getElem _
  obtain ⟨p, hp, hrow⟩ := h2 j t _ hj (he.trans ht) hjl
  rw [hf j i t _ _ (he.trans ht) ht hjl hl] at hp
  exact ⟨p, hp, hrow i ht⟩

/-- **C75.** The call succeeds if the source has a place at every time. -/
theorem app_succeeds {s : Site} {e : Entry} {time lst : List ℝ} (hl : lst.length = time.length)
    (hp : ∀ t ∈ time, ∀ l ∈ lst, ∃ p, place s e t l = .ok p) : ∃ r, appCoords s e time lst = .ok r := by
  unfold appCoords
  rw [if_neg (not_not.2 hl)]
  have : ∃ ps : List (ℝ × ℝ), (uniqueTimes time lst).map (fun u => place s e u.1 u.2) = ps.map Except.ok := by
    have hall : ∀ u ∈ uniqueTimes time lst, ∃ p, place s e u.1 u.2 = .ok p := by
      intro u hu
      obtain ⟨i, -, h1, h2⟩ := uniqueTimes_lst hl hu
      exact hp _ (List.mem_of_getElem? h1) _ (List.mem_of_getElem? h2)
    generalize uniqueTimes time lst = us at hall
    induction us with
    | nil => exact ⟨[], rfl⟩
    | cons u us ih =>
      obtain ⟨p, h0⟩ := hall u (by simp)
      obtain ⟨ps, h1⟩ := ih fun v hv => hall v (by simp [hv])
      exact ⟨p :: ps, by rw [List.map_cons, h0, h1, List.map_cons]⟩
  obtain ⟨ps, h⟩ := this
  simp only
  rw [h, sequence_all]
  exact ⟨_, rfl⟩

/-- **C75** fails for rows that have the same time but not the same LST: the second row of an unprojected
source is given the LST of the first. -/
theorem app_lst_counterexample (s : Site) (e : Entry) (he : e.type = unprojected) (t l l' : ℝ) (hne : l ≠ l') :
    ∃ ra dec, appCoords s e [t, t] [l, l'] = .ok (ra, dec) ∧ ra[1]? = some l ∧ ra[1]? ≠ some l' := by
  have hplace : ∀ x y, place s e x y = .ok (y, 0 + s.lat) := by
    intro x y
    unfold place
    rw [he, if_neg (by decide), if_neg (by decide), if_neg (by decide), if_pos rfl]
  obtain ⟨⟨ra, dec⟩, h⟩ := app_succeeds (s := s) (e := e) (time := [t, t]) (lst := [l, l']) rfl
    fun x _ y _ => ⟨_, hplace x y⟩
  refine ⟨ra, dec, h, ?_⟩
  obtain ⟨-, -, -, h2⟩ := app_rows h
  obtain ⟨p, hp, hrow⟩ := h2 0 t l ⟨by simp, by intro j hj; omega⟩ rfl rfl
  rw [hplace] at hp
  have := (hrow 1 rfl).1
  rw [← Except.ok.inj hp] at this
  refine ⟨this, ?_⟩
  rw [this]
  simpa using hne

/-! ## Azimuth and elevation -/

/-- The direction of an azimuth (north through east) and elevation for an observer at latitude `lat`, in the
frame whose first axis is the meridian on the equator, whose second axis is due west, and whose third is the pole. -/
noncomputable def hor (az el lat : ℝ) : V3 :=
  -- north, east and up in this frame
  let n : V3 := ⟨-Real.sin lat, 0, Real.cos lat⟩
  let e : V3 := ⟨0, -1, 0⟩
  let u : V3 := ⟨Real.cos lat, 0, Real.sin lat⟩
  let a := Real.cos el * Real.cos az
  let b := Real.cos el * Real.sin az
  let c := Real.sin el
  ⟨a * n.x + b * e.x + c * u.x, a * n.y + b * e.y + c * u.y, a * n.z + b * e.z + c * u.z⟩

theorem hor_len (az el lat : ℝ) : len (hor az el lat) = 1 := by
  unfold len hor
  rw [Real.sqrt_eq_one]
  have h1 := Real.sin_sq_add_cos_sq az
  have h2 := Real.sin_sq_add_cos_sq el
  have h3 := Real.sin_sq_add_cos_sq lat
  simp only
  generalize Real.sin az = s1 at *
  generalize Real.cos az = c1 at *
  generalize Real.sin el = s2 at *
  generalize Real.cos el = c2 at *
  generalize Real.sin lat = s3 at *
  generalize Real.cos lat = c3 at *
  linear_combination (c2 ^ 2) * h1 + h2 + (c2 ^ 2 * c1 ^ 2 + s2 ^ 2) * h3

/-- `ae2hd` gives the hour angle and declination of the direction. -/
theorem ae2hd_dir (az el lat : ℝ) : dir (ae2hd az el lat) = hor az el lat := by
  set v := hor az el lat with hv
  have hx : v.x = -Real.cos az * Real.cos el * Real.sin lat + Real.sin el * Real.cos lat := by
    rw [hv]; unfold hor; ring
  have hy : v.y = -Real.sin az * Real.cos el := by rw [hv]; unfold hor; ring
  have hz : v.z = Real.cos az * Real.cos el * Real.cos lat + Real.sin el * Real.sin lat := by
    rw [hv]; unfold hor; ring
  have h1 : ae2hd az el lat = (atan2 v.y v.x, atan2 v.z (Real.sqrt (v.x ^ 2 + v.y ^ 2))) := by
    unfold ae2hd
    rw [hx, hy, hz]
  have hlen := hor_len az el lat
  rw [← hv] at hlen
  have key := cart3_polar2 v (by rw [hlen]; exact one_ne_zero)
  rw [(polar2_dir _ _).1, hlen] at key
  rw [h1]
  unfold cart3 at key
  unfold dir at key ⊢
  simp only [cos_mod2pi, sin_mod2pi, div_one] at key ⊢
  exact key

/-- **C75.** A drift-scan source stays where it is above the telescope: its direction, as hour angle and
declination, is that of its azimuth and elevation, at all times. -/
theorem driftscan_fixed {s : Site} {e : Entry} {az el t l : ℝ} (he : e.type = driftscan) (ha : vals e.lon = [az])
    (hb : vals e.lat = [el]) : ∃ p, place s e t l = .ok p ∧ dir (p.1 - l, p.2) = hor az el s.lat ∧
      0 ≤ p.1 ∧ p.1 < 2 * Real.pi := by
  have : place s e t l = .ok (mod2pi ((ae2hd az el s.lat).1 + l), (ae2hd az el s.lat).2 + 0) := by
    unfold place
    rw [he, if_neg (by decide), if_pos rfl, ha, hb]
  refine ⟨_, this, ?_, mod2pi_range _⟩
  rw [← ae2hd_dir]
  obtain ⟨n, hn⟩ := mod2pi_turns ((ae2hd az el s.lat).1 + l)
  unfold dir
  simp only [add_zero]
  rw [hn, show (ae2hd az el s.lat).1 + l + n * (2 * Real.pi) - l = (ae2hd az el s.lat).1 + n * (2 * Real.pi) by ring,
    Real.cos_add_int_mul_two_pi, Real.sin_add_int_mul_two_pi]

/-- **C75.** A drift-scan source at the zenith has the position of an unprojected source. -/
theorem driftscan_zenith {s : Site} {e e' : Entry} {az t l : ℝ} (he : e.type = driftscan) (ha : vals e.lon = [az])
    (hb : vals e.lat = [Real.pi / 2]) (he' : e'.type = unprojected) (h0 : 0 ≤ l) (h1 : l < 2 * Real.pi)
    (hlat : -(Real.pi / 2) < s.lat ∧ s.lat < Real.pi / 2) : place s e t l = place s e' t l := by
  have hp := Real.pi_pos
  have hc := Real.cos_pos_of_mem_Ioo ⟨hlat.1, hlat.2⟩
  have a1 : ae2hd az (Real.pi / 2) s.lat = (0, s.lat) := by
    unfold ae2hd
    simp only [Real.cos_pi_div_two, Real.sin_pi_div_two, mul_zero, zero_mul, zero_add, one_mul, Prod.mk.injEq]
    constructor
    · exact atan2_pos_axis hc.le
    · rw [show Real.cos s.lat ^ 2 + (0 : ℝ) ^ 2 = Real.cos s.lat ^ 2 by ring, Real.sqrt_sq hc.le]
      have := atan2_of (r := 1) (θ := s.lat) one_pos (by linarith) (by linarith)
      rw [one_mul, one_mul] at this
      exact this
  unfold place
  rw [he, he', if_neg (by decide), if_pos rfl, ha, hb, if_neg (by decide), if_neg (by decide), if_neg (by decide),
    if_pos rfl]
  simp only [a1, zero_add, add_zero, mod2pi_self h0 h1]

/-! ## Ephemerides -/

theorem byTime_perm (pts : List (ℝ × ℝ)) : (byTime pts).Perm pts := by
  classical
  unfold byTime
  exact List.perm_insertionSort _ _

theorem byTime_sorted (pts : List (ℝ × ℝ)) : (byTime pts).Pairwise fun p q => p.1 ≤ q.1 := by
  classical
  unfold byTime
  have : Std.Total (α := ℝ × ℝ) (fun p q => p.1 ≤ q.1) := ⟨fun p q => le_total p.1 q.1⟩
  have : IsTrans (ℝ × ℝ) (fun p q => p.1 ≤ q.1) := ⟨fun p q r h1 h2 => le_trans h1 h2⟩
  exact List.pairwise_insertionSort (r := fun p q : ℝ × ℝ => p.1 ≤ q.1) pts

variable {cubic : List (ℝ × ℝ) → ℝ → Option ℝ}

/-- **C77.** At a time that is in the ephemeris the value is the one of the ephemeris. -/
theorem interp_exact {pts : List (ℝ × ℝ)} (hn : (pts.map Prod.fst).Nodup) {p : ℝ × ℝ} (hp : p ∈ pts) :
    interp cubic pts p.1 = some p.2 := by
  classical
  have huniq : ∀ q ∈ pts, q.1 = p.1 → q = p := fun q hq h => List.inj_on_of_nodup_map hn hq hp h
  unfold interp
  split
  · rename_i q
    rw [List.mem_singleton] at hp
    rw [hp]
  · cases hf : (byTime pts).find? fun q => decide (q.1 = p.1) with
    | some q =>
      have h1 := List.find?_some hf
      have h2 := (byTime_perm pts).mem_iff.1 (List.mem_of_find?_eq_some hf)
      rw [huniq q h2 (by simpa using h1)]
    | none =>
      rw [List.find?_eq_none] at hf
      have := hf p ((byTime_perm pts).mem_iff.2 hp)
      simp at this

/-- Sorting by time gives the same list for the same points in any order. -/
theorem byTime_eq {pts pts' : List (ℝ × ℝ)} (hn : (pts.map Prod.fst).Nodup) (h : pts.Perm pts') :
    byTime pts = byTime pts' := by
  have h1 := ((byTime_perm pts).trans h).trans (byTime_perm pts').symm
  refine List.Perm.eq_of_pairwise ?_ (byTime_sorted pts) (byTime_sorted pts') h1
  intro a b ha hb hab hba
  exact List.inj_on_of_nodup_map hn ((byTime_perm pts).mem_iff.1 ha)
    (h.mem_iff.2 ((byTime_perm pts').mem_iff.1 hb)) (le_antisymm hab hba)

open Classical in
theorem interp_many {pts : List (ℝ × ℝ)} {t : ℝ} (h : pts.length ≠ 1) : interp cubic pts t =
    match (byTime pts).find? fun p => decide (p.1 = t) with
    | some p => some p.2
    | none => if pts.length > 3 then cubic (byTime pts) t else linear (byTime pts) t := by
  unfold interp
  split
  · simp at h
  · rfl

/-- **C77.** The order of the points of the ephemeris does not matter. -/
theorem interp_order {pts pts' : List (ℝ × ℝ)} (hn : (pts.map Prod.fst).Nodup) (h : pts.Perm pts') (t : ℝ) :
    interp cubic pts t = interp cubic pts' t := by
  have hb := byTime_eq hn h
  by_cases h1 : pts.length = 1
  · obtain ⟨p, rfl⟩ := List.length_eq_one_iff.1 h1
    rw [List.singleton_perm.1 h]
  · rw [interp_many h1, interp_many (by rw [← h.length_eq]; exact h1), hb, h.length_eq]

theorem linear_spec : ∀ (l : List (ℝ × ℝ)) (t v : ℝ), linear l t = some v →
    ∃ p ∈ l, ∃ q ∈ l, p.1 ≤ t ∧ t ≤ q.1 ∧ v = line p q t := by
  classical
  intro l
  induction l with
  | nil => intro t v h; simp [linear] at h
  | cons p l ih =>
    intro t v h
    cases l with
    | nil => simp [linear] at h
    | cons q l =>
      unfold linear at h
      split_ifs at h with hc
      · exact ⟨p, by simp, q, by simp, hc.1, hc.2, (Option.some.inj h).symm⟩
      · obtain ⟨p', h1, q', h2, h3⟩ := ih t v h
        exact ⟨p', by simp [h1], q', by simp [h2], h3⟩

theorem line_between {p q : ℝ × ℝ} {t : ℝ} (h1 : p.1 ≤ t) (h2 : t ≤ q.1) :
    min p.2 q.2 ≤ line p q t ∧ line p q t ≤ max p.2 q.2 := by
  unfold line
  rcases eq_or_lt_of_le (h1.trans h2) with h | h
  · rw [h, sub_self, div_zero, zero_mul, zero_add]
    exact ⟨min_le_left _ _, le_max_left _ _⟩
  · have hd : 0 < q.1 - p.1 := by linarith
    set s := (t - p.1) / (q.1 - p.1) with hs
    have s0 : 0 ≤ s := div_nonneg (by linarith) hd.le
    have s1 : s ≤ 1 := (div_le_one hd).2 (by linarith)
    have : (q.2 - p.2) / (q.1 - p.1) * (t - p.1) + p.2 = p.2 + s * (q.2 - p.2) := by rw [hs]; field_simp; ring
    rw [this]
    rcases le_total p.2 q.2 with h3 | h3
    · rw [min_eq_left h3, max_eq_right h3]
      constructor <;> nlinarith
    · rw [min_eq_right h3, max_eq_left h3]
      constructor <;> nlinarith

/-- **C77.** With up to three points, the value lies between the values of two points of the ephemeris, one not
after and one not before the time. -/
theorem interp_between {pts : List (ℝ × ℝ)} {t v : ℝ} (hl : pts.length ≤ 3) (h2 : 2 ≤ pts.length)
    (h : interp cubic pts t = some v) : ∃ p ∈ pts, ∃ q ∈ pts, p.1 ≤ t ∧ t ≤ q.1 ∧
      min p.2 q.2 ≤ v ∧ v ≤ max p.2 q.2 := by
  unfold interp at h
  split at h
  · simp at h2
  · split at h
    · rename_i p hf
      have h1 := List.find?_some hf
      have h3 := (byTime_perm pts).mem_iff.1 (List.mem_of_find?_eq_some hf)
      have ht : p.1 = t := by simpa using h1
      have hv := Option.some.inj h
      exact ⟨p, h3, p, h3, ht.le, ht.ge, by rw [min_self, hv], by rw [max_self, hv]⟩
    · rw [if_neg (by omega)] at h
      obtain ⟨p, hp, q, hq, a1, a2, rfl⟩ := linear_spec _ _ _ h
      exact ⟨p, (byTime_perm pts).mem_iff.1 hp, q, (byTime_perm pts).mem_iff.1 hq, a1, a2, line_between a1 a2⟩

/-- **C77.** With two or three points, a column that is linear in time is continued exactly. -/
theorem interp_linear {pts : List (ℝ × ℝ)} {t v a b : ℝ} (hl : pts.length ≤ 3) (h2 : 2 ≤ pts.length)
    (hlin : ∀ p ∈ pts, p.2 = a + b * p.1) (hn : (pts.map Prod.fst).Nodup) (h : interp cubic pts t = some v) :
    v = a + b * t := by
  unfold interp at h
  split at h
  · simp at h2
  · split at h
    · rename_i p hf
      have h1 := List.find?_some hf
      have h3 := (byTime_perm pts).mem_iff.1 (List.mem_of_find?_eq_some hf)
      have ht : p.1 = t := by simpa using h1
      rw [← Option.some.inj h, hlin p h3, ht]
    · rename_i hf
      rw [if_neg (by omega)] at h
      obtain ⟨p, hp, q, hq, a1, a2, rfl⟩ := linear_spec _ _ _ h
      have hp' := hlin p ((byTime_perm pts).mem_iff.1 hp)
      have hq' := hlin q ((byTime_perm pts).mem_iff.1 hq)
      rw [List.find?_eq_none] at hf
      have hne : p.1 ≠ t := by simpa using hf p hp
      have hlt : p.1 < t := lt_of_le_of_ne a1 hne
      unfold line
      rw [hp', hq']
      have : q.1 - p.1 ≠ 0 := by
        have : p.1 < q.1 := lt_of_lt_of_le hlt a2
        exact (sub_pos.2 this).ne'
      field_simp
      ring

theorem linear_total : ∀ (l : List (ℝ × ℝ)) (p q : ℝ × ℝ) (t : ℝ), (l.Pairwise fun p q => p.1 ≤ q.1) →
    p ∈ l → q ∈ l → p.1 < t → t < q.1 → ∃ v, linear l t = some v := by
  classical
  intro l
  induction l with
  | nil => intro p q t _ hp; simp at hp
  | cons x l ih =>
    intro p q t hs hp hq h1 h2
    have hx : x.1 ≤ t := by
      rcases List.mem_cons.1 hp with rfl | hp'
      · exact h1.le
      · exact ((List.pairwise_cons.1 hs).1 p hp').trans h1.le
    cases l with
    | nil =>
      rw [List.mem_singleton] at hq
      subst hq
      linarith
    | cons y l =>
      unfold linear
      by_cases hy : t ≤ y.1
      · exact ⟨_, if_pos ⟨hx, hy⟩⟩
      · rw [if_neg fun h => hy h.2]
        have hq' : q ∈ y :: l := by
          rcases List.mem_cons.1 hq with rfl | h
          · linarith
          · exact h
        exact ih y q t (List.pairwise_cons.1 hs).2 (by simp) hq' (not_le.1 hy) h2

/-- **C77.** Two or three points give a value at every time from the first to the last. -/
theorem interp_total {pts : List (ℝ × ℝ)} (hl : pts.length ≤ 3) {p q : ℝ × ℝ} {t : ℝ} (hp : p ∈ pts) (hq : q ∈ pts)
    (h1 : p.1 ≤ t) (h2 : t ≤ q.1) : ∃ v, interp cubic pts t = some v := by
  unfold interp
  split
  · exact ⟨_, rfl⟩
  · split
    · exact ⟨_, rfl⟩
    · rename_i hf
      rw [if_neg (by omega)]
      rw [List.find?_eq_none] at hf
      have m1 := (byTime_perm pts).mem_iff.2 hp
      have m2 := (byTime_perm pts).mem_iff.2 hq
      have n1 : p.1 ≠ t := by simpa using hf p m1
      have n2 : q.1 ≠ t := by simpa using hf q m2
      exact linear_total _ p q t (byTime_sorted pts) m1 m2 (lt_of_le_of_ne h1 n1) (lt_of_le_of_ne h2 n2.symm)

/-- **C77** fails for right ascensions that pass through zero: a source that moves east by `2 * ε` from just
before zero to just after it is put on the opposite side of the sky half-way, whatever `ε`. -/
theorem interp_wrap_counterexample (ε : ℝ) :
    interp cubic [(0, 2 * Real.pi - ε), (2, ε)] 1 = some Real.pi := by
  classical
  have hb : byTime [((0 : ℝ), 2 * Real.pi - ε), (2, ε)] = [(0, 2 * Real.pi - ε), (2, ε)] := by
    unfold byTime
    simp [List.insertionSort]
  unfold interp
  split
  · rename_i h; simp at h
  · rw [hb]
    simp only [List.find?_cons, List.find?_nil, zero_ne_one, decide_false, OfNat.ofNat_ne_one, List.length_cons,
      List.length_nil]
    rw [if_neg (by omega)]
    unfold linear
    rw [if_pos (by norm_num)]
    unfold line
    congr 1
    simp only
    ring

end Verif.Sky
