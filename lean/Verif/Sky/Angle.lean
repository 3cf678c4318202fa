import Mathlib.Data.List.GetD
import Verif.Sky.Polar
import Verif.Phase.Lemmas

/-!
# The position angle of every row
-/

namespace Verif.Sky

open Verif.Coord (V3 atan2)
open Verif.Phasing (pick)
open Verif.Phase (maskSet)

/-! ## First places -/

theorem first_exists {l : List ℝ} {i : Nat} (hi : i < l.length) : ∃ j ≤ i, FirstAt l j ∧ l[j]? = l[i]? := by
  classical
  have hex : ∃ j, l[j]? = l[i]? := ⟨i, rfl⟩
  refine ⟨Nat.find hex, Nat.find_min' hex rfl, ⟨?_, ?_⟩, Nat.find_spec hex⟩
  · have := Nat.find_min' hex (m := i) rfl
    omega
  · intro k hk he
    exact Nat.find_min hex hk (he.trans (Nat.find_spec hex))

theorem mem_uniqueMask {time ra dec : List ℝ} {i : Nat} (h1 : time.length = ra.length)
    (h2 : dec.length = ra.length) :
    i ∈ uniqueMask time ra dec ↔ FirstAt ra i ∨ FirstAt dec i ∨ FirstAt time i := by
  unfold uniqueMask
  simp only [List.mem_filter, List.mem_range, decide_eq_true_eq, and_iff_right_iff_imp]
  rintro (h | h | h)
  · exact h.1
  · rw [← h2]; exact h.1
  · rw [← h1]; exact h.1

theorem uniqueMask_lt {time ra dec : List ℝ} {i : Nat} (h : i ∈ uniqueMask time ra dec) : i < ra.length := by
  unfold uniqueMask at h
  simp only [List.mem_filter, List.mem_range] at h
  exact h.1

/-! ## The arrays over `unique_mask` -/

theorem above_map (um : List Nat) (x : Nat → ℝ) (y : ℝ) :
    above (um.map x) y = um.map fun i => @decide (x i > y) (Classical.propDecidable _) := by
  unfold above
  rw [List.map_map]
  rfl

theorem mapAt_map (um : List Nat) (b : Nat → Bool) (g : ℝ → ℝ) (x : Nat → ℝ) :
    mapAt (um.map b) g (um.map x) = um.map fun i => if b i = true then g (x i) else x i := by
  unfold mapAt
  induction um with
  | nil => rfl
  | cons i um ih => simp only [List.map_cons, List.zipWith_cons_cons, ih]

theorem uniqs_map (sid : ℝ → ℝ → ℝ → ℝ × ℝ) (um : List Nat) (r d t dn up : Nat → ℝ) :
    uniqs sid (um.map r) (um.map d) (um.map t) (um.map dn) (um.map up)
      = um.map fun i => ⟨r i, d i, t i, -pas (sid (t i) (r i) (dn i)) (sid (t i) (r i) (up i))⟩ := by
  unfold uniqs
  induction um with
  | nil => rfl
  | cons i um ih => simp only [List.map_cons, List.zip_cons_cons, ih]

theorem pick_none {α : Type} : ∀ (m : List Bool) (xs : List α), (∀ b ∈ m, b = false) → pick m xs = [] := by
  intro m xs h
  unfold pick
  rw [List.map_eq_nil_iff, List.filter_eq_nil_iff]
  rintro ⟨b, x⟩ hb
  have := h b (List.of_mem_zip hb).1
  simp [this]

theorem maskSet_none {α : Type} : ∀ (m : List Bool) (xs : List α), (∀ b ∈ m, b = false) → maskSet m xs [] = xs := by
  intro m
  induction m with
  | nil => intro xs _; cases xs <;> rfl
  | cons b m ih =>
    intro xs h
    have hb := h b (by simp)
    subst hb
    cases xs with
    | nil => rfl
    | cons x xs =>
      unfold maskSet
      rw [ih xs fun c hc => h c (by simp [hc])]

noncomputable section

/-- What `calc_frame_pos_angle` holds for one place of `unique_mask`, as long as no position lies beyond the
south pole after the offset. -/
def entryAt (sid : ℝ → ℝ → ℝ → ℝ × ℝ) (off : ℝ) (time ra dec : List ℝ) (i : Nat) : Uniq :=
  let t := time.getD i 0
  let d := dec.getD i 0
  let over := @decide (d + off > Real.pi / 2) (Classical.propDecidable _)
  let r := if over = true then mod2pi (ra.getD i 0 + Real.pi) else ra.getD i 0
  ⟨r, d, t, -pas (sid t r (d - off)) (sid t r (if over = true then Real.pi - (d + off) else d + off))⟩

/-- Whether the offset leads beyond the south pole for some place of `unique_mask`. -/
def South (off : ℝ) (time ra dec : List ℝ) : Prop :=
  ∃ i ∈ uniqueMask time ra dec, -(dec.getD i 0 - off) > Real.pi / 2

end

theorem frame_south {sid : ℝ → ℝ → ℝ → ℝ × ℝ} {off : ℝ} {time ra dec : List ℝ} (ho : 0 < off)
    (h1 : time.length = ra.length) (h2 : dec.length = ra.length) (hd : ∀ d ∈ dec, d - off ≤ Real.pi / 2)
    (hs : South off time ra dec) : framePosAngle sid true off time ra dec = .error .assign := by
  unfold framePosAngle
  rw [if_neg (by simp), if_neg (not_not.2 ho), if_neg (by rintro (h | h) <;> contradiction)]
  simp only [List.map_map]
  rw [show pick (above (List.map ((fun x => x - off) ∘ fun i => dec.getD i 0) (uniqueMask time ra dec)) (Real.pi / 2)) _
    = [] from pick_none _ _ ?_]
  · simp only [List.map_nil]
    unfold assign
    rw [if_neg ?_]
    simp only [List.length_nil]
    intro h0
    have := List.count_eq_zero.1 h0.symm
    obtain ⟨i, hi, hx⟩ := hs
    apply this
    rw [above_map, List.mem_map]
    exact ⟨i, hi, by simpa using hx⟩
  · intro b hb
    rw [above_map, List.mem_map] at hb
    obtain ⟨i, hi, rfl⟩ := hb
    have hlt := uniqueMask_lt hi
    rw [← h2] at hlt
    rw [decide_eq_false_iff_not]
    simp only [Function.comp]
    rw [List.getD_eq_getElem _ _ hlt]
    exact not_lt.2 (hd _ (List.getElem_mem hlt))

theorem frame_ok {sid : ℝ → ℝ → ℝ → ℝ × ℝ} {off : ℝ} {time ra dec : List ℝ} (ho : 0 < off)
    (h1 : time.length = ra.length) (h2 : dec.length = ra.length) (hd : ∀ d ∈ dec, d - off ≤ Real.pi / 2)
    (hs : ¬ South off time ra dec) : framePosAngle sid true off time ra dec
      = .ok (((time.zip ra).zip dec).map fun q =>
          backfill ((uniqueMask time ra dec).map (entryAt sid off time ra dec)) q.1.1 q.1.2 q.2) := by
  unfold framePosAngle
  rw [if_neg (by simp), if_neg (not_not.2 ho), if_neg (by rintro (h | h) <;> contradiction)]
  simp only [List.map_map]
  rw [show pick (above (List.map ((fun x => x - off) ∘ fun i => dec.getD i 0) (uniqueMask time ra dec)) (Real.pi / 2)) _
    = [] from pick_none _ _ ?_]
  · have hsouth : ∀ b ∈ above (List.map (Neg.neg ∘ (fun x => x - off) ∘ fun i => dec.getD i 0)
        (uniqueMask time ra dec)) (Real.pi / 2), b = false := by
      intro b hb
      rw [above_map, List.mem_map] at hb
      obtain ⟨i, hi, rfl⟩ := hb
      rw [decide_eq_false_iff_not]
      intro hx
      exact hs ⟨i, hi, hx⟩
    simp only [List.map_nil]
    unfold assign
    rw [if_pos ?_]
    · simp only
      rw [maskSet_none _ _ hsouth]
      congr 1
      have hdn : ∀ (g : ℝ → ℝ) (xs : List ℝ) (m : List Bool), (∀ b ∈ m, b = false) → m.length = xs.length →
          mapAt m g xs = xs := by
        intro g xs m
        unfold mapAt
        induction m generalizing xs with
        | nil => intro _ h; cases xs with | nil => rfl | cons => simp at h
        | cons b m ih =>
          intro hb h
          cases xs with
          | nil => simp at h
          | cons x xs =>
            rw [List.zipWith_cons_cons, hb b (by simp), ih xs (fun c hc => hb c (by simp [hc])) (by simpa using h)]
            simp
      rw [hdn _ _ _ hsouth (by simp [above]), above_map, mapAt_map, mapAt_map, uniqs_map]
      rfl
    · rw [List.length_nil, eq_comm, List.count_eq_zero]
      intro hm
      have := hsouth _ hm
      simp at this
  · intro b hb
    rw [above_map, List.mem_map] at hb
    obtain ⟨i, hi, rfl⟩ := hb
    have hlt := uniqueMask_lt hi
    rw [← h2] at hlt
    rw [decide_eq_false_iff_not]
    simp only [Function.comp]
    rw [List.getD_eq_getElem _ _ hlt]
    exact not_lt.2 (hd _ (List.getElem_mem hlt))

/-! ## Filling in -/

theorem foldl_pick {α β : Type} (P : α → Prop) [DecidablePred P] (g : α → β) (v : β) :
    ∀ (l : List α) (a : β), (∀ u ∈ l, P u → g u = v) →
      l.foldl (fun acc u => if P u then g u else acc) a = if ∃ u ∈ l, P u then v else a := by
  intro l
  induction l with
  | nil => intro a _; simp
  | cons x l ih =>
    intro a h
    rw [List.foldl_cons, ih _ fun u hu => h u (by simp [hu])]
    by_cases hx : P x
    · rw [if_pos hx, h x (by simp) hx, if_pos (⟨x, by simp, hx⟩ : ∃ u ∈ x :: l, P u)]
      split_ifs <;> rfl
    · rw [if_neg hx]
      have : (∃ u ∈ x :: l, P u) ↔ ∃ u ∈ l, P u := by simp [hx]
      by_cases h2 : ∃ u ∈ l, P u
      · rw [if_pos h2, if_pos (this.2 h2)]
      · rw [if_neg h2, if_neg fun h3 => h2 (this.1 h3)]

theorem backfill_eq {us : List Uniq} {t r d v : ℝ}
    (h : ∀ u ∈ us, u.ra = r → u.dec = d → u.time = t → u.pa = v) :
    ((∃ u ∈ us, u.ra = r ∧ u.dec = d ∧ u.time = t) → backfill us t r d = v) ∧
    ((¬ ∃ u ∈ us, u.ra = r ∧ u.dec = d ∧ u.time = t) → backfill us t r d = 0) := by
  classical
  unfold backfill
  have := foldl_pick (fun u : Uniq => u.ra = r ∧ u.dec = d ∧ u.time = t) Uniq.pa v us 0
    fun u hu hP => h u hu hP.1 hP.2.1 hP.2.2
  constructor
  · intro he
    rw [if_pos he] at this
    convert this
  · intro he
    rw [if_neg he] at this
    convert this

theorem zip3_get {time ra dec : List ℝ} {i : Nat} {t r d : ℝ} (h1 : time[i]? = some t) (h2 : ra[i]? = some r)
    (h3 : dec[i]? = some d) : ((time.zip ra).zip dec)[i]? = some ((t, r), d) := by
  rw [List.getElem?_zip_eq_some]
  refine ⟨?_, h3⟩
  rw [List.getElem?_zip_eq_some]
  exact ⟨h1, h2⟩

theorem getD_of {l : List ℝ} {i : Nat} {x : ℝ} (h : l[i]? = some x) : l.getD i 0 = x := by
  rw [List.getD_eq_getElem?_getD, h]
  rfl

/-! ## The theorems -/

section
variable {sid : ℝ → ℝ → ℝ → ℝ × ℝ} {off : ℝ} {time ra dec : List ℝ}

/-- Some row with the same time and position comes first in time, in right ascension or in
declination. -/
def Reached (time ra dec : List ℝ) (i : Nat) : Prop :=
  ∃ j, (FirstAt ra j ∨ FirstAt dec j ∨ FirstAt time j) ∧ time[j]? = time[i]? ∧ ra[j]? = ra[i]? ∧ dec[j]? = dec[i]?

/-- Every row is reached, if rows with the same time have the same position. -/
theorem reached_of_fixed (h1 : time.length = ra.length) (h2 : dec.length = ra.length) (hr : Fixed time ra)
    (hd : Fixed time dec) {i : Nat} (hi : i < ra.length) : Reached time ra dec i := by
  obtain ⟨j, hj, hf, he⟩ := first_exists (l := time) (i := i) (by omega)
  have a1 : time[i]? = some time[i] := List.getElem?_eq_getElem _
  have a2 : ra[i]? = some ra[i] := List.getElem?_eq_getElem _
  have a3 : dec[i]? = some dec[i] := List.getElem?_eq_getElem _
  have b2 : ra[j]? = some ra[j] := List.getElem?_eq_getElem _
  have b3 : dec[j]? = some dec[j] := List.getElem?_eq_getElem _
  refine ⟨j, .inr (.inr hf), he, ?_, ?_⟩
  · rw [a2, b2, hr j i _ _ _ (he.trans a1) a1 b2 a2]
  · rw [a3, b3, hd j i _ _ _ (he.trans a1) a1 b3 a3]

theorem not_south (h1 : time.length = ra.length) (h2 : dec.length = ra.length)
    (hlo : ∀ d ∈ dec, -(Real.pi / 2) + off ≤ d) : ¬ South off time ra dec := by
  rintro ⟨i, hi, hx⟩
  have hlt := uniqueMask_lt hi
  rw [← h2] at hlt
  rw [List.getD_eq_getElem _ _ hlt] at hx
  have := hlo _ (List.getElem_mem hlt)
  linarith

/-- What a row gets, row by row: the angle of its own arc, if it is reached, and zero if not. -/
theorem frame_rows (ho : 0 < off) (h1 : time.length = ra.length) (h2 : dec.length = ra.length)
    (hlo : ∀ d ∈ dec, -(Real.pi / 2) + off ≤ d) (hhi : ∀ d ∈ dec, d ≤ Real.pi / 2 - off) :
    ∃ pa, framePosAngle sid true off time ra dec = .ok pa ∧ pa.length = ra.length ∧
      ∀ (i : Nat) (t r d : ℝ), time[i]? = some t → ra[i]? = some r → dec[i]? = some d →
        (Reached time ra dec i → pa[i]? = some (-pas (sid t r (d - off)) (sid t r (d + off)))) ∧
        (¬ Reached time ra dec i → pa[i]? = some 0) := by
  have hhi' : ∀ d ∈ dec, d - off ≤ Real.pi / 2 := fun d hd => by have := hhi d hd; linarith
  refine ⟨_, frame_ok ho h1 h2 hhi' (not_south h1 h2 hlo), by simp [h1, h2], ?_⟩
  intro i t r d ht hr hd
  rw [List.getElem?_map, zip3_get ht hr hd]
  simp only [Option.map_some, Option.some.injEq]
  have hent : ∀ j ∈ uniqueMask time ra dec, entryAt sid off time ra dec j =
      ⟨ra.getD j 0, dec.getD j 0, time.getD j 0, -pas (sid (time.getD j 0) (ra.getD j 0) (dec.getD j 0 - off))
        (sid (time.getD j 0) (ra.getD j 0) (dec.getD j 0 + off))⟩ := by
    intro j hj
    have hlt := uniqueMask_lt hj
    rw [← h2] at hlt
    have hno : ¬ (dec.getD j 0 + off > Real.pi / 2) := by
      rw [List.getD_eq_getElem _ _ hlt]
      have := hhi _ (List.getElem_mem hlt)
      rw [gt_iff_lt, not_lt]
      linarith
    unfold entryAt
    simp only [hno, decide_false, Bool.false_eq_true, if_false]
  have hback := backfill_eq (us := (uniqueMask time ra dec).map (entryAt sid off time ra dec)) (t := t) (r := r)
    (d := d) (v := -pas (sid t r (d - off)) (sid t r (d + off))) (by
      intro u hu e1 e2 e3
      rw [List.mem_map] at hu
      obtain ⟨j, hj, rfl⟩ := hu
      rw [hent j hj] at e1 e2 e3 ⊢
      simp only at e1 e2 e3 ⊢
      rw [e1, e2, e3])
  have hiff : (∃ u ∈ (uniqueMask time ra dec).map (entryAt sid off time ra dec), u.ra = r ∧ u.dec = d ∧ u.time = t) ↔
      Reached time ra dec i := by
    constructor
    · rintro ⟨u, hu, e1, e2, e3⟩
      rw [List.mem_map] at hu
      obtain ⟨j, hj, rfl⟩ := hu
      rw [hent j hj] at e1 e2 e3
      simp only at e1 e2 e3
      have hlt := uniqueMask_lt hj
      refine ⟨j, (mem_uniqueMask h1 h2).1 hj, ?_, ?_, ?_⟩
      · rw [ht, ← e3, List.getD_eq_getElem _ _ (by omega)]
        exact List.getElem?_eq_getElem _
      · rw [hr, ← e1, List.getD_eq_getElem _ _ (by omega)]
        exact List.getElem?_eq_getElem _
      · rw [hd, ← e2, List.getD_eq_getElem _ _ (by omega)]
        exact List.getElem?_eq_getElem _
    · rintro ⟨j, hj, e1, e2, e3⟩
      have hm := (mem_uniqueMask h1 h2).2 hj
      refine ⟨_, List.mem_map.2 ⟨j, hm, rfl⟩, ?_⟩
      rw [hent j hm]
      exact ⟨getD_of (e2.trans hr), getD_of (e3.trans hd), getD_of (e1.trans ht)⟩
  exact ⟨fun h => hback.1 (hiff.2 h), fun h => hback.2 fun h' => h (hiff.1 h')⟩

/-- **C76.** The position angle of a row is that of its own arc from south to north: minus the position angle,
in the frame, of the northern end of the arc seen from the southern end.  (For rows away from the poles whose
position goes with their time.) -/
theorem frame_angle_partial (ho : 0 < off) (h1 : time.length = ra.length) (h2 : dec.length = ra.length)
    (hlo : ∀ d ∈ dec, -(Real.pi / 2) + off ≤ d) (hhi : ∀ d ∈ dec, d ≤ Real.pi / 2 - off)
    (hfr : Fixed time ra) (hfd : Fixed time dec) :
    ∃ pa, framePosAngle sid true off time ra dec = .ok pa ∧ pa.length = ra.length ∧
      ∀ (i : Nat) (t r d : ℝ), time[i]? = some t → ra[i]? = some r → dec[i]? = some d →
        Apart (sid t r (d - off)) (sid t r (d + off)) →
        ∃ θ, pa[i]? = some (-θ) ∧ Bearing (sid t r (d - off)) (sid t r (d + off)) θ := by
  obtain ⟨pa, e1, e2, e3⟩ := frame_rows (sid := sid) ho h1 h2 hlo hhi
  refine ⟨pa, e1, e2, ?_⟩
  intro i t r d ht hr hd ha
  have hi := (List.getElem?_eq_some_iff.1 hr).1
  exact ⟨_, (e3 i t r d ht hr hd).1 (reached_of_fixed h1 h2 hfr hfd hi), pas_bearing ha⟩

/-- **C76.** If the frame only turns the sky about its axis, all position angles are zero. -/
theorem frame_angle_aligned (ho : 0 < off) (ho' : 2 * off ≤ Real.pi) (h1 : time.length = ra.length)
    (h2 : dec.length = ra.length) (hlo : ∀ d ∈ dec, -(Real.pi / 2) + off ≤ d)
    (hhi : ∀ d ∈ dec, d ≤ Real.pi / 2 - off) (turn : ℝ → ℝ) (hsid : ∀ t r d, sid t r d = (r + turn t, d)) :
    ∃ pa, framePosAngle sid true off time ra dec = .ok pa ∧ pa.length = ra.length ∧
      ∀ (i : Nat) (x : ℝ), pa[i]? = some x → x = 0 := by
  obtain ⟨pa, e1, e2, e3⟩ := frame_rows (sid := sid) ho h1 h2 hlo hhi
  refine ⟨pa, e1, e2, ?_⟩
  intro i x hx
  have hi := (List.getElem?_eq_some_iff.1 hx).1
  rw [e2] at hi
  have := e3 i time[i] ra[i] dec[i] (List.getElem?_eq_getElem _) (List.getElem?_eq_getElem _)
    (List.getElem?_eq_getElem _)
  by_cases hr : Reached time ra dec i
  · have h3 := this.1 hr
    rw [hx] at h3
    rw [Option.some.inj h3, hsid, hsid, pas_north (by linarith) (by linarith), neg_zero]
  · have h3 := this.2 hr
    rw [hx] at h3
    exact Option.some.inj h3

/-- **C76** fails near the south pole: an error, whatever the frame. -/
theorem frame_south_counterexample (ho : 0 < off) (h1 : time.length = ra.length) (h2 : dec.length = ra.length)
    (hhi : ∀ d ∈ dec, d ≤ Real.pi / 2) {d : ℝ} (hd : d ∈ dec) (hlo : d < -(Real.pi / 2) + off) :
    framePosAngle sid true off time ra dec = .error .assign := by
  refine frame_south ho h1 h2 (fun d hd => by have := hhi d hd; linarith) ?_
  obtain ⟨i, hi⟩ := List.getElem?_of_mem hd
  have hlt := (List.getElem?_eq_some_iff.1 hi).1
  obtain ⟨j, hj, hf, he⟩ := first_exists hlt
  refine ⟨j, (mem_uniqueMask h1 h2).2 (.inr (.inl hf)), ?_⟩
  rw [getD_of (he.trans hi)]
  linarith

/-- **C76** fails near the north pole: the angle is zero, whatever the frame. -/
theorem frame_north_counterexample (ho : 0 < off) (h1 : time.length = ra.length) (h2 : dec.length = ra.length)
    (hlo : ∀ d ∈ dec, -(Real.pi / 2) + off ≤ d) (hhi : ∀ d ∈ dec, d ≤ Real.pi / 2)
    (hfr : Fixed time ra) {i : Nat} {r d t : ℝ} (ht : time[i]? = some t) (hr : ra[i]? = some r)
    (hd : dec[i]? = some d) (hn : d + off > Real.pi / 2) :
    ∃ pa, framePosAngle sid true off time ra dec = .ok pa ∧ pa[i]? = some 0 := by
  have hhi' : ∀ d ∈ dec, d - off ≤ Real.pi / 2 := fun d hd => by have := hhi d hd; linarith
  refine ⟨_, frame_ok ho h1 h2 hhi' (not_south h1 h2 hlo), ?_⟩
  rw [List.getElem?_map, zip3_get ht hr hd]
  simp only [Option.map_some, Option.some.injEq]
  have hno : ∀ u ∈ (uniqueMask time ra dec).map (entryAt sid off time ra dec),
      u.ra = r → u.dec = d → u.time = t → False := by
    intro u hu e1 e2 e3
    rw [List.mem_map] at hu
    obtain ⟨j, hj, rfl⟩ := hu
    have hlt := uniqueMask_lt hj
    have b1 : time[j]? = some time[j] := List.getElem?_eq_getElem _
    have b2 : ra[j]? = some ra[j] := List.getElem?_eq_getElem _
    unfold entryAt at e1 e2 e3
    simp only at e1 e2 e3
    rw [e2, if_pos (by simpa using hn), getD_of b2] at e1
    rw [getD_of b1] at e3
    rw [e3] at b1
    rw [hfr j i t _ _ b1 ht b2 hr] at e1
    exact mod2pi_half r e1
  refine (backfill_eq (v := 0) fun u hu e1 e2 e3 => (hno u hu e1 e2 e3).elim).2 ?_
  rintro ⟨u, hu, e1, e2, e3⟩
  exact hno u hu e1 e2 e3

/-- **C76** fails for four sources in a rectangle on the sky at one time: the fourth gets the angle zero,
whatever the frame. -/
theorem frame_rectangle_counterexample (ho : 0 < off) {t a b c d : ℝ} (hab : a ≠ b) (hcd : c ≠ d)
    (hc : -(Real.pi / 2) + off ≤ c ∧ c ≤ Real.pi / 2 - off) (hd : -(Real.pi / 2) + off ≤ d ∧ d ≤ Real.pi / 2 - off) :
    ∃ pa, framePosAngle sid true off [t, t, t, t] [a, a, b, b] [c, d, c, d] = .ok pa ∧ pa[3]? = some 0 ∧
      pa[2]? = some (-pas (sid t b (c - off)) (sid t b (c + off))) := by
  obtain ⟨pa, e1, e2, e3⟩ := frame_rows (sid := sid) (off := off) (time := [t, t, t, t]) (ra := [a, a, b, b])
    (dec := [c, d, c, d]) ho rfl rfl (by
      intro x hx
      simp only [List.mem_cons, List.not_mem_nil, or_false] at hx
      rcases hx with rfl | rfl | rfl | rfl
      exacts [hc.1, hd.1, hc.1, hd.1]) (by
      intro x hx
      simp only [List.mem_cons, List.not_mem_nil, or_false] at hx
      rcases hx with rfl | rfl | rfl | rfl
      exacts [hc.2, hd.2, hc.2, hd.2])
  refine ⟨pa, e1, (e3 3 t b d rfl rfl rfl).2 ?_, (e3 2 t b c rfl rfl rfl).1 ?_⟩
  · rintro ⟨j, hj, -, q2, q3⟩
    match j with
    | 0 => simp at q2; exact hab q2
    | 1 => simp at q2; exact hab q2
    | 2 => simp at q3; exact hcd q3
    | 3 =>
      rcases hj with h | h | h
      · exact h.2 2 (by omega) rfl
      · exact h.2 1 (by omega) rfl
      · exact h.2 0 (by omega) rfl
    | j + 4 => simp at q2
  · refine ⟨2, .inl ⟨by simp, ?_⟩, rfl, rfl, rfl⟩
    intro j hj
    match j with
    | 0 => simpa using hab
    | 1 => simpa using hab
    | j + 2 => omega

end

end Verif.Sky
