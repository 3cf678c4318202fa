import Verif.Phase.Unproject

/-!
# Coordinates from antenna positions, and new antenna positions
-/

namespace Verif.Phase

open Verif.Coord (V3)
open Verif.Phasing (pick calcUvw proj diff StandsAt)
open Verif.PhaseCat (Entry St keys PointsAt Consistent unprojected)

/-- Rows that see their sources at the same hour angle and declination have the same position angle. -/
def SameAngles (o : Obj) : Prop :=
  ∀ (i j : Nat) (l l' r r' d d' p p' : ℝ), o.lst[i]? = some l → o.lst[j]? = some l' →
    SourceAt o i r d p → SourceAt o j r' d' p' → l - r = l' - r' → d = d' → p = p'

/-- All rows are unprojected, or none is. -/
def Uniform (o : Obj) : Prop :=
  (∀ i, i < o.uvw.length → Unproj o i) ∨ (∀ i, i < o.uvw.length → ¬ Unproj o i)

/-- `calc_uvw` with antenna positions, for the arguments of both methods. -/
theorem antArgs_spec (env : Env) {o : Obj} {pos : List V3} (hg : Good o) (hn : 0 < o.uvw.length)
    (hp : pos.length = o.nums.length) (hs : SameAngles o) :
    ∃ out, calcUvw env.junk (antArgs o pos) = .ok out ∧ out.length = o.uvw.length ∧
      ∀ (i : Nat) (n1 n2 : Int) (p1 p2 : V3) (l r d p : ℝ), o.ant1[i]? = some n1 → o.ant2[i]? = some n2 →
        StandsAt o.nums pos n1 p1 → StandsAt o.nums pos n2 p2 → o.lst[i]? = some l → SourceAt o i r d p →
        out[i]? = some (proj (r - (l - o.lon)) d p (diff p2 p1)) := by
  have hcall : Verif.Phasing.AntCall (antArgs o pos) pos o.nums o.ant1 o.ant2 o.lon o.uvw.length :=
    ⟨rfl, rfl, rfl, rfl, rfl, rfl, hg.nodup, hp, hg.ant1, hg.ant2, hg.known.1, hg.known.2, hn⟩
  obtain ⟨out, h1, h2, h3⟩ := Verif.Phasing.uvw_from_antennas_partial env.junk (lst := o.lst) (ra := o.ra)
    (dec := o.dec) hcall rfl rfl rfl rfl hg.lst hg.ra hg.dec
    (by intro q hq; obtain rfl := Option.some.inj hq; exact hg.pa) (by
      intro q hq j t1 t2 r1 r2 d1 d2 a1 a2 a3 a4 a5 a6 a7 a8
      obtain rfl := Option.some.inj hq
      have b1 := (List.getElem?_eq_some_iff.1 a1).1
      have b2 := (List.getElem?_eq_some_iff.1 a2).1
      rw [hg.lst, ← hg.pa] at b1 b2
      have z1 : o.pa[j]? = some o.pa[j] := List.getElem?_eq_getElem b1
      have z2 : o.pa[j + 1]? = some o.pa[j + 1] := List.getElem?_eq_getElem b2
      rw [z1, z2]
      congr 1
      exact hs j (j + 1) t1 t2 r1 r2 d1 d2 _ _ a1 a2 ⟨a3, a5, z1⟩ ⟨a4, a6, z2⟩ a7 a8)
  refine ⟨out, h1, h2, ?_⟩
  intro i n1 n2 p1 p2 l r d p e1 e2 s1 s2 hl hsrc
  exact h3 i n1 n2 p1 p2 l r d p e1 e2 s1 s2 hl hsrc.1 hsrc.2.1 hsrc.2.2

/-- What a successful `set_uvws_from_antenna_positions` did. -/
theorem setUvws_did {env : Env} {o o' : Obj} {upd : Bool} (hg : Good o) (h : setUvws env o upd = .ok o') :
    ∃ new, calcUvw env.junk (antArgs o o.pos) = .ok new ∧ o' = { o with uvw := new, data := o'.data } ∧
      (¬ (false ∈ unprojMask o.st ∧ upd = true) → o'.data = o.data) ∧
      (false ∈ unprojMask o.st ∧ upd = true → ∃ o1, o'.data = o1.data ∧
        applyW o (.array (new.map (·.z))) (.array (oldW o)) (List.replicate o.uvw.length true) = .ok o1) := by
  unfold setUvws at h
  cases hc : calcUvw env.junk (antArgs o o.pos) with
  | error e => rw [hc] at h; simp at h
  | ok new =>
    rw [hc] at h
    simp only at h
    by_cases h1 : false ∈ unprojMask o.st ∧ upd = true
    · rw [if_pos h1] at h
      cases hw : applyW o (.array (new.map (·.z))) (.array (oldW o)) (List.replicate o.uvw.length true) with
      | error e => rw [hw] at h; simp at h
      | ok o1 =>
        rw [hw] at h
        simp only [Except.ok.injEq] at h
        obtain ⟨q1, -⟩ := applyW_spec (fun d hd => (hg.data d hd).1) hw
        subst h
        refine ⟨new, rfl, by rw [q1], fun h2 => absurd h1 h2, fun _ => ⟨o1, rfl, hw⟩⟩
    · rw [if_neg h1] at h
      simp only [Except.ok.injEq] at h
      subst h
      exact ⟨new, rfl, rfl, fun _ => rfl, fun h2 => absurd h2 h1⟩

theorem projected_mem {o : Obj} (hg : Good o) {i : Nat} (hi : i < o.uvw.length) (h : ¬ Unproj o i) :
    false ∈ unprojMask o.st :=
  List.mem_of_getElem? ((unprojMask_not (by rw [hg.ids]; exact hi)).2 h)

section
variable {env : Env} {o o' : Obj} {upd : Bool}

/-- **C74.** `set_uvws_from_antenna_positions` gives every row the coordinates of the baseline between
its antennas, seen toward its source, and keeps everything but coordinates and data. -/
theorem setUvws_baselines_partial (hg : Good o) (hn : 0 < o.uvw.length) (hs : SameAngles o)
    (h : setUvws env o upd = .ok o') :
    o' = { o with uvw := o'.uvw, data := o'.data } ∧ o'.uvw.length = o.uvw.length ∧
    ∀ (i : Nat) (n1 n2 : Int) (p1 p2 : V3) (l : ℝ), o.ant1[i]? = some n1 → o.ant2[i]? = some n2 →
      StandsAt o.nums o.pos n1 p1 → StandsAt o.nums o.pos n2 p2 → o.lst[i]? = some l →
      Baseline o' i (l - o.lon) (diff p2 p1) := by
  obtain ⟨new, h1, h2, -, -⟩ := setUvws_did hg h
  obtain ⟨out, c1, c2, c3⟩ := antArgs_spec env hg hn hg.placed hs
  rw [h1] at c1
  obtain rfl := Except.ok.inj c1
  refine ⟨by rw [h2], by rw [h2]; exact c2, ?_⟩
  intro i n1 n2 p1 p2 l e1 e2 s1 s2 hl
  have hi : i < o.uvw.length := by rw [← hg.lst]; exact (List.getElem?_eq_some_iff.1 hl).1
  have g1 : o.ra[i]? = some (o.ra[i]'(by rw [hg.ra]; exact hi)) := List.getElem?_eq_getElem _
  have g2 : o.dec[i]? = some (o.dec[i]'(by rw [hg.dec]; exact hi)) := List.getElem?_eq_getElem _
  have g3 : o.pa[i]? = some (o.pa[i]'(by rw [hg.pa]; exact hi)) := List.getElem?_eq_getElem _
  refine ⟨_, _, _, ⟨by rw [h2]; exact g1, by rw [h2]; exact g2, by rw [h2]; exact g3⟩, ?_⟩
  rw [h2]
  exact c3 i n1 n2 p1 p2 l _ _ _ e1 e2 s1 s2 hl ⟨g1, g2, g3⟩

/-- **C74.** The object fits together after `set_uvws_from_antenna_positions`. -/
theorem setUvws_good (hg : Good o) (hn : 0 < o.uvw.length) (hs : SameAngles o)
    (h : setUvws env o upd = .ok o') : Good o' := by
  obtain ⟨new, h1, h2, h3, h4⟩ := setUvws_did hg h
  obtain ⟨out, c1, c2, -⟩ := antArgs_spec env hg hn hg.placed hs
  rw [h1] at c1
  obtain rfl := Except.ok.inj c1
  have hl : o'.uvw.length = o.uvw.length := by rw [h2]; exact c2
  refine ⟨by rw [h2]; exact hg.cons, by rw [hl, h2]; exact hg.ids, by rw [hl, h2]; exact hg.ant1,
    by rw [hl, h2]; exact hg.ant2, by rw [hl, h2]; exact hg.time, by rw [hl, h2]; exact hg.lst,
    by rw [hl, h2]; exact hg.ra, by rw [hl, h2]; exact hg.dec, by rw [hl, h2]; exact hg.pa, ?_,
    by rw [h2]; exact hg.nodup, by rw [h2]; exact hg.placed, by rw [h2]; exact hg.known⟩
  intro d hd
  have hfr : o'.freqs = o.freqs := by rw [h2]
  rw [hl, hfr]
  by_cases hc : false ∈ unprojMask o.st ∧ upd = true
  · obtain ⟨o1, a, b⟩ := h4 hc
    obtain ⟨q1, q2, q3, q4, q5, q6⟩ := applyW_spec (fun d hd => (hg.data d hd).1) b
    rw [a] at hd
    refine ⟨q3 d hd, fun row hrow => ?_⟩
    obtain ⟨i, hi⟩ := List.getElem?_of_mem hrow
    have hlt : i < o.uvw.length := by rw [← q3 d hd]; exact (List.getElem?_eq_some_iff.1 hi).1
    have hlt' : i < new.length := by rw [c2]; exact hlt
    obtain ⟨row0, ⟨d0, a, b⟩, rfl⟩ := (q6 i (new[i]).z ((oldW o)[i]'(by rw [oldW_length]; exact hlt))
      (by rw [List.getElem?_replicate, if_pos hlt])
      (W.at_array (by rw [List.length_map, c2]) (by rw [List.getElem?_map, List.getElem?_eq_getElem hlt']; rfl))
      (W.at_array (oldW_length o) (List.getElem?_eq_getElem _)) row).1 ⟨d, hd, hi⟩
    exact turn_length _ _ _ ((hg.data d0 a).2 row0 (List.mem_of_getElem? b))
  · rw [h3 hc] at hd
    exact hg.data d hd

/-- **C74.** With an update of the visibilities, `set_uvws_from_antenna_positions` leaves what the
correlator measured unchanged - if the rows are all unprojected or all projected. -/
theorem setUvws_keeps_signal_partial (hg : Good o) (hn : 0 < o.uvw.length) (hs : SameAngles o)
    (hu : Uniform o) (h : setUvws env o true = .ok o') : Keeps o o' := by
  obtain ⟨new, h1, h2, h3, h4⟩ := setUvws_did hg h
  obtain ⟨out, c1, c2, -⟩ := antArgs_spec env hg hn hg.placed hs
  rw [h1] at c1
  obtain rfl := Except.ok.inj c1
  have hl : o'.uvw.length = o.uvw.length := by rw [h2]; exact c2
  have hfr : o'.freqs = o.freqs := by rw [h2]
  have hun : ∀ i, Unproj o' i ↔ Unproj o i := by
    intro i
    unfold Unproj
    rw [h2]
  intro i j p z
  by_cases hi : i < o.uvw.length
  · have hi' : i < new.length := by rw [c2]; exact hi
    rcases hu with hu | hu
    · have hc : ¬ (false ∈ unprojMask o.st ∧ true = true) := by
        rintro ⟨h0, -⟩
        obtain ⟨q, hq⟩ := List.getElem?_of_mem h0
        have hlt := (List.getElem?_eq_some_iff.1 hq).1
        rw [unprojMask_length] at hlt
        exact (unprojMask_not hlt).1 hq (hu q (by rw [← hg.ids]; exact hlt))
      have h5 := h3 hc
      refine signal_same hfr (fun w => ?_) (fun row => ?_) j p z
      · have hp : Path o i 0 := .inl ⟨hu i hi, rfl, hi⟩
        have hp' : Path o' i 0 := .inl ⟨(hun i).2 (hu i hi), rfl, by rw [hl]; exact hi⟩
        exact ⟨fun hw => by rw [path_unique hw hp]; exact hp', fun hw => by rw [path_unique hw hp']; exact hp⟩
      · unfold RowData
        rw [h5]
    · obtain ⟨o1, a, b⟩ := h4 ⟨projected_mem hg hi (hu i hi), rfl⟩
      obtain ⟨q1, q2, q3, q4, q5, q6⟩ := applyW_spec (fun d hd => (hg.data d hd).1) b
      have hp : Path o i (o.uvw[i]).z := .inr ⟨hu i hi, _, List.getElem?_eq_getElem hi, rfl⟩
      have hp' : Path o' i (new[i]).z :=
        .inr ⟨fun h0 => hu i hi ((hun i).1 h0), _, by rw [h2]; exact List.getElem?_eq_getElem hi', rfl⟩
      refine signal_turned hfr hp hp' (fun row' => ?_) j p z
      have := q6 i (new[i]).z (o.uvw[i]).z (by rw [List.getElem?_replicate, if_pos hi])
        (W.at_array (by rw [List.length_map, c2]) (by rw [List.getElem?_map, List.getElem?_eq_getElem hi']; rfl))
        (W.at_array (oldW_length o) (oldW_get hg.ids hp)) row'
      unfold RowData at this ⊢
      rw [a]
      exact this
  · have hi' : ¬ i < o'.uvw.length := by rw [hl]; exact hi
    exact ⟨fun h => absurd h (signal_out hi), fun h => absurd h (signal_out hi')⟩

/-- **C74** is false for objects with rows of both kinds: an unprojected row is turned by the whole
length of its baseline along the line of sight, though no path was to be taken out. -/
theorem setUvws_mixed_counterexample (hg : Good o) (hn : 0 < o.uvw.length) (hs : SameAngles o)
    (h : setUvws env o true = .ok o') (i k : Nat) (hi : Unproj o i) (hk : k < o.uvw.length) (hk' : ¬ Unproj o k)
    (v : V3) (hv : o'.uvw[i]? = some v) (j p : Nat) (z : ℂ) (f : ℝ) (hf : o.freqs[j]? = some f) :
    Signal o i j p z → Signal o' i j p (z * wave f v.z) := by
  obtain ⟨new, h1, h2, h3, h4⟩ := setUvws_did hg h
  obtain ⟨out, c1, c2, -⟩ := antArgs_spec env hg hn hg.placed hs
  rw [h1] at c1
  obtain rfl := Except.ok.inj c1
  have hfr : o'.freqs = o.freqs := by rw [h2]
  have hun : Unproj o' i := by unfold Unproj at hi ⊢; rw [h2]; exact hi
  obtain ⟨o1, a, b⟩ := h4 ⟨projected_mem hg hk hk', rfl⟩
  obtain ⟨q1, q2, q3, q4, q5, q6⟩ := applyW_spec (fun d hd => (hg.data d hd).1) b
  rintro ⟨w, f', y, hw, hf', ⟨d, row, chan, d1, d2, d3, d4⟩, hy⟩
  have hlt : i < o.uvw.length := by rw [← (hg.data d d1).1]; exact (List.getElem?_eq_some_iff.1 d2).1
  have hw0 : w = 0 := path_unique hw (.inl ⟨hi, rfl, hlt⟩)
  rw [hf] at hf'
  obtain rfl := Option.some.inj hf'
  have hv' : new[i]? = some v := by rw [← hv, h2]
  have hlt' : i < new.length := by rw [c2]; exact hlt
  have := (q6 i v.z 0 (by rw [List.getElem?_replicate, if_pos hlt])
        (W.at_array (by rw [List.length_map, c2]) (by rw [List.getElem?_map, hv']; rfl))
        (W.at_array (oldW_length o) (oldW_get hg.ids (.inl ⟨hi, rfl, hlt⟩))) (turn o.freqs (v.z - 0) row)).2
        ⟨row, ⟨d, d1, d2⟩, rfl⟩
  obtain ⟨d', e1, e2⟩ := this
  rw [← a] at e1
  refine ⟨0, f, y * phasor (v.z - 0) f, .inl ⟨hun, rfl, by rw [h2]; exact hlt'⟩, by rw [hfr]; exact hf,
    ⟨d', _, chan.map (· * phasor (v.z - 0) f), e1, e2, ?_, ?_⟩, ?_⟩
  · unfold turn
    rw [List.getElem?_zipWith, hf, d3]
  · rw [List.getElem?_map, d4]; rfl
  · have := phasor_wave v.z 0 f
    rw [wave_zero, one_mul] at this
    rw [this, hy, hw0, wave_zero, mul_one, mul_one]

end

/-! ## New antenna positions -/

/-- The new positions: those of the dictionary, and the old ones for other antennas. -/
theorem newPos_stands {o : Obj} (hg : Good o) {new : Int → Option V3} {n : Int} {p : V3}
    (h : StandsAt o.nums o.pos n p) : StandsAt o.nums (newPos o new) n ((new n).getD p) := by
  obtain ⟨i, h1, h2⟩ := h
  refine ⟨i, h1, ?_⟩
  unfold newPos
  rw [List.getElem?_zipWith, h1, h2]

theorem newPos_length {o : Obj} (hg : Good o) (new : Int → Option V3) :
    (newPos o new).length = o.nums.length := by
  unfold newPos
  rw [List.length_zipWith, hg.placed, min_self]

section
variable {env : Env} {o o' : Obj} {new : Int → Option V3} {delta upd : Bool}

/-- **C74.** Whenever `update_antenna_positions` succeeds, every antenna stands at its new position, or
where it was if it has none. -/
theorem updateAnts_positions (hg : Good o) (h : updateAnts env o new delta upd = .ok o') (n : Int) (p : V3)
    (hp : StandsAt o.nums o.pos n p) : StandsAt o'.nums o'.pos n ((new n).getD p) := by
  have hstand := newPos_stands hg (new := new) hp
  unfold updateAnts at h
  by_cases h0 : newPos o new = o.pos
  · rw [if_pos h0] at h
    obtain rfl := Except.ok.inj h
    rw [h0] at hstand
    exact hstand
  rw [if_neg h0] at h
  cases delta with
  | false =>
    simp only [Bool.false_eq_true, if_false] at h
    unfold setUvws at h
    cases hc : calcUvw env.junk (antArgs { o with pos := newPos o new } (newPos o new)) with
    | error e => rw [show ({ o with pos := newPos o new } : Obj).pos = newPos o new from rfl, hc] at h; simp at h
    | ok w =>
      rw [show ({ o with pos := newPos o new } : Obj).pos = newPos o new from rfl, hc] at h
      simp only at h
      split_ifs at h with h1
      · cases hw : applyW { o with pos := newPos o new } (.array (w.map (·.z)))
          (.array (oldW { o with pos := newPos o new })) (List.replicate o.uvw.length true) with
        | error e => rw [hw] at h; simp at h
        | ok o1 =>
          rw [hw] at h
          obtain rfl := Except.ok.inj h
          obtain ⟨q1, -⟩ := applyW_spec (o := { o with pos := newPos o new }) (fun d hd => (hg.data d hd).1) hw
          rw [q1]
          exact hstand
      · obtain rfl := Except.ok.inj h
        exact hstand
  | true =>
    simp only [if_true] at h
    split at h
    · simp at h
    · split at h
      · simp at h
      · rename_i o1 hw
        obtain rfl := Except.ok.inj h
        have : o1.nums = o.nums := by
          cases upd with
          | false => simp only [Bool.false_eq_true, if_false, Except.ok.injEq] at hw; rw [hw]
          | true =>
            simp only [if_true] at hw
            obtain ⟨q1, -⟩ := applyW_spec (fun d hd => (hg.data d hd).1) hw
            rw [q1]
        show StandsAt o1.nums (newPos o new) n _
        rw [this]
        exact hstand

/-- The differences between new and old positions. -/
theorem delta_stands {o : Obj} {new : Int → Option V3} {n : Int} {p : V3}
    (h : StandsAt o.nums o.pos n p) :
    StandsAt o.nums (List.zipWith subV (newPos o new) o.pos) n (subV ((new n).getD p) p) := by
  obtain ⟨i, h1, h2⟩ := h
  refine ⟨i, h1, ?_⟩
  unfold newPos
  rw [List.getElem?_zipWith, List.getElem?_zipWith, h1, h2]

theorem proj_add (a d p : ℝ) (v w : V3) : addV (proj a d p v) (proj a d p w) = proj a d p (addV v w) := by
  simp only [addV, proj, Verif.Phasing.dot, Verif.Phasing.toward, Verif.Phasing.eastOf,
    Verif.Phasing.northOf, V3.mk.injEq]
  refine ⟨?_, ?_, ?_⟩ <;> ring

theorem stands_unique {nums : List Int} {pos : List V3} (hn : nums.Nodup) {n : Int} {p q : V3}
    (h1 : StandsAt nums pos n p) (h2 : StandsAt nums pos n q) : p = q := by
  obtain ⟨i, a, b⟩ := h1
  obtain ⟨j, c, d⟩ := h2
  have : i = j := (List.getElem?_inj (List.getElem?_eq_some_iff.1 a).1 hn).1 (a.trans c.symm)
  subst this
  rw [b] at d
  exact Option.some.inj d

/-- **C74.** After `update_antenna_positions`, rows have the coordinates of the baseline between the new
positions: with `delta_antpos` if they had those of the baseline between the old ones, and without
it in any case.  (Nothing is changed if no antenna moves.) -/
theorem updateAnts_baselines_partial (hg : Good o) (hn : 0 < o.uvw.length) (hs : SameAngles o)
    (h : updateAnts env o new delta upd = .ok o') (i : Nat) (n1 n2 : Int) (p1 p2 : V3) (l : ℝ)
    (e1 : o.ant1[i]? = some n1) (e2 : o.ant2[i]? = some n2) (s1 : StandsAt o.nums o.pos n1 p1)
    (s2 : StandsAt o.nums o.pos n2 p2) (hl : o.lst[i]? = some l)
    (hb : delta = true ∨ newPos o new = o.pos → Baseline o i (l - o.lon) (diff p2 p1)) :
    Baseline o' i (l - o.lon) (diff ((new n2).getD p2) ((new n1).getD p1)) := by
  unfold updateAnts at h
  by_cases h0 : newPos o new = o.pos
  · rw [if_pos h0] at h
    obtain rfl := Except.ok.inj h
    have t1 := newPos_stands hg (new := new) s1
    have t2 := newPos_stands hg (new := new) s2
    rw [h0] at t1 t2
    rw [stands_unique hg.nodup t1 s1, stands_unique hg.nodup t2 s2]
    exact hb (.inr h0)
  rw [if_neg h0] at h
  cases delta with
  | false =>
    simp only [Bool.false_eq_true, if_false] at h
    have hg' : Good { o with pos := newPos o new } :=
      ⟨hg.cons, hg.ids, hg.ant1, hg.ant2, hg.time, hg.lst, hg.ra, hg.dec, hg.pa, hg.data, hg.nodup,
        newPos_length hg new, hg.known⟩
    exact (setUvws_baselines_partial hg' hn hs h).2.2 i n1 n2 _ _ l e1 e2 (newPos_stands hg s1)
      (newPos_stands hg s2) hl
  | true =>
    simp only [if_true] at h
    obtain ⟨out, c1, c2, c3⟩ := antArgs_spec env hg hn (pos := List.zipWith subV (newPos o new) o.pos)
      (by rw [List.length_zipWith, newPos_length hg, hg.placed, min_self]) hs
    rw [c1] at h
    simp only at h
    split at h
    · simp at h
    · rename_i o1 hw
      obtain rfl := Except.ok.inj h
      have hq : o1 = { o with data := o1.data } := by
        cases upd with
        | false => simp only [Bool.false_eq_true, if_false, Except.ok.injEq] at hw; rw [hw]
        | true =>
          simp only [if_true] at hw
          exact (applyW_spec (fun d hd => (hg.data d hd).1) hw).1
      obtain ⟨r, d, p, hsrc, hv⟩ := hb (.inl rfl)
      refine ⟨r, d, p, by rw [hq]; exact hsrc, ?_⟩
      rw [hq]
      show (List.zipWith addV o.uvw out)[i]? = _
      rw [List.getElem?_zipWith, hv, c3 i n1 n2 _ _ l r d p e1 e2 (delta_stands s1) (delta_stands s2) hl hsrc]
      simp only [proj_add, Option.some.injEq]
      congr 1
      simp only [addV, diff, subV, V3.mk.injEq]
      refine ⟨?_, ?_, ?_⟩ <;> ring

/-- **C74.** Without `delta_antpos`, `update_antenna_positions` with an update of the visibilities leaves
what the correlator measured unchanged - if the rows are all unprojected or all projected. -/
theorem updateAnts_keeps_signal_partial (hg : Good o) (hn : 0 < o.uvw.length) (hs : SameAngles o)
    (hu : Uniform o) (h : updateAnts env o new false true = .ok o') : Keeps o o' := by
  unfold updateAnts at h
  by_cases h0 : newPos o new = o.pos
  · rw [if_pos h0] at h
    obtain rfl := Except.ok.inj h
    intro i j p s
    exact Iff.rfl
  rw [if_neg h0] at h
  simp only [Bool.false_eq_true, if_false] at h
  have hg' : Good { o with pos := newPos o new } :=
    ⟨hg.cons, hg.ids, hg.ant1, hg.ant2, hg.time, hg.lst, hg.ra, hg.dec, hg.pa, hg.data, hg.nodup,
      newPos_length hg new, hg.known⟩
  have hu' : Uniform { o with pos := newPos o new } := hu
  have hs' : SameAngles { o with pos := newPos o new } := hs
  have key := setUvws_keeps_signal_partial hg' hn hs' hu' h
  intro i j p z
  rw [← key i j p z]
  exact Iff.rfl

/-- **C74** is false with `delta_antpos`: the visibilities of projected rows stay as they are although
their coordinates change, and those of unprojected rows are turned although no path is taken out. -/
theorem updateAnts_delta_counterexample (hg : Good o) (hn : 0 < o.uvw.length) (hs : SameAngles o)
    (h : updateAnts env o new true true = .ok o') (i : Nat) (hi : i < o.uvw.length) (hmoved : newPos o new ≠ o.pos) :
    (¬ Unproj o i → ∀ j p z, Vis o i j p z ↔ Vis o' i j p z) ∧
    (Unproj o i → ∃ w : ℝ, (∀ v v', o.uvw[i]? = some v → o'.uvw[i]? = some v' → w = v'.z - v.z) ∧
      ∀ j p z f, o.freqs[j]? = some f → Signal o i j p z → Signal o' i j p (z * wave f (-w))) := by
  unfold updateAnts at h
  rw [if_neg hmoved] at h
  simp only [if_true] at h
  obtain ⟨out, c1, c2, c3⟩ := antArgs_spec env hg hn (pos := List.zipWith subV (newPos o new) o.pos)
    (by rw [List.length_zipWith, newPos_length hg, hg.placed, min_self]) hs
  rw [c1] at h
  simp only at h
  cases hw : applyW o (.scalar 0) (.array (out.map (·.z))) (unprojMask o.st) with
  | error e => rw [hw] at h; simp at h
  | ok o1 =>
    rw [hw] at h
    obtain rfl := Except.ok.inj h
    obtain ⟨q1, q2, q3, q4, q5, q6⟩ := applyW_spec (fun d hd => (hg.data d hd).1) hw
    have hii : i < o.st.ids.length := by rw [hg.ids]; exact hi
    constructor
    · intro hu j p z
      have hb := (unprojMask_not hii).2 hu
      unfold Vis
      constructor
      · rintro ⟨d, row, chan, a, b, c, e⟩
        obtain ⟨d', a', b'⟩ := (q5 i row hb).2 ⟨d, a, b⟩
        exact ⟨d', row, chan, a', b', c, e⟩
      · rintro ⟨d, row, chan, a, b, c, e⟩
        obtain ⟨d', a', b'⟩ := (q5 i row hb).1 ⟨d, a, b⟩
        exact ⟨d', row, chan, a', b', c, e⟩
    · intro hu
      have hb := (unprojMask_get hii).2 hu
      have hio : i < out.length := by rw [c2]; exact hi
      have huv : o1.uvw = o.uvw := by rw [q1]
      refine ⟨(out[i]).z, ?_, ?_⟩
      · intro v v' hv hv'
        have : (List.zipWith addV o1.uvw out)[i]? = some v' := hv'
        rw [huv, List.getElem?_zipWith, hv, List.getElem?_eq_getElem hio] at this
        simp only [Option.some.injEq] at this
        rw [← this]
        simp [addV]
      · rintro j p z f hf ⟨w, f', y, hw', hf', ⟨d, row, chan, d1, d2, d3, d4⟩, hy⟩
        rw [hf] at hf'
        obtain rfl := Option.some.inj hf'
        have hw0 : w = 0 := path_unique hw' (.inl ⟨hu, rfl, hi⟩)
        obtain ⟨d', e1, e2⟩ := (q6 i 0 (out[i]).z hb (by simp [W.at, hi])
          (W.at_array (by rw [List.length_map, c2])
            (by rw [List.getElem?_map, List.getElem?_eq_getElem hio]; rfl))
          (turn o.freqs (0 - (out[i]).z) row)).2 ⟨row, ⟨d, d1, d2⟩, rfl⟩
        have hun : Unproj { o1 with pos := newPos o new, uvw := List.zipWith addV o1.uvw out } i := by
          unfold Unproj at hu ⊢
          rw [q1]
          exact hu
        refine ⟨0, f, y * phasor (0 - (out[i]).z) f, .inl ⟨hun, rfl, ?_⟩, ?_,
          ⟨d', _, chan.map (· * phasor (0 - (out[i]).z) f), e1, e2, ?_, ?_⟩, ?_⟩
        · show i < (List.zipWith addV o1.uvw out).length
          rw [List.length_zipWith, huv, c2, min_self]; exact hi
        · show o1.freqs[j]? = some f
          rw [q1]; exact hf
        · unfold turn
          rw [List.getElem?_zipWith, hf, d3]
        · rw [List.getElem?_map, d4]; rfl
        · have := phasor_wave (-(out[i]).z) 0 f
          rw [wave_zero, one_mul, sub_zero] at this
          rw [zero_sub, this, hy, hw0, wave_zero, mul_one, mul_one]

end

end Verif.Phase
