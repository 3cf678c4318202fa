import Verif.Phase.Success

/-!
# Concrete cases, and cases in which the claims fail
-/

namespace Verif.Phase

open Verif.Coord (V3)
open Verif.Phasing (pick calcUvw proj diff StandsAt)
open Verif.PhaseCat (Entry St Cat Pop keys PointsAt Consistent unprojected sidereal user altaz Matches genEntry ephem)
open Verif.Pol (Str)

theorem signal_unique {o : Obj} {i j p : Nat} {s s' : ℂ} (h : Signal o i j p s) (h' : Signal o i j p s') :
    s = s' := by
  obtain ⟨w, f, z, a1, a2, ⟨d, row, chan, b1, b2, b3, b4⟩, a4⟩ := h
  obtain ⟨w', f', z', c1, c2, ⟨d', row', chan', e1, e2, e3, e4⟩, c4⟩ := h'
  rw [path_unique c1 a1] at c4
  rw [a2] at c2; obtain rfl := Option.some.inj c2
  rw [b1] at e1; obtain rfl := Option.some.inj e1
  rw [b2] at e2; obtain rfl := Option.some.inj e2
  rw [b3] at e3; obtain rfl := Option.some.inj e3
  rw [b4] at e4; obtain rfl := Option.some.inj e4
  rw [a4] at c4
  exact mul_right_cancel₀ (wave_ne_zero f w) c4

theorem not_keeps {o o' : Obj} {i j p : Nat} {s s' : ℂ} (h : Signal o i j p s) (h' : Signal o' i j p s')
    (hne : s ≠ s') : ¬ Keeps o o' := fun hk => hne (signal_unique ((hk i j p s).1 h) h')

theorem ok_of {ε α : Type} {x : Except ε α} (h : x.isOk = true) : ∃ r, x = .ok r := by
  cases x with
  | error e => simp [Except.isOk, Except.toBool] at h
  | ok r => exact ⟨r, rfl⟩

noncomputable section

def onePop : Pop := ⟨fun l => l.headD 0, fun l hl => by cases l with | nil => simp at hl | cons a l => simp⟩

/-- Every source is overhead, at position angle zero. -/
def env0 : Env :=
  { c := ⟨11 / 7, 1 / 1000000⟩, pop := onePop, junk := fun _ _ => 0,
    app := fun _ ts _ => .ok (ts.map fun _ => 0, ts.map fun _ => 0),
    angle := fun _ _ ts _ _ => .ok (ts.map fun _ => 0), jpl := fun _ _ => none }

/-- An unprojected phase center named "u". -/
def uEntry : Entry :=
  ⟨['u'], unprojected, some (.scalar 0), some (.scalar (11 / 7)), some altaz, none, none, none, none, none, none, user⟩

/-- A sidereal source named "s". -/
def sEntry : Entry :=
  ⟨['s'], sidereal, some (.scalar 0), some (.scalar 0), some icrs, some 2000, none, none, none, none, none, user⟩

/-- A quarter of a wave per metre. -/
def quarter : ℝ := 299792458 / 4

/-- Rows of one baseline, one metre long and pointing upward, with one channel and visibilities 1. -/
def rowsOf (cat : Cat) (ids : List Int) (uvw : V3) (dec : ℝ) : Obj :=
  { st := ⟨cat, ids, cat.length⟩, ant1 := ids.map fun _ => 0, ant2 := ids.map fun _ => 1,
    time := ids.map fun _ => 0, lst := ids.map fun _ => 0, uvw := ids.map fun _ => uvw, ra := ids.map fun _ => 0,
    dec := ids.map fun _ => dec, pa := ids.map fun _ => 0, data := some (ids.map fun _ => [[1]]),
    freqs := [quarter], nums := [0, 1], pos := [⟨0, 0, 0⟩, ⟨1, 0, 0⟩], lat := 0, lon := 0 }

theorem rowsOf_good {cat : Cat} {ids : List Int} {uvw : V3} {dec : ℝ} (h1 : (cat.map Prod.fst).Nodup)
    (h2 : ∀ i ∈ ids, ∃ e, (i, e) ∈ cat) : Good (rowsOf cat ids uvw dec) := by
  refine ⟨⟨h1, rfl, h2⟩, ?_, ?_, ?_, ?_, ?_, ?_, ?_, ?_, ?_, by simp [rowsOf], by simp [rowsOf], ?_⟩ <;>
    try simp [rowsOf]

theorem rowsOf_angles {cat : Cat} {ids : List Int} {uvw : V3} {dec : ℝ} :
    SameAngles (rowsOf cat ids uvw dec) := by
  rintro i j l l' r r' d d' p p' - - ⟨-, -, h1⟩ ⟨-, -, h2⟩ - -
  simp only [rowsOf, List.getElem?_map, Option.map_eq_some_iff] at h1 h2
  obtain ⟨_, _, rfl⟩ := h1
  obtain ⟨_, _, rfl⟩ := h2
  rfl

theorem wave_quarter (n : ℝ) : wave quarter n = ⟨Real.cos (Real.pi / 2 * n), -Real.sin (Real.pi / 2 * n)⟩ := by
  have : turns quarter n = Real.pi / 2 * n := by unfold turns quarter; ring
  unfold wave
  rw [this]

theorem wave_one : wave quarter 1 = ⟨0, -1⟩ := by rw [wave_quarter]; simp

theorem wave_one_ne : (1 : ℂ) ≠ 1 * wave quarter 1 := by
  rw [wave_one, one_mul]
  intro h
  have := congrArg Complex.re h
  simp at this

theorem proj_up : proj 0 0 0 (diff ⟨1, 0, 0⟩ ⟨0, 0, 0⟩) = ⟨0, 0, 1⟩ := by
  simp [proj, diff, Verif.Phasing.dot, Verif.Phasing.eastOf, Verif.Phasing.northOf, Verif.Phasing.toward]

theorem rowsOf_vis {cat : Cat} {ids : List Int} {uvw : V3} {dec : ℝ} {i : Nat} (hi : i < ids.length) :
    Vis (rowsOf cat ids uvw dec) i 0 0 1 :=
  ⟨_, [[1]], [1], rfl, by rw [List.getElem?_map, List.getElem?_eq_getElem hi]; rfl, rfl, rfl⟩

theorem rowsOf_signal {cat : Cat} {ids : List Int} {uvw : V3} {dec : ℝ} {i : Nat} (hi : i < ids.length) {w : ℝ}
    (hw : Path (rowsOf cat ids uvw dec) i w) (hc : wave quarter w = 1) :
    Signal (rowsOf cat ids uvw dec) i 0 0 1 :=
  ⟨w, quarter, 1, hw, rfl, rowsOf_vis hi, by rw [hc, mul_one]⟩

/-- `phase` toward a source succeeds in this world. -/
theorem phase0 {cat : Cat} {ids : List Int} {uvw : V3} {dec : ℝ} {t : Call} {e : Entry} {id : Option Int}
    (h1 : (cat.map Prod.fst).Nodup) (h2 : ∀ i ∈ ids, ∃ e, (i, e) ∈ cat)
    (hmask : ∀ q, t.mask = some q → q.length = ids.length) (hsome : ∃ i, i < ids.length ∧ Selected t.mask i)
    (hlon : t.theLon = some (.scalar 0)) (hlat : t.theLat = some (.scalar 0)) (hu : t.useAntPos = true ∨ t.mask = none)
    (hdict : phaseDict env0 cat t (ids.map fun _ => 0) = .ok (e, id))
    (hadd : ∃ r, Verif.PhaseCat.add env0.c env0.pop ⟨cat, ids, cat.length⟩ e id true = .ok r) :
    ∃ o', phase env0 (rowsOf cat ids uvw dec) t = .ok o' := by
  obtain ⟨⟨s, k⟩, hadd⟩ := hadd
  set o := rowsOf cat ids uvw dec with ho
  set m := t.rows o.uvw.length with hm
  have hlen : (o.uvw).length = ids.length := by simp [ho, rowsOf]
  have hml : m.length = o.uvw.length := by
    rw [hm]
    unfold Call.rows
    cases hq : t.mask with
    | none => simp
    | some q => simp [hmask q hq, hlen]
  have hpk : (pick m o.time).length = (pick m o.uvw).length := by
    rw [pick_count _ _ hml, pick_count _ _ (by rw [hml, hlen]; simp [ho, rowsOf])]
  have hpa : ∃ pa, newAngles env0 t (pick m o.time) ((pick m o.time).map fun _ => 0)
      ((pick m o.time).map fun _ => 0) = .ok pa ∧ ∃ n, pa = List.replicate n 0 ∧ n = (pick m o.time).length := by
    unfold newAngles
    split_ifs
    · exact ⟨_, rfl, _, rfl, rfl⟩
    · exact ⟨_, rfl, _, List.map_const', rfl⟩
  obtain ⟨pa, hpa, n, hn, hn'⟩ := hpa
  refine phase_succeeds (o := o) (e := e) (id := id) (s := s) (k := k) (ra := (pick m o.time).map fun _ => 0)
    (dec := (pick m o.time).map fun _ => 0) (pa := pa) (rowsOf_good h1 h2) ?_ ?_ (.inr ⟨by simp [hlon], by simp [hlat]⟩)
    hdict (.inr (.inr ⟨by simp [hlon, big], by simp [hlat, big]⟩)) rfl hpa ?_ hadd ?_
  · intro q hq; rw [hlen]; exact hmask q hq
  · rw [hlen]; exact hsome
  · refine ⟨?_, ?_, ?_⟩
    · rw [List.length_map]; exact hpk
    · rw [List.length_map]; exact hpk
    · rw [hn, List.length_replicate, hn']; exact hpk
  · cases hb : t.useAntPos with
    | false => exact .inr ⟨rfl, hu.resolve_left (by simp [hb])⟩
    | true =>
      refine .inl ⟨rfl, ?_⟩
      intro i l l' r r' d d' _ a2 _ a3 _ _ _ _
      have b := (List.getElem?_eq_some_iff.1 a3).1
      rw [List.length_map] at b
      rw [hn, List.getElem?_replicate, List.getElem?_replicate, if_pos (by omega), if_pos (by omega)]

/-! ## Looking up a source of the other kind -/

/-- **C71** is false when a row is phased to an unprojected entry by its name without naming the type:
its visibilities are turned by the whole length of the baseline, though no path was to be taken out. -/
theorem phase_kind_turned {env : Env} {o o' : Obj} {t : Call} (hg : Good o) (h : phase env o t = .ok o')
    (hty : t.type ≠ some unprojected) (i : Nat) (hs : Selected t.mask i) (hu : Unproj o' i) (v : V3)
    (hv : o'.uvw[i]? = some v) (j p : Nat) (z : ℂ) (f : ℝ) (hf : o.freqs[j]? = some f) :
    Signal o i j p z → Signal o' i j p (z * wave f v.z) := by
  obtain ⟨m, e, id, ra, dec, pa, uvw, s, k, o1, H⟩ := phase_did hg h
  obtain ⟨q1, q2, q3, q4, q5, q6⟩ :=
    applyW_spec (o := { o with st := s }) (fun d hd => (hg.data d hd).1) H.applied
  rintro ⟨w, f', y, hw, hf', ⟨d, row, chan, d1, d2, d3, d4⟩, hy⟩
  rw [hf] at hf'
  obtain rfl := Option.some.inj hf'
  have hi : i < o.uvw.length := by rw [← (hg.data d d1).1]; exact (List.getElem?_eq_some_iff.1 d2).1
  have hb := (H.selected hi).1.2 hs
  have huv := (H.row hg hb).1
  rw [hv] at huv
  have hx : (newW o t m uvw).at o.uvw.length i = some v.z := by
    unfold newW
    rw [if_neg hty]
    refine W.at_array (by rw [maskSet_length, List.length_replicate]) ?_
    rw [maskSet_true _ _ _ _ (by rw [List.length_replicate]; exact H.len)
      (by rw [List.length_map, H.luvw, pick_count _ _ H.len]) hb, List.getElem?_map, ← huv]
    rfl
  obtain ⟨d', e1, e2⟩ := (q6 i v.z w hb hx (W.at_array (oldW_length o) (oldW_get hg.ids hw))
    (turn o.freqs (v.z - w) row)).2 ⟨row, ⟨d, d1, d2⟩, rfl⟩
  rw [← H.data] at e1
  refine ⟨0, f, y * phasor (v.z - w) f, .inl ⟨hu, rfl, by rw [H.length]; exact hi⟩, by rw [H.result]; exact hf,
    ⟨d', _, chan.map (· * phasor (v.z - w) f), e1, e2, ?_, ?_⟩, ?_⟩
  · unfold turn
    rw [List.getElem?_zipWith, hf, d3]
  · rw [List.getElem?_map, d4]; rfl
  · rw [hy, mul_assoc, phasor_wave, wave_zero, mul_one]

theorem unproj_of {cat : Cat} {ids : List Int} {uvw : V3} {dec : ℝ} {i : Nat} {k : Int} {e : Entry}
    (h1 : ids[i]? = some k) (h2 : (k, e) ∈ cat) (h3 : e.type = unprojected) : Unproj (rowsOf cat ids uvw dec) i :=
  ⟨e, ⟨k, h1, h2⟩, h3⟩

theorem proj_of {cat : Cat} {ids : List Int} {uvw : V3} {dec : ℝ} {i : Nat} {k : Int} {e : Entry}
    (hn : (cat.map Prod.fst).Nodup) (h1 : ids[i]? = some k) (h2 : (k, e) ∈ cat) (h3 : e.type ≠ unprojected) :
    ¬ Unproj (rowsOf cat ids uvw dec) i := by
  rintro ⟨e', ⟨k', a, b⟩, h4⟩
  have a' : ids[i]? = some k' := a
  rw [h1] at a'
  obtain rfl := Option.some.inj a'
  rw [Verif.PhaseCat.key_unique hn b h2] at h4
  exact h3 h4

/-- The call that looks "u" up. -/
def lookupCall : Call := { name := ['u'], lon := some (.scalar 0), lat := some (.scalar 0), lookup := true }

/-- **C71** is false in general: phasing an unprojected row to its own phase center, found by its name,
turns its visibility by a quarter. -/
theorem phase_kind_counterexample : ∃ o', phase env0 (rowsOf [(0, uEntry)] [0] ⟨0, 0, 1⟩ 0) lookupCall = .ok o' ∧
    Good (rowsOf [(0, uEntry)] [0] ⟨0, 0, 1⟩ 0) ∧ KeepsOthers env0.c [(0, uEntry)] lookupCall ∧
    ¬ Keeps (rowsOf [(0, uEntry)] [0] ⟨0, 0, 1⟩ 0) o' := by
  have hg : Good (rowsOf [(0, uEntry)] [0] ⟨0, 0, 1⟩ 0) := rowsOf_good (by decide) (by simp)
  have hdict : phaseDict env0 [(0, uEntry)] lookupCall ([(0 : Int)].map fun _ => 0) = .ok (uEntry, some 0) := by
    unfold phaseDict
    have : findSource env0 [(0, uEntry)] lookupCall ([(0 : Int)].map fun _ => 0) = .ok (uEntry, some 0) := by
      rfl
    rw [this]
    simp only
    unfold coverTimes
    rw [if_pos (by decide)]
  obtain ⟨o', ho'⟩ := phase0 (uvw := ⟨0, 0, 1⟩) (dec := 0) (cat := [(0, uEntry)]) (ids := [0]) (t := lookupCall)
    (e := uEntry) (id := some 0) (by decide) (by simp) (by intro q hq; simp [lookupCall] at hq)
    ⟨0, by simp, by intro q hq; simp [lookupCall] at hq⟩ rfl rfl (.inl rfl) hdict (ok_of (by decide +kernel))
  refine ⟨o', ho', hg, .inl rfl, ?_⟩
  have hsel : Selected lookupCall.mask 0 := by intro q hq; simp [lookupCall] at hq
  obtain ⟨m, e, id, ra, dec, pa, uvw, s, k, o1, H⟩ := phase_did hg ho'
  have hb := (H.selected (i := 0) (by simp [rowsOf])).1.2 hsel
  have he : e = uEntry := by
    have := H.dict.symm.trans hdict
    simp only [Except.ok.injEq, Prod.mk.injEq] at this
    exact this.1
  have hu : Unproj o' 0 := (H.kind hg hb).2 (by rw [he]; rfl)
  have hbase := phase_from_antennas_partial hg ho' rfl (by
    intro i j l l' r r' d d' p p' a1 a2 a3 a4 ⟨_, _, a5⟩ ⟨_, _, a6⟩ _ _
    have hone : ∀ q (x : ℝ), (rowsOf [(0, uEntry)] [0] ⟨0, 0, 1⟩ 0).lst[q]? = some x → q = 0 := by
      intro q x hx
      have := (List.getElem?_eq_some_iff.1 hx).1
      simp only [rowsOf, List.map_cons, List.map_nil, List.length_cons, List.length_nil] at this
      omega
    rw [hone i l a3] at a5
    rw [hone j l' a4, a5] at a6
    exact Option.some.inj a6) 0 hsel 0 1 ⟨0, 0, 0⟩ ⟨1, 0, 0⟩ 0 rfl rfl ⟨0, rfl, rfl⟩ ⟨1, rfl, rfl⟩ rfl
  obtain ⟨r, d, p, ⟨a1, a2, a3⟩, a4⟩ := hbase
  have hz : r = 0 ∧ d = 0 ∧ p = 0 := by
    obtain ⟨-, r2, r3, r4⟩ := H.row hg hb
    have happ := H.app
    simp only [env0, Except.ok.injEq, Prod.mk.injEq] at happ
    have hang := H.angle
    unfold newAngles at hang
    rw [if_neg (by decide)] at hang
    simp only [env0, Except.ok.injEq] at hang
    rw [r2, ← happ.1, List.getElem?_map, Option.map_eq_some_iff] at a1
    rw [r3, ← happ.2, List.getElem?_map, Option.map_eq_some_iff] at a2
    rw [r4, ← hang, List.getElem?_map, Option.map_eq_some_iff] at a3
    obtain ⟨_, _, rfl⟩ := a1
    obtain ⟨_, _, rfl⟩ := a2
    obtain ⟨_, _, rfl⟩ := a3
    exact ⟨rfl, rfl, rfl⟩
  obtain ⟨rfl, rfl, rfl⟩ := hz
  have e0 : (0 : ℝ) - (0 - (rowsOf [(0, uEntry)] [0] ⟨0, 0, 1⟩ 0).lon) = 0 := by simp [rowsOf]
  rw [e0, proj_up] at a4
  have s0 : Signal (rowsOf [(0, uEntry)] [0] ⟨0, 0, 1⟩ 0) 0 0 0 1 :=
    rowsOf_signal (by simp) (w := 0) (.inl ⟨unproj_of (e := uEntry) rfl (by simp) rfl, rfl, by simp [rowsOf]⟩) (wave_zero _)
  exact not_keeps s0 (phase_kind_turned hg ho' (by decide) 0 hsel hu _ a4 0 0 1 quarter rfl s0) wave_one_ne

/-! ## Redefining the source of rows that are not selected -/

/-- The call that gives "u" to a source, for the second of two rows. -/
def clashCall : Call :=
  { name := ['u'], lon := some (.scalar 0), lat := some (.scalar 0), mask := some [false, true] }

/-- **C71** and **C72** are false in general: phasing one unprojected row to a source with the name of the
phase center of the other row makes the other row a projected one, with its visibility as before. -/
theorem phase_clash_counterexample :
    ∃ o', phase env0 (rowsOf [(0, uEntry)] [0, 0] ⟨0, 0, 1⟩ 0) clashCall = .ok o' ∧
    Good (rowsOf [(0, uEntry)] [0, 0] ⟨0, 0, 1⟩ 0) ∧ KindAgrees [(0, uEntry)] clashCall ∧
    ¬ Selected clashCall.mask 0 ∧ Unproj (rowsOf [(0, uEntry)] [0, 0] ⟨0, 0, 1⟩ 0) 0 ∧ ¬ Unproj o' 0 ∧
    ¬ Keeps (rowsOf [(0, uEntry)] [0, 0] ⟨0, 0, 1⟩ 0) o' := by
  have hg : Good (rowsOf [(0, uEntry)] [0, 0] ⟨0, 0, 1⟩ 0) := rowsOf_good (by decide) (by simp)
  have hdict : phaseDict env0 [(0, uEntry)] clashCall ([(0 : Int), 0].map fun _ => 0)
      = .ok (userEntry clashCall, some 0) := by
    unfold phaseDict
    have : findSource env0 [(0, uEntry)] clashCall ([(0 : Int), 0].map fun _ => 0)
        = .ok (userEntry clashCall, some 0) := by
      have hb : best (argDiffs env0.c clashCall) ['u'] [(0, uEntry)] (none, 99999) = (some 0, 4) := by
        decide +kernel
      unfold findSource
      simp only
      rw [if_neg (by decide), if_neg (by decide)]
      show (if _ then _ else _) = _
      rw [if_neg (by decide), if_neg (by simp [clashCall])]
      show (match best (argDiffs env0.c clashCall) ['u'] [(0, uEntry)] (none, 99999) with
        | (some j, 0) => _
        | (j, _) => _) = _
      rw [hb]
      rfl
    rw [this]
    simp only
    unfold coverTimes
    rw [if_pos (by decide)]
  obtain ⟨o', ho'⟩ := phase0 (uvw := ⟨0, 0, 1⟩) (dec := 0) (cat := [(0, uEntry)]) (ids := [0, 0]) (t := clashCall)
    (e := userEntry clashCall) (id := some 0) (by decide) (by simp)
    (by intro q hq; simp only [clashCall, Option.some.injEq] at hq; subst hq; rfl)
    ⟨1, by simp, by intro q hq; simp only [clashCall, Option.some.injEq] at hq; subst hq; rfl⟩ rfl rfl (.inl rfl) hdict
    (ok_of (by decide +kernel))
  have hsel : ¬ Selected clashCall.mask 0 := by
    intro h
    have := h _ rfl
    simp at this
  have hu0 : Unproj (rowsOf [(0, uEntry)] [0, 0] ⟨0, 0, 1⟩ 0) 0 := unproj_of (e := uEntry) rfl (by simp) rfl
  obtain ⟨m, e, id, ra, dec, pa, uvw, s, k, o1, H⟩ := phase_did hg ho'
  have hb := (H.selected (i := 0) (by simp [rowsOf])).2.2 hsel
  obtain ⟨h1, h2, h3, h4, h5, h6⟩ := H.cat hg
  have hei : e = userEntry clashCall ∧ id = some 0 := by
    have := H.dict.symm.trans hdict
    simp only [Except.ok.injEq, Prod.mk.injEq] at this
    exact this
  have hu' : ¬ Unproj o' 0 := by
    rintro ⟨x, hx, hty⟩
    obtain ⟨q, a, b⟩ := ((h6 0 x).2 hb).1 hx
    obtain ⟨-, -, g, h7, h8⟩ := add_cases hg.cons H.added
    have hgt : g.type = sidereal := by rw [(genEntry_kind h7).1, hei.1]; rfl
    rcases h8 with ⟨rfl, y, hy, hm⟩ | ⟨-, hc, -, hid⟩
    · have hy' : (k, y) ∈ [((0 : Int), uEntry)] := hy
      simp only [List.mem_singleton, Prod.mk.injEq] at hy'
      have := hm.1.type
      rw [hgt, hy'.2] at this
      exact absurd this (by decide)
    · have hk : k = 0 := hid 0 hei.2
      rw [h2] at a
      have : q = 0 := (Option.some.inj a).symm
      rw [hc, hk, this, Verif.PhaseCat.mem_put] at b
      rcases b with ⟨-, rfl⟩ | ⟨b, -⟩
      · rw [hgt] at hty
        exact absurd hty (by decide)
      · exact b rfl
  refine ⟨o', ho', hg, ?_, hsel, hu0, hu', ?_⟩
  · intro h
    exact absurd h (by decide)
  · have s0 : Signal (rowsOf [(0, uEntry)] [0, 0] ⟨0, 0, 1⟩ 0) 0 0 0 1 :=
      rowsOf_signal (by simp) (w := 0) (.inl ⟨hu0, rfl, by simp [rowsOf]⟩) (wave_zero _)
    intro hk
    obtain ⟨w, f, z, p1, p2, ⟨d, row, chan, p3, p4, p5, p6⟩, p7⟩ := (hk 0 0 0 1).1 s0
    have hsame := phase_other_rows hg ho' 0 hsel
    have hrow := hsame.data _ _ rfl p3
    rw [p4] at hrow
    obtain rfl := Option.some.inj hrow
    obtain rfl := Option.some.inj p5
    obtain rfl := Option.some.inj p6
    have hpath : Path o' 0 1 := .inr ⟨hu', ⟨0, 0, 1⟩, by rw [hsame.uvw]; rfl, rfl⟩
    have hf : f = quarter := by
      rw [H.result] at p2
      exact (Option.some.inj p2).symm
    rw [path_unique p1 hpath, hf] at p7
    exact wave_one_ne p7

/-! ## Unprojecting some rows -/

/-- **C73** is false in general: `unproject_phase` with no row selected - where it warns that it does
nothing - changes the coordinates of a projected row and leaves its visibility. -/
theorem unproject_mask_counterexample :
    ∃ o', unproject env0 (rowsOf [(0, sEntry)] [0] ⟨0, 0, 0⟩ (Real.pi / 2)) true (some [false]) ['u'] = .ok o' ∧
    Good (rowsOf [(0, sEntry)] [0] ⟨0, 0, 0⟩ (Real.pi / 2)) ∧ ¬ Selected (some [false]) 0 ∧ ¬ Unproj o' 0 ∧
    o'.uvw = [⟨0, 0, 1⟩] ∧ ¬ Keeps (rowsOf [(0, sEntry)] [0] ⟨0, 0, 0⟩ (Real.pi / 2)) o' := by
  set o := rowsOf [(0, sEntry)] [0] ⟨0, 0, 0⟩ (Real.pi / 2) with ho
  have hg : Good o := rowsOf_good (by decide) (by simp)
  have hl : o.uvw.length = 1 := rfl
  have hn : 0 < o.uvw.length := by omega
  obtain ⟨o', ho'⟩ := unproject_succeeds (env := env0) (o := o) (b := true) (mask := some [false]) (name := ['u'])
    hg hn (by intro q hq; obtain rfl := Option.some.inj hq; rfl) (ok_of (by decide +kernel))
  have hsel : ¬ Selected (some [false]) 0 := by
    intro h
    have := h _ rfl
    simp at this
  have hnu : ¬ Unproj o 0 := proj_of (e := sEntry) (by decide) rfl (by simp) (by decide)
  have hnu' : ¬ Unproj o' 0 := by
    rw [(unproject_kind hg ho' 0 hn).1]
    tauto
  have huvw : o'.uvw[0]? = some ⟨0, 0, 1⟩ := by
    rw [(unproject_from_antennas hg ho' 0 0 1 ⟨0, 0, 0⟩ ⟨1, 0, 0⟩ 0 rfl rfl ⟨0, rfl, rfl⟩ ⟨1, rfl, rfl⟩ rfl).1]
    show some (proj 0 0 0 _) = _
    rw [proj_up]
  obtain ⟨use, new, s, k, o1, H⟩ := unproject_did hg ho'
  have hlen' := H.length hg hn
  refine ⟨o', ho', hg, hsel, hnu', ?_, ?_⟩
  · match hq : o'.uvw with
    | [] => rw [hq] at huvw; simp at huvw
    | [v] => rw [hq] at huvw; simpa using huvw
    | _ :: _ :: _ => rw [hq, hl] at hlen'; simp at hlen'
  · obtain ⟨q1, q2, q3, q4, q5, q6⟩ := applyW_spec (fun d hd => (hg.data d hd).1) H.applied
    have hb := (H.false_iff hg hn).2 (.inl hsel)
    obtain ⟨d', e1, e2⟩ := (q5 0 [[1]] hb).2 ⟨_, rfl, rfl⟩
    have s0 : Signal o 0 0 0 1 :=
      rowsOf_signal (by simp) (w := 0) (.inr ⟨hnu, ⟨0, 0, 0⟩, rfl, rfl⟩) (wave_zero _)
    intro hk
    obtain ⟨w, f, z, p1, p2, ⟨d, row, chan, p3, p4, p5, p6⟩, p7⟩ := (hk 0 0 0 1).1 s0
    have hd : o'.data = some d' := by rw [H.result]; exact e1
    rw [hd] at p3
    obtain rfl := Option.some.inj p3
    rw [e2] at p4
    obtain rfl := Option.some.inj p4
    obtain rfl := Option.some.inj p5
    obtain rfl := Option.some.inj p6
    have hpath : Path o' 0 1 := .inr ⟨hnu', ⟨0, 0, 1⟩, huvw, rfl⟩
    have hf : f = quarter := by
      rw [H.result] at p2
      exact (Option.some.inj p2).symm
    rw [path_unique p1 hpath, hf] at p7
    exact wave_one_ne p7

/-! ## Rows of both kinds -/

/-- **C74** is false in general: with a projected row beside it, the visibility of an unprojected row is
turned by `set_uvws_from_antenna_positions`. -/
theorem setUvws_mixed_witness_counterexample :
    ∃ o', setUvws env0 (rowsOf [(0, uEntry), (1, sEntry)] [0, 1] ⟨0, 0, 1⟩ 0) true = .ok o' ∧
    o'.uvw[0]? = some ⟨0, 0, 1⟩ ∧ ¬ Keeps (rowsOf [(0, uEntry), (1, sEntry)] [0, 1] ⟨0, 0, 1⟩ 0) o' := by
  set o := rowsOf [(0, uEntry), (1, sEntry)] [0, 1] ⟨0, 0, 1⟩ 0 with ho
  have hg : Good o := rowsOf_good (by decide) (by simp)
  have hl : o.uvw.length = 2 := rfl
  obtain ⟨o', ho'⟩ := setUvws_succeeds_partial (env := env0) hg (by omega) rowsOf_angles true
  have hu : Unproj o 0 := unproj_of (e := uEntry) rfl (by simp) rfl
  have hp : ¬ Unproj o 1 := proj_of (e := sEntry) (by decide) rfl (by simp) (by decide)
  obtain ⟨h1, h2, h3⟩ := setUvws_baselines_partial hg (by omega) rowsOf_angles ho'
  obtain ⟨r, d, p, ⟨a1, a2, a3⟩, a4⟩ := h3 0 0 1 ⟨0, 0, 0⟩ ⟨1, 0, 0⟩ 0 rfl rfl ⟨0, rfl, rfl⟩ ⟨1, rfl, rfl⟩ rfl
  rw [h1] at a1 a2 a3
  have hr : (0 : ℝ) = r := Option.some.inj a1
  have hd : (0 : ℝ) = d := Option.some.inj a2
  have hp' : (0 : ℝ) = p := Option.some.inj a3
  subst hr hd hp'
  have e0 : (0 : ℝ) - (0 - o.lon) = 0 := by simp [ho, rowsOf]
  rw [e0, proj_up] at a4
  have s0 : Signal o 0 0 0 1 := rowsOf_signal (by simp) (w := 0) (.inl ⟨hu, rfl, by simp [rowsOf]⟩) (wave_zero _)
  exact ⟨o', ho', a4, not_keeps s0 (setUvws_mixed_counterexample hg (by omega) rowsOf_angles ho' 0 1 hu (by omega) hp _ a4
    0 0 1 quarter rfl s0) wave_one_ne⟩

/-! ## Moving an antenna -/

/-- The second antenna is moved one metre up. -/
def moveUp : Int → Option V3 := fun n => if n = 1 then some ⟨2, 0, 0⟩ else none

/-- **C74** is false in general: with `delta_antpos`, moving an antenna changes the path of a projected
row from one metre to two and leaves its visibility. -/
theorem updateAnts_witness_counterexample :
    ∃ o', updateAnts env0 (rowsOf [(0, sEntry)] [0] ⟨0, 0, 1⟩ 0) moveUp true true = .ok o' ∧
    Path (rowsOf [(0, sEntry)] [0] ⟨0, 0, 1⟩ 0) 0 1 ∧ Path o' 0 2 ∧
    ¬ Keeps (rowsOf [(0, sEntry)] [0] ⟨0, 0, 1⟩ 0) o' := by
  set o := rowsOf [(0, sEntry)] [0] ⟨0, 0, 1⟩ 0 with ho
  have hg : Good o := rowsOf_good (by decide) (by simp)
  have hl : o.uvw.length = 1 := rfl
  obtain ⟨o', ho'⟩ := updateAnts_succeeds_partial (env := env0) hg (by omega) rowsOf_angles moveUp true true
  have hp : ¬ Unproj o 0 := proj_of (e := sEntry) (by decide) rfl (by simp) (by decide)
  have hpath : Path o 0 1 := .inr ⟨hp, ⟨0, 0, 1⟩, rfl, rfl⟩
  have hmoved : newPos o moveUp ≠ o.pos := by
    simp [newPos, ho, rowsOf, moveUp]
  have hb0 : Baseline o 0 (0 - o.lon) (diff ⟨1, 0, 0⟩ ⟨0, 0, 0⟩) := by
    refine ⟨0, 0, 0, ⟨rfl, rfl, rfl⟩, ?_⟩
    have e0 : (0 : ℝ) - (0 - o.lon) = 0 := by simp [ho, rowsOf]
    rw [e0, proj_up]
    rfl
  have hb := updateAnts_baselines_partial hg (by omega) rowsOf_angles ho' 0 0 1 ⟨0, 0, 0⟩ ⟨1, 0, 0⟩ 0 rfl rfl
    ⟨0, rfl, rfl⟩ ⟨1, rfl, rfl⟩ rfl (fun _ => hb0)
  have hfix : o'.st = o.st ∧ o'.ra = o.ra ∧ o'.dec = o.dec ∧ o'.pa = o.pa ∧ o'.freqs = o.freqs := by
    have h := ho'
    unfold updateAnts at h
    rw [if_neg hmoved] at h
    simp only [if_true] at h
    split at h
    · simp at h
    · split at h
      · simp at h
      · rename_i o1 hw
        obtain rfl := Except.ok.inj h
        obtain ⟨q1, -⟩ := applyW_spec (fun d hd => (hg.data d hd).1) hw
        simp only
        rw [q1]
        exact ⟨rfl, rfl, rfl, rfl, rfl⟩
  obtain ⟨f1, f2, f3, f4, f5⟩ := hfix
  obtain ⟨r, d, p, ⟨a1, a2, a3⟩, a4⟩ := hb
  rw [f2] at a1
  rw [f3] at a2
  rw [f4] at a3
  have hr : (0 : ℝ) = r := Option.some.inj a1
  have hd : (0 : ℝ) = d := Option.some.inj a2
  have hp' : (0 : ℝ) = p := Option.some.inj a3
  subst hr hd hp'
  have e0 : (0 : ℝ) - (0 - o.lon) = 0 := by simp [ho, rowsOf]
  have e1 : proj 0 0 0 (diff ((moveUp 1).getD ⟨1, 0, 0⟩) ((moveUp 0).getD ⟨0, 0, 0⟩)) = ⟨0, 0, 2⟩ := by
    simp [proj, diff, Verif.Phasing.dot, Verif.Phasing.eastOf, Verif.Phasing.northOf, Verif.Phasing.toward, moveUp]
  rw [e0, e1] at a4
  have hnu' : ¬ Unproj o' 0 := by
    unfold Unproj at hp ⊢
    rw [f1]
    exact hp
  have hpath' : Path o' 0 2 := .inr ⟨hnu', _, a4, rfl⟩
  refine ⟨o', ho', hpath, hpath', ?_⟩
  have hv : Vis o' 0 0 0 1 :=
    ((updateAnts_delta_counterexample hg (by omega) rowsOf_angles ho' 0 (by omega) hmoved).1 hp 0 0 1).1
      (rowsOf_vis (by simp))
  have w1 : wave quarter 1 = ⟨0, -1⟩ := wave_one
  have w2 : wave quarter 2 = -1 := by
    rw [wave_quarter]
    have : Real.pi / 2 * 2 = Real.pi := by ring
    rw [this]
    apply Complex.ext <;> simp
  have s1 : Signal o 0 0 0 ⟨0, 1⟩ := by
    refine ⟨1, quarter, 1, hpath, rfl, rowsOf_vis (by simp), ?_⟩
    rw [w1]
    apply Complex.ext <;> simp
  have s2 : Signal o' 0 0 0 (-1) :=
    ⟨2, quarter, 1, hpath', by rw [f5]; rfl, hv, by rw [w2]; norm_num⟩
  refine not_keeps s1 s2 ?_
  intro h
  have := congrArg Complex.re h
  simp at this

end

end Verif.Phase
