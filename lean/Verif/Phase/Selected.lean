import Verif.Phase.Props
import Verif.Sky.Spec

/-!
# The rows that `phase` selects
-/

namespace Verif.Phase

open Verif.Coord (V3)
open Verif.Phasing (pick calcUvw proj diff StandsAt)
open Verif.PhaseCat (Entry St keys PointsAt Consistent unprojected Matches genEntry ephem altaz)
open Verif.Pol (Str)

/-- Every selected place has a number. -/
theorem exists_rank : ∀ (m : List Bool) (q : Nat), q < m.count true → ∃ i, m[i]? = some true ∧ rank m i = q := by
  intro m
  induction m with
  | nil => intro q h; simp at h
  | cons b m ih =>
    intro q h
    cases b with
    | false =>
      obtain ⟨i, h1, h2⟩ := ih q (by simpa using h)
      exact ⟨i + 1, by simpa using h1, by simpa [rank] using h2⟩
    | true =>
      cases q with
      | zero => exact ⟨0, by simp, by simp [rank]⟩
      | succ q =>
        obtain ⟨i, h1, h2⟩ := ih q (by simpa using h)
        exact ⟨i + 1, by simpa using h1, by simpa [rank] using h2⟩

theorem count_lt {m : List Bool} {i : Nat} (h : m[i]? = some false) : m.count true < m.length := by
  rw [List.count_lt_length_iff]
  exact ⟨false, List.mem_of_getElem? h, by simp⟩

theorem pick_subset {α : Type} {m : List Bool} {xs : List α} {x : α} (h : x ∈ pick m xs) : x ∈ xs := by
  unfold pick at h
  simp only [List.mem_map, List.mem_filter] at h
  obtain ⟨⟨b, y⟩, ⟨h1, -⟩, rfl⟩ := h
  exact (List.of_mem_zip h1).2

section
variable {env : Env} {o o' : Obj} {t : Call} {m : List Bool} {e : Entry} {id : Option Int}
  {ra dec pa : List ℝ} {uvw : List V3} {s : St} {k : Int} {o1 : Obj}

theorem Did.row (h : Did env o t o' m e id ra dec pa uvw s k o1) {i : Nat} (hg : Good o) (hi : m[i]? = some true) :
    o'.uvw[i]? = uvw[rank m i]? ∧ o'.ra[i]? = ra[rank m i]? ∧ o'.dec[i]? = dec[rank m i]? ∧
    o'.pa[i]? = pa[rank m i]? := by
  have hc := pick_count m o.uvw h.len
  rw [h.result]
  refine ⟨?_, ?_, ?_, ?_⟩
  · exact maskSet_true _ _ _ _ h.len (by rw [h.luvw, hc]) hi
  · exact maskSet_true _ _ _ _ (by rw [hg.ra]; exact h.len) (by rw [h.lra, hc]) hi
  · exact maskSet_true _ _ _ _ (by rw [hg.dec]; exact h.len) (by rw [h.ldec, hc]) hi
  · exact maskSet_true _ _ _ _ (by rw [hg.pa]; exact h.len) (by rw [h.lpa, hc]) hi

end

/-- The position of a source on the sky depends on the time and the sidereal time alone, where the sidereal
time goes with the time. -/
def SkyAt (env : Env) (f : Entry → ℝ → ℝ → ℝ × ℝ) : Prop :=
  ∀ e ts ls r d, Verif.Sky.Fixed ts ls → env.app e ts ls = .ok (r, d) → ∀ (i : Nat) (t l : ℝ), ts[i]? = some t → ls[i]? = some l →
    r[i]? = some (f e t l).1 ∧ d[i]? = some (f e t l).2

/-- The position angle of a frame depends on the time and the position alone, where the position goes with the
time. -/
def AngleAt (env : Env) (g : Option Str → Epoch → ℝ → ℝ → ℝ → ℝ) : Prop :=
  ∀ fr ep ts ra dec pa, Verif.Sky.Fixed ts ra → Verif.Sky.Fixed ts dec → (∀ d ∈ dec, d ≤ Real.pi / 2) →
    env.angle fr ep ts ra dec = .ok pa → ∀ (i : Nat) (t r d : ℝ), ts[i]? = some t →
    ra[i]? = some r → dec[i]? = some d → pa[i]? = some (g fr ep t r d)

/-- The source is the one that the arguments describe.  `ra` and `dec` are the old names of `lon` and `lat`; they count if the
new ones are not given. -/
structure FromArgs (t : Call) (e : Entry) : Prop where
  name : e.name = t.name
  type : t.type = none ∧ e.type = Verif.PhaseCat.sidereal ∨ t.type = some e.type
  lon : ∀ v, t.lon = some v → e.lon = some v
  ra : t.lon = none → t.type ≠ some unprojected → e.lon = t.ra
  lat : ∀ v, t.lat = some v → e.lat = some v
  dec : t.lat = none → t.type ≠ some unprojected → e.lat = t.dec
  frame : e.frame = t.frame
  epochNum : ∀ q, t.epoch = .num q → e.epoch = some q
  epochJulian : ∀ j b, t.epoch = .text j b → t.frame ≠ some fk4 → t.frame ≠ some fk4noeterms → e.epoch = some j
  epochBessel : ∀ j b, t.epoch = .text j b → t.frame = some fk4 ∨ t.frame = some fk4noeterms → e.epoch = some b
  times : e.times = t.times
  pmRa : e.pmRa = t.pmRa
  pmDec : e.pmDec = t.pmDec
  dist : e.dist = t.dist
  vrad : e.vrad = t.vrad

theorem userEntry_fromArgs (t : Call) : FromArgs t (userEntry t) where
  name := rfl
  type := by
    cases h : t.type with
    | none => exact .inl ⟨rfl, by simp [userEntry, h]⟩
    | some ty => exact .inr (by simp [userEntry, h])
  lon := by
    intro v h
    simp only [userEntry, Call.theLon, h, Option.some_or, ite_self]
  ra := by
    intro h h'
    simp only [userEntry, Call.theLon, h, Option.none_or, if_neg h']
  lat := by
    intro v h
    simp only [userEntry, Call.theLat, h, Option.some_or, ite_self]
  dec := by
    intro h h'
    simp only [userEntry, Call.theLat, h, Option.none_or, if_neg h']
  frame := rfl
  epochNum := by intro q h; simp [userEntry, theEpoch, h]
  epochJulian := by intro j b h h1 h2; simp [userEntry, theEpoch, h, h1, h2]
  epochBessel := by intro j b h h1; simp only [userEntry, theEpoch, h, if_pos h1]
  times := rfl
  pmRa := rfl
  pmDec := rfl
  dist := rfl
  vrad := rfl

/-- The source that a call asks for: what the arguments say, or what the catalog has under the name. -/
def Asked (cat : Verif.PhaseCat.Cat) (t : Call) (e : Entry) : Prop :=
  t.lookup = false ∧ FromArgs t e ∨ ∃ k x, (k, x) ∈ cat ∧ x.name = t.name ∧ e = storedEntry t x

/-- Selected rows inherit it. -/
theorem fixed_pick {m : List Bool} {ts xs : List ℝ} (h1 : m.length = ts.length) (h2 : m.length = xs.length)
    (h : Verif.Sky.Fixed ts xs) : Verif.Sky.Fixed (pick m ts) (pick m xs) := by
  intro p q t x y a1 a2 a3 a4
  have l1 := (List.getElem?_eq_some_iff.1 a1).1
  have l2 := (List.getElem?_eq_some_iff.1 a2).1
  rw [pick_count m ts h1] at l1 l2
  obtain ⟨i, i1, rfl⟩ := exists_rank m p l1
  obtain ⟨j, j1, rfl⟩ := exists_rank m q l2
  rw [pick_rank m ts _ h1 i1] at a1
  rw [pick_rank m ts _ h1 j1] at a2
  rw [pick_rank m xs _ h2 i1] at a3
  rw [pick_rank m xs _ h2 j1] at a4
  exact h i j t x y a1 a2 a3 a4

section
variable {env : Env} {o o' : Obj} {t : Call}

/-- **C72.** Selected rows belong to a catalog entry that has the name of the call and is equivalent to
the source that was asked for; their source position is the position of that source on the sky
at the time of the row.  (Sources other than ephemerides; rows with the same time have the same LST.) -/
theorem phase_selected_rows_partial {f : Entry → ℝ → ℝ → ℝ × ℝ} {g : Option Str → Epoch → ℝ → ℝ → ℝ → ℝ}
    (hr : 0 ≤ env.c.radTol) (hf : SkyAt env f)
    (ha : AngleAt env g) (hg : Good o) (h : phase env o t = .ok o') (hne : t.lookup = true → ¬ FreshName o.st.cat t.name)
    (hep : ∀ e, Asked o.st.cat t e → e.type ≠ ephem) (hfix : Verif.Sky.Fixed o.time o.lst)
    (hlat : ∀ e ti l, (f e ti l).2 ≤ Real.pi / 2) :
    ∃ e x, Asked o.st.cat t e ∧ genEntry env.c e = .ok x ∧
      ∀ (i : Nat) (ti l : ℝ), Selected t.mask i → o.time[i]? = some ti → o.lst[i]? = some l →
        (∃ y, PointsAt o'.st i y ∧ Matches env.c false x y) ∧
        SourceAt o' i (f e ti l).1 (f e ti l).2
          (if t.frame = some altaz then 0 else g t.frame t.epoch ti (f e ti l).1 (f e ti l).2) := by
  obtain ⟨m, e, id, ra, dec, pa, uvw, s, k, o1, H⟩ := phase_did hg h
  obtain ⟨h1, h2, h3, h4, h5, h6⟩ := H.cat hg
  obtain ⟨-, -, x, h7, h8⟩ := add_cases hg.cons H.added
  obtain ⟨e0, hfo, ht, hnm, he0, -⟩ := phaseDict_found hg.cons.nodup H.dict
  have hask : Asked o.st.cat t e0 := by
    cases hfo with
    | user a b => exact .inl ⟨b, userEntry_fromArgs t⟩
    | jpl a b _ _ _ => exact absurd a (hne b)
    | stored a b c => exact .inr ⟨_, _, a, b, rfl⟩
    | clash a b c => exact .inl ⟨b, userEntry_fromArgs t⟩
  have hee := he0 (hep e0 hask)
  subst hee
  refine ⟨e, x, hask, h7, ?_⟩
  intro i ti l hsel hti hl
  have hlt : i < o.uvw.length := by rw [← hg.time]; exact (List.getElem?_eq_some_iff.1 hti).1
  have hb := (H.selected hlt).1.2 hsel
  constructor
  · have : ∃ y, (k, y) ∈ s.cat ∧ Matches env.c false x y := by
      rcases h8 with ⟨rfl, y, hy, hm⟩ | ⟨-, hc, -, -⟩
      · exact ⟨y, hy, hm⟩
      · exact ⟨x, by rw [hc]; exact Verif.PhaseCat.mem_put.2 (.inl ⟨rfl, rfl⟩),
          Verif.PhaseCat.equivalent_refl hr _, fun _ => rfl⟩
    obtain ⟨y, hy, hm⟩ := this
    exact ⟨y, ((h6 i y).1 hb).2 hy, hm⟩
  · obtain ⟨-, r2, r3, r4⟩ := H.row hg hb
    have e1 := pick_rank m o.time i (by rw [hg.time]; exact H.len) hb
    have e2 := pick_rank m o.lst i (by rw [hg.lst]; exact H.len) hb
    rw [hti] at e1
    rw [hl] at e2
    have hfp : Verif.Sky.Fixed (pick m o.time) (pick m o.lst) :=
      fixed_pick (by rw [hg.time]; exact H.len) (by rw [hg.lst]; exact H.len) hfix
    have hget : ∀ (q : Nat) (u : ℝ), (pick m o.time)[q]? = some u → ∃ v, (pick m o.lst)[q]? = some v := by
      intro q u hq
      have hlt := (List.getElem?_eq_some_iff.1 hq).1
      rw [pick_count m o.time (by rw [hg.time]; exact H.len),
        ← pick_count m o.lst (by rw [hg.lst]; exact H.len)] at hlt
      exact ⟨_, List.getElem?_eq_getElem hlt⟩
    have hfra : Verif.Sky.Fixed (pick m o.time) ra := by
      intro p q u x y a1 a2 a3 a4
      obtain ⟨v, hv⟩ := hget p u a1
      obtain ⟨w, hw⟩ := hget q u a2
      have b1 := (hf _ _ _ _ _ hfp H.app _ _ _ a1 hv).1
      have b2 := (hf _ _ _ _ _ hfp H.app _ _ _ a2 hw).1
      rw [hfp p q u v w a1 a2 hv hw] at b1
      rw [b1] at a3
      rw [b2] at a4
      rw [← Option.some.inj a3, ← Option.some.inj a4]
    have hfdec : Verif.Sky.Fixed (pick m o.time) dec := by
      intro p q u x y a1 a2 a3 a4
      obtain ⟨v, hv⟩ := hget p u a1
      obtain ⟨w, hw⟩ := hget q u a2
      have b1 := (hf _ _ _ _ _ hfp H.app _ _ _ a1 hv).2
      have b2 := (hf _ _ _ _ _ hfp H.app _ _ _ a2 hw).2
      rw [hfp p q u v w a1 a2 hv hw] at b1
      rw [b1] at a3
      rw [b2] at a4
      rw [← Option.some.inj a3, ← Option.some.inj a4]
    have hdle : ∀ x ∈ dec, x ≤ Real.pi / 2 := by
      intro x hx
      obtain ⟨q, hq⟩ := List.getElem?_of_mem hx
      have hlt := (List.getElem?_eq_some_iff.1 hq).1
      rw [H.ldec, pick_count m o.uvw H.len, ← pick_count m o.time (by rw [hg.time]; exact H.len)] at hlt
      have hu := List.getElem?_eq_getElem hlt
      obtain ⟨v, hv⟩ := hget q _ hu
      have := (hf _ _ _ _ _ hfp H.app _ _ _ hu hv).2
      rw [hq] at this
      rw [Option.some.inj this]
      exact hlat _ _ _
    obtain ⟨f1, f2⟩ := hf _ _ _ _ _ hfp H.app _ _ _ e1 e2
    refine ⟨by rw [r2, f1], by rw [r3, f2], ?_⟩
    rw [r4]
    have hA := H.angle
    unfold newAngles at hA
    split_ifs at hA ⊢ with hz
    · simp only [Except.ok.injEq] at hA
      rw [← hA, List.getElem?_replicate, if_pos (List.getElem?_eq_some_iff.1 e1).1]
    · exact ha _ _ _ _ _ _ hfra hfdec hdle hA _ _ _ _ e1 f1 f2

/-- **C72.** With antenna positions, the coordinates of a selected row are those of the baseline between
its antennas, seen toward its new source - provided that selected rows which see their sources at
the same hour angle and declination have the same position angle. -/
theorem phase_from_antennas_partial (hg : Good o) (h : phase env o t = .ok o') (hu : t.useAntPos = true)
    (hcons : ∀ (i j : Nat) (l l' r r' d d' p p' : ℝ), Selected t.mask i → Selected t.mask j →
      o.lst[i]? = some l → o.lst[j]? = some l' → SourceAt o' i r d p → SourceAt o' j r' d' p' →
      l - r = l' - r' → d = d' → p = p')
    (i : Nat) (hi : Selected t.mask i) (n1 n2 : Int) (p1 p2 : V3) (l : ℝ) (e1 : o.ant1[i]? = some n1)
    (e2 : o.ant2[i]? = some n2) (s1 : StandsAt o.nums o.pos n1 p1) (s2 : StandsAt o.nums o.pos n2 p2)
    (hl : o.lst[i]? = some l) : Baseline o' i (l - o.lon) (diff p2 p1) := by
  obtain ⟨m, e, id, ra, dec, pa, uvw, s, k, o1, H⟩ := phase_did hg h
  have hlt : i < o.uvw.length := by rw [← hg.lst]; exact (List.getElem?_eq_some_iff.1 hl).1
  have hb := (H.selected hlt).1.2 hi
  have hc := pick_count m o.uvw H.len
  have hpos : 0 < (pick m o.uvw).length := by rw [hc]; have := rank_lt hb; omega
  have lens : ∀ {α : Type} (xs : List α), xs.length = o.uvw.length → (pick m xs).length = (pick m o.uvw).length := by
    intro α xs hx
    rw [pick_count m xs (by rw [hx]; exact H.len), hc]
  have hcall : Verif.Phasing.AntCall (phaseArgs o t m ra dec pa) o.pos o.nums (pick m o.ant1) (pick m o.ant2) o.lon
      (pick m o.uvw).length :=
    ⟨hu, rfl, rfl, rfl, rfl, rfl, hg.nodup, hg.placed, lens _ hg.ant1, lens _ hg.ant2,
      fun x hx => hg.known.1 x (pick_subset hx), fun x hx => hg.known.2 x (pick_subset hx), hpos⟩
  have pk : ∀ {α : Type} (xs : List α), xs.length = o.uvw.length → ∀ j, m[j]? = some true →
      (pick m xs)[rank m j]? = xs[j]? :=
    fun xs hx j hj => pick_rank m xs j (by rw [hx]; exact H.len) hj
  obtain ⟨out, c1, c2, c3⟩ := Verif.Phasing.uvw_from_antennas_partial env.junk (lst := pick m o.lst) (ra := ra)
    (dec := dec) hcall rfl rfl rfl rfl (lens _ hg.lst) H.lra H.ldec
    (by intro q hq; obtain rfl := Option.some.inj hq; exact H.lpa) (by
      intro q hq j t1 t2 r1 r2 d1 d2 a1 a2 a3 a4 a5 a6 a7 a8
      obtain rfl := Option.some.inj hq
      have b2 := (List.getElem?_eq_some_iff.1 a2).1
      rw [lens _ hg.lst, hc] at b2
      obtain ⟨u, hu1, hu2⟩ := exists_rank m j (by omega)
      obtain ⟨v, hv1, hv2⟩ := exists_rank m (j + 1) b2
      have ult : u < o.uvw.length := by rw [← H.len]; exact (List.getElem?_eq_some_iff.1 hu1).1
      have vlt : v < o.uvw.length := by rw [← H.len]; exact (List.getElem?_eq_some_iff.1 hv1).1
      obtain ⟨-, x2, x3, x4⟩ := H.row hg hu1
      obtain ⟨-, y2, y3, y4⟩ := H.row hg hv1
      rw [hu2] at x2 x3 x4
      rw [hv2] at y2 y3 y4
      have l1 : j < pa.length := by rw [H.lpa, hc]; omega
      have l2 : j + 1 < pa.length := by rw [H.lpa, hc]; omega
      have z1 : pa[j]? = some pa[j] := List.getElem?_eq_getElem l1
      have z2 : pa[j + 1]? = some pa[j + 1] := List.getElem?_eq_getElem l2
      rw [z1, z2]
      congr 1
      exact hcons u v t1 t2 r1 r2 d1 d2 _ _ ((H.selected ult).1.1 hu1) ((H.selected vlt).1.1 hv1)
        (by rw [← pk _ hg.lst u hu1, hu2]; exact a1) (by rw [← pk _ hg.lst v hv1, hv2]; exact a2)
        ⟨by rw [x2]; exact a3, by rw [x3]; exact a5, by rw [x4]; exact z1⟩
        ⟨by rw [y2]; exact a4, by rw [y3]; exact a6, by rw [y4]; exact z2⟩ a7 a8)
  rw [H.coords] at c1
  obtain rfl := Except.ok.inj c1
  obtain ⟨x1, x2, x3, x4⟩ := H.row hg hb
  have rl : rank m i < (pick m o.uvw).length := by rw [hc]; exact rank_lt hb
  have g2 : ra[rank m i]? = some (ra[rank m i]'(by rw [H.lra]; exact rl)) := List.getElem?_eq_getElem _
  have g3 : dec[rank m i]? = some (dec[rank m i]'(by rw [H.ldec]; exact rl)) := List.getElem?_eq_getElem _
  have g4 : pa[rank m i]? = some (pa[rank m i]'(by rw [H.lpa]; exact rl)) := List.getElem?_eq_getElem _
  refine ⟨_, _, _, ⟨x2.trans g2, x3.trans g3, x4.trans g4⟩, ?_⟩
  rw [x1]
  exact c3 (rank m i) n1 n2 p1 p2 l _ _ _ (by rw [pk _ hg.ant1 i hb]; exact e1)
    (by rw [pk _ hg.ant2 i hb]; exact e2) s1 s2 (by rw [pk _ hg.lst i hb]; exact hl) g2 g3 g4

/-- **C72.** Without antenna positions and without a selection, every row keeps its baseline: its
coordinates are those of the same baseline seen toward the new source. -/
theorem phase_moves_baseline (hg : Good o) (h : phase env o t = .ok o') (hu : t.useAntPos = false)
    (hm : t.mask = none) (i : Nat) (L : ℝ) (b : V3) (hb : Baseline o i L b) : Baseline o' i L b := by
  obtain ⟨m, e, id, ra, dec, pa, uvw, s, k, o1, H⟩ := phase_did hg h
  obtain ⟨r, d, p, ⟨a1, a2, a3⟩, a4⟩ := hb
  have hlt := (List.getElem?_eq_some_iff.1 a4).1
  have hall : m = List.replicate o.uvw.length true := by
    rw [H.mask]; unfold Call.rows; rw [hm]; rfl
  have hbt : m[i]? = some true := by rw [hall, List.getElem?_replicate, if_pos hlt]
  have hpk : pick m o.uvw = o.uvw := by rw [hall]; exact pick_all _ _ rfl
  have rk : rank m i = i := by
    unfold rank
    rw [hall, List.take_replicate, List.count_replicate_self]
    omega
  obtain ⟨x1, x2, x3, x4⟩ := H.row hg hbt
  rw [rk] at x1 x2 x3 x4
  have hn : (pick m o.uvw).length = o.uvw.length := by rw [hpk]
  have g2 : ra[i]? = some (ra[i]'(by rw [H.lra, hn]; exact hlt)) := List.getElem?_eq_getElem _
  have g3 : dec[i]? = some (dec[i]'(by rw [H.ldec, hn]; exact hlt)) := List.getElem?_eq_getElem _
  have g4 : pa[i]? = some (pa[i]'(by rw [H.lpa, hn]; exact hlt)) := List.getElem?_eq_getElem _
  refine ⟨_, _, _, ⟨x2.trans g2, x3.trans g3, x4.trans g4⟩, ?_⟩
  rw [x1]
  refine Verif.Phasing.uvw_moved_partial (a := phaseArgs o t m ra dec pa) hu rfl
    ⟨fun h0 => by simp [phaseArgs] at h0, fun h0 => by simp [phaseArgs] at h0,
      fun h0 => by simp [phaseArgs] at h0, fun h0 => by simp [phaseArgs] at h0⟩ H.coords i r d p _ _ _ L b ?_ ?_ ?_
  · unfold Verif.Phasing.Was
    rw [if_neg (by simp [phaseArgs])]
    exact ⟨⟨_, rfl, a1⟩, ⟨_, rfl, a2⟩, a3⟩
  · unfold Verif.Phasing.Becomes
    rw [if_neg (by simp [phaseArgs])]
    exact ⟨⟨_, rfl, g2⟩, ⟨_, rfl, g3⟩, g4⟩
  · rw [hpk]; exact a4

/-- **C72** is false in general: a selection of some but not all rows is refused without antenna
positions, whatever the object and the source. -/
theorem phase_selection_counterexample (hg : Good o) (hu : t.useAntPos = false) (i : Nat)
    (hi : i < o.uvw.length) (hs : ¬ Selected t.mask i) : ∀ o', phase env o t ≠ .ok o' := by
  intro o' h
  obtain ⟨m, e, id, ra, dec, pa, uvw, s, k, o1, H⟩ := phase_did hg h
  have hb := (H.selected hi).2.2 hs
  rcases Verif.Phasing.move_cases (a := phaseArgs o t m ra dec pa) hu rfl H.coords with ⟨h0, -⟩ | ⟨-, hL, -⟩
  · simp [phaseArgs] at h0
  · have h1 := hL.get.2.2.2.2.1 o.ra rfl
    rw [pick_count m o.uvw H.len, hg.ra, ← H.len] at h1
    have := count_lt hb
    omega

end

end Verif.Phase
