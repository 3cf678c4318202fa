import Verif.Phase.Ants
import Mathlib.Logic.Relation

/-!
# Sequences of phasing operations
-/

namespace Verif.Phase

open Verif.Coord (V3)
open Verif.Phasing (pick calcUvw proj diff StandsAt)
open Verif.PhaseCat (unprojected)
open Verif.Pol (Str)

/-- One operation within the conditions of C71, C73 and C74. -/
inductive Step (env : Env) : Obj → Obj → Prop
  | phase {o o' : Obj} (t : Call) (h : phase env o t = .ok o') (hk : KindAgrees o.st.cat t)
      (ho : KeepsOthers env.c o.st.cat t) : Step env o o'
  | unproject {o o' : Obj} (b : Bool) (mask : Option (List Bool)) (name : Str)
      (h : unproject env o b mask name = .ok o')
      (hs : ∀ i, i < o.uvw.length → ¬ Selected mask i → Unproj o i) : Step env o o'
  | setUvws {o o' : Obj} (h : setUvws env o true = .ok o') (hs : SameAngles o) (hu : Uniform o) : Step env o o'
  | updateAnts {o o' : Obj} (new : Int → Option V3) (h : updateAnts env o new false true = .ok o')
      (hs : SameAngles o) (hu : Uniform o) : Step env o o'

theorem updateAnts_good {env : Env} {o o' : Obj} {new : Int → Option V3} {upd : Bool} (hg : Good o)
    (hn : 0 < o.uvw.length) (hs : SameAngles o) (h : updateAnts env o new false upd = .ok o') : Good o' := by
  unfold updateAnts at h
  by_cases h0 : newPos o new = o.pos
  · rw [if_pos h0] at h
    obtain rfl := Except.ok.inj h
    exact hg
  rw [if_neg h0] at h
  simp only [Bool.false_eq_true, if_false] at h
  have hg' : Good { o with pos := newPos o new } :=
    ⟨hg.cons, hg.ids, hg.ant1, hg.ant2, hg.time, hg.lst, hg.ra, hg.dec, hg.pa, hg.data, hg.nodup,
      newPos_length hg new, hg.known⟩
  have hs' : SameAngles { o with pos := newPos o new } := hs
  exact setUvws_good hg' hn hs' h

/-- One operation keeps the frequencies, the sidereal times and the number of rows. -/
theorem step_frame {env : Env} {o o' : Obj} (hg : Good o) (hn : 0 < o.uvw.length) (h : Step env o o') :
    o'.freqs = o.freqs ∧ o'.lst = o.lst := by
  cases h with
  | phase t h hk ho =>
    obtain ⟨m, e, id, ra, dec, pa, uvw, s, k, o1, H⟩ := phase_did hg h
    rw [H.result]; exact ⟨rfl, rfl⟩
  | unproject b mask name h hs =>
    obtain ⟨use, new, s, k, o1, H⟩ := unproject_did hg h
    rw [H.result]; exact ⟨rfl, rfl⟩
  | setUvws h hs hu =>
    obtain ⟨new, -, h2, -⟩ := setUvws_did hg h
    rw [h2]; exact ⟨rfl, rfl⟩
  | updateAnts new h hs hu =>
    unfold Verif.Phase.updateAnts at h
    by_cases h0 : newPos o new = o.pos
    · rw [if_pos h0] at h
      obtain rfl := Except.ok.inj h
      exact ⟨rfl, rfl⟩
    rw [if_neg h0] at h
    simp only [Bool.false_eq_true, if_false] at h
    have hg' : Good { o with pos := newPos o new } :=
      ⟨hg.cons, hg.ids, hg.ant1, hg.ant2, hg.time, hg.lst, hg.ra, hg.dec, hg.pa, hg.data, hg.nodup,
        newPos_length hg new, hg.known⟩
    obtain ⟨w, -, h2, -⟩ := setUvws_did hg' h
    rw [h2]; exact ⟨rfl, rfl⟩

/-- One operation keeps the object whole and what the correlator measured. -/
theorem step_keeps {env : Env} {o o' : Obj} (hg : Good o) (hn : 0 < o.uvw.length) (h : Step env o o') :
    Good o' ∧ 0 < o'.uvw.length ∧ Keeps o o' := by
  have hf := step_frame hg hn h
  have key : Good o' ∧ Keeps o o' := by
    cases h with
    | phase t h hk ho => exact ⟨phase_good hg h, phase_keeps_signal_partial hg h hk ho⟩
    | unproject b mask name h hs => exact ⟨unproject_good hg hn h, unproject_keeps_signal_partial hg hn h hs⟩
    | setUvws h hs hu => exact ⟨setUvws_good hg hn hs h, setUvws_keeps_signal_partial hg hn hs hu h⟩
    | updateAnts new h hs hu =>
      exact ⟨updateAnts_good hg hn hs h, updateAnts_keeps_signal_partial hg hn hs hu h⟩
  refine ⟨key.1, ?_, key.2⟩
  rw [← key.1.lst, hf.2, hg.lst]
  exact hn

/-- **C71.** Any sequence of operations leaves what the correlator measured unchanged. -/
theorem steps_keep {env : Env} {o o' : Obj} (hg : Good o) (hn : 0 < o.uvw.length)
    (h : Relation.ReflTransGen (Step env) o o') :
    Good o' ∧ 0 < o'.uvw.length ∧ Keeps o o' ∧ o'.freqs = o.freqs := by
  induction h with
  | refl => exact ⟨hg, hn, fun _ _ _ _ => Iff.rfl, rfl⟩
  | tail _ hb ih =>
    obtain ⟨h1, h2, h3, h4⟩ := ih
    obtain ⟨h5, h6, h7⟩ := step_keeps h1 h2 hb
    exact ⟨h5, h6, fun i j p s => (h3 i j p s).trans (h7 i j p s), (step_frame h1 h2 hb).1.trans h4⟩

theorem signal_of_vis {o : Obj} (hg : Good o) {i j p : Nat} {z : ℂ} (hv : Vis o i j p z) :
    ∃ w f, Path o i w ∧ o.freqs[j]? = some f ∧ Signal o i j p (z * wave f (-w)) ∧
      z * wave f (-w) * wave f w = z := by
  obtain ⟨d, row, chan, a, b, c, e⟩ := hv
  have hi : i < o.uvw.length := by rw [← (hg.data d a).1]; exact (List.getElem?_eq_some_iff.1 b).1
  obtain ⟨w, hw⟩ := path_exists hi
  have hj : j < o.freqs.length := by
    rw [← (hg.data d a).2 row (List.mem_of_getElem? b)]; exact (List.getElem?_eq_some_iff.1 c).1
  have hcancel : z * wave o.freqs[j] (-w) * wave o.freqs[j] w = z := by
    have h1 := phasor_wave 0 (-w) o.freqs[j]
    have h2 := phasor_wave w 0 o.freqs[j]
    rw [wave_zero, one_mul, sub_zero] at h2
    rw [sub_neg_eq_add, zero_add, h2, wave_zero] at h1
    rw [mul_assoc, h1, mul_one]
  exact ⟨w, o.freqs[j], hw, List.getElem?_eq_getElem hj,
    ⟨w, o.freqs[j], z, hw, List.getElem?_eq_getElem hj, ⟨d, row, chan, a, b, c, e⟩, hcancel.symm⟩, hcancel⟩

theorem keeps_vis {o o' : Obj} (hg : Good o) (hf : o'.freqs = o.freqs) (hk : Keeps o o') {i : Nat} {w : ℝ}
    (hw : Path o i w) (hw' : Path o' i w) {j p : Nat} {z : ℂ} (hv : Vis o i j p z) : Vis o' i j p z := by
  obtain ⟨w1, f, h1, h2, h3, h4⟩ := signal_of_vis hg hv
  rw [path_unique h1 hw] at h3 h4
  obtain ⟨w2, f', y, k1, k2, k3, k4⟩ := (hk _ _ _ _).1 h3
  rw [hf, h2] at k2
  obtain rfl := Option.some.inj k2
  rw [path_unique k1 hw', h4] at k4
  rw [← k4]
  exact k3

/-- **C71.** After any sequence of operations, rows with the path that they had have the visibilities
that they had. -/
theorem steps_same_path {env : Env} {o o' : Obj} (hg : Good o) (hn : 0 < o.uvw.length)
    (h : Relation.ReflTransGen (Step env) o o') {i : Nat} {w : ℝ} (hw : Path o i w) (hw' : Path o' i w)
    (j p : Nat) (z : ℂ) : Vis o i j p z ↔ Vis o' i j p z := by
  obtain ⟨h1, h2, h3, h4⟩ := steps_keep hg hn h
  exact ⟨fun hv => keeps_vis hg h4 h3 hw hw' hv,
    fun hv => keeps_vis h1 h4.symm (fun i j p s => (h3 i j p s).symm) hw' hw hv⟩

/-- **C71.** Any two sequences of operations that end with the same path of a row give the row the same
visibilities. -/
theorem steps_agree {env : Env} {o o1 o2 : Obj} (hg : Good o) (hn : 0 < o.uvw.length)
    (h1 : Relation.ReflTransGen (Step env) o o1) (h2 : Relation.ReflTransGen (Step env) o o2) {i : Nat} {w : ℝ}
    (hw1 : Path o1 i w) (hw2 : Path o2 i w) (j p : Nat) (z : ℂ) : Vis o1 i j p z ↔ Vis o2 i j p z := by
  obtain ⟨a1, a2, a3, a4⟩ := steps_keep hg hn h1
  obtain ⟨b1, b2, b3, b4⟩ := steps_keep hg hn h2
  have hk : Keeps o1 o2 := fun i j p s => (a3 i j p s).symm.trans (b3 i j p s)
  have hf : o2.freqs = o1.freqs := by rw [a4, b4]
  exact ⟨fun hv => keeps_vis a1 hf hk hw1 hw2 hv,
    fun hv => keeps_vis b1 hf.symm (fun i j p s => (hk i j p s).symm) hw2 hw1 hv⟩

/-- **C71.** Any sequence of operations keeps the magnitude of every visibility. -/
theorem steps_magnitude {env : Env} {o o' : Obj} (hg : Good o) (hn : 0 < o.uvw.length)
    (h : Relation.ReflTransGen (Step env) o o') {i j p : Nat} {z z' : ℂ} (hv : Vis o i j p z)
    (hv' : Vis o' i j p z') : Complex.normSq z' = Complex.normSq z := by
  obtain ⟨h1, h2, h3, h4⟩ := steps_keep hg hn h
  obtain ⟨w, f, -, hf, hs, hc⟩ := signal_of_vis hg hv
  obtain ⟨w', f', y, k1, k2, ⟨d, row, chan, a, b, c, e⟩, k4⟩ := (h3 _ _ _ _).1 hs
  obtain ⟨d', row', chan', a', b', c', e'⟩ := hv'
  rw [a] at a'; obtain rfl := Option.some.inj a'
  rw [b] at b'; obtain rfl := Option.some.inj b'
  rw [c] at c'; obtain rfl := Option.some.inj c'
  rw [e] at e'; obtain rfl := Option.some.inj e'
  rw [k4, Complex.normSq_mul, Complex.normSq_mul, wave_normSq, wave_normSq, mul_one, mul_one]

/-- **C73.** Phasing a drift scan and unprojecting it again, without antenna positions, gives back every
coordinate, source position and visibility. -/
theorem phase_unproject {env : Env} {o o1 o2 : Obj} {t : Call} {name : Str} (hg : Good o)
    (hn : 0 < o.uvw.length) (ho : Overhead o) (hu : ∀ i, i < o.uvw.length → Unproj o i)
    (h1 : phase env o t = .ok o1) (hk : KindAgrees o.st.cat t) (ha : t.useAntPos = false) (hm : t.mask = none)
    (hp : ∀ i, ¬ Unproj o1 i) (h2 : unproject env o1 false none name = .ok o2) (i : Nat) (hi : i < o.uvw.length) :
    o2.uvw[i]? = o.uvw[i]? ∧ (∀ r d p, SourceAt o i r d p ↔ SourceAt o2 i r d p) ∧
    ∀ j p z, Vis o i j p z ↔ Vis o2 i j p z := by
  have g1 := phase_good hg h1
  have hlen1 : o1.uvw.length = o.uvw.length := by
    obtain ⟨m, e, id, ra, dec, pa, uvw, s, k, o3, H⟩ := phase_did hg h1
    exact H.length
  have hl1 : o1.lst = o.lst ∧ o1.lat = o.lat := by
    obtain ⟨m, e, id, ra, dec, pa, uvw, s, k, o3, H⟩ := phase_did hg h1
    rw [H.result]; exact ⟨rfl, rfl⟩
  have hn1 : 0 < o1.uvw.length := by rw [hlen1]; exact hn
  have g2 := unproject_good g1 hn1 h2
  have hsel : ∀ q, Selected none q := fun q m hq => by simp at hq
  have hu2 : Unproj o2 i := ((unproject_kind g1 h2 i (by rw [hlen1]; exact hi)).1).2 (.inr (hsel i))
  have hlt2 : i < o2.uvw.length := by
    have := unproj_lt hu2
    rwa [g2.ids] at this
  have ht : o.lst[i]? = some (o.lst[i]'(by rw [hg.lst]; exact hi)) := List.getElem?_eq_getElem _
  set l := o.lst[i]'(by rw [hg.lst]; exact hi) with hl
  have src := ho i (hu i hi) l ht
  have src2 : SourceAt o2 i l o.lat 0 := by
    have := (unproject_sources g1 h2 i (by rw [hlen1]; exact hi)).1 (hsel i) (hp i) l (by rw [hl1.1]; exact ht)
    rwa [hl1.2] at this
  have hov1 : Overhead o1 := fun q hq => absurd hq (hp q)
  refine ⟨?_, ?_, ?_⟩
  · have hv : o.uvw[i]? = some o.uvw[i] := List.getElem?_eq_getElem hi
    obtain ⟨b, hb⟩ := Verif.Phasing.proj_surj (l - 0) o.lat 0 o.uvw[i]
    have b0 : Baseline o i 0 b := ⟨l, o.lat, 0, src, by rw [hv, hb]⟩
    have b1 := phase_moves_baseline hg h1 ha hm i 0 b b0
    obtain ⟨r, d, p, s3, s4⟩ := unproject_moves_baseline g1 h2 hov1 i hu2 0 b b1
    have e1 := Option.some.inj (s3.1.symm.trans src2.1)
    have e2 := Option.some.inj (s3.2.1.symm.trans src2.2.1)
    have e3 := Option.some.inj (s3.2.2.symm.trans src2.2.2)
    rw [s4, hv, e1, e2, e3, hb]
  · intro r d p
    unfold SourceAt at src src2 ⊢
    rw [src.1, src.2.1, src.2.2, src2.1, src2.2.1, src2.2.2]
  · intro j p z
    have st1 : Step env o o1 := .phase t h1 hk (.inl hm)
    have st2 : Step env o1 o2 := .unproject false none name h2 (fun q _ h0 => absurd (hsel q) h0)
    exact steps_same_path hg hn ((Relation.ReflTransGen.single st1).tail st2) (w := 0) (.inl ⟨hu i hi, rfl, hi⟩)
      (.inl ⟨hu2, rfl, hlt2⟩) j p z

end Verif.Phase
