import Verif.Sky.App
import Verif.Phase.Examples

/-!
# Phasing with the positions of `calc_app_coords` and `calc_frame_pos_angle`

`Verif.Phase` leaves the sky open.  Here it is the one of this directory.
-/

namespace Verif.Sky

open Verif.Coord (V3 atan2)
open Verif.Phase (Env Obj Call Epoch SkyAt AngleAt Good Selected SourceAt Asked FreshName)
open Verif.PhaseCat (Entry Consts Pop Val unprojected driftscan sidereal ephem altaz PointsAt Matches genEntry)
open Verif.Phasing (M3)
open Verif.Pol (Str)

noncomputable section

def topo : Str := ['t', 'o', 'p', 'o']

/-- The environment of a telescope: `phase` calls `calc_app_coords` (uvdata.py lines 4770-4790) and
`calc_frame_pos_angle` (4791-4801). -/
def siteEnv (c : Consts) (pop : Pop) (junk : M3) (jpl : Str → List ℝ → Option (Val × Val × Val × Val × Val))
    (s : Site) : Env :=
  { c := c, pop := pop, junk := junk, jpl := jpl
    app := fun e ts ls => match appCoords s e ts ls with
      | .ok r => .ok r
      | .error _ => .error .sky
    angle := fun fr ep ts ra dec =>
      match framePosAngle (s.sid (fr.getD []) ep) (decide (fr ≠ none ∧ fr ≠ some topo)) s.off ts ra dec with
      | .ok r => .ok r
      | .error _ => .error .sky }

/-- Where the source is. -/
def placeOf (s : Site) (e : Entry) (t l : ℝ) : ℝ × ℝ :=
  match place s e t l with
  | .ok p => p
  | .error _ => (0, 0)

open Classical in
/-- The position angle of the frame: minus the position angle of the northern end of a small arc seen from the
southern end; zero within the offset of the pole, where the function gives up. -/
def angleOf (s : Site) (fr : Option Str) (ep : Epoch) (t r d : ℝ) : ℝ :=
  if fr ≠ none ∧ fr ≠ some topo then
    if d + s.off > Real.pi / 2 then 0 else -pas (s.sid (fr.getD []) ep t r (d - s.off)) (s.sid (fr.getD []) ep t r (d + s.off))
  else 0

variable {c : Consts} {pop : Pop} {junk : M3} {jpl : Str → List ℝ → Option (Val × Val × Val × Val × Val)} {s : Site}

/-- `calc_app_coords` is a sky: what it returns for a row depends on the time and the LST of this row. -/
theorem site_sky : SkyAt (siteEnv c pop junk jpl s) (placeOf s) := by
  intro e ts ls r d hf h i t l ht hl
  simp only [siteEnv] at h
  cases ha : appCoords s e ts ls with
  | error err => rw [ha] at h; simp at h
  | ok q =>
    rw [ha] at h
    simp only [Except.ok.injEq] at h
    subst h
    obtain ⟨p, hp, h1, h2⟩ := app_row_partial ha hf i t l ht hl
    unfold placeOf
    rw [hp]
    exact ⟨h1, h2⟩

/-- `calc_frame_pos_angle` returns what belongs to each row. -/
theorem site_angle : AngleAt (siteEnv c pop junk jpl s) (angleOf s) := by
  classical
  intro fr ep ts ra dec pa hr hd hle h i t r d ht hri hdi
  simp only [siteEnv] at h
  cases ha : framePosAngle (s.sid (fr.getD []) ep) (decide (fr ≠ none ∧ fr ≠ some topo)) s.off ts ra dec with
  | error err => rw [ha] at h; simp at h
  | ok q =>
    rw [ha] at h
    simp only [Except.ok.injEq] at h
    subst h
    unfold angleOf
    by_cases hfr : fr ≠ none ∧ fr ≠ some topo
    · rw [if_pos hfr]
      rw [decide_eq_true hfr] at ha
      have ho : 0 < s.off := by
        unfold framePosAngle at ha
        rw [if_neg (by simp)] at ha
        by_contra h0
        rw [if_pos h0] at ha
        simp at ha
      have hlen : ts.length = ra.length ∧ dec.length = ra.length := by
        unfold framePosAngle at ha
        rw [if_neg (by simp), if_neg (not_not.2 ho)] at ha
        by_contra h0
        rw [if_pos (by by_contra h1; push Not at h1; exact h0 h1)] at ha
        simp at ha
      have hle' : ∀ x ∈ dec, x - s.off ≤ Real.pi / 2 := fun x hx => by have := hle x hx; linarith
      have hs : ∀ x ∈ dec, -(Real.pi / 2) + s.off ≤ x := by
        intro x hx
        by_contra h0
        rw [frame_south_counterexample ho hlen.1 hlen.2 hle hx (not_le.1 h0)] at ha
        simp at ha
      by_cases hn : d + s.off > Real.pi / 2
      · rw [if_pos hn]
        obtain ⟨pa, h1, h2⟩ := frame_north_counterexample (sid := s.sid (fr.getD []) ep) ho hlen.1 hlen.2 hs hle hr ht
          hri hdi hn
        rw [h1] at ha
        rw [← Except.ok.inj ha]
        exact h2
      · rw [if_neg hn]
        rw [frame_ok ho hlen.1 hlen.2 hle' (not_south hlen.1 hlen.2 hs)] at ha
        rw [← Except.ok.inj ha, List.getElem?_map, zip3_get ht hri hdi]
        simp only [Option.map_some, Option.some.injEq]
        obtain ⟨j, hj, e1, e2, e3⟩ := reached_of_fixed hlen.1 hlen.2 hr hd (List.getElem?_eq_some_iff.1 hri).1
        have hent : ∀ k, dec.getD k 0 = d → entryAt (s.sid (fr.getD []) ep) s.off ts ra dec k =
            ⟨ra.getD k 0, d, ts.getD k 0, -pas (s.sid (fr.getD []) ep (ts.getD k 0) (ra.getD k 0) (d - s.off))
              (s.sid (fr.getD []) ep (ts.getD k 0) (ra.getD k 0) (d + s.off))⟩ := by
          intro k hk
          unfold entryAt
          simp only [hk, hn, decide_false, Bool.false_eq_true, if_false]
        refine (backfill_eq ?_).1 ?_
        · intro u hu a1 a2 a3
          rw [List.mem_map] at hu
          obtain ⟨k, hk, rfl⟩ := hu
          have hk' : dec.getD k 0 = d := a2
          rw [hent k hk'] at a1 a3 ⊢
          simp only at a1 a3 ⊢
          rw [a1, a3]
        · refine ⟨_, List.mem_map.2 ⟨j, (mem_uniqueMask hlen.1 hlen.2).2 hj, rfl⟩, ?_⟩
          rw [hent j (getD_of (e3.trans hdi))]
          exact ⟨getD_of (e2.trans hri), rfl, getD_of (e1.trans ht)⟩
    · rw [if_neg hfr]
      rw [decide_eq_false hfr] at ha
      unfold framePosAngle at ha
      rw [if_pos rfl] at ha
      rw [← Except.ok.inj ha, List.getElem?_map, ht]
      rfl

/-- **C75**, **C76.** After `phase`, the source position of every selected row is where `calc_app_coords` puts the
source at the time and LST of this row alone, and the position angle is that of the frame there - for sources
other than ephemerides, if rows with the same time have the same LST and positions on the sky are not above the pole. -/
theorem phase_site_partial {o o' : Obj} {t : Call} (hr : 0 ≤ c.radTol) (hg : Good o)
    (h : Verif.Phase.phase (siteEnv c pop junk jpl s) o t = .ok o') (hne : t.lookup = true → ¬ FreshName o.st.cat t.name)
    (hep : ∀ e, Asked o.st.cat t e → e.type ≠ ephem) (hfix : Fixed o.time o.lst)
    (hlat : ∀ e ti l, (placeOf s e ti l).2 ≤ Real.pi / 2) :
    ∃ e x, Asked o.st.cat t e ∧ genEntry c e = .ok x ∧
      ∀ (i : Nat) (ti l : ℝ), Selected t.mask i → o.time[i]? = some ti → o.lst[i]? = some l →
        (∃ y, PointsAt o'.st i y ∧ Matches c false x y) ∧
        SourceAt o' i (placeOf s e ti l).1 (placeOf s e ti l).2
          (if t.frame = some altaz then 0 else angleOf s t.frame t.epoch ti (placeOf s e ti l).1 (placeOf s e ti l).2) :=
  Verif.Phase.phase_selected_rows_partial hr site_sky site_angle hg h hne hep hfix hlat

end

end Verif.Sky
