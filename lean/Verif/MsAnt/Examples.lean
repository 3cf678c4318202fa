import Mathlib.Algebra.Order.Ring.Int
import Verif.MsAnt.Props

/-! # Examples -/

namespace Verif.MsAnt

/-- Two antennas that are not in the order of their numbers, at distances along a line. -/
def telEx : Tel Int Int :=
  ⟨[⟨4, "b", 3, 12⟩, ⟨1, "a", -2, 9⟩], true, 10, false, none, "HERA", some "correlator", none⟩

example : (telEx.ants.map (fun a => a.num)).Nodup := by decide
example : telEx.ants ≠ [] := by decide
example : ∀ a ∈ telEx.ants, a.pos + telEx.loc ≠ 0 := by decide

example : (write telEx).map (fun f => (f.rows.length, f.rows.map (fun r => (r.name, r.pos, r.diam)))) =
    some (5, [("", 0, 0), ("a", 8, 9), ("", 0, 0), ("", 0, 0), ("b", 13, 12)]) := by decide +kernel
example : (write telEx).map (fun f => (read false f).ants) = some [⟨1, "a", -2, 9⟩, ⟨4, "b", 3, 12⟩] := by decide +kernel
example : (write telEx).map (fun f => ((read true f).diams, (read true f).instrument)) = some (true, some "HERA") := by decide +kernel

/-- On the moon. -/
example : (write { telEx with moon := true, ellipsoid := some "GSFC" }).map (fun f => (read false f).ellipsoid) = some (some "GSFC") := by
  decide +kernel

/-- One diameter: rows without an antenna have it too, but are left out. -/
def sameEx : Tel Int Int := { telEx with ants := [⟨2, "b", 3, 12⟩, ⟨0, "a", -2, 12⟩] }

example : (write sameEx).map (fun f => f.rows.map (fun r => r.diam)) = some [12, 12, 12] := by decide +kernel
example : (write sameEx).map (fun f => (read false f).ants) = some [⟨0, "a", -2, 12⟩, ⟨2, "b", 3, 12⟩] := by decide +kernel

/-- Diameters that are zero are not set afterwards. -/
theorem diams_counterexample : ∃ (t : Tel Int Int) (f : File Int Int), t.diams = true ∧ write t = some f ∧ (read false f).diams = false := by
  refine ⟨{ telEx with ants := [⟨0, "a", 1, 0⟩] }, _, rfl, rfl, ?_⟩
  decide +kernel

/-- An antenna at the center. -/
example : ({ telEx with ants := [⟨0, "a", -10, 5⟩, ⟨1, "b", 1, 5⟩] } : Tel Int Int).ants.map (fun a => decide (a.pos + 10 = 0)) =
    [true, false] := by decide
example : (write { telEx with ants := [⟨0, "a", -10, 5⟩, ⟨1, "b", 1, 5⟩] }).map (fun f => (read false f).ants) =
    some [⟨1, "b", 1, 5⟩] := by decide +kernel

end Verif.MsAnt
