import Verif.MirGet.Props

/-! Concrete cases. -/

namespace Verif.MirGet

/-- Three records with two fields, the second one is not used. -/
def tab : Tab Nat Int := ⟨3, [0, 1], fun f => if f = 0 then [5, 6, 7] else [-1, -2, -3], [true, false, true], [11, 12, 13], fun _ => none⟩

theorem tab_good : Good tab := ⟨by decide, rfl, rfl⟩

example := get_partial tab_good (f := 1) none true [(0, fun x => decide (x > 5)), (9, fun _ => true)] (fun _ => rfl)
example : tab.get 1 { conds := some [(0, fun x => decide (x > 5)), (9, fun _ => true)] } = .ok [-3] := by decide +kernel
example := get_all tab_good (f := 1) (by decide) none
example : tab.get 1 { header := some [13, 11] } = .ok [-3, -1] := by decide +kernel
example := get_keys tab_good (f := 1) (by decide) [13, 11] [-3, -1]
example := set_partial tab_good (f := 1) (by decide) (some false) false [(0, fun x => decide (x > 5)), (1, fun x => decide (x = -1))] (by decide) ⟨_, List.mem_cons_self, by decide⟩ 8
example : (tab.set 1 (.one 8) { useMask := some false, conds := some [(0, fun x => decide (x > 6)), (1, fun x => decide (x = -1))], andArgs := false }).1.data 1 = [8, -2, 8] := by decide +kernel
example := set_keys tab_good (by decide) (f := 1) (by decide) (ks := [13, 11]) (by decide) (by decide) (v := [4, 9]) rfl
example : (tab.set 1 (.array [4, 9]) { header := some [13, 11] }).1.data 1 = [9, -2, 4] := by decide +kernel
example := reset_restores (t := tab) (fun _ => rfl) [(1, .one 8, {}), (0, .array [1], {}), (1, .one 7, { index := some [0] })]
example : ((tab.set 1 (.one 8) {}).1.set 0 (.array [1]) {}).2 = some .shape := by decide +kernel
example := (reset_named (tab.set 1 (.one 8) {}).1 [1]).1.2 (fun f hf => by obtain rfl := List.mem_singleton.1 hf; exact ⟨[-1, -2, -3], by decide +kernel⟩)
example : tab.get 1 { conds := some [(0, fun x => decide (x = 6))], andArgs := false } = .ok [-1, -2, -3] := by decide +kernel
example := or_counterexample tab_good (f := 1) (by decide) (l := [(0, fun x => decide (x = 6))]) ⟨_, List.mem_cons_self, by decide⟩

end Verif.MirGet
