import Verif.MsVis.Several

/-! # What is refused and what is lost -/

namespace Verif.MsVis
open Verif.Np Verif.Slices Verif.Pol

variable {T K U C E : Type}

/-- Objects with unprojected rows are refused. -/
theorem unprojected_refused (w : Ops T K U C) (flip : Bool) (idx : List Nat) {o : Obj T K U C E} (h : o.unproj = true) :
    write w flip idx o = .error .value := by
  unfold write
  rw [if_pos h]

/-- Pseudo-Stokes polarizations cannot be written. -/
theorem stokes_refused (w : Ops T K U C) (flip : Bool) {idx : List Nat} {o : Obj T K U C E} (hg : Good o)
    (ho : PolOrderResult o.pols .casa idx) (hr : o.pols.length = 1 ∨ idx ≠ (List.range o.pols.length).reverse)
    (h : ∃ p ∈ polsOf o, 1 ≤ p) : write w flip idx o = .error .value := by
  obtain ⟨p, hp, hp1⟩ := h
  have hperm := order_perm ho
  have hcols : polCols idx o.pols.length = some idx :=
    polCols_eq hperm (fun h => hg.polsSome (List.eq_nil_of_length_eq_zero h)) hr
  have ht : polTabOf o idx = .error .value := by
    unfold polTabOf
    rw [if_neg]
    unfold polsOf at hp
    cases hf : o.flexPol with
    | none =>
      rw [hf, Option.getD_none] at hp
      dsimp only
      intro hall
      simp only [List.all_cons, List.all_nil, Bool.and_true, List.all_eq_true, List.mem_map, decide_eq_true_iff] at hall
      obtain ⟨i, hi⟩ := List.mem_iff_getElem?.1 hp
      have hil := (List.getElem?_eq_some_iff.1 hi).1
      have := hall p ⟨i, hperm.mem_iff.2 (List.mem_range.2 hil), by simp only [List.getD]; rw [hi]; rfl⟩
      omega
    | some l =>
      rw [hf] at hp
      dsimp only
      intro hall
      simp only [List.all_eq_true, List.mem_map, decide_eq_true_iff] at hall
      have := hall [p] ⟨p, mem_unique.2 hp, rfl⟩ p (by simp)
      omega
  unfold write
  by_cases hu : o.unproj = true
  · rw [if_pos hu]
  · rw [if_neg hu, hcols]
    dsimp only
    rw [ht]

/-- **Two polarizations in the opposite order: nothing is written, without an error.** -/
theorem reversed_pair_counterexample [LinearOrder T] (w : Ops T K U C) (flip ign allow raise : Bool) {o : Obj T K U C E} (hg : Good o)
    (hign : ign = false ∨ NoSingle o) (hs : o.spws.length = 1) (h2 : o.pols.length = 2) :
    ∃ file o', write w flip [1, 0] o = .ok file ∧ read w false ign allow raise file = .ok o' ∧ ∀ L v, ¬ Has o' L v := by
  obtain ⟨s, hs'⟩ := List.length_eq_one_iff.1 hs
  have hf : o.flexPol = none := by
    cases hf : o.flexPol with
    | none => rfl
    | some l => exact absurd (hg.flex l hf).2 (by omega)
  have hcols : polCols [1, 0] o.pols.length = some [] := by
    rw [h2]
    decide +kernel
  refine ⟨fileOf w flip [] o, _, ?_, one_read w flip ign allow raise hg hign hs', ?_⟩
  · unfold write
    rw [if_neg (by simp [hg.projected]), hcols]
    dsimp only
    have ht : polTabOf o [] = .ok (polTabs o []) := by
      unfold polTabOf polTabs
      rw [hf]
      simp
    rw [ht]
    rfl
  · rintro L v ⟨r, f, p, row, c, _, _, hq, _⟩
    have : polAt (oneObj w flip [] o s) c p = ((corrAt o [] 0).map (fun c => (aipsOf c).getD 0))[p]? := rfl
    rw [this] at hq
    unfold corrAt at hq
    rw [hf] at hq
    simp at hq

/-- The object is left as it is unless the conjugates of the data of one window are written. -/
theorem write_leaves (w : Ops T K U C) (flip : Bool) (idx : List Nat) (o : Obj T K U C E) (h : flip = false ∨ o.spws.length ≠ 1) :
    afterWrite w flip idx o = o := by
  have hb : (flip && decide (o.spws.length = 1)) = false := by
    rcases h with h | h <;> simp [h]
  unfold afterWrite
  split
  · rw [if_neg (by simp [hb])]
  · rfl

/-- **Writing conjugates of one polarization conjugates the object that is written.** -/
theorem in_place_counterexample (w : Ops T K U C) {o : Obj T K U C E} (hs : o.spws.length = 1) (hp : o.pols.length = 1) (r f : Nat) :
    (afterWrite w true [0] o).data r f 0 = w.flipV true (o.data r f 0) := by
  have hsel : (⟨0, 1, some 1⟩ : PSlice).sel 1 = some [0] := by decide +kernel
  have hconv : (convert (.list [0]) (1/10) (some 1) true).1 = [Entry.slice ⟨0, 1, some 1⟩] := by decide +kernel
  unfold afterWrite
  rw [hconv]
  dsimp only
  rw [if_pos (by simp [hs])]
  dsimp only
  rw [hp, hsel]
  simp

/-- The weight of a record is that of the visibilities of the record, for several windows. -/
theorem weight_many (w : Ops T K U C) (flip : Bool) {idx : List Nat} {o : Obj T K U C E} (hn : o.spws.length ≠ 1) :
    ∀ x ∈ (fileOf w flip idx o).main, ∀ j < idx.length,
      x.weight[j]? = some (w.med (x.vis.filterMap (fun l => (l[j]?).map (fun v => v.n)))) := by
  intro x hx j hj
  have hmain : (fileOf w flip idx o).main = mainMany w flip o idx := by
    unfold fileOf
    rw [if_neg hn]
  rw [hmain] at hx
  obtain ⟨s, k, row, r, _, _, rfl⟩ := mem_many.1 hx
  unfold mkRec cell
  dsimp only
  rw [List.getElem?_map, List.getElem?_eq_getElem hj, Option.map_some, List.filterMap_map]
  congr 2
  rw [← List.filterMap_eq_map]
  apply List.filterMap_congr
  intro f _
  simp only [Function.comp_def, List.getElem?_map, List.getElem?_eq_getElem hj, Option.map_some]
  cases flip <;> rfl

/-- **A window of one channel alone cannot be read back by default.** -/
theorem single_refused_counterexample [LinearOrder T] (w : Ops T K U C) (flip flip' allow raise : Bool) {idx : List Nat} {o : Obj T K U C E}
    (hg : Good o) (hs : o.spws.length = 1) (h1 : o.chans.length = 1) :
    read w flip' true allow raise (fileOf w flip idx o) = .error .value := by
  obtain ⟨s, hs'⟩ := List.length_eq_one_iff.1 hs
  have hfil : o.chans.filter (fun c => decide (c.spw = s)) = o.chans :=
    List.filter_eq_self.2 (fun c hc => by simpa [hs'] using hg.chans c hc)
  have hd : descs true (fileOf w flip idx o) = [] := by
    unfold descs
    rw [List.filter_eq_nil_iff]
    intro d hd
    obtain ⟨x, hx, rfl⟩ := List.mem_map.1 hd
    have hx : x ∈ (ddTab o).zipIdx := hx
    unfold ddTab at hx
    rw [hs', zipIdx_range] at hx
    simp only [List.length_cons, List.length_nil, Nat.zero_add, List.range_one, List.map_cons, List.map_nil, List.mem_singleton] at hx
    subst hx
    have hwin : (fileOf w flip idx o).wins[0]? = some ⟨s, o.chans.map (fun c => (c.freq, c.width))⟩ := by
      show (winTab o)[0]? = _
      unfold winTab
      rw [hs', List.map_cons, List.getElem?_cons_zero, hfil]
    dsimp only
    rw [hwin]
    simp [h1]
  unfold read present
  rw [hd]
  rfl

end Verif.MsVis
