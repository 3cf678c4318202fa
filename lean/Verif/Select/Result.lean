import Verif.Select.Props

/-! C34: the object that results, cell by cell.  C35: selections commute and compose. -/
namespace Verif.Select
open Verif.Np Verif.TimeSel
open Verif.Pol (Str)

variable {K D R C : Type} [Field K] [LinearOrder K]

theorem pick_map {α β : Type} (f : α → β) (l : List α) (inds : List Nat) : pick (l.map f) inds = (pick l inds).map f := by
  unfold pick
  rw [List.map_filterMap]
  congr 1
  funext i
  simp

/-- All indices in range: element `j` of the result is element `inds[j]` of the list. -/
theorem pick_get {α : Type} (l : List α) : ∀ (inds : List Nat), (∀ i ∈ inds, i < l.length) → ∀ j : Nat,
    (pick l inds)[j]? = inds[j]?.bind (fun i : Nat => l[i]?)
  | [], _, j => by simp [pick]
  | i :: inds, h, j => by
    have hlt : i < l.length := h i (by simp)
    have hi : l[i]? = some l[i] := List.getElem?_eq_getElem hlt
    have ih := pick_get l inds (fun i hi => h i (by simp [hi]))
    have hp : pick l (i :: inds) = l[i] :: pick l inds := by
      unfold pick; rw [List.filterMap_cons, hi]
    rw [hp]
    cases j with
    | zero => simp [hi]
    | succ j => simpa using ih j

theorem pick_length {α : Type} (l : List α) (inds : List Nat) (h : ∀ i ∈ inds, i < l.length) :
    (pick l inds).length = inds.length := by
  induction inds with
  | nil => rfl
  | cons i inds ih =>
    have hlt : i < l.length := h i (by simp)
    have hi : l[i]? = some l[i] := List.getElem?_eq_getElem hlt
    have hp : pick l (i :: inds) = l[i] :: pick l inds := by
      unfold pick; rw [List.filterMap_cons, hi]
    rw [hp, List.length_cons, List.length_cons, ih (fun i hi => h i (by simp [hi]))]

theorem pick_pick {α : Type} (l : List α) (a b : List Nat) (h : ∀ i ∈ a, i < l.length) :
    pick (pick l a) b = pick l (pick a b) := by
  unfold pick at *
  rw [List.filterMap_filterMap]
  congr 1
  funext j
  have := pick_get l a h j
  unfold pick at this
  rw [this]

/-- The rows of the object after a selection of rows. -/
theorem takeRows_table (o : Obj K D R C) (rows : List (Row K D R)) (ht : IsTable o rows) (l : List Nat)
    (hl : ∀ i ∈ l, i < rows.length) : IsTable (takeRows o l) (pick rows l) where
  ant1 := by simp [takeRows, ht.ant1, pick_map]
  ant2 := by simp [takeRows, ht.ant2, pick_map]
  bl := by simp [takeRows, ht.bl, pick_map]
  times := by simp [takeRows, ht.times, pick_map]
  lsts := by simp [takeRows, ht.lsts, pick_map]
  pc := by simp [takeRows, ht.pc, pick_map]
  rest := by simp [takeRows, ht.rest, pick_map]
  vis := by
    rcases ht.vis with ⟨h1, h2⟩ | ⟨v, h1, h2⟩
    · left
      refine ⟨by simp [takeRows, h1], ?_⟩
      intro r hr
      obtain ⟨i, _, hi⟩ := List.mem_filterMap.1 hr
      exact h2 r (List.mem_of_getElem? hi)
    · right
      refine ⟨pick v l, by simp [takeRows, h1], ?_⟩
      rw [← pick_map, ← pick_map, h2]
  nblts := by
    simp only [takeRows]
    exact (pick_length rows l hl).symm

/-- A cell of the visibilities. -/
def cell (v : List (List (List D))) (i f p : Nat) : Option D := v[i]?.bind (fun row => row[f]?.bind (fun ch => ch[p]?))

/-- The visibilities have one cell per row, channel and polarization. -/
structure Shaped (o : Obj K D R C) (v : List (List (List D))) : Prop where
  rows : v.length = o.nblts
  chans : ∀ row ∈ v, row.length = o.freqs.length
  pols : ∀ row ∈ v, ∀ ch ∈ row, ch.length = o.pols.length

/-- The kept indices of an axis of length `n`. -/
def keptOf (n : Nat) (l : Option (List Nat)) : List Nat := l.getD (List.range n)

theorem pick_get1 {α : Type} (ch : List α) (n : Nat) (hn : ch.length = n) (l : Option (List Nat))
    (hl : ∀ m, l = some m → ∀ i ∈ m, i < n) (j : Nat) :
    (match l with | none => ch | some l => pick ch l)[j]? = (keptOf n l)[j]?.bind (fun i => ch[i]?) := by
  cases l with
  | none =>
    simp only [keptOf, Option.getD_none]
    by_cases hj : j < n
    · rw [List.getElem?_range hj]; rfl
    · rw [List.getElem?_eq_none (by omega), List.getElem?_eq_none (by simp; omega)]; rfl
  | some l =>
    simp only [keptOf, Option.getD_some]
    exact pick_get ch l (fun i hi => by rw [hn]; exact hl l rfl i hi) j

/-- An axis of an attribute with that axis. -/
def cut {α : Type} (l : Option (List Nat)) (x : List α) : List α := match l with | none => x | some l => pick x l

theorem byIndex_vis (o : Obj K D R C) (ri fi pi : Option (List Nat)) :
    (byIndex o (ri, fi, pi)).vis = o.vis.map (fun v => (cut ri v).map (fun row => (cut fi row).map (cut pi))) := by
  unfold byIndex onAxis takeRows takeChans takePols cut
  cases h : o.vis <;> cases ri <;> cases fi <;> cases pi <;> simp [h]

/-- C34, the cells: cell `(j, k, m)` of the result is the cell of the kept row `j`, kept channel `k` and kept
polarization `m`, and there are no further cells. -/
theorem select_cells (o : Obj K D R C) (v : List (List (List D))) (hv : o.vis = some v) (hs : Shaped o v)
    (ri fi pi : Option (List Nat)) (hr : ∀ l, ri = some l → ∀ i ∈ l, i < o.nblts)
    (hf : ∀ l, fi = some l → ∀ i ∈ l, i < o.freqs.length) (hp : ∀ l, pi = some l → ∀ i ∈ l, i < o.pols.length) :
    ∃ v', (byIndex o (ri, fi, pi)).vis = some v' ∧ ∀ j k m, cell v' j k m =
      (keptOf o.nblts ri)[j]?.bind (fun a => (keptOf o.freqs.length fi)[k]?.bind (fun b =>
        (keptOf o.pols.length pi)[m]?.bind (fun d => cell v a b d))) := by
  refine ⟨_, by rw [byIndex_vis, hv]; rfl, ?_⟩
  intro j k m
  unfold cell
  rw [List.getElem?_map]
  have h1 := pick_get1 v o.nblts hs.rows ri hr j
  have h1' : (cut ri v)[j]? = (keptOf o.nblts ri)[j]?.bind (fun i => v[i]?) := by unfold cut; exact h1
  rw [h1']
  cases (keptOf o.nblts ri)[j]? with
  | none => rfl
  | some a =>
    simp only [Option.bind_some]
    cases hva : v[a]? with
    | none =>
      simp only [Option.map_none, Option.bind_none]
      cases (keptOf o.freqs.length fi)[k]? <;> cases (keptOf o.pols.length pi)[m]? <;> rfl
    | some row =>
      have hrow := List.mem_of_getElem? hva
      simp only [Option.map_some, Option.bind_some]
      rw [List.getElem?_map]
      have h2 : (cut fi row)[k]? = (keptOf o.freqs.length fi)[k]?.bind (fun i => row[i]?) := by
        unfold cut; exact pick_get1 row _ (hs.chans row hrow) fi hf k
      rw [h2]
      cases (keptOf o.freqs.length fi)[k]? with
      | none => rfl
      | some b =>
        simp only [Option.bind_some]
        cases hrb : row[b]? with
        | none =>
          simp only [Option.map_none, Option.bind_none]
          cases (keptOf o.pols.length pi)[m]? <;> rfl
        | some ch =>
          have hch := List.mem_of_getElem? hrb
          simp only [Option.map_some, Option.bind_some]
          have h3 : (cut pi ch)[m]? = (keptOf o.pols.length pi)[m]?.bind (fun i => ch[i]?) := by
            unfold cut; exact pick_get1 ch _ (hs.pols row hrow ch hch) pi hp m
          rw [h3]

/-- C34, the labels of the result. -/
theorem select_labels (o : Obj K D R C) (ri fi pi : Option (List Nat)) :
    (byIndex o (ri, fi, pi)).ant1 = cut ri o.ant1 ∧ (byIndex o (ri, fi, pi)).ant2 = cut ri o.ant2 ∧
    (byIndex o (ri, fi, pi)).bl = cut ri o.bl ∧ (byIndex o (ri, fi, pi)).times = cut ri o.times ∧
    (byIndex o (ri, fi, pi)).lsts = cut ri o.lsts ∧ (byIndex o (ri, fi, pi)).pc = cut ri o.pc ∧
    (byIndex o (ri, fi, pi)).rest = cut ri o.rest ∧
    (byIndex o (ri, fi, pi)).freqs = cut fi o.freqs ∧ (byIndex o (ri, fi, pi)).ids = cut fi o.ids ∧
    (byIndex o (ri, fi, pi)).chRest = cut fi o.chRest ∧ (byIndex o (ri, fi, pi)).pols = cut pi o.pols := by
  unfold byIndex onAxis takeRows takeChans takePols cut
  cases ri <;> cases fi <;> cases pi <;> simp

/-- C34, the counts of the result when rows were selected. -/
theorem select_counts (o : Obj K D R C) (l : List Nat) (fi pi : Option (List Nat)) :
    (byIndex o (some l, fi, pi)).nblts = l.length ∧
    (byIndex o (some l, fi, pi)).nbls = (unique (byIndex o (some l, fi, pi)).bl).length ∧
    (byIndex o (some l, fi, pi)).ntimes = (unique (byIndex o (some l, fi, pi)).times).length ∧
    (byIndex o (some l, fi, pi)).nants =
      (unique ((byIndex o (some l, fi, pi)).ant1 ++ (byIndex o (some l, fi, pi)).ant2)).length ∧
    (∀ m, fi = some m → (byIndex o (some l, fi, pi)).nfreqs = m.length) ∧
    (∀ m, pi = some m → (byIndex o (some l, fi, pi)).npols = m.length) := by
  unfold byIndex onAxis takeRows takeChans takePols
  cases fi <;> cases pi <;> simp

/-- C34, windows: after a selection of channels exactly the windows that still have a channel remain, in order, with
their polarizations. -/
theorem select_windows (o : Obj K D R C) (ri pi : Option (List Nat)) (l : List Nat) :
    ∃ sp : List Nat, sp.Pairwise (· < ·) ∧
      (∀ k, k ∈ sp ↔ ∃ w, o.spws[k]? = some w ∧ w ∈ (byIndex o (ri, some l, pi)).ids) ∧
      (byIndex o (ri, some l, pi)).spws = pick o.spws sp ∧
      (byIndex o (ri, some l, pi)).flexPol = o.flexPol.map (fun x => pick x sp) ∧
      (byIndex o (ri, some l, pi)).nspws = sp.length := by
  refine ⟨whereIdx (fun w => (pick o.ids l).contains w) o.spws, whereIdx_sorted _ _, ?_, ?_⟩
  · intro k
    rw [mem_whereIdx, (select_labels o ri (some l) pi).2.2.2.2.2.2.2.2.1]
    simp [cut]
  · unfold byIndex onAxis takeRows takeChans takePols
    cases ri <;> cases pi <;> simp

end Verif.Select
