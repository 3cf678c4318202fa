import Verif.FreqSort.Examples

/-!
Model of `UVData.reorder_freqs`, `src/pyuvdata/uvdata/uvdata.py` lines 4058–4172, and C47.

An array with a frequency axis is the list of its channels: `data`, `flags`, `nsamples` are lists of channel planes,
`eqCoeffs` the list of its columns.  `flex_spw_id_array` is required in this version of the code, so it is always there.
-/
namespace Verif.FreqSort
open Verif.Np

variable {K : Type} [Field K] [LinearOrder K] {D F N E : Type}

structure Axis (K D F N E : Type) where
  freqs : List K
  widths : List K
  ids : List Int
  spws : List Int
  flexPol : Option (List Int)
  vis : Option (List D × List F × List N)
  eqCoeffs : Option (List E)
deriving DecidableEq

/-- `np.sort(np.unique(ids, return_index=True)[1])`, lines 4149–4151. -/
def firstIndices (ids : List Int) : List Nat := ((unique ids).map (fun w => ids.idxOf w)).insertionSort (· ≤ ·)

/-- Lines 4154–4159: the polarization array in the order of `newSpws`. -/
def moveFlexPol (spws newSpws pols : List Int) : List Int :=
  fancy pols ((newSpws.map (fun w => spws.idxOf w)) ++ List.replicate (spws.length - newSpws.length) 0)

/-- Lines 4139–4165. -/
def applyIndex (a : Axis K D F N E) (idx : List Nat) : Axis K D F N E :=
  let ids := fancy a.ids idx                                                   -- 4146
  let newSpws := fancy ids (firstIndices ids)                                  -- 4149–4152
  { freqs := fancy a.freqs idx                                                 -- 4140
    widths := fancy a.widths idx                                               -- 4162
    ids := ids
    spws := newSpws                                                            -- 4160
    flexPol := a.flexPol.map (moveFlexPol a.spws newSpws)                      -- 4153–4159
    vis := a.vis.map (fun v => (fancy v.1 idx, fancy v.2.1 idx, fancy v.2.2 idx))   -- 4141–4144
    eqCoeffs := a.eqCoeffs.map (fun e => fancy e idx) }                        -- 4164–4165

/-- `reorder_freqs`, without the final `check`. -/
def reorderFreqs (sI : Argsort Int) (sF : Argsort K) (a : Axis K D F N E) (so co : Order) (ss : Option (List Int)) :
    Except Err (Axis K D F N E) :=
  match sortFreq sI sF a.freqs a.spws a.ids so co ss with
  | .error e => .error e
  | .ok none => .ok a                                                          -- 4135–4137
  | .ok (some idx) => .ok (applyIndex a idx)

/-! ### Specification -/

/-- One channel with everything that belongs to it. -/
structure Chan (K D F N E : Type) where
  freq : K
  width : K
  id : Int
  vis : Option (D × F × N)
  eq : Option E

/-- `cs` are the channels of the axis `a`. -/
def IsAxis (a : Axis K D F N E) (cs : List (Chan K D F N E)) : Prop :=
  a.freqs = cs.map (·.freq) ∧ a.widths = cs.map (·.width) ∧ a.ids = cs.map (·.id) ∧
  (match a.vis with
    | none => True
    | some v => ∃ l : List (D × F × N), cs.map (·.vis) = l.map some ∧ v = (l.map (·.1), l.map (·.2.1), l.map (·.2.2))) ∧
  (match a.eqCoeffs with | none => True | some e => cs.map (·.eq) = e.map some)

/-- The polarization of window `w`. -/
def polOf (a : Axis K D F N E) (w : Int) : Option Int :=
  a.flexPol.bind (fun p => p[a.spws.idxOf w]?)

theorem fancy_map_comm {α β : Type} (f : α → β) (xs : List α) (idx : List Nat) :
    fancy (xs.map f) idx = (fancy xs idx).map f := by
  induction idx with
  | nil => rfl
  | cons i idx ih =>
    unfold fancy at ih ⊢
    rw [List.filterMap_cons, List.filterMap_cons, List.getElem?_map, ih]
    cases xs[i]? <;> rfl

/-- Distinct values in order of first appearance. -/
def FirstOrder (ids ws : List Int) : Prop :=
  ws.Nodup ∧ (∀ w, w ∈ ws ↔ w ∈ ids) ∧ ws.Pairwise (fun v w => ids.idxOf v < ids.idxOf w)

theorem firstOrder_spec (ids : List Int) : FirstOrder ids (fancy ids (firstIndices ids)) := by
  have hp : (firstIndices ids).Perm ((unique ids).map (fun w => ids.idxOf w)) := List.perm_insertionSort _ _
  have hget : ∀ i ∈ firstIndices ids, ∃ w ∈ ids, ids.idxOf w = i ∧ ids[i]? = some w := by
    intro i hi
    obtain ⟨w, hw, rfl⟩ := List.mem_map.1 (hp.mem_iff.1 hi)
    have hw := mem_unique.1 hw
    exact ⟨w, hw, rfl, List.getElem?_idxOf hw⟩
  have hinj : ((unique ids).map (fun w => ids.idxOf w)).Nodup := by
    refine List.Nodup.map_on ?_ ((unique_sorted ids).imp ne_of_lt)
    intro a ha b hb h
    have ha := mem_unique.1 ha
    have hb := mem_unique.1 hb
    have e1 := List.getElem?_idxOf ha
    have e2 := List.getElem?_idxOf hb
    rw [h, e2] at e1
    simpa using e1.symm
  have hs : (firstIndices ids).Pairwise (· < ·) := by
    have a : (firstIndices ids).Pairwise (· ≤ ·) := List.pairwise_insertionSort _ _
    have b : (firstIndices ids).Pairwise (· ≠ ·) := hp.nodup_iff.2 hinj
    exact (a.and b).imp (fun h => lt_of_le_of_ne h.1 h.2)
  have hpw : (fancy ids (firstIndices ids)).Pairwise (fun v w => ids.idxOf v < ids.idxOf w) := by
    unfold fancy
    rw [List.pairwise_filterMap]
    refine List.Pairwise.imp_of_mem ?_ hs
    intro i j hi hj hij v hv w hw
    obtain ⟨v', _, ev, ev'⟩ := hget i hi
    obtain ⟨w', _, ew, ew'⟩ := hget j hj
    rw [ev'] at hv
    rw [ew'] at hw
    simp only [Option.some.injEq] at hv hw
    subst hv; subst hw
    rw [ev, ew]; exact hij
  refine ⟨hpw.imp (by rintro a b h rfl; exact lt_irrefl _ h), ?_, hpw⟩
  intro w
  constructor
  · intro h
    obtain ⟨i, _, hi⟩ := List.mem_filterMap.1 h
    exact List.mem_of_getElem? hi
  · intro h
    refine List.mem_filterMap.2 ⟨ids.idxOf w, ?_, List.getElem?_idxOf h⟩
    exact hp.mem_iff.2 (List.mem_map.2 ⟨w, mem_unique.2 h, rfl⟩)

/-- C47: the channels are rearranged as whole records by the arrangement of C22; the window list becomes the windows in
order of first appearance and is a rearrangement of the old list; every window keeps its polarization. -/
theorem reorder_freqs_records (sI : Argsort Int) (sF : Argsort K) (a b : Axis K D F N E) (so co : Order)
    (ss : Option (List Int)) (cs : List (Chan K D F N E)) (hv : Valid a.freqs a.spws a.ids) (ha : IsAxis a cs)
    (hp : ∀ p, a.flexPol = some p → p.length = a.spws.length)
    (h : reorderFreqs sI sF a so co ss = .ok b) :
    ∃ r, sortFreq sI sF a.freqs a.spws a.ids so co ss = .ok r ∧
      IsAxis b (fancy cs (arrangement cs.length r)) ∧ (fancy cs (arrangement cs.length r)).Perm cs ∧
      b.spws.Perm a.spws ∧ (r ≠ none → FirstOrder b.ids b.spws) ∧ (r = none → b = a) ∧
      b.vis.isSome = a.vis.isSome ∧ b.eqCoeffs.isSome = a.eqCoeffs.isSome ∧
      (∀ w ∈ a.spws, polOf b w = polOf a w) := by
  unfold reorderFreqs at h
  cases hr : sortFreq sI sF a.freqs a.spws a.ids so co ss with
  | error e => rw [hr] at h; simp at h
  | ok r =>
    rw [hr] at h
    have hlen : cs.length = a.freqs.length := by rw [ha.1]; simp
    refine ⟨r, rfl, ?_⟩
    cases r with
    | none =>
      simp only [Except.ok.injEq] at h
      subst h
      have e : fancy cs (arrangement cs.length none) = cs := fancy_range cs
      rw [e]
      exact ⟨ha, List.Perm.refl _, List.Perm.refl _, by simp, fun _ => rfl, rfl, rfl, fun _ _ => rfl⟩
    | some idx =>
      simp only [Except.ok.injEq] at h
      subst h
      obtain ⟨hperm, -⟩ := sort_freq_none sI sF a.freqs a.spws a.ids so co ss idx hv hr
      have e : arrangement cs.length (some idx) = idx := rfl
      rw [e]
      have hcp : (fancy cs idx).Perm cs := fancy_perm _ _ (hlen ▸ hperm)
      have hidsp : (fancy a.ids idx).Perm a.ids := fancy_perm _ _ (by rw [hv.len]; exact hperm)
      have hfo := firstOrder_spec (fancy a.ids idx)
      obtain ⟨h1, h2, h3, h4, h5⟩ := ha
      have hsp : (fancy (fancy a.ids idx) (firstIndices (fancy a.ids idx))).Perm a.spws := by
        rw [List.perm_ext_iff_of_nodup hfo.1 hv.nodup]
        intro w
        rw [hfo.2.1, hidsp.mem_iff]
        exact ⟨hv.listed w, hv.used w⟩
      refine ⟨⟨?_, ?_, ?_, ?_, ?_⟩, hcp, hsp, fun _ => hfo, by simp, ?_, ?_, ?_⟩
      · simp only [applyIndex, h1, fancy_map_comm]
      · simp only [applyIndex, h2, fancy_map_comm]
      · simp only [applyIndex, h3, fancy_map_comm]
      · cases hvis : a.vis with
        | none => simp [applyIndex, hvis]
        | some v =>
          rw [hvis] at h4
          obtain ⟨l, l1, rfl⟩ := h4
          simp only [applyIndex, hvis, Option.map_some]
          refine ⟨fancy l idx, ?_, ?_⟩
          · rw [← fancy_map_comm, l1, fancy_map_comm]
          · simp only [fancy_map_comm]
      · cases heq : a.eqCoeffs with
        | none => simp [applyIndex, heq]
        | some q =>
          rw [heq] at h5
          simp only [applyIndex, heq, Option.map_some]
          rw [← fancy_map_comm, h5, fancy_map_comm]
      · simp [applyIndex]
      · simp [applyIndex]
      · intro w hw
        unfold polOf
        cases hpol : a.flexPol with
        | none => simp [applyIndex, hpol]
        | some p =>
          have hpl := hp p hpol
          simp only [applyIndex, hpol, Option.map_some, Option.bind_some]
          set ns := fancy (fancy a.ids idx) (firstIndices (fancy a.ids idx)) with hns
          have hnl : a.spws.length - ns.length = 0 := by rw [hsp.length_eq]; omega
          unfold moveFlexPol
          rw [hnl, List.replicate_zero, List.append_nil]
          have hlt : ∀ i ∈ ns.map (fun w => a.spws.idxOf w), i < p.length := by
            intro i hi
            obtain ⟨v, hv', rfl⟩ := List.mem_map.1 hi
            rw [hpl]
            exact List.idxOf_lt_length_of_mem (hsp.mem_iff.1 hv')
          have := fancy_map p _ hlt
          have hg := congrArg (fun l => l[ns.idxOf w]?) this
          simp only [List.map_map, List.getElem?_map] at hg
          have hw' : w ∈ ns := hsp.mem_iff.2 hw
          rw [List.getElem?_idxOf hw'] at hg
          simp only [Option.map_some, Function.comp] at hg
          cases hq : (fancy p (List.map (fun w => a.spws.idxOf w) ns))[ns.idxOf w]? with
          | none => rw [hq] at hg; simp at hg
          | some q => rw [hq] at hg; simpa using hg

/-- Two windows out of order, with polarizations. -/
def sampleAxis : Axis ℚ Nat Bool Nat Nat where
  freqs := [5, 1, 4]
  widths := [1, 2, 3]
  ids := [7, 3, 7]
  spws := [7, 3]
  flexPol := some [-5, -6]
  vis := some ([50, 10, 40], [true, false, true], [1, 1, 2])
  eqCoeffs := some [9, 8, 7]

example : reorderFreqs (stable Int) (stable ℚ) sampleAxis (.str "number".toList) (.str "freq".toList) none =
    .ok ⟨[1, 4, 5], [2, 3, 1], [3, 7, 7], [3, 7], some [-6, -5], some ([10, 40, 50], [false, true, true], [1, 2, 1]),
      some [8, 7, 9]⟩ := by decide +kernel

/-- The window list itself need not come out in the requested order: when the channels already are, nothing is touched. -/
theorem reorder_freqs_spw_array_counterexample :
    ∃ a : Axis ℚ Nat Bool Nat Nat, Valid a.freqs a.spws a.ids ∧
      reorderFreqs (stable Int) (stable ℚ) a (.str "number".toList) .none none = .ok a ∧ ¬ a.spws.Pairwise (· < ·) :=
  ⟨⟨[1, 2], [1, 1], [3, 7], [7, 3], none, none, none⟩, ⟨by decide, by decide, by decide, by decide, by decide⟩,
    by decide +kernel, by decide⟩

end Verif.FreqSort
