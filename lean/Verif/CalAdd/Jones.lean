import Verif.CalAdd.Outcome

/-! C92: which Jones component a window has in the sum of two calibration objects with one Jones component per window. -/
namespace Verif.CalAdd
open Verif.Np Verif.FreqSort Verif.Add

variable {K R V Q : Type} [LinearOrder K] [Zero Q]
variable {so : Sorts K} {blank : V} {this other res : Obj K R V Q}

/-- The solutions of window `w` are those of Jones component `j`. -/
def WinJones (o : Obj K R V Q) (w j : Int) : Prop := ∃ l, o.flexJones = some l ∧ (w, j) ∈ o.spws.zip l

/-- Nothing has to be sorted: the windows of each object ascend, and those that only the other has come after all of this object. -/
structure Ascending (this other : Obj K R V Q) : Prop where
  first : this.spws.Pairwise (· < ·)
  second : other.spws.Pairwise (· < ·)
  after : ∀ v ∈ this.spws, ∀ w ∈ other.spws, w ∉ this.spws → v < w

/-- The windows of the two objects keep their Jones components; this object's go first. -/
def KeepsJones (this other res : Obj K R V Q) : Prop := ∀ w j, WinJones res w j ↔ WinJones this w j ∨ (WinJones other w j ∧ w ∉ this.spws)

omit [LinearOrder K] [Zero Q] in
theorem winJones_some {o : Obj K R V Q} {l : List Int} (h : o.flexJones = some l) (w j : Int) : WinJones o w j ↔ (w, j) ∈ o.spws.zip l := by
  unfold WinJones
  constructor
  · rintro ⟨l', h', hm⟩
    rw [h, Option.some.injEq] at h'
    rw [h']; exact hm
  · exact fun hm => ⟨l, h, hm⟩

/-- Labels with values that are put one after the other. -/
theorem zip_padded {α : Type} {A B : List Int} {p : Plan} (hp : PlanOk A B p) (a b : List α) (ha : a.length = A.length) (hb : b.length = B.length) (w : Int) (j : α) :
    (w, j) ∈ (fancy A p.perm ++ fancy B p.new).zip (fancy a p.perm ++ fancy b p.new) ↔ (w, j) ∈ A.zip a ∨ ((w, j) ∈ B.zip b ∧ w ∉ A) := by
  have hpl := perm_lt hp.reord.isPerm
  have hnl : ∀ i ∈ p.new, i < B.length := by rw [hp.new]; exact newInds_lt A B
  rw [List.zip_append (by rw [fancy_length _ _ hpl, fancy_length _ _ (by rw [ha]; exact hpl)]), fancy_zip _ _ _ hpl (by rw [ha]; exact hpl),
    fancy_zip _ _ _ hnl (by rw [hb]; exact hnl), List.mem_append]
  apply or_congr
  · have hpp : (fancy (A.zip a) p.perm).Perm (A.zip a) := fancy_perm _ _ (by
      rw [List.length_zip, ha, Nat.min_self]; exact hp.reord.isPerm)
    exact hpp.mem_iff
  · unfold fancy
    rw [List.mem_filterMap]
    constructor
    · rintro ⟨i, hi, hz⟩
      refine ⟨List.mem_of_getElem? hz, ?_⟩
      rw [hp.new] at hi
      unfold newInds at hi
      rw [mem_whereIdx] at hi
      obtain ⟨x, hx, hn⟩ := hi
      obtain ⟨z1, -⟩ := List.getElem?_zip_eq_some.1 hz
      rw [hx, Option.some.injEq] at z1
      subst z1
      simpa using hn
    · rintro ⟨hm, hn⟩
      obtain ⟨i, hi⟩ := List.getElem?_of_mem hm
      obtain ⟨z1, -⟩ := List.getElem?_zip_eq_some.1 hi
      refine ⟨i, ?_, hi⟩
      rw [hp.new]
      unfold newInds
      rw [mem_whereIdx]
      exact ⟨w, z1, by simpa using hn⟩

omit [LinearOrder K] [Zero Q] in
theorem asc_filter (h : Ascending this other) : this.spws.filter (fun x => other.spws.contains x) = other.spws.filter (fun x => this.spws.contains x) := by
  apply List.Pairwise.eq_of_mem_iff (r := (· < ·)) (h.first.filter _) (h.second.filter _)
  intro a
  simp [List.mem_filter, and_comm]

theorem argsort_sorted {l : List Int} (s : Argsort Int) (h : l.Pairwise (· < ·)) : fancy l (s.run l) = l := by
  have h1 := fancy_perm l (s.run l) (s.sorts l).1
  have h2 := fancy_argsort_sorted s id l
  simp only [List.map_id, id_eq] at h2
  exact List.Perm.eq_of_pairwise' (r := (· ≤ ·)) h2 (h.imp le_of_lt) h1

/-- **C92, wide-band.** If the other object has no window that this object does not have, or nothing has to be sorted, the windows keep their Jones
components. (Otherwise they need not: `cal_add_wide_jones_counterexample`.) -/
theorem cal_add_wide_jones_partial (h1 : Valid this) (h2 : Valid other) (h : add so blank this other = .ok res) (hw : this.wide = true)
    (hf : this.flexJones.isSome = true) (hs : (∀ w ∈ other.spws, w ∈ this.spws) ∨ Ascending this other) : KeepsJones this other res := by
  obtain ⟨ew, -, ef, -, -, e⟩ := add_inv h
  have P := widePlan_ok so h1 h2
  have ep : freqPlan so this other = widePlan so this other := by unfold freqPlan; simp [hw]
  obtain ⟨a, ha⟩ := Option.isSome_iff_exists.1 hf
  obtain ⟨b, hb⟩ := Option.isSome_iff_exists.1 (ef ▸ hf)
  have e1 : res.spws = fancy (fancy this.spws (widePlan so this other).perm ++ fancy other.spws (widePlan so this other).new) (widePlan so this other).order := by
    rw [e]; simp only [hw, if_true, ep]; rfl
  have e2 : res.flexJones = some (fancy a (widePlan so this other).perm ++ fancy b (widePlan so this other).new) := by
    rw [e]; simp only [hw, if_true, ep]; unfold wideJones; rw [ha, hb]; rfl
  have e3 : res.spws = fancy this.spws (widePlan so this other).perm ++ fancy other.spws (widePlan so this other).new := by
    rw [e1]
    set pad := fancy this.spws (widePlan so this other).perm ++ fancy other.spws (widePlan so this other).new with hpad
    rcases hs with hs | hs
    · have hn : (widePlan so this other).new = [] := by
        by_contra hne
        obtain ⟨i, hi⟩ := List.exists_mem_of_ne_nil _ hne
        rw [P.new] at hi
        unfold newInds at hi
        rw [mem_whereIdx] at hi
        obtain ⟨x, hx, hp⟩ := hi
        have := hs x (List.mem_of_getElem? hx)
        simp [this] at hp
      have ho : (widePlan so this other).order = List.range this.spws.length := by
        show (if newInds this.spws other.spws = [] then _ else _) = _
        rw [if_pos (by rw [← hn]; exact P.new.symm)]
      have hlen : pad.length = this.spws.length := by
        rw [hpad, hn, List.length_append, fancy_length _ _ (perm_lt P.reord.isPerm), P.reord.isPerm.length_eq]
        simp [fancy]
      rw [ho, ← hlen]
      exact fancy_range pad
    · have hpr : (widePlan so this other).perm = List.range this.spws.length := perm_eq_range h1.spws h2.spws (asc_filter hs)
      have hpadl : pad = this.spws ++ other.spws.filter (fun x => !this.spws.contains x) := by
        rw [hpad, hpr, fancy_range, new_labels P]
      have hsorted : pad.Pairwise (· < ·) := by
        rw [hpadl, List.pairwise_append]
        refine ⟨hs.first, hs.second.filter _, ?_⟩
        intro v hv w hw'
        rw [List.mem_filter] at hw'
        exact hs.after v hv w hw'.1 (by simpa using hw'.2)
      by_cases hn : (widePlan so this other).new = []
      · have ho : (widePlan so this other).order = List.range this.spws.length := by
          show (if newInds this.spws other.spws = [] then _ else _) = _
          rw [if_pos (by rw [← hn]; exact P.new.symm)]
        have hlen : pad.length = this.spws.length := by rw [hpad, hn, hpr, fancy_range]; simp [fancy]
        rw [ho, ← hlen]
        exact fancy_range pad
      · have ho : (widePlan so this other).order = so.int.run pad := by
          show (if newInds this.spws other.spws = [] then _ else _) = _
          rw [if_neg (by rw [← P.new]; exact hn)]
          rfl
        rw [ho]
        exact argsort_sorted so.int hsorted
  intro w j
  rw [winJones_some e2, winJones_some ha, winJones_some hb, e3]
  exact zip_padded P a b (h1.flex a ha) (h2.flex b hb) w j

/-! ### Channels -/

omit [Zero Q] in
/-- Putting channels of an object in another order keeps the Jones components of the windows. -/
theorem movedWins_spec (h1 : Valid this) (hw : this.wide = false) {perm : List Nat} (hp : perm.Perm (List.range this.freq.length)) {a : List Int}
    (ha : this.flexJones = some a) : ∃ l, (movedWins this perm).2 = some l ∧ ∀ w j, (w, j) ∈ (movedWins this perm).1.zip l ↔ (w, j) ∈ this.spws.zip a := by
  unfold movedWins
  split
  · exact ⟨a, ha, fun w j => Iff.rfl⟩
  · simp only [ha, Option.map_some, Option.some.injEq, exists_eq_left']
    have hids : (fancy this.ids perm).Perm this.ids := fancy_perm _ _ (by rw [h1.ids hw]; exact hp)
    have hfo := firstOrder_spec (fancy this.ids perm)
    set wins := fancy (fancy this.ids perm) (firstIndices (fancy this.ids perm)) with hwins
    have hmem : ∀ w, w ∈ wins ↔ w ∈ this.spws := by
      intro w
      rw [hfo.2.1, hids.mem_iff, h1.listed hw]
    have hl := h1.flex a ha
    have hlt : ∀ i ∈ wins.map (fun w => this.spws.idxOf w), i < this.spws.length := by
      intro i hi
      obtain ⟨w, hw', rfl⟩ := List.mem_map.1 hi
      exact List.idxOf_lt_length_of_mem ((hmem w).1 hw')
    have e : wins = fancy this.spws (wins.map (fun w => this.spws.idxOf w)) := by
      have hfm := fancy_map this.spws (wins.map (fun w => this.spws.idxOf w)) hlt
      rw [List.map_map] at hfm
      have h3 : List.map ((fun i => this.spws[i]?) ∘ fun w => this.spws.idxOf w) wins = wins.map some := by
        apply List.map_congr_left
        intro w hw'
        exact List.getElem?_idxOf ((hmem w).1 hw')
      rw [h3] at hfm
      exact ((List.map_injective_iff.2 (Option.some_injective _)) hfm).symm
    intro w j
    rw [congrArg (fun l => l.zip (fancy a (wins.map (fun w => this.spws.idxOf w)))) e, fancy_zip _ _ _ hlt (by rw [hl]; exact hlt)]
    have hperm : (wins.map (fun w => this.spws.idxOf w)).Perm (List.range this.spws.length) := by
      rw [List.perm_ext_iff_of_nodup]
      · intro i
        rw [List.mem_range]
        constructor
        · exact hlt i
        · intro hi
          rw [List.mem_map]
          refine ⟨this.spws[i], (hmem _).2 (List.getElem_mem hi), ?_⟩
          exact h1.spws.idxOf_getElem i hi
      · apply List.Nodup.map_on _ hfo.1
        intro v hv w hw' hvw
        have g1 := List.getElem?_idxOf ((hmem v).1 hv)
        have g2 := List.getElem?_idxOf ((hmem w).1 hw')
        rw [hvw, g2] at g1
        exact (Option.some.inj g1).symm
      · exact List.nodup_range
    exact (fancy_perm _ _ (by rw [List.length_zip, hl, Nat.min_self]; exact hperm)).mem_iff

/-- **C92, channels.** If this object has all channels of the other, or nothing has to be sorted and no window is in both, the windows keep their Jones
components. (Otherwise they need not: `cal_add_jones_counterexample`.) -/
theorem cal_add_jones_partial (h1 : Valid this) (h2 : Valid other) (h : add so blank this other = .ok res) (hw : this.wide = false)
    (hf : this.flexJones.isSome = true)
    (hs : (∀ c ∈ other.lab, c ∈ this.lab) ∨ (Ascending this other ∧ ∀ w ∈ other.spws, w ∉ this.spws)) : KeepsJones this other res := by
  obtain ⟨ew, -, ef, -, -, e⟩ := add_inv h
  have hw2 : other.wide = false := by rw [← ew]; exact hw
  have P := chanPlan_ok so h1 h2 hw hw2
  have ep : freqPlan so this other = chanPlan so this other := by unfold freqPlan; simp [hw]
  obtain ⟨a, ha⟩ := Option.isSome_iff_exists.1 hf
  obtain ⟨b, hb⟩ := Option.isSome_iff_exists.1 (ef ▸ hf)
  have e1 : res.spws = (mergedWins this other (chanPlan so this other)).1 := by rw [e]; simp [hw, ep]
  have e2 : res.flexJones = (mergedWins this other (chanPlan so this other)).2 := by rw [e]; simp [hw, ep]
  have lz : (this.ids.zip this.freq).length = this.freq.length := by rw [List.length_zip, h1.ids hw]; simp
  have hperm : (chanPlan so this other).perm.Perm (List.range this.freq.length) := by rw [← lz]; exact P.reord.isPerm
  have getids : ∀ {o : Obj K R V Q}, Valid o → o.wide = false → ∀ w ∈ o.spws, ∃ c ∈ o.ids.zip o.freq, c.1 = w := by
    intro o ho hwo w hm
    rw [ho.listed hwo] at hm
    obtain ⟨i, hi⟩ := List.getElem?_of_mem hm
    have hlt := (List.getElem?_eq_some_iff.1 hi).1
    rw [ho.ids hwo] at hlt
    exact ⟨(w, o.freq[i]), List.mem_of_getElem? (i := i) (List.getElem?_zip_eq_some.2 ⟨hi, List.getElem?_eq_getElem hlt⟩), rfl⟩
  by_cases hn : (chanPlan so this other).new = []
  · have hsub : ∀ c ∈ other.ids.zip other.freq, c ∈ this.ids.zip this.freq := by
      intro c hc
      by_contra hnc
      rw [P.new] at hn
      exact absurd hn (by
        obtain ⟨i, hi⟩ := List.getElem?_of_mem hc
        intro hnil
        have : i ∈ newInds (this.ids.zip this.freq) (other.ids.zip other.freq) := by
          unfold newInds
          rw [mem_whereIdx]
          exact ⟨c, hi, by simpa using hnc⟩
        rw [hnil] at this
        simp at this)
    obtain ⟨l, hl, hspec⟩ := movedWins_spec h1 hw hperm ha
    have e1' : res.spws = (movedWins this (chanPlan so this other).perm).1 := by rw [e1]; unfold mergedWins; simp [hn]
    have e2' : res.flexJones = some l := by rw [e2, ← hl]; unfold mergedWins; simp [hn]
    intro w j
    rw [winJones_some e2', winJones_some ha, winJones_some hb, e1', hspec]
    constructor
    · exact .inl
    · rintro (hm | ⟨hm, hnot⟩)
      · exact hm
      · exfalso
        obtain ⟨c, hc, rfl⟩ := getids h2 hw2 w (List.of_mem_zip hm).1
        have := List.of_mem_zip (hsub c hc)
        exact hnot ((h1.listed hw _).2 this.1)
  · rcases hs with hs | ⟨hs, hd⟩
    · exfalso
      obtain ⟨i, hi⟩ := List.exists_mem_of_ne_nil _ hn
      rw [P.new] at hi
      unfold newInds at hi
      rw [mem_whereIdx] at hi
      obtain ⟨c, hc, hp⟩ := hi
      have hc' : (c.1, some c.2) ∈ other.lab := by
        unfold Obj.lab
        simp only [hw2, Bool.false_eq_true, if_false]
        exact List.mem_map_of_mem (List.mem_of_getElem? hc)
      have hcl := hs _ hc'
      unfold Obj.lab at hcl
      simp only [hw, Bool.false_eq_true, if_false, List.mem_map, Prod.mk.injEq, Option.some.injEq] at hcl
      obtain ⟨d, hd', q1, q2⟩ := hcl
      have hdc : d = c := Prod.ext q1 q2
      rw [hdc] at hd'
      simp only [Bool.not_eq_true', ← Bool.not_eq_true, List.contains_iff_mem] at hp
      exact hp hd'
    · have hia : (chanPlan so this other).perm = List.range this.freq.length := by
        show reorderInds this.freq.length (freqOverlap this.chans other.chans this.chans) (freqOverlap this.chans other.chans other.chans) = _
        have hin : inter this.spws other.spws = [] := by
          rw [List.eq_nil_iff_forall_not_mem]
          intro x hx
          have hx' := ((inter_common this.spws other.spws).mem x).1 hx
          exact hd x hx'.2 hx'.1
        unfold freqOverlap
        show reorderInds _ (List.flatMap _ (inter this.spws other.spws)) (List.flatMap _ (inter this.spws other.spws)) = _
        rw [hin]
        simp [reorderInds]
      have hnl : ∀ i ∈ (chanPlan so this other).new, i < other.freq.length := by
        have lz2 : (other.ids.zip other.freq).length = other.freq.length := by rw [List.length_zip, h2.ids hw2]; simp
        rw [P.new, ← lz2]; exact newInds_lt _ _
      have hwins : sortedWins (fancy this.ids (chanPlan so this other).perm ++ fancy other.ids (chanPlan so this other).new) = this.spws ++ other.spws := by
        apply List.Pairwise.eq_of_mem_iff (r := (· < ·))
        · have q1 : (sortedWins (fancy this.ids (chanPlan so this other).perm ++ fancy other.ids (chanPlan so this other).new)).Pairwise (· ≤ ·) :=
            List.pairwise_insertionSort _ _
          have q2 := sortedWins_nodup (fancy this.ids (chanPlan so this other).perm ++ fancy other.ids (chanPlan so this other).new)
          exact (q1.and q2).imp (fun h => lt_of_le_of_ne h.1 h.2)
        · rw [List.pairwise_append]
          exact ⟨hs.first, hs.second, fun v hv w hw' => hs.after v hv w hw' (hd w hw')⟩
        · intro w
          rw [sortedWins_mem, List.mem_append, List.mem_append, hia, ← h1.ids hw, fancy_range, h1.listed hw]
          apply or_congr Iff.rfl
          constructor
          · intro hm
            unfold fancy at hm
            rw [List.mem_filterMap] at hm
            obtain ⟨i, -, hi⟩ := hm
            exact (h2.listed hw2 w).2 (List.mem_of_getElem? hi)
          · intro hm
            obtain ⟨c, hc, rfl⟩ := getids h2 hw2 w hm
            obtain ⟨i, hi⟩ := List.getElem?_of_mem hc
            unfold fancy
            rw [List.mem_filterMap]
            refine ⟨i, ?_, (List.getElem?_zip_eq_some.1 hi).1⟩
            rw [P.new]
            unfold newInds
            rw [mem_whereIdx]
            refine ⟨c, hi, ?_⟩
            simp only [List.contains_iff_mem, Bool.not_eq_eq_eq_not, Bool.not_true, ← Bool.not_eq_true]
            intro hct
            exact hd _ hm ((h1.listed hw _).2 (List.of_mem_zip hct).1)
      have hnd : (this.spws ++ other.spws).Nodup := by
        rw [← hwins]; exact sortedWins_nodup _
      have hidx : (this.spws ++ other.spws).map (fun w => ((this.spws ++ other.spws) ++ other.spws).idxOf w) = List.range (this.spws ++ other.spws).length := by
        apply List.ext_getElem
        · simp
        · intro i i1 i2
          simp only [List.getElem_map, List.getElem_range]
          have hlt : i < (this.spws ++ other.spws).length := by simpa using i1
          rw [List.idxOf_append_of_mem (List.getElem_mem hlt)]
          exact hnd.idxOf_getElem i hlt
      have hlen : (this.spws ++ other.spws).length = (a ++ b).length := by
        rw [List.length_append, List.length_append, h1.flex a ha, h2.flex b hb]
      have e1' : res.spws = this.spws ++ other.spws := by
        rw [e1]; unfold mergedWins; simp only [hn, if_false]; exact hwins
      have e2' : res.flexJones = some (a ++ b) := by
        rw [e2]; unfold mergedWins; simp only [hn, if_false, hwins]
        have : (movedWins this (chanPlan so this other).perm).2 = some a := by
          unfold movedWins; rw [if_pos (.inl hia), ha]
        rw [this, hb, hidx]
        simp only [Option.map_some, Option.getD_some, Option.some.injEq]
        rw [hlen]
        exact fancy_range (a ++ b)
      intro w j
      rw [winJones_some e2', winJones_some ha, winJones_some hb, e1', List.zip_append (h1.flex a ha).symm, List.mem_append]
      apply or_congr Iff.rfl
      exact ⟨fun hm => ⟨hm, hd w (List.of_mem_zip hm).1⟩, fun hm => hm.1⟩

end Verif.CalAdd
