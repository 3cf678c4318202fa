import Verif.CalSort.Moved

/-! C83: whatever is stored under an antenna, a channel, a time and a Jones component stays there through any reorderings. -/
namespace Verif.CalSort
open Verif.Np Verif.FreqSort Verif.Add
open Verif.Pol (Str)
set_option linter.unusedSectionVars false

variable {K V N : Type} [Field K] [LinearOrder K] [LinearOrder N]

/-- Some permutation of the axes. -/
def Rearranged (c c' : Cal K V) : Prop := ∃ pa pk pt pj, Moved c c' pa pk pt pj

theorem opt_map_bind {α β : Type} (o : Option α) (f : α → α) (g g' : α → Option β) (h : ∀ x, o = some x → g (f x) = g' x) :
    (o.map f).bind g = o.bind g' := by
  cases o with
  | none => rfl
  | some x => exact h x rfl

theorem colLen_ax0 {α : Type} {o : Option (List α)} {n : Nat} {idx : List Nat} (hi : idx.Perm (List.range n)) (h : ColLen o n) :
    ColLen (o.map (ax0 idx)) n := by
  intro l hl
  cases o with
  | none => simp at hl
  | some x =>
    simp only [Option.map_some, Option.some.injEq] at hl
    subst hl
    have e := h x rfl
    rw [ax0_length (e.symm ▸ hi), e]

theorem opt_shape {α : Type} {o : Option α} {f : α → α} {P : α → Prop} (h : ∀ x, o = some x → P x) (hf : ∀ x, P x → P (f x)) :
    ∀ x, o.map f = some x → P x := by
  intro x hx
  cases o with
  | none => simp at hx
  | some y =>
    simp only [Option.map_some, Option.some.injEq] at hx
    subst hx
    exact hf y (h y rfl)

theorem opt_get {α : Type} {o : Option (List α)} {n : Nat} {idx : List Nat} (hi : idx.Perm (List.range n)) (h : ColLen o n) {k k' : Nat}
    (hk : idx[k]? = some k') : (o.map (ax0 idx)).bind (fun l => l[k]?) = o.bind (fun l => l[k']?) :=
  opt_map_bind o _ _ _ (fun x hx => ax0_get (h x hx ▸ perm_lt hi) hk)

/-! ### Antennas -/

theorem moveAnts_spec {c : Cal K V} (g : Good c) {idx : List Nat} (hi : idx.Perm (List.range c.ants.length)) :
    Good (moveAnts c idx) ∧ Moved c (moveAnts c idx) idx (List.range (nchan c)) (List.range c.times.integ.length) (List.range c.jones.length) := by
  have hn : (moveAnts c idx).ants.length = c.ants.length := ax0_length hi
  have r := Moved.refl c
  constructor
  · exact {
      chans := g.chans, wides := g.wides, flex := g.flex, time := g.time, timeRange := g.timeRange, lst := g.lst, lstRange := g.lstRange
      center := g.center, ref := g.ref
      main := by rw [hn]; exact shape4_ax0 hi g.main
      flags := by rw [hn]; exact shape4_ax0 hi g.flags
      quality := by rw [hn]; exact opt_shape g.quality (fun x hx => shape4_ax0 hi hx)
      total := g.total }
  · exact { r with
      permA := hi
      nA := hn
      nK := rfl, nT := rfl, nJ := rfl, wide := rfl, spws := .refl _, chans := r.chans, times := r.times, jones := r.jones
      ants := fun i i' h => ax0_get (perm_lt hi) h
      sols := fun i k t j i' k' t' j' h1 h2 h3 h4 => by
        rw [(range_get h2).1, (range_get h3).1, (range_get h4).1]
        unfold solution moveAnts
        simp only
        rw [get4_ax0 (g.main.1 ▸ perm_lt hi) h1, get4_ax0 (g.flags.1 ▸ perm_lt hi) h1,
          opt_map_bind c.quality _ _ (fun q => get4 q i' k t j) (fun x hx => get4_ax0 ((g.quality x hx).1 ▸ perm_lt hi) h1 k t j)]
      total := r.total }

/-! ### Times -/

theorem moveTimes_spec {c : Cal K V} (g : Good c) {idx : List Nat} (hi : idx.Perm (List.range c.times.integ.length)) :
    Good (moveTimes c idx) ∧ Moved c (moveTimes c idx) (List.range c.ants.length) (List.range (nchan c)) idx (List.range c.jones.length) := by
  have hn : (moveTimes c idx).times.integ.length = c.times.integ.length := ax0_length hi
  have r := Moved.refl c
  have b3 : ∀ {α : Type} {x : Arr3 α}, Shape3 x (nchan c) c.times.integ.length c.jones.length → ∀ y ∈ x, ∀ i ∈ idx, i < y.length := by
    intro α x hx y hy
    rw [(hx.2 y hy).1]; exact perm_lt hi
  constructor
  · exact {
      chans := g.chans, wides := g.wides, flex := g.flex
      time := by rw [hn]; exact colLen_ax0 hi g.time
      timeRange := by rw [hn]; exact colLen_ax0 hi g.timeRange
      lst := by rw [hn]; exact colLen_ax0 hi g.lst
      lstRange := by rw [hn]; exact colLen_ax0 hi g.lstRange
      center := by rw [hn]; exact colLen_ax0 hi g.center
      ref := by rw [hn]; exact colLen_ax0 hi g.ref
      main := by rw [hn]; exact shape4_map _ (fun x hx => shape3_ax1 hi hx) g.main
      flags := by rw [hn]; exact shape4_map _ (fun x hx => shape3_ax1 hi hx) g.flags
      quality := by rw [hn]; exact opt_shape g.quality (fun x hx => shape4_map _ (fun x hx => shape3_ax1 hi hx) hx)
      total := by rw [hn]; exact opt_shape g.total (fun x hx => shape3_ax1 hi hx) }
  · exact { r with
      permT := hi
      nT := hn
      nA := rfl, nK := rfl, nJ := rfl, wide := rfl, spws := .refl _, chans := r.chans, ants := r.ants, jones := r.jones
      times := fun t t' h => by
        unfold whenAt moveTimes moveTimesOf
        simp only
        rw [opt_get hi g.time h, opt_get hi g.timeRange h, opt_get hi g.lst h, opt_get hi g.lstRange h, opt_get hi g.center h,
          opt_get hi g.ref h, ax0_get (perm_lt hi) h]
      sols := fun i k t j i' k' t' j' h1 h2 h3 h4 => by
        rw [(range_get h1).1, (range_get h2).1, (range_get h4).1]
        unfold solution moveTimes ax2
        simp only
        rw [get4_map (ax1 idx) k t j k t' j (fun x hx => get3_ax1 (b3 (g.main.2 x hx)) h3 k j) i,
          get4_map (ax1 idx) k t j k t' j (fun x hx => get3_ax1 (b3 (g.flags.2 x hx)) h3 k j) i,
          opt_map_bind c.quality _ _ (fun q => get4 q i k t' j)
            (fun q hq => get4_map (ax1 idx) k t j k t' j (fun x hx => get3_ax1 (b3 ((g.quality q hq).2 x hx)) h3 k j) i)]
      total := fun k t j k' t' j' h2 h3 h4 => by
        rw [(range_get h2).1, (range_get h4).1]
        unfold moveTimes
        simp only
        rw [opt_map_bind c.total _ _ (fun q => get3 q k t' j) (fun q hq => get3_ax1 (b3 (g.total q hq)) h3 k j)] }

/-! ### Jones components -/

theorem moveJones_spec {c : Cal K V} (g : Good c) {idx : List Nat} (hi : idx.Perm (List.range c.jones.length)) :
    Good (moveJones c idx) ∧ Moved c (moveJones c idx) (List.range c.ants.length) (List.range (nchan c)) (List.range c.times.integ.length) idx := by
  have hn : (moveJones c idx).jones.length = c.jones.length := ax0_length hi
  have r := Moved.refl c
  have b3 : ∀ {α : Type} {x : Arr3 α}, Shape3 x (nchan c) c.times.integ.length c.jones.length → ∀ y ∈ x, ∀ z ∈ y, ∀ i ∈ idx, i < z.length := by
    intro α x hx y hy z hz
    rw [(hx.2 y hy).2 z hz]; exact perm_lt hi
  constructor
  · exact {
      chans := g.chans, wides := g.wides, flex := g.flex, time := g.time, timeRange := g.timeRange, lst := g.lst, lstRange := g.lstRange
      center := g.center, ref := g.ref
      main := by rw [hn]; exact shape4_map _ (fun x hx => shape3_ax2 hi hx) g.main
      flags := by rw [hn]; exact shape4_map _ (fun x hx => shape3_ax2 hi hx) g.flags
      quality := by rw [hn]; exact opt_shape g.quality (fun x hx => shape4_map _ (fun x hx => shape3_ax2 hi hx) hx)
      total := by rw [hn]; exact opt_shape g.total (fun x hx => shape3_ax2 hi hx) }
  · exact { r with
      permJ := hi
      nJ := hn
      nA := rfl, nK := rfl, nT := rfl, wide := rfl, spws := .refl _, chans := r.chans, ants := r.ants, times := r.times
      jones := fun i i' h => ax0_get (perm_lt hi) h
      sols := fun i k t j i' k' t' j' h1 h2 h3 h4 => by
        rw [(range_get h1).1, (range_get h2).1, (range_get h3).1]
        unfold solution moveJones ax3
        simp only
        rw [get4_map (ax2 idx) k t j k t j' (fun x hx => get3_ax2 (b3 (g.main.2 x hx)) h4 k t) i,
          get4_map (ax2 idx) k t j k t j' (fun x hx => get3_ax2 (b3 (g.flags.2 x hx)) h4 k t) i,
          opt_map_bind c.quality _ _ (fun q => get4 q i k t j')
            (fun q hq => get4_map (ax2 idx) k t j k t j' (fun x hx => get3_ax2 (b3 ((g.quality q hq).2 x hx)) h4 k t) i)]
      total := fun k t j k' t' j' h2 h3 h4 => by
        rw [(range_get h2).1, (range_get h3).1]
        unfold moveJones
        simp only
        rw [opt_map_bind c.total _ _ (fun q => get3 q k t j') (fun q hq => get3_ax2 (b3 (g.total q hq)) h4 k t)] }

/-! ### Channels and windows -/

/-- The list of windows permuted together with their Jones components: every window keeps its component. -/
theorem jones_kept {spws news : List Int} {fj : Option (List Int)} (hd : spws.Nodup) (hp : news.Perm spws) (hl : ColLen fj spws.length)
    {w : Int} (hw : w ∈ spws) :
    (fj.map (fun j => fancy j (news.map (fun w => spws.idxOf w)))).bind (fun l => l[news.idxOf w]?) = fj.bind (fun l => l[spws.idxOf w]?) := by
  refine opt_map_bind fj _ _ _ (fun j hj => ?_)
  have hlt : ∀ i ∈ news.map (fun w => spws.idxOf w), i < j.length := by
    intro i hi
    obtain ⟨v, hv, rfl⟩ := List.mem_map.1 hi
    rw [hl j hj]
    exact List.idxOf_lt_length_of_mem (hp.mem_iff.1 hv)
  rw [fancy_get j _ hlt, List.getElem?_map, List.getElem?_idxOf (hp.mem_iff.2 hw)]
  rfl

theorem colLen_kept {spws news : List Int} {fj : Option (List Int)} (hp : news.Perm spws) (hl : ColLen fj spws.length) :
    ColLen (fj.map (fun j => fancy j (news.map (fun w => spws.idxOf w)))) news.length := by
  intro l h
  cases fj with
  | none => simp at h
  | some j =>
    simp only [Option.map_some, Option.some.injEq] at h
    subst h
    rw [fancy_length, List.length_map]
    intro i hi
    obtain ⟨v, hv, rfl⟩ := List.mem_map.1 hi
    rw [hl j rfl]
    exact List.idxOf_lt_length_of_mem (hp.mem_iff.1 hv)

/-- Indices of a permuted list are the permutation. -/
theorem idxOf_fancy {l : List Int} (hd : l.Nodup) {idx : List Nat} (hi : idx.Perm (List.range l.length)) :
    (fancy l idx).map (fun w => l.idxOf w) = idx := by
  apply List.ext_getElem?
  intro k
  rw [List.getElem?_map, fancy_get l idx (perm_lt hi)]
  cases hk : idx[k]? with
  | none => rfl
  | some i =>
    have hlt := perm_lt hi i (List.mem_of_getElem? hk)
    simp only [Option.bind_some]
    rw [List.getElem?_eq_getElem hlt]
    simp [hd.idxOf_getElem i hlt]

theorem moveWide_spec {c : Cal K V} (g : Good c) (hw : c.wide = true) {idx : List Nat} (hi : idx.Perm (List.range c.spws.length)) :
    Good (moveWide c idx) ∧ Moved c (moveWide c idx) (List.range c.ants.length) idx (List.range c.times.integ.length) (List.range c.jones.length) := by
  obtain ⟨hr, hd⟩ := g.wides hw
  have hs : (moveWide c idx).spws.length = c.spws.length := ax0_length hi
  have hp : (moveWide c idx).spws.Perm c.spws := fancy_perm _ _ hi
  have hnk : nchan c = c.spws.length := by simp [nchan, hw]
  have hn : nchan (moveWide c idx) = nchan c := by
    rw [hnk]; unfold nchan; rw [show (moveWide c idx).wide = true from hw, if_pos rfl, hs]
  have hik : idx.Perm (List.range (nchan c)) := hnk ▸ hi
  have hmap : (moveWide c idx).flexJones =
      c.flexJones.map (fun j => fancy j ((fancy c.spws idx).map (fun w => c.spws.idxOf w))) := by
    rw [idxOf_fancy hd hi]; rfl
  have r := Moved.refl c
  constructor
  · exact {
      chans := fun h => by rw [show (moveWide c idx).wide = true from hw] at h; cases h
      wides := fun _ => ⟨by rw [hs, ← hr]; exact ax0_length (hr.symm ▸ hi), hp.nodup_iff.2 hd⟩
      flex := by rw [hmap]; exact colLen_kept hp g.flex
      time := g.time, timeRange := g.timeRange, lst := g.lst, lstRange := g.lstRange
      center := g.center, ref := g.ref
      main := by rw [hn]; exact shape4_map _ (fun x hx => shape3_ax0 hik hx) g.main
      flags := by rw [hn]; exact shape4_map _ (fun x hx => shape3_ax0 hik hx) g.flags
      quality := by rw [hn]; exact opt_shape g.quality (fun x hx => shape4_map _ (fun x hx => shape3_ax0 hik hx) hx)
      total := by rw [hn]; exact opt_shape g.total (fun x hx => shape3_ax0 hik hx) }
  · exact { r with
      permK := hik
      nK := hn
      nA := rfl, nT := rfl, nJ := rfl, wide := rfl, spws := hp, jones := r.jones, ants := r.ants, times := r.times
      chans := fun k k' h => by
        have hk' : k' < c.spws.length := perm_lt hi k' (List.mem_of_getElem? h)
        have e1 : (moveWide c idx).spws[k]? = c.spws[k']? := ax0_get (perm_lt hi) h
        have e2 : (moveWide c idx).ranges[k]? = c.ranges[k']? := ax0_get (hr ▸ perm_lt hi) h
        have e3 : ((moveWide c idx).spws[k]?).bind (jonesOf (moveWide c idx)) = (c.spws[k']?).bind (jonesOf c) := by
          rw [e1, List.getElem?_eq_getElem hk']
          simp only [Option.bind_some]
          unfold jonesOf
          rw [hmap]
          exact jones_kept hd hp g.flex (List.getElem_mem hk')
        unfold chanAt
        rw [show (moveWide c idx).wide = true from hw, if_pos rfl, hw, if_pos rfl, e1, e2, ← e1, e3, e1]
      sols := fun i k t j i' k' t' j' h1 h2 h3 h4 => by
        rw [(range_get h1).1, (range_get h3).1, (range_get h4).1]
        unfold solution moveWide ax1
        simp only
        rw [get4_map (ax0 idx) k t j k' t j (fun x hx => get3_ax0 ((g.main.2 x hx).1 ▸ perm_lt hik) h2 t j) i,
          get4_map (ax0 idx) k t j k' t j (fun x hx => get3_ax0 ((g.flags.2 x hx).1 ▸ perm_lt hik) h2 t j) i,
          opt_map_bind c.quality _ _ (fun q => get4 q i k' t j)
            (fun q hq => get4_map (ax0 idx) k t j k' t j (fun x hx => get3_ax0 (((g.quality q hq).2 x hx).1 ▸ perm_lt hik) h2 t j) i)]
      total := fun k t j k' t' j' h2 h3 h4 => by
        rw [(range_get h3).1, (range_get h4).1]
        unfold moveWide
        simp only
        rw [opt_map_bind c.total _ _ (fun q => get3 q k' t j) (fun q hq => get3_ax0 ((g.total q hq).1 ▸ perm_lt hik) h2 t j)] }

theorem moveChans_spec {c : Cal K V} (g : Good c) (hw : c.wide = false) {idx : List Nat} (hi : idx.Perm (List.range c.freqs.length)) :
    Good (moveChans c idx) ∧ Moved c (moveChans c idx) (List.range c.ants.length) idx (List.range c.times.integ.length) (List.range c.jones.length) := by
  obtain ⟨v, hwd⟩ := g.chans hw
  have hf : (moveChans c idx).freqs.length = c.freqs.length := ax0_length hi
  have hnk : nchan c = c.freqs.length := by simp [nchan, hw]
  have hn : nchan (moveChans c idx) = nchan c := by
    rw [hnk]; unfold nchan; rw [show (moveChans c idx).wide = false from hw, if_neg (by simp), hf]
  have hik : idx.Perm (List.range (nchan c)) := hnk ▸ hi
  have hids : (fancy c.ids idx).Perm c.ids := fancy_perm _ _ (by rw [v.len]; exact hi)
  have hfo := firstOrder_spec (fancy c.ids idx)
  have hsp : (fancy (fancy c.ids idx) (firstIndices (fancy c.ids idx))).Perm c.spws := by
    rw [List.perm_ext_iff_of_nodup hfo.1 v.nodup]
    intro w
    rw [hfo.2.1, hids.mem_iff]
    exact ⟨v.listed w, v.used w⟩
  have hp : (moveChans c idx).spws.Perm c.spws := by
    change (if 1 < c.spws.length then _ else c.spws).Perm c.spws
    split
    · exact hsp
    · exact .refl _
  have hflex : ColLen (moveChans c idx).flexJones (moveChans c idx).spws.length ∧
      ∀ w ∈ c.spws, jonesOf (moveChans c idx) w = jonesOf c w := by
    by_cases h1 : 1 < c.spws.length
    · have e1 : (moveChans c idx).spws = fancy (fancy c.ids idx) (firstIndices (fancy c.ids idx)) := if_pos h1
      have e2 : (moveChans c idx).flexJones = c.flexJones.map (fun j => fancy j ((fancy (fancy c.ids idx) (firstIndices (fancy c.ids idx))).map
        (fun w => c.spws.idxOf w))) := if_pos h1
      unfold jonesOf
      rw [e1, e2]
      exact ⟨colLen_kept hsp g.flex, fun w hw => jones_kept v.nodup hsp g.flex hw⟩
    · have e1 : (moveChans c idx).spws = c.spws := if_neg h1
      have e2 : (moveChans c idx).flexJones = c.flexJones := if_neg h1
      unfold jonesOf
      rw [e1, e2]
      exact ⟨g.flex, fun w _ => rfl⟩
  have r := Moved.refl c
  constructor
  · exact {
      chans := fun _ => by
        refine ⟨⟨?_, hp.nodup_iff.2 v.nodup, ?_, ?_, ?_⟩, ?_⟩
        · rw [hf]; exact (ax0_length (v.len.symm ▸ hi)).trans v.len
        · intro w hw; exact hp.mem_iff.2 (v.listed w (hids.mem_iff.1 hw))
        · intro w hw; exact hids.mem_iff.2 (v.used w (hp.mem_iff.1 hw))
        · intro h; exact v.nonempty (List.Perm.nil_eq (h ▸ hp)).symm
        · rw [hf]; exact (ax0_length (hwd.symm ▸ hi)).trans hwd
      wides := fun h => by rw [show (moveChans c idx).wide = false from hw] at h; cases h
      flex := hflex.1
      time := g.time, timeRange := g.timeRange, lst := g.lst, lstRange := g.lstRange
      center := g.center, ref := g.ref
      main := by rw [hn]; exact shape4_map _ (fun x hx => shape3_ax0 hik hx) g.main
      flags := by rw [hn]; exact shape4_map _ (fun x hx => shape3_ax0 hik hx) g.flags
      quality := by rw [hn]; exact opt_shape g.quality (fun x hx => shape4_map _ (fun x hx => shape3_ax0 hik hx) hx)
      total := by rw [hn]; exact opt_shape g.total (fun x hx => shape3_ax0 hik hx) }
  · exact { r with
      permK := hik
      nK := hn
      nA := rfl, nT := rfl, nJ := rfl, wide := rfl, spws := hp, jones := r.jones, ants := r.ants, times := r.times
      chans := fun k k' h => by
        have hk' : k' < c.ids.length := by rw [v.len]; exact perm_lt hi k' (List.mem_of_getElem? h)
        have e1 : (moveChans c idx).ids[k]? = c.ids[k']? := ax0_get (v.len ▸ perm_lt hi) h
        have e2 : (moveChans c idx).freqs[k]? = c.freqs[k']? := ax0_get (perm_lt hi) h
        have e4 : (moveChans c idx).widths[k]? = c.widths[k']? := ax0_get (hwd ▸ perm_lt hi) h
        have e3 : ((moveChans c idx).ids[k]?).bind (jonesOf (moveChans c idx)) = (c.ids[k']?).bind (jonesOf c) := by
          rw [e1, List.getElem?_eq_getElem hk']
          exact hflex.2 _ (v.listed _ (List.getElem_mem hk'))
        unfold chanAt
        rw [show (moveChans c idx).wide = false from hw, hw, if_neg (by simp), if_neg (by simp), e3, e1, e2, e4]
      sols := fun i k t j i' k' t' j' h1 h2 h3 h4 => by
        rw [(range_get h1).1, (range_get h3).1, (range_get h4).1]
        unfold solution moveChans ax1
        simp only
        rw [get4_map (ax0 idx) k t j k' t j (fun x hx => get3_ax0 ((g.main.2 x hx).1 ▸ perm_lt hik) h2 t j) i,
          get4_map (ax0 idx) k t j k' t j (fun x hx => get3_ax0 ((g.flags.2 x hx).1 ▸ perm_lt hik) h2 t j) i,
          opt_map_bind c.quality _ _ (fun q => get4 q i k' t j)
            (fun q hq => get4_map (ax0 idx) k t j k' t j (fun x hx => get3_ax0 (((g.quality q hq).2 x hx).1 ▸ perm_lt hik) h2 t j) i)]
      total := fun k t j k' t' j' h2 h3 h4 => by
        rw [(range_get h3).1, (range_get h4).1]
        unfold moveChans
        simp only
        rw [opt_map_bind c.total _ _ (fun q => get3 q k' t j) (fun q hq => get3_ax0 ((g.total q hq).1 ▸ perm_lt hik) h2 t j)] }

/-! ### The index arrays are permutations -/

theorem argsort_perm {α : Type} [LinearOrder α] (a : Argsort α) (l : List α) : (a.run l).Perm (List.range l.length) := (a.sorts l).1

theorem mapM_length {α β : Type} (f : α → Option β) : ∀ {l : List α} {ys : List β}, l.mapM f = some ys → ys.length = l.length := by
  intro l
  induction l with
  | nil => intro ys h; simp at h; subst h; rfl
  | cons x l ih =>
    intro ys h
    rw [List.mapM_cons] at h
    cases hx : f x with
    | none => rw [hx] at h; simp at h
    | some y =>
      cases hl : l.mapM f with
      | none => rw [hx, hl] at h; simp at h
      | some zs => rw [hx, hl] at h; simp at h; subst h; simp [ih hl]

theorem choose_perm {n : Nat} {allowed : List Str} {base : Str → Except Err (List Nat)} {o : Order} {idx : List Nat}
    (hb : ∀ s b, base s = .ok b → b.Perm (List.range n)) (h : choose n allowed base o = .ok idx) : idx.Perm (List.range n) := by
  cases o with
  | none => simp [choose] at h
  | idx l =>
    simp only [choose] at h
    split at h
    · simp only [Except.ok.injEq] at h
      subst h
      exact (isIndexPerm_spec (by assumption)).1
    · simp at h
  | str s =>
    simp only [choose] at h
    split at h
    · cases hs : base s with
      | error e => rw [hs] at h; simp at h
      | ok b =>
        rw [hs] at h
        simp only [Except.ok.injEq] at h
        subst h
        split
        · exact (List.reverse_perm b).trans (hb s b hs)
        · exact hb s b hs
    · simp at h

theorem antBase_perm (so : Sorts K N) (nm : Int → Option N) (l : List Int) (s : Str) (b : List Nat) (h : antBase so nm l s = .ok b) :
    b.Perm (List.range l.length) := by
  unfold antBase at h
  split at h
  · simp only [Except.ok.injEq] at h; subst h; exact argsort_perm _ _
  · split at h
    · simp at h
    · rename_i names hn
      simp only [Except.ok.injEq] at h; subst h
      rw [← mapM_length _ hn]; exact argsort_perm _ _

theorem jonesBase_perm (so : Sorts K N) (nm : Int → Option N) (l : List Int) (s : Str) (b : List Nat) (h : jonesBase so nm l s = .ok b) :
    b.Perm (List.range l.length) := by
  unfold jonesBase at h
  split at h
  · simp only [Except.ok.injEq] at h; subst h; exact argsort_perm _ _
  · split at h
    · simp at h
    · rename_i names hn
      simp only [Except.ok.injEq] at h; subst h
      rw [← mapM_length _ hn]; exact argsort_perm _ _

theorem timeBase_perm (so : Sorts K N) {c : Cal K V} (g : Good c) (s : Str) (b : List Nat) (h : timeBase so c.times s = .ok b) :
    b.Perm (List.range c.times.integ.length) := by
  unfold timeBase at h
  split at h
  · simp at h
  · rename_i r hr _
    simp only [Except.ok.injEq] at h; subst h
    rw [← g.timeRange r hr]
    simpa using argsort_perm so.num (r.map Prod.fst)
  · rename_i ts ht _
    simp only [Except.ok.injEq] at h; subst h
    rw [← g.time ts ht]; exact argsort_perm _ _
  · simp at h

theorem wideBase_perm (so : Sorts K N) {c : Cal K V} (hr : c.ranges.length = c.spws.length) (s : Str) (b : List Nat)
    (h : wideBase so c s = .ok b) : b.Perm (List.range c.spws.length) := by
  unfold wideBase at h
  split at h
  · simp only [Except.ok.injEq] at h; subst h; exact argsort_perm _ _
  · simp only [Except.ok.injEq] at h; subst h
    rw [← hr]
    simpa using argsort_perm so.num (c.ranges.map (fun r => (r.1 + r.2) / 2))

theorem wideOrder_perm (so : Sorts K N) {c : Cal K V} (hr : c.ranges.length = c.spws.length) (hd : c.spws.Nodup) {o : Order} {idx : List Nat}
    (h : wideOrder so c o = .ok idx) : idx.Perm (List.range c.spws.length) := by
  cases o with
  | none => simp only [wideOrder, Except.ok.injEq] at h; subst h; exact argsort_perm _ _
  | idx l =>
    simp only [wideOrder] at h
    split at h
    · rename_i hp
      simp only [Except.ok.injEq] at h; subst h
      obtain ⟨hp, -⟩ := isIndexPerm_spec hp
      rw [idxOf_fancy hd hp]; exact hp
    · simp at h
  | str s => simp only [wideOrder] at h; exact choose_perm (wideBase_perm so hr) h

/-! ### All calls -/

theorem call_moved (so : Sorts K N) (antName jName : Int → Option N) {c c' : Cal K V} (g : Good c) (q : Call)
    (h : call so antName jName c q = .ok c') : Good c' ∧ Rearranged c c' := by
  have stay : Good c ∧ Rearranged c c := ⟨g, _, _, _, _, Moved.refl c⟩
  cases q with
  | ants o =>
    simp only [call, reorderAnts] at h
    split at h
    · simp at h
    · rename_i idx hidx
      have hp := choose_perm (antBase_perm so antName c.ants) hidx
      simp only [Except.ok.injEq] at h
      subst h
      split
      · exact stay
      · rename_i idx' hf
        have e : idx' = idx := by unfold finish at hf; split at hf <;> simp_all
        subst e
        obtain ⟨a, b⟩ := moveAnts_spec g hp
        exact ⟨a, _, _, _, _, b⟩
  | jones o =>
    simp only [call, reorderJones] at h
    split at h
    · simp at h
    · rename_i idx hidx
      have hp := choose_perm (jonesBase_perm so jName c.jones) hidx
      simp only [Except.ok.injEq] at h
      subst h
      split
      · exact stay
      · rename_i idx' hf
        have e : idx' = idx := by unfold finish at hf; split at hf <;> simp_all
        subst e
        obtain ⟨a, b⟩ := moveJones_spec g hp
        exact ⟨a, _, _, _, _, b⟩
  | times o =>
    simp only [call, reorderTimes] at h
    split at h
    · simp at h
    · rename_i idx hidx
      have hp := choose_perm (timeBase_perm so g) hidx
      simp only [Except.ok.injEq] at h
      subst h
      split
      · exact stay
      · rename_i idx' hf
        have e : idx' = idx := by unfold finish at hf; split at hf <;> simp_all
        subst e
        obtain ⟨a, b⟩ := moveTimes_spec g hp
        exact ⟨a, _, _, _, _, b⟩
  | freqs s ch sel =>
    simp only [call, reorderFreqs] at h
    split at h
    · simp only [Except.ok.injEq] at h; subst h; exact stay
    · split at h
      · rename_i hw
        obtain ⟨hr, hd⟩ := g.wides hw
        split at h
        · simp at h
        · rename_i idx hidx
          simp only [Except.ok.injEq] at h
          subst h
          obtain ⟨a, b⟩ := moveWide_spec g hw (wideOrder_perm so hr hd hidx)
          exact ⟨a, _, _, _, _, b⟩
      · rename_i hw
        have hw : c.wide = false := by simpa using hw
        split at h
        · simp at h
        · simp only [Except.ok.injEq] at h; subst h; exact stay
        · rename_i idx hidx
          simp only [Except.ok.injEq] at h
          subst h
          obtain ⟨a, b⟩ := moveChans_spec g hw (sort_freq_none so.int so.num _ _ _ _ _ _ idx (g.chans hw).1 hidx).1
          exact ⟨a, _, _, _, _, b⟩

theorem calls_moved (so : Sorts K N) (antName jName : Int → Option N) (qs : List Call) : ∀ {c c' : Cal K V}, Good c →
    calls so antName jName c qs = .ok c' → Good c' ∧ Rearranged c c' := by
  induction qs with
  | nil =>
    intro c c' g h
    simp only [calls, Except.ok.injEq] at h
    subst h
    exact ⟨g, _, _, _, _, Moved.refl c⟩
  | cons q qs ih =>
    intro c c' g h
    simp only [calls] at h
    split at h
    · simp at h
    · rename_i c1 h1
      obtain ⟨g1, pa, pk, pt, pj, m1⟩ := call_moved so antName jName g q h1
      obtain ⟨g2, qa, qk, qt, qj, m2⟩ := ih g1 h
      exact ⟨g2, _, _, _, _, m1.trans m2⟩

/-- C83: after any sequence of reorderings of antennas, channels, windows, times and Jones components, in any order and with any arguments,
every solution, flag and quality is under the labels it was under before, and the object is still consistent. -/
theorem reorder_keeps_solutions (so : Sorts K N) (antName jName : Int → Option N) (qs : List Call) {c c' : Cal K V} (g : Good c)
    (d : DistinctLabels c) (h : calls so antName jName c qs = .ok c') : Good c' ∧ SameSolutions c c' := by
  obtain ⟨g', _, _, _, _, m⟩ := calls_moved so antName jName qs g h
  exact ⟨g', m.same g d⟩

end Verif.CalSort
