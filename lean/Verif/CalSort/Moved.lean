import Verif.CalSort.Spec
import Mathlib.Data.List.Perm.Basic

/-! Reordering as one permutation per axis, and what follows from that for solutions under labels. -/
namespace Verif.CalSort
open Verif.Np Verif.FreqSort Verif.Add
set_option linter.unusedSectionVars false

variable {K V N : Type} [Field K] [LinearOrder K] [LinearOrder N]

theorem ax0_get {α : Type} {idx : List Nat} {a : List α} (h : ∀ i ∈ idx, i < a.length) {k k' : Nat} (hk : idx[k]? = some k') :
    (ax0 idx a)[k]? = a[k']? := by
  unfold ax0
  rw [fancy_get a idx h, hk]; rfl

theorem ax0_length {α : Type} {idx : List Nat} {a : List α} (h : idx.Perm (List.range a.length)) : (ax0 idx a).length = a.length := by
  unfold ax0
  rw [fancy_length a idx (perm_lt h), h.length_eq, List.length_range]

theorem perm_range_get {n : Nat} {p : List Nat} (hp : p.Perm (List.range n)) {i : Nat} (hi : i < n) : ∃ i', p[i]? = some i' ∧ i' < n := by
  have : i < p.length := by rw [hp.length_eq, List.length_range]; exact hi
  exact ⟨p[i], List.getElem?_eq_getElem this, perm_lt hp _ (List.getElem_mem this)⟩

theorem range_get {n i i' : Nat} (h : (List.range n)[i]? = some i') : i' = i ∧ i < n := by
  obtain ⟨hi, e⟩ := List.getElem?_eq_some_iff.1 h
  simp at hi e
  exact ⟨e.symm, hi⟩

theorem get3_ax0 {α : Type} {a : Arr3 α} {idx : List Nat} (h : ∀ i ∈ idx, i < a.length) {k k' : Nat} (hk : idx[k]? = some k') (t j : Nat) :
    get3 (ax0 idx a) k t j = get3 a k' t j := by
  unfold get3; rw [ax0_get h hk]

theorem get3_ax1 {α : Type} {a : Arr3 α} {idx : List Nat} (h : ∀ x ∈ a, ∀ i ∈ idx, i < x.length) {t t' : Nat} (ht : idx[t]? = some t')
    (k j : Nat) : get3 (ax1 idx a) k t j = get3 a k t' j := by
  unfold get3 ax1
  rw [List.getElem?_map]
  cases hx : a[k]? with
  | none => rfl
  | some x => simp only [Option.map_some, Option.bind_some]; rw [ax0_get (h x (List.mem_of_getElem? hx)) ht]

theorem get3_ax2 {α : Type} {a : Arr3 α} {idx : List Nat} (h : ∀ x ∈ a, ∀ y ∈ x, ∀ i ∈ idx, i < y.length) {j j' : Nat}
    (hj : idx[j]? = some j') (k t : Nat) : get3 (ax2 idx a) k t j = get3 a k t j' := by
  unfold get3 ax2 ax1
  rw [List.getElem?_map]
  cases hx : a[k]? with
  | none => rfl
  | some x =>
    simp only [Option.map_some, Option.bind_some, List.getElem?_map]
    cases hy : x[t]? with
    | none => rfl
    | some y =>
      simp only [Option.map_some, Option.bind_some]
      rw [ax0_get (h x (List.mem_of_getElem? hx) y (List.mem_of_getElem? hy)) hj]

theorem get4_ax0 {α : Type} {a : Arr4 α} {idx : List Nat} (h : ∀ i ∈ idx, i < a.length) {i i' : Nat} (hi : idx[i]? = some i') (k t j : Nat) :
    get4 (ax0 idx a) i k t j = get4 a i' k t j := by
  unfold get4; rw [ax0_get h hi]

theorem get4_map {α : Type} {a : Arr4 α} (f : Arr3 α → Arr3 α) (k t j k' t' j' : Nat) (h : ∀ x ∈ a, get3 (f x) k t j = get3 x k' t' j') (i : Nat) :
    get4 (a.map f) i k t j = get4 a i k' t' j' := by
  unfold get4
  rw [List.getElem?_map]
  cases hx : a[i]? with
  | none => rfl
  | some x => simp only [Option.map_some, Option.bind_some]; exact h x (List.mem_of_getElem? hx)

/-! ### Shapes -/

theorem mem_ax0 {α : Type} {idx : List Nat} {a : List α} {x : α} (h : x ∈ ax0 idx a) : x ∈ a := by
  unfold ax0 fancy at h
  obtain ⟨i, _, hi⟩ := List.mem_filterMap.1 h
  exact List.mem_of_getElem? hi

theorem shape3_ax0 {α : Type} {a : Arr3 α} {nf nt nj : Nat} {idx : List Nat} (hi : idx.Perm (List.range nf)) (h : Shape3 a nf nt nj) :
    Shape3 (ax0 idx a) nf nt nj := by
  obtain ⟨h1, h2⟩ := h
  subst h1
  exact ⟨ax0_length hi, fun x hx => h2 x (mem_ax0 hx)⟩

theorem shape3_ax1 {α : Type} {a : Arr3 α} {nf nt nj : Nat} {idx : List Nat} (hi : idx.Perm (List.range nt)) (h : Shape3 a nf nt nj) :
    Shape3 (ax1 idx a) nf nt nj := by
  obtain ⟨h1, h2⟩ := h
  refine ⟨by simp [ax1, h1], ?_⟩
  intro x hx
  obtain ⟨y, hy, rfl⟩ := List.mem_map.1 hx
  obtain ⟨h3, h4⟩ := h2 y hy
  subst h3
  exact ⟨ax0_length hi, fun z hz => h4 z (mem_ax0 hz)⟩

theorem shape3_ax2 {α : Type} {a : Arr3 α} {nf nt nj : Nat} {idx : List Nat} (hi : idx.Perm (List.range nj)) (h : Shape3 a nf nt nj) :
    Shape3 (ax2 idx a) nf nt nj := by
  obtain ⟨h1, h2⟩ := h
  refine ⟨by simp [ax2, h1], ?_⟩
  intro x hx
  obtain ⟨y, hy, rfl⟩ := List.mem_map.1 hx
  obtain ⟨h3, h4⟩ := h2 y hy
  refine ⟨by simp [ax1, h3], ?_⟩
  intro z hz
  obtain ⟨w, hw, rfl⟩ := List.mem_map.1 hz
  have := h4 w hw
  rw [ax0_length (this ▸ hi), this]

theorem shape4_ax0 {α : Type} {a : Arr4 α} {na nf nt nj : Nat} {idx : List Nat} (hi : idx.Perm (List.range na)) (h : Shape4 a na nf nt nj) :
    Shape4 (ax0 idx a) na nf nt nj := by
  obtain ⟨h1, h2⟩ := h
  subst h1
  exact ⟨ax0_length hi, fun x hx => h2 x (mem_ax0 hx)⟩

theorem shape4_map {α : Type} {a : Arr4 α} {na nf nt nj : Nat} (f : Arr3 α → Arr3 α) (hf : ∀ x, Shape3 x nf nt nj → Shape3 (f x) nf nt nj)
    (h : Shape4 a na nf nt nj) : Shape4 (a.map f) na nf nt nj := by
  refine ⟨by simp [h.1], ?_⟩
  intro x hx
  obtain ⟨y, hy, rfl⟩ := List.mem_map.1 hx
  exact hf y (h.2 y hy)

/-! ### One permutation per axis -/

/-- `c'` is `c` with its four axes permuted. -/
structure Moved (c c' : Cal K V) (pa pk pt pj : List Nat) : Prop where
  permA : pa.Perm (List.range c.ants.length)
  permK : pk.Perm (List.range (nchan c))
  permT : pt.Perm (List.range c.times.integ.length)
  permJ : pj.Perm (List.range c.jones.length)
  nA : c'.ants.length = c.ants.length
  nK : nchan c' = nchan c
  nT : c'.times.integ.length = c.times.integ.length
  nJ : c'.jones.length = c.jones.length
  wide : c'.wide = c.wide
  spws : c'.spws.Perm c.spws
  ants : ∀ i i' : Nat, pa[i]? = some i' → c'.ants[i]? = c.ants[i']?
  chans : ∀ k k' : Nat, pk[k]? = some k' → chanAt c' k = chanAt c k'
  times : ∀ t t' : Nat, pt[t]? = some t' → whenAt c'.times t = whenAt c.times t'
  jones : ∀ j j' : Nat, pj[j]? = some j' → c'.jones[j]? = c.jones[j']?
  sols : ∀ i k t j i' k' t' j' : Nat, pa[i]? = some i' → pk[k]? = some k' → pt[t]? = some t' → pj[j]? = some j' →
    solution c' i k t j = solution c i' k' t' j'
  total : ∀ k t j k' t' j' : Nat, pk[k]? = some k' → pt[t]? = some t' → pj[j]? = some j' →
    c'.total.bind (fun q => get3 q k t j) = c.total.bind (fun q => get3 q k' t' j')

theorem Moved.refl (c : Cal K V) : Moved c c (List.range c.ants.length) (List.range (nchan c)) (List.range c.times.integ.length)
    (List.range c.jones.length) where
  permA := .refl _
  permK := .refl _
  permT := .refl _
  permJ := .refl _
  nA := rfl
  nK := rfl
  nT := rfl
  nJ := rfl
  wide := rfl
  spws := .refl _
  ants := fun i i' h => by rw [(range_get h).1]
  chans := fun i i' h => by rw [(range_get h).1]
  times := fun i i' h => by rw [(range_get h).1]
  jones := fun i i' h => by rw [(range_get h).1]
  sols := fun i k t j i' k' t' j' h1 h2 h3 h4 => by
    rw [(range_get h1).1, (range_get h2).1, (range_get h3).1, (range_get h4).1]
  total := fun k t j k' t' j' h2 h3 h4 => by rw [(range_get h2).1, (range_get h3).1, (range_get h4).1]

theorem perm_compose {n : Nat} {p q : List Nat} (hp : p.Perm (List.range n)) (hq : q.Perm (List.range n)) :
    (fancy p q).Perm (List.range n) ∧ ∀ i i'' : Nat, (fancy p q)[i]? = some i'' → ∃ i', q[i]? = some i' ∧ p[i']? = some i'' := by
  have hl : p.length = n := by rw [hp.length_eq, List.length_range]
  refine ⟨(fancy_perm p q (hl.symm ▸ hq)).trans hp, ?_⟩
  intro i i'' h
  rw [fancy_get p q (fun i hi => hl.symm ▸ perm_lt hq i hi)] at h
  cases hi : q[i]? with
  | none => rw [hi] at h; simp at h
  | some i' => rw [hi] at h; exact ⟨i', rfl, h⟩

theorem Moved.trans {c c' c'' : Cal K V} {pa pk pt pj qa qk qt qj : List Nat} (h : Moved c c' pa pk pt pj) (h' : Moved c' c'' qa qk qt qj) :
    Moved c c'' (fancy pa qa) (fancy pk qk) (fancy pt qt) (fancy pj qj) := by
  obtain ⟨a1, a2⟩ := perm_compose h.permA (h.nA ▸ h'.permA)
  obtain ⟨k1, k2⟩ := perm_compose h.permK (h.nK ▸ h'.permK)
  obtain ⟨t1, t2⟩ := perm_compose h.permT (h.nT ▸ h'.permT)
  obtain ⟨j1, j2⟩ := perm_compose h.permJ (h.nJ ▸ h'.permJ)
  exact {
    permA := a1, permK := k1, permT := t1, permJ := j1
    nA := h'.nA.trans h.nA, nK := h'.nK.trans h.nK, nT := h'.nT.trans h.nT, nJ := h'.nJ.trans h.nJ
    wide := h'.wide.trans h.wide
    spws := h'.spws.trans h.spws
    ants := fun i i'' hi => by obtain ⟨i', e, e'⟩ := a2 i i'' hi; rw [h'.ants i i' e, h.ants i' i'' e']
    chans := fun i i'' hi => by obtain ⟨i', e, e'⟩ := k2 i i'' hi; rw [h'.chans i i' e, h.chans i' i'' e']
    times := fun i i'' hi => by obtain ⟨i', e, e'⟩ := t2 i i'' hi; rw [h'.times i i' e, h.times i' i'' e']
    jones := fun i i'' hi => by obtain ⟨i', e, e'⟩ := j2 i i'' hi; rw [h'.jones i i' e, h.jones i' i'' e']
    sols := fun i k t j i'' k'' t'' j'' hi hk ht hj => by
      obtain ⟨i', e1, e1'⟩ := a2 i i'' hi
      obtain ⟨k', e2, e2'⟩ := k2 k k'' hk
      obtain ⟨t', e3, e3'⟩ := t2 t t'' ht
      obtain ⟨j', e4, e4'⟩ := j2 j j'' hj
      rw [h'.sols _ _ _ _ _ _ _ _ e1 e2 e3 e4, h.sols _ _ _ _ _ _ _ _ e1' e2' e3' e4']
    total := fun k t j k'' t'' j'' hk ht hj => by
      obtain ⟨k', e2, e2'⟩ := k2 k k'' hk
      obtain ⟨t', e3, e3'⟩ := t2 t t'' ht
      obtain ⟨j', e4, e4'⟩ := j2 j j'' hj
      rw [h'.total _ _ _ _ _ _ e2 e3 e4, h.total _ _ _ _ _ _ e2' e3' e4'] }

/-- Values at permuted positions are a permutation of the values. -/
theorem perm_of_positions {α : Type} {n : Nat} {p : List Nat} (hp : p.Perm (List.range n)) (f g : Nat → α)
    (h : ∀ i i' : Nat, p[i]? = some i' → g i = f i') : ((List.range n).map g).Perm ((List.range n).map f) := by
  have e : (List.range n).map g = p.map f := by
    apply List.ext_getElem?
    intro i
    rw [List.getElem?_map, List.getElem?_map]
    by_cases hi : i < n
    · obtain ⟨i', e, _⟩ := perm_range_get hp hi
      rw [e, List.getElem?_range hi]
      simp [h i i' e]
    · rw [List.getElem?_eq_none (by simpa using hi), List.getElem?_eq_none (by rw [hp.length_eq, List.length_range]; omega)]
      rfl
  rw [e]
  exact hp.map f

theorem list_eq_map_range {α : Type} (l : List α) : l.map some = (List.range l.length).map (fun i => l[i]?) := by
  apply List.ext_getElem?
  intro i
  rw [List.getElem?_map, List.getElem?_map]
  by_cases hi : i < l.length
  · simp [hi]
  · simp [List.getElem?_eq_none (not_lt.1 hi), hi]

theorem perm_of_map_some {α : Type} {l l' : List α} (h : (l.map some).Perm (l'.map some)) : l.Perm l' := by
  have := h.filterMap id
  simpa [List.filterMap_map] using this

theorem nodup_map_range {α : Type} {n : Nat} {f : Nat → α} (h : ((List.range n).map f).Nodup) {a b : Nat} (ha : a < n) (hb : b < n)
    (e : f a = f b) : a = b :=
  List.inj_on_of_nodup_map h (List.mem_range.2 ha) (List.mem_range.2 hb) e

theorem chanAt_ge {c : Cal K V} (g : Good c) {k : Nat} (hk : nchan c ≤ k) : (chanAt c k).window = none := by
  unfold chanAt nchan at *
  split at hk
  · rename_i hw
    rw [if_pos hw]; simp [hk]
  · rename_i hw
    have hw' : c.wide = false := by simpa using hw
    rw [if_neg hw]
    simp [(g.chans hw').1.len, hk]

theorem chanAt_lt {c : Cal K V} (g : Good c) {k : Nat} (hk : k < nchan c) : (chanAt c k).window ≠ none := by
  unfold chanAt nchan at *
  split at hk
  · rename_i hw
    rw [if_pos hw]; simp [hk]
  · rename_i hw
    have hw' : c.wide = false := by simpa using hw
    rw [if_neg hw]
    simp [(g.chans hw').1.len, hk]

/-- Permuted axes and distinct labels: whatever is stored under labels stays there. -/
theorem Moved.same {c c' : Cal K V} {pa pk pt pj : List Nat} (m : Moved c c' pa pk pt pj) (g : Good c) (d : DistinctLabels c) :
    SameSolutions c c' := by
  have posA : ∀ i i' : Nat, i' < c'.ants.length → c'.ants[i']? = c.ants[i]? → pa[i']? = some i := by
    intro i i' hi' e
    obtain ⟨x, hx, hlt⟩ := perm_range_get m.permA (m.nA ▸ hi')
    have e2 := m.ants i' x hx
    rw [e] at e2
    have : x = i := (List.getElem?_inj hlt d.ants).1 e2.symm
    rw [← this]; exact hx
  have posJ : ∀ i i' : Nat, i' < c'.jones.length → c'.jones[i']? = c.jones[i]? → pj[i']? = some i := by
    intro i i' hi' e
    obtain ⟨x, hx, hlt⟩ := perm_range_get m.permJ (m.nJ ▸ hi')
    have e2 := m.jones i' x hx
    rw [e] at e2
    have : x = i := (List.getElem?_inj hlt d.jones).1 e2.symm
    rw [← this]; exact hx
  have posK : ∀ i i' : Nat, i' < nchan c' → chanAt c' i' = chanAt c i → pk[i']? = some i := by
    intro i i' hi' e
    obtain ⟨x, hx, hlt⟩ := perm_range_get m.permK (m.nK ▸ hi')
    have e2 := m.chans i' x hx
    rw [e] at e2
    have hi : i < nchan c := by
      by_contra hc
      have h1 := chanAt_ge g (not_lt.1 hc)
      have h2 := chanAt_lt g hlt
      rw [e2] at h1
      exact h2 h1
    have : x = i := nodup_map_range d.chans hlt hi e2.symm
    rw [← this]; exact hx
  have posT : ∀ i i' : Nat, i' < c'.times.integ.length → whenAt c'.times i' = whenAt c.times i → pt[i']? = some i := by
    intro i i' hi' e
    obtain ⟨x, hx, hlt⟩ := perm_range_get m.permT (m.nT ▸ hi')
    have e2 := m.times i' x hx
    rw [e] at e2
    have hi : i < c.times.integ.length := by
      by_contra hc
      have h3 := congrArg When.integ e2
      simp only [whenAt] at h3
      rw [List.getElem?_eq_none (not_lt.1 hc), List.getElem?_eq_getElem hlt] at h3
      simp at h3
    have : x = i := nodup_map_range d.times hlt hi e2.symm
    rw [← this]; exact hx
  exact {
    ants := by
      refine perm_of_map_some ?_
      rw [list_eq_map_range, list_eq_map_range c.ants, m.nA]
      exact perm_of_positions m.permA _ _ m.ants
    chans := by
      unfold chanList
      rw [m.nK]
      exact perm_of_positions m.permK _ _ m.chans
    times := by
      unfold whenList
      rw [m.nT]
      exact perm_of_positions m.permT _ _ m.times
    jones := by
      refine perm_of_map_some ?_
      rw [list_eq_map_range, list_eq_map_range c.jones, m.nJ]
      exact perm_of_positions m.permJ _ _ m.jones
    windows := m.spws
    sols := fun i k t j i' k' t' j' hi hk ht hj e1 e2 e3 e4 =>
      m.sols _ _ _ _ _ _ _ _ (posA i i' hi e1) (posK k k' hk e2) (posT t t' ht e3) (posJ j j' hj e4)
    total := fun k t j k' t' j' hk ht hj e2 e3 e4 => m.total _ _ _ _ _ _ (posK k k' hk e2) (posT t t' ht e3) (posJ j j' hj e4) }

end Verif.CalSort
