import Verif.CalSelect.Model
import Verif.FreqSort.Lemmas

/-!
What an object is that has been cut down to given positions on each axis, and that every step of the selection cuts.
-/
namespace Verif.CalSelect
open Verif.Np Verif.FreqSort Verif.CalAdd

variable {K R V Q : Type}

/-- The positions on the second axis of the arrays. -/
def second (wide : Bool) (F W : List Nat) : List Nat := if wide then W else F

/-- The second object is the first at given antennas, times, channels, windows and Jones components: every label is at its place, and every value is the one under
the same labels. -/
structure Cut (o o' : Obj K R V Q) (A T F W J : List Nat) : Prop where
  wide : o'.wide = o.wide
  kinds : o'.delay = o.delay ∧ o'.ranged = o.ranged
  ants : o'.ants = fancy o.ants A
  times : o'.times = fancy o.times T
  freq : o'.freq = fancy o.freq F
  ids : o'.ids = fancy o.ids F
  width : o'.width = fancy o.width F
  spws : o'.spws = fancy o.spws W
  ranges : o'.ranges = fancy o.ranges W
  flex : o'.flexJones = o.flexJones.map (fun x => fancy x W)
  jones : o'.jones = fancy o.jones J
  data : ∀ a f t j, a < A.length → f < (second o.wide F W).length → t < T.length → j < J.length →
    o'.data a f t j = o.data (via A a) (via (second o.wide F W) f) (via T t) (via J j)
  quality : (o'.quality.isSome = o.quality.isSome) ∧ ∀ x y, o.quality = some x → o'.quality = some y → ∀ a f t j, a < A.length →
    f < (second o.wide F W).length → t < T.length → j < J.length → y a f t j = x (via A a) (via (second o.wide F W) f) (via T t) (via J j)
  total : (o'.total.isSome = o.total.isSome) ∧ ∀ x y, o.total = some x → o'.total = some y → ∀ f t j,
    f < (second o.wide F W).length → t < T.length → j < J.length → y f t j = x (via (second o.wide F W) f) (via T t) (via J j)

/-- Arrays of labels have the lengths that go together: channels; windows. -/
structure Fits (o : Obj K R V Q) : Prop where
  freq : o.freq.length = o.ids.length
  width : o.width.length = o.ids.length
  flex : ∀ x, o.flexJones = some x → x.length = o.spws.length
  ranges : o.ranges ≠ [] → o.ranges.length = o.spws.length

theorem fancy_cons {α : Type} {xs : List α} {i : Nat} {x : α} {l : List Nat} (h : xs[i]? = some x) : fancy xs (i :: l) = x :: fancy xs l := by
  unfold fancy
  rw [List.filterMap_cons, h]

theorem fancy_length {α : Type} (xs : List α) (l : List Nat) (h : ∀ i ∈ l, i < xs.length) : (fancy xs l).length = l.length := by
  induction l with
  | nil => rfl
  | cons i l ih =>
    have hi := h i List.mem_cons_self
    have := ih (fun j hj => h j (List.mem_cons_of_mem _ hj))
    unfold fancy at this ⊢
    rw [List.filterMap_cons, List.getElem?_eq_getElem hi]
    simp only [List.length_cons]
    rw [this]

theorem fancy_get {α : Type} (xs : List α) (l : List Nat) (h : ∀ i ∈ l, i < xs.length) (k : Nat) (hk : k < l.length) :
    (fancy xs l)[k]? = xs[l[k]]? := by
  induction l generalizing k with
  | nil => exact absurd hk (Nat.not_lt_zero _)
  | cons i l ih =>
    have hi := h i List.mem_cons_self
    have e : fancy xs (i :: l) = xs[i] :: fancy xs l := by
      unfold fancy
      rw [List.filterMap_cons, List.getElem?_eq_getElem hi]
    rw [e]
    cases k with
    | zero => simp [hi]
    | succ k =>
      have := ih (fun j hj => h j (List.mem_cons_of_mem _ hj)) k (by simpa using hk)
      simpa using this

theorem fancy_fancy {α : Type} (xs : List α) (L l : List Nat) (h : ∀ i ∈ l, i < L.length) (hL : ∀ i ∈ L, i < xs.length) :
    fancy (fancy xs L) l = fancy xs (fancy L l) := by
  induction l with
  | nil => rfl
  | cons i l ih =>
    have hi := h i List.mem_cons_self
    have ih := ih (fun j hj => h j (List.mem_cons_of_mem _ hj))
    have hx : L[i] < xs.length := hL _ (List.getElem_mem hi)
    have e1 : fancy L (i :: l) = L[i] :: fancy L l := by
      unfold fancy
      rw [List.filterMap_cons, List.getElem?_eq_getElem hi]
    have e2 : fancy xs (L[i] :: fancy L l) = xs[L[i]] :: fancy xs (fancy L l) := by
      unfold fancy
      rw [List.filterMap_cons, List.getElem?_eq_getElem hx]
    have e3 : fancy (fancy xs L) (i :: l) = xs[L[i]] :: fancy (fancy xs L) l := by
      have := fancy_get xs L hL i hi
      rw [List.getElem?_eq_getElem hx] at this
      exact fancy_cons this
    rw [e1, e2, e3, ih]

theorem fancy_nil {α : Type} (l : List Nat) : fancy ([] : List α) l = [] := by
  unfold fancy
  rw [List.filterMap_eq_nil_iff]
  intro i _
  simp

theorem via_fancy (L l : List Nat) (h : ∀ i ∈ l, i < L.length) (k : Nat) (hk : k < l.length) : via (fancy L l) k = via L (via l k) := by
  have h1 := fancy_get L l h k hk
  have h2 : l[k] < L.length := h _ (List.getElem_mem hk)
  unfold via
  rw [List.getD_eq_getElem?_getD, h1, List.getD_eq_getElem?_getD, List.getD_eq_getElem?_getD, List.getElem?_eq_getElem hk]
  rfl

theorem via_lt (l : List Nat) (n : Nat) (h : ∀ i ∈ l, i < n) (k : Nat) (hk : k < l.length) : via l k < n := by
  unfold via
  rw [List.getD_eq_getElem?_getD, List.getElem?_eq_getElem hk]
  exact h _ (List.getElem_mem hk)

theorem via_range (n k : Nat) (hk : k < n) : via (List.range n) k = k := by
  unfold via
  rw [List.getD_eq_getElem?_getD, List.getElem?_eq_getElem (by simpa using hk)]
  simp

theorem second_range (w : Bool) (n m k : Nat) (hk : k < (second w (List.range n) (List.range m)).length) :
    via (second w (List.range n) (List.range m)) k = k := by
  unfold second at hk ⊢
  cases w
  · simp only [Bool.false_eq_true, if_false] at hk ⊢
    exact via_range n k (by simpa using hk)
  · simp only [if_true] at hk ⊢
    exact via_range m k (by simpa using hk)

/-- Nothing cut. -/
theorem cut_refl (o : Obj K R V Q) (h : Fits o) :
    Cut o o (List.range o.ants.length) (List.range o.times.length) (List.range o.ids.length) (List.range o.spws.length) (List.range o.jones.length) := by
  have hr : o.ranges = fancy o.ranges (List.range o.spws.length) := by
    by_cases h0 : o.ranges = []
    · rw [h0, fancy_nil]
    · rw [← h.ranges h0, fancy_range]
  have hf : o.flexJones = o.flexJones.map (fun x => fancy x (List.range o.spws.length)) := by
    cases hx : o.flexJones with
    | none => rfl
    | some x => rw [Option.map_some, ← h.flex x hx, fancy_range]
  refine ⟨rfl, ⟨rfl, rfl⟩, (fancy_range _).symm, (fancy_range _).symm, ?_, (fancy_range _).symm, ?_, (fancy_range _).symm, hr, hf, (fancy_range _).symm, ?_, ?_, ?_⟩
  · rw [← h.freq, fancy_range]
  · rw [← h.width, fancy_range]
  · intro a f t j ha hf ht hj
    rw [via_range _ a (by simpa using ha), via_range _ t (by simpa using ht), via_range _ j (by simpa using hj), second_range _ _ _ f hf]
  · refine ⟨rfl, fun x y hx hy a f t j ha hf ht hj => ?_⟩
    rw [hx] at hy
    obtain rfl := Option.some.inj hy
    rw [via_range _ a (by simpa using ha), via_range _ t (by simpa using ht), via_range _ j (by simpa using hj), second_range _ _ _ f hf]
  · refine ⟨rfl, fun x y hx hy f t j hf ht hj => ?_⟩
    rw [hx] at hy
    obtain rfl := Option.some.inj hy
    rw [via_range _ t (by simpa using ht), via_range _ j (by simpa using hj), second_range _ _ _ f hf]

theorem isSome_map {α β : Type} (f : α → β) (x : Option α) : (x.map f).isSome = x.isSome := by cases x <;> rfl

theorem cut_ants {o o1 : Obj K R V Q} {A T F W J : List Nat} (h : Cut o o1 A T F W J) (l : List Nat) (hl : ∀ i ∈ l, i < A.length)
    (hA : ∀ i ∈ A, i < o.ants.length) : Cut o (takeAnts o1 l) (fancy A l) T F W J := by
  have hlen := fancy_length A l hl
  refine ⟨h.wide, h.kinds, ?_, h.times, h.freq, h.ids, h.width, h.spws, h.ranges, h.flex, h.jones, ?_, ?_, h.total⟩
  · show fancy o1.ants l = _
    rw [h.ants, fancy_fancy _ _ _ hl hA]
  · intro a f t j ha hf ht hj
    rw [hlen] at ha
    rw [via_fancy A l hl a ha]
    exact h.data _ f t j (via_lt l _ hl a ha) hf ht hj
  · refine ⟨(isSome_map _ _).trans h.quality.1, fun x y hx hy a f t j ha hf ht hj => ?_⟩
    rw [hlen] at ha
    obtain ⟨z, hz, rfl⟩ := Option.map_eq_some_iff.1 hy
    rw [via_fancy A l hl a ha]
    exact h.quality.2 x z hx hz _ f t j (via_lt l _ hl a ha) hf ht hj

theorem cut_times {o o1 : Obj K R V Q} {A T F W J : List Nat} (h : Cut o o1 A T F W J) (l : List Nat) (hl : ∀ i ∈ l, i < T.length)
    (hT : ∀ i ∈ T, i < o.times.length) : Cut o (takeTimes o1 l) A (fancy T l) F W J := by
  have hlen := fancy_length T l hl
  refine ⟨h.wide, h.kinds, h.ants, ?_, h.freq, h.ids, h.width, h.spws, h.ranges, h.flex, h.jones, ?_, ?_, ?_⟩
  · show fancy o1.times l = _
    rw [h.times, fancy_fancy _ _ _ hl hT]
  · intro a f t j ha hf ht hj
    rw [hlen] at ht
    rw [via_fancy T l hl t ht]
    exact h.data a f _ j ha hf (via_lt l _ hl t ht) hj
  · refine ⟨(isSome_map _ _).trans h.quality.1, fun x y hx hy a f t j ha hf ht hj => ?_⟩
    rw [hlen] at ht
    obtain ⟨z, hz, rfl⟩ := Option.map_eq_some_iff.1 hy
    rw [via_fancy T l hl t ht]
    exact h.quality.2 x z hx hz a f _ j ha hf (via_lt l _ hl t ht) hj
  · refine ⟨(isSome_map _ _).trans h.total.1, fun x y hx hy f t j hf ht hj => ?_⟩
    rw [hlen] at ht
    obtain ⟨z, hz, rfl⟩ := Option.map_eq_some_iff.1 hy
    rw [via_fancy T l hl t ht]
    exact h.total.2 x z hx hz f _ j hf (via_lt l _ hl t ht) hj

theorem cut_jones {o o1 : Obj K R V Q} {A T F W J : List Nat} (h : Cut o o1 A T F W J) (l : List Nat) (hl : ∀ i ∈ l, i < J.length)
    (hJ : ∀ i ∈ J, i < o.jones.length) : Cut o (takeJones o1 l) A T F W (fancy J l) := by
  have hlen := fancy_length J l hl
  refine ⟨h.wide, h.kinds, h.ants, h.times, h.freq, h.ids, h.width, h.spws, h.ranges, h.flex, ?_, ?_, ?_, ?_⟩
  · show fancy o1.jones l = _
    rw [h.jones, fancy_fancy _ _ _ hl hJ]
  · intro a f t j ha hf ht hj
    rw [hlen] at hj
    rw [via_fancy J l hl j hj]
    exact h.data a f t _ ha hf ht (via_lt l _ hl j hj)
  · refine ⟨(isSome_map _ _).trans h.quality.1, fun x y hx hy a f t j ha hf ht hj => ?_⟩
    rw [hlen] at hj
    obtain ⟨z, hz, rfl⟩ := Option.map_eq_some_iff.1 hy
    rw [via_fancy J l hl j hj]
    exact h.quality.2 x z hx hz a f t _ ha hf ht (via_lt l _ hl j hj)
  · refine ⟨(isSome_map _ _).trans h.total.1, fun x y hx hy f t j hf ht hj => ?_⟩
    rw [hlen] at hj
    obtain ⟨z, hz, rfl⟩ := Option.map_eq_some_iff.1 hy
    rw [via_fancy J l hl j hj]
    exact h.total.2 x z hx hz f t _ hf ht (via_lt l _ hl j hj)

theorem cut_spws {o o1 : Obj K R V Q} {A T F W J : List Nat} (h : Cut o o1 A T F W J) (ho : Fits o) (l : List Nat) (hl : ∀ i ∈ l, i < W.length)
    (hW : ∀ i ∈ W, i < o.spws.length) : Cut o (takeSpws o1 l) A T F (fancy W l) J := by
  have hlen := fancy_length W l hl
  have hr : fancy o1.ranges l = fancy o.ranges (fancy W l) := by
    rw [h.ranges]
    by_cases h0 : o.ranges = []
    · rw [h0, fancy_nil, fancy_nil, fancy_nil]
    · exact fancy_fancy _ _ _ hl (fun i hi => by rw [ho.ranges h0]; exact hW i hi)
  have hf : o1.flexJones.map (fun x => fancy x l) = o.flexJones.map (fun x => fancy x (fancy W l)) := by
    rw [h.flex]
    cases hx : o.flexJones with
    | none => rfl
    | some x =>
      rw [Option.map_some, Option.map_some, Option.map_some, fancy_fancy _ _ _ hl (fun i hi => by rw [ho.flex x hx]; exact hW i hi)]
  have hs : fancy o1.spws l = fancy o.spws (fancy W l) := by rw [h.spws, fancy_fancy _ _ _ hl hW]
  unfold takeSpws
  have hw := h.wide
  by_cases hwide : o.wide = true
  · rw [if_pos (hw.trans hwide)]
    have hsec : ∀ W', second o.wide F W' = W' := by
      intro W'
      unfold second
      rw [if_pos hwide]
    have h1 := h.data
    have h2 := h.quality
    have h3 := h.total
    rw [hsec W] at h1 h2 h3
    refine ⟨h.wide, h.kinds, h.ants, h.times, h.freq, h.ids, h.width, hs, hr, hf, h.jones, ?_, ?_, ?_⟩
    · intro a f t j ha hf ht hj
      rw [hsec] at hf ⊢
      rw [hlen] at hf
      rw [via_fancy W l hl f hf]
      exact h1 a _ t j ha (via_lt l _ hl f hf) ht hj
    · refine ⟨(isSome_map _ _).trans h2.1, fun x y hx hy a f t j ha hf ht hj => ?_⟩
      rw [hsec] at hf ⊢
      rw [hlen] at hf
      obtain ⟨z, hz, rfl⟩ := Option.map_eq_some_iff.1 hy
      rw [via_fancy W l hl f hf]
      exact h2.2 x z hx hz a _ t j ha (via_lt l _ hl f hf) ht hj
    · refine ⟨(isSome_map _ _).trans h3.1, fun x y hx hy f t j hf ht hj => ?_⟩
      rw [hsec] at hf ⊢
      rw [hlen] at hf
      obtain ⟨z, hz, rfl⟩ := Option.map_eq_some_iff.1 hy
      rw [via_fancy W l hl f hf]
      exact h3.2 x z hx hz _ t j (via_lt l _ hl f hf) ht hj
  · rw [if_neg (by rw [hw]; exact hwide)]
    have hsec : ∀ W', second o.wide F W' = F := by
      intro W'
      unfold second
      rw [if_neg hwide]
    have h1 := h.data
    have h2 := h.quality
    have h3 := h.total
    rw [hsec W, ← hsec (fancy W l)] at h1 h2 h3
    exact ⟨h.wide, h.kinds, h.ants, h.times, h.freq, h.ids, h.width, hs, hr, hf, h.jones, h1, h2, h3⟩

/-- Channels of a narrow-band object: those channels, and the windows that still have one. -/
theorem cut_chans {o o1 : Obj K R V Q} {A T F W J : List Nat} (h : Cut o o1 A T F W J) (ho : Fits o) (hn : o.wide = false) (l : List Nat)
    (hl : ∀ i ∈ l, i < F.length) (hF : ∀ i ∈ F, i < o.ids.length) (hW : ∀ i ∈ W, i < o.spws.length) :
    Cut o (takeChans o1 l) A T (fancy F l) (fancy W (whereIdx (fun w => (fancy o.ids (fancy F l)).contains w) (fancy o.spws W))) J := by
  have hlen := fancy_length F l hl
  have hids : fancy o1.ids l = fancy o.ids (fancy F l) := by rw [h.ids, fancy_fancy _ _ _ hl hF]
  have hsec : ∀ F' W', second o.wide F' W' = F' := by
    intro F' W'
    unfold second
    rw [hn]
    rfl
  have h1 := h.data
  have h2 := h.quality
  have h3 := h.total
  rw [hsec] at h1 h2 h3
  have hc : Cut o (takeSecond { o1 with freq := fancy o1.freq l, ids := fancy o1.ids l, width := fancy o1.width l } l) A T (fancy F l) W J := by
    refine ⟨h.wide, h.kinds, h.ants, h.times, ?_, hids, ?_, h.spws, h.ranges, h.flex, h.jones, ?_, ?_, ?_⟩
    · show fancy o1.freq l = _
      rw [h.freq, fancy_fancy _ _ _ hl (fun i hi => by rw [ho.freq]; exact hF i hi)]
    · show fancy o1.width l = _
      rw [h.width, fancy_fancy _ _ _ hl (fun i hi => by rw [ho.width]; exact hF i hi)]
    · intro a f t j ha hf ht hj
      rw [hsec] at hf ⊢
      rw [hlen] at hf
      rw [via_fancy F l hl f hf]
      exact h1 a _ t j ha (via_lt l _ hl f hf) ht hj
    · refine ⟨(isSome_map _ _).trans h2.1, fun x y hx hy a f t j ha hf ht hj => ?_⟩
      rw [hsec] at hf ⊢
      rw [hlen] at hf
      obtain ⟨z, hz, rfl⟩ := Option.map_eq_some_iff.1 hy
      rw [via_fancy F l hl f hf]
      exact h2.2 x z hx hz a _ t j ha (via_lt l _ hl f hf) ht hj
    · refine ⟨(isSome_map _ _).trans h3.1, fun x y hx hy f t j hf ht hj => ?_⟩
      rw [hsec] at hf ⊢
      rw [hlen] at hf
      obtain ⟨z, hz, rfl⟩ := Option.map_eq_some_iff.1 hy
      rw [via_fancy F l hl f hf]
      exact h3.2 x z hx hz _ t j (via_lt l _ hl f hf) ht hj
  have := cut_spws hc ho (whereIdx (fun w => (fancy o.ids (fancy F l)).contains w) (fancy o.spws W)) ?_ hW
  · unfold takeChans
    dsimp only
    have e1 : (takeSecond { o1 with freq := fancy o1.freq l, ids := fancy o1.ids l, width := fancy o1.width l } l).ids = fancy o.ids (fancy F l) := hids
    have e2 : (takeSecond { o1 with freq := fancy o1.freq l, ids := fancy o1.ids l, width := fancy o1.width l } l).spws = fancy o.spws W := h.spws
    rw [e1, e2]
    exact this
  · intro i hi
    obtain ⟨x, hx, _⟩ := mem_whereIdx.1 hi
    have := (List.getElem?_eq_some_iff.1 hx).1
    rwa [fancy_length _ _ hW] at this

end Verif.CalSelect
