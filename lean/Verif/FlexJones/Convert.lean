import Verif.FlexJones.Spec
import Verif.FlexPol.Props

/-! C86: `convert_to_flex_jones` keeps every solution, each pair of window and Jones component getting a window of its own. -/
namespace Verif.FlexJones
open Verif.Np Verif.FreqSort Verif.FlexPol

variable {L V : Type}

theorem block_iff {α β : Type} (xs : List α) (g : Nat → α → β) (n q : Nat) (y : β) :
    ((List.range n).flatMap (fun b => xs.map (g b)))[q]? = some y ↔
      ∃ b f x, b < n ∧ xs[f]? = some x ∧ q = f + xs.length * b ∧ y = g b x := by
  have hg : ∀ p, (xs.map (g p)).length = xs.length := fun p => by simp
  have hlen : ((List.range n).flatMap (fun b => xs.map (g b))).length = xs.length * n := by
    rw [List.length_flatMap]; simp [Nat.mul_comm]
  constructor
  · intro h
    have hq : q < xs.length * n := by
      rw [← hlen]; exact (List.getElem?_eq_some_iff.1 h).1
    have hm : 0 < xs.length := by
      rcases Nat.eq_zero_or_pos xs.length with h0 | h0
      · rw [h0] at hq; omega
      · exact h0
    have hb : q / xs.length < n := Nat.div_lt_of_lt_mul hq
    have hf : q % xs.length < xs.length := Nat.mod_lt _ hm
    have e : q = q % xs.length + xs.length * (q / xs.length) := (Nat.mod_add_div q xs.length).symm
    rw [e, block_getElem? (fun b => xs.map (g b)) xs.length hg hf n (q / xs.length) hb, List.getElem?_map, List.getElem?_eq_getElem hf] at h
    simp only [Option.map_some, Option.some.injEq] at h
    exact ⟨q / xs.length, q % xs.length, xs[q % xs.length], hb, List.getElem?_eq_getElem hf, e, h.symm⟩
  · rintro ⟨b, f, x, hb, hx, rfl, rfl⟩
    have hf : f < xs.length := (List.getElem?_eq_some_iff.1 hx).1
    rw [block_getElem? (fun b => xs.map (g b)) xs.length hg hf n b hb, List.getElem?_map, hx]
    rfl

theorem flatMap_replicate_getElem? (js : List Int) (m : Nat) {f b : Nat} (hf : f < m) : (js.flatMap (fun j => List.replicate m j))[f + m * b]? = js[b]? := by
  induction js generalizing b with
  | nil => simp
  | cons j js ih =>
    rw [List.flatMap_cons]
    cases b with
    | zero => rw [List.getElem?_append_left (by simpa using hf)]; simp [hf]
    | succ b =>
      rw [List.getElem?_append_right (by simp [Nat.mul_add]; omega)]
      have : f + m * (b + 1) - (List.replicate m j).length = f + m * b := by simp [Nat.mul_add]; omega
      rw [this, ih, List.getElem?_cons_succ]

/-! ### Window numbers -/

theorem count_free (N : Nat) (spws : List Int) :
    N ≤ (((List.range N).map (fun i : Nat => (i : Int) + 1)).filter (fun i => !spws.contains i)).length + spws.length := by
  set l := (List.range N).map (fun i : Nat => (i : Int) + 1) with hl
  have hn : l.Nodup := by
    rw [hl]
    refine List.Nodup.map_on ?_ List.nodup_range
    intro a _ b _ h
    omega
  have h1 : (l.filter (fun i => spws.contains i)).length ≤ spws.length := by
    have hs : (l.filter (fun i => spws.contains i)).Nodup := hn.filter _
    exact (List.subperm_of_subset hs (fun x hx => by simpa using (List.mem_filter.1 hx).2)).length_le
  have h2 : (l.filter (fun i => spws.contains i)).length + (l.filter (fun i => !spws.contains i)).length = l.length := by
    have := List.length_eq_length_filter_add (l := l) (fun i => spws.contains i)
    omega
  have h3 : l.length = N := by simp [hl]
  omega

theorem allWins_facts (listSet : List Int → List Int) (hs : ∀ l, (listSet l).Perm l) {spws : List Int} (hd : spws.Nodup) {nj : Nat} (hj : 0 < nj) :
    (allWins listSet spws nj).Nodup ∧ (allWins listSet spws nj).length = spws.length * nj ∧
      ∀ i, i < spws.length → (allWins listSet spws nj)[i]? = spws[i]? := by
  unfold allWins
  set free := ((List.range (spws.length * nj)).map (fun i : Nat => (i : Int) + 1)).filter (fun i => !spws.contains i) with hf
  have hfn : free.Nodup := by
    rw [hf]
    refine List.Nodup.filter _ (List.Nodup.map_on ?_ List.nodup_range)
    intro a _ b _ h
    omega
  have hc := count_free (spws.length * nj) spws
  rw [← hf] at hc
  have hp := hs free
  refine ⟨?_, ?_, ?_⟩
  · rw [List.nodup_append']
    refine ⟨hd, (hp.nodup_iff.2 hfn).sublist (List.take_sublist _ _), ?_⟩
    intro x hx hx'
    have := hp.mem_iff.1 (List.mem_of_mem_take hx')
    rw [hf] at this
    have := (List.mem_filter.1 this).2
    simp [hx] at this
  · rw [List.length_append, List.length_take, hp.length_eq]
    have : spws.length * nj = spws.length + spws.length * (nj - 1) := by
      obtain ⟨m, rfl⟩ : ∃ m, nj = m + 1 := ⟨nj - 1, by omega⟩
      simp [Nat.mul_add]; omega
    omega
  · intro i hi
    rw [List.getElem?_append_left hi]

/-! ### The converted object -/

section
variable (listSet : List Int → List Int) (hs : ∀ l, (listSet l).Perm l)

/-- The window for component number `b` of window `w`. -/
def winOf (o : Obj L V) (b : Nat) (w : Int) : Int := blockWin o.spws (allWins listSet o.spws o.jones.length) b w

include hs in
theorem winOf_pos {o : Obj L V} (g : Good o) {b : Nat} (hb : b < o.jones.length) {w : Int} (hw : w ∈ o.spws) :
    (allWins listSet o.spws o.jones.length)[o.spws.idxOf w + o.spws.length * b]? = some (winOf listSet o b w) ∧
    (allWins listSet o.spws o.jones.length).idxOf (winOf listSet o b w) = o.spws.idxOf w + o.spws.length * b := by
  obtain ⟨h1, h2, -⟩ := allWins_facts listSet hs g.nodup (nj := o.jones.length) (by omega)
  have hi := List.idxOf_lt_length_of_mem hw
  have hlt : o.spws.idxOf w + o.spws.length * b < (allWins listSet o.spws o.jones.length).length := by
    rw [h2]
    have : o.spws.length * (b + 1) ≤ o.spws.length * o.jones.length := Nat.mul_le_mul_left _ hb
    rw [Nat.mul_add] at this
    omega
  have e : (allWins listSet o.spws o.jones.length)[o.spws.idxOf w + o.spws.length * b]? = some (winOf listSet o b w) := by
    unfold winOf blockWin
    rw [List.getElem?_eq_getElem hlt]
    rfl
  refine ⟨e, ?_⟩
  obtain ⟨h, e'⟩ := List.getElem?_eq_some_iff.1 e
  rw [← e']
  exact h1.idxOf_getElem _ _

include hs in
theorem winOf_inj {o : Obj L V} (g : Good o) {b b' : Nat} (hb : b < o.jones.length) (hb' : b' < o.jones.length) {w w' : Int} (hw : w ∈ o.spws)
    (hw' : w' ∈ o.spws) (h : winOf listSet o b w = winOf listSet o b' w') : b = b' ∧ w = w' := by
  have e1 := (winOf_pos listSet hs g hb hw).2
  have e2 := (winOf_pos listSet hs g hb' hw').2
  rw [h, e2] at e1
  have i1 := List.idxOf_lt_length_of_mem hw
  have i2 := List.idxOf_lt_length_of_mem hw'
  have m1 := congrArg (· % o.spws.length) e1
  simp only [Nat.add_mul_mod_self_left, Nat.mod_eq_of_lt i1, Nat.mod_eq_of_lt i2] at m1
  have hpos : 0 < o.spws.length := by omega
  have : o.spws.length * b = o.spws.length * b' := by omega
  refine ⟨Nat.eq_of_mul_eq_mul_left hpos this, ?_⟩
  have e3 := List.getElem?_idxOf hw
  have e4 := List.getElem?_idxOf hw'
  rw [m1] at e4
  rw [e4] at e3
  simpa using e3.symm

/-- The object `convert_to_flex_jones` makes of one with several Jones components. -/
def converted (o : Obj L V) : Obj L V :=
  { spws := allWins listSet o.spws o.jones.length
    ids := (List.range o.jones.length).flatMap (fun b => o.ids.map (winOf listSet o b))
    lab := (List.range o.jones.length).flatMap (fun _ => o.lab)
    jones := [0]
    flexJones := some (o.jones.flatMap (fun j => List.replicate o.spws.length j))
    planes := (List.range o.jones.length).flatMap (fun b => o.planes.map (fun pl => onePlane pl b))
    total := o.total }

include hs in
theorem converted_jonesOf {o : Obj L V} (g : Good o) {b : Nat} (hb : b < o.jones.length) {w : Int} (hw : w ∈ o.spws) :
    jonesOf (converted listSet o) (winOf listSet o b w) = o.jones[b]? := by
  unfold jonesOf converted
  simp only [Option.bind_some]
  rw [(winOf_pos listSet hs g hb hw).2]
  exact flatMap_replicate_getElem? o.jones o.spws.length (List.idxOf_lt_length_of_mem hw)

include hs in
theorem converted_hasChan {o : Obj L V} (g : Good o) {b : Nat} (hb : b < o.jones.length) {w : Int} (hw : w ∈ o.spws) (l : L) (pl' : Plane V) :
    HasChan (converted listSet o) (winOf listSet o b w) l pl' ↔ ∃ pl, HasChan o w l pl ∧ pl' = onePlane pl b := by
  have hlabE : (List.range o.jones.length).flatMap (fun _ => o.lab) = (List.range o.jones.length).flatMap (fun _ => o.lab.map id) := by simp
  unfold HasChan converted
  simp only
  rw [hlabE]
  simp only [block_iff]
  constructor
  · rintro ⟨k, ⟨b1, f1, w1, hb1, h1, rfl, e1⟩, ⟨b2, f2, l2, hb2, h2, e2, rfl⟩, ⟨b3, f3, p3, hb3, h3, e3, rfl⟩⟩
    have i1 : f1 < o.ids.length := (List.getElem?_eq_some_iff.1 h1).1
    have i2 : f2 < o.ids.length := by rw [← g.lab]; exact (List.getElem?_eq_some_iff.1 h2).1
    have i3 : f3 < o.ids.length := by rw [← g.planes]; exact (List.getElem?_eq_some_iff.1 h3).1
    have hpos : 0 < o.ids.length := by omega
    rw [g.lab] at e2
    rw [g.planes] at e3
    have un : ∀ {f b' : Nat}, f < o.ids.length → f1 + o.ids.length * b1 = f + o.ids.length * b' → f = f1 ∧ b' = b1 := by
      intro f b' hf e
      have m := congrArg (· % o.ids.length) e
      simp only [Nat.add_mul_mod_self_left, Nat.mod_eq_of_lt i1, Nat.mod_eq_of_lt hf] at m
      exact ⟨m.symm, Nat.eq_of_mul_eq_mul_left hpos (by omega)⟩
    obtain ⟨rfl, rfl⟩ := un i2 e2
    obtain ⟨rfl, rfl⟩ := un i3 e3
    obtain ⟨rfl, rfl⟩ := winOf_inj listSet hs g hb hb1 hw (g.listed w1 (List.mem_of_getElem? h1)) e1
    exact ⟨p3, ⟨_, h1, h2, h3⟩, rfl⟩
  · rintro ⟨pl, ⟨k, h1, h2, h3⟩, rfl⟩
    exact ⟨k + o.ids.length * b, ⟨b, k, w, hb, h1, rfl, rfl⟩, ⟨b, k, l, hb, h2, by rw [g.lab], rfl⟩, ⟨b, k, pl, hb, h3, by rw [g.planes], rfl⟩⟩

include hs in
theorem converted_good {o : Obj L V} (g : Good o) (hn : 0 < o.jones.length) : Good (converted listSet o) := by
  obtain ⟨h1, h2, -⟩ := allWins_facts listSet hs g.nodup (nj := o.jones.length) hn
  have len : ∀ {α β : Type} (xs : List α) (f : Nat → α → β), ((List.range o.jones.length).flatMap (fun b => xs.map (f b))).length = xs.length * o.jones.length := by
    intro α β xs f
    rw [List.length_flatMap]; simp [Nat.mul_comm]
  have hlabE : (List.range o.jones.length).flatMap (fun _ => o.lab) = (List.range o.jones.length).flatMap (fun _ => o.lab.map id) := by simp
  constructor
  · unfold converted; simp only; rw [hlabE, len, len, g.lab]
  · unfold converted; simp only; rw [len, len, g.planes]
  · exact h1
  · intro u hu
    obtain ⟨b, hb, hu⟩ := List.mem_flatMap.1 hu
    obtain ⟨w, hw, rfl⟩ := List.mem_map.1 hu
    exact List.mem_of_getElem? (winOf_pos listSet hs g (List.mem_range.1 hb) (g.listed w hw)).1
  · intro u hu
    obtain ⟨q, hq⟩ := List.getElem?_of_mem hu
    have hq' : q < o.spws.length * o.jones.length := by rw [← h2]; exact (List.getElem?_eq_some_iff.1 hq).1
    have hm : 0 < o.spws.length := by
      rcases Nat.eq_zero_or_pos o.spws.length with h0 | h0
      · rw [h0] at hq'; omega
      · exact h0
    have hb : q / o.spws.length < o.jones.length := Nat.div_lt_of_lt_mul hq'
    have hf : q % o.spws.length < o.spws.length := Nat.mod_lt _ hm
    have hw : o.spws[q % o.spws.length] ∈ o.spws := List.getElem_mem hf
    have e := (winOf_pos listSet hs g hb hw).1
    rw [g.nodup.idxOf_getElem _ hf, Nat.mod_add_div, show (allWins listSet o.spws o.jones.length)[q]? = some u from hq] at e
    simp only [Option.some.injEq] at e
    refine List.mem_flatMap.2 ⟨_, List.mem_range.2 hb, List.mem_map.2 ⟨_, g.used _ hw, e.symm⟩⟩
  · simp [converted]
  · intro fj hfj
    simp only [converted, Option.some.injEq] at hfj
    subst hfj
    refine ⟨?_, rfl⟩
    change _ = (allWins listSet o.spws o.jones.length).length
    rw [h2, List.length_flatMap]
    simp [Nat.mul_comm]

include hs in
theorem converted_chansOf {o : Obj L V} (g : Good o) {b : Nat} (hb : b < o.jones.length) {w : Int} (hw : w ∈ o.spws) :
    chansOf (converted listSet o) (winOf listSet o b w) = chansOf o w := by
  unfold chansOf converted
  simp only
  rw [← replicate_flatten_eq]
  refine ofWin_flatMap o.ids o.lab g.lab.symm (winOf listSet o) w (g.used w hw) b o.jones.length ?_ hb
  intro a ha a' ha' x hx y hy h
  exact winOf_inj listSet hs g ha ha' (g.listed x hx) (g.listed y hy) h

include hs in
/-- Every window of the converted object is one of these. -/
theorem converted_windows {o : Obj L V} (g : Good o) (hn : 0 < o.jones.length) {u : Int} (hu : u ∈ (converted listSet o).spws) :
    ∃ b < o.jones.length, ∃ w ∈ o.spws, u = winOf listSet o b w := by
  obtain ⟨b, hb, hu⟩ := List.mem_flatMap.1 ((converted_good listSet hs g hn).used u hu)
  obtain ⟨w, hw, rfl⟩ := List.mem_map.1 hu
  exact ⟨b, List.mem_range.1 hb, w, g.listed w hw, rfl⟩

include hs in
/-- C86: `convert_to_flex_jones` on an object without `total_quality_array` raises no exception. Every pair of a window and a Jones component gets
a window of its own with that component and the same channels, there are no other windows, the first component keeps the window numbers, which come
first, and every value of every antenna, time and channel is the one under its component before. -/
theorem convert_keeps_partial {o : Obj L V} (g : Good o) (hf : o.flexJones = none) (hn : o.jones ≠ []) (ht : o.total = false) :
    (convert listSet o).2 = none ∧ Good (convert listSet o).1 ∧ (∃ fj, (convert listSet o).1.flexJones = some fj) ∧
      (∃ new, (convert listSet o).1.spws = o.spws ++ new) ∧ ∃ win : Int → Int → Int,
      (∀ w ∈ o.spws, ∀ j ∈ o.jones, win w j ∈ (convert listSet o).1.spws ∧ jonesOf (convert listSet o).1 (win w j) = some j ∧
        chansOf (convert listSet o).1 (win w j) = chansOf o w) ∧
      (∀ w ∈ o.spws, ∀ w' ∈ o.spws, ∀ j ∈ o.jones, ∀ j' ∈ o.jones, win w j = win w' j' → w = w' ∧ j = j') ∧
      (∀ u ∈ (convert listSet o).1.spws, ∃ w ∈ o.spws, ∃ j ∈ o.jones, u = win w j) ∧
      (∀ w ∈ o.spws, ∀ j, o.jones.head? = some j → win w j = w) ∧
      (∀ i t l v, ∀ w ∈ o.spws, ∀ j ∈ o.jones, Says (convert listSet o).1 i t (win w j) l j v ↔ Says o i t w l j v) := by
  have hpos : 0 < o.jones.length := List.length_pos_iff.2 hn
  by_cases h1 : o.jones.length = 1
  · obtain ⟨j0, hj0⟩ := List.length_eq_one_iff.1 h1
    have e : convert listSet o = ({ o with flexJones := some (List.replicate o.spws.length j0), jones := [0] }, none) := by
      unfold convert; rw [hf]; simp [hj0]
    rw [e]
    have hjo : ∀ w ∈ o.spws, jonesOf { o with flexJones := some (List.replicate o.spws.length j0), jones := [0] } w = some j0 := by
      intro w hw
      unfold jonesOf
      simp only [Option.bind_some]
      rw [List.getElem?_replicate, if_pos (List.idxOf_lt_length_of_mem hw)]
    refine ⟨rfl, ⟨g.lab, g.planes, g.nodup, g.listed, g.used, by simp, ?_⟩, ⟨_, rfl⟩, ⟨[], by simp⟩, fun w _ => w, ?_, ?_, ?_, ?_, ?_⟩
    · intro fj hfj
      simp only [Option.some.injEq] at hfj
      subst hfj
      simp
    · intro w hw j hj
      rw [hj0] at hj
      simp only [List.mem_singleton] at hj
      subst hj
      exact ⟨hw, hjo w hw, rfl⟩
    · intro w _ w' _ j hj j' hj' h
      rw [hj0] at hj hj'
      simp only [List.mem_singleton] at hj hj'
      exact ⟨h, hj.trans hj'.symm⟩
    · intro u hu
      exact ⟨u, hu, j0, by simp [hj0], rfl⟩
    · intro w _ j _; rfl
    · intro i t l v w hw j hj
      rw [hj0] at hj
      simp only [List.mem_singleton] at hj
      subst hj
      unfold Says
      simp only [hf, hjo w hw]
      constructor
      · rintro ⟨pl, h, -, rfl⟩
        exact ⟨pl, h, 0, by simp [hj0], rfl⟩
      · rintro ⟨pl, h, p, hp, rfl⟩
        have : p = 0 := by
          rw [hj0] at hp
          have := (List.getElem?_eq_some_iff.1 hp).1
          simpa using this
        subst this
        exact ⟨pl, h, trivial, rfl⟩
  · have e : convert listSet o = (converted listSet o, none) := by
      unfold convert
      have hc : converted listSet o = { converted listSet o with total := o.total } := rfl
      rw [hf]
      simp only [if_neg h1, totalFails, ht]
      rw [hc, ht]
      rfl
    rw [e]
    have hidx : ∀ {j : Int}, j ∈ o.jones → o.jones.idxOf j < o.jones.length := fun h => List.idxOf_lt_length_of_mem h
    have hjo : ∀ w ∈ o.spws, ∀ j ∈ o.jones, jonesOf (converted listSet o) (winOf listSet o (o.jones.idxOf j) w) = some j := by
      intro w hw j hj
      rw [converted_jonesOf listSet hs g (hidx hj) hw]
      exact List.getElem?_idxOf hj
    refine ⟨rfl, converted_good listSet hs g hpos, ⟨_, rfl⟩, ⟨_, rfl⟩, fun w j => winOf listSet o (o.jones.idxOf j) w, ?_, ?_, ?_, ?_, ?_⟩
    · intro w hw j hj
      exact ⟨List.mem_of_getElem? (winOf_pos listSet hs g (hidx hj) hw).1, hjo w hw j hj, converted_chansOf listSet hs g (hidx hj) hw⟩
    · intro w hw w' hw' j hj j' hj' h
      obtain ⟨h2, h3⟩ := winOf_inj listSet hs g (hidx hj) (hidx hj') hw hw' h
      refine ⟨h3, ?_⟩
      have e1 := List.getElem?_idxOf hj
      have e2 := List.getElem?_idxOf hj'
      rw [h2, e2] at e1
      simpa using e1.symm
    · intro u hu
      obtain ⟨b, hb, w, hw, rfl⟩ := converted_windows listSet hs g hpos hu
      refine ⟨w, hw, o.jones[b], List.getElem_mem hb, ?_⟩
      change winOf listSet o b w = winOf listSet o (o.jones.idxOf o.jones[b]) w
      rw [g.jones.idxOf_getElem b hb]
    · intro w hw j hj
      have hz : o.jones.idxOf j = 0 := by
        cases hjs : o.jones with
        | nil => rw [hjs] at hj; simp at hj
        | cons a l => rw [hjs] at hj; simp only [List.head?_cons, Option.some.injEq] at hj; subst hj; simp
      have e1 := (winOf_pos listSet hs g hpos hw).1
      have e2 := (allWins_facts listSet hs g.nodup (nj := o.jones.length) hpos).2.2 _ (List.idxOf_lt_length_of_mem hw)
      simp only [Nat.mul_zero, Nat.add_zero] at e1
      rw [e2, List.getElem?_idxOf hw] at e1
      simp only [hz]
      simpa using e1.symm
    · intro i t l v w hw j hj
      have e1 : (converted listSet o).flexJones = some (o.jones.flatMap (fun j => List.replicate o.spws.length j)) := rfl
      unfold Says
      simp only [hf, e1, hjo w hw j hj, true_and]
      constructor
      · rintro ⟨pl', h, rfl⟩
        obtain ⟨pl, h', rfl⟩ := (converted_hasChan listSet hs g (hidx hj) hw l pl').1 h
        exact ⟨pl, h', _, List.getElem?_idxOf hj, rfl⟩
      · rintro ⟨pl, h, p, hp, rfl⟩
        have : p = o.jones.idxOf j := by
          have := List.getElem?_idxOf hj
          rw [← hp] at this
          exact ((List.getElem?_inj (hidx hj) g.jones).1 this).symm
        subst this
        exact ⟨_, (converted_hasChan listSet hs g (hidx hj) hw l _).2 ⟨pl, h, rfl⟩, rfl⟩

/-- C86: an object that has one component per window already is refused and stays as it is. -/
theorem convert_refused {o : Obj L V} (h : o.flexJones ≠ none) : convert listSet o = (o, some .already) := by
  unfold convert
  cases hf : o.flexJones with
  | none => exact absurd hf h
  | some fj => rfl

end

end Verif.FlexJones
