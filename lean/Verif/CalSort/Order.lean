import Verif.CalSort.Props

/-! C84: the requested order is attained. -/
namespace Verif.CalSort
open Verif.Np Verif.FreqSort Verif.Add
open Verif.Pol (Str)
set_option linter.unusedSectionVars false

variable {K V N : Type} [Field K] [LinearOrder K] [LinearOrder N]

theorem finish_cases {n : Nat} {idx : List Nat} (hp : idx.Perm (List.range n)) : (finish idx = none ∧ idx = List.range n) ∨ finish idx = some idx := by
  unfold finish
  split
  · rename_i h; exact Or.inl ⟨rfl, (chain_range hp).1 h⟩
  · exact Or.inr rfl

/-- Values taken in the order of `np.argsort` of their keys, or in the opposite one. -/
theorem sorted_of_argsort {α β : Type} [LinearOrder β] (a : Argsort β) (l : List α) (key : α → β) (down : Bool) :
    SortedBy down key (fancy l (if down then (a.run (l.map key)).reverse else a.run (l.map key))) := by
  have h := fancy_sorted (l.map key) l (fun x => some (key x)) (by simp) (a.run (l.map key)) (a.sorts _)
  have h' : (fancy l (a.run (l.map key))).Pairwise (fun a b => key a ≤ key b) := h.imp (fun h => h _ _ rfl rfl)
  unfold SortedBy
  cases down with
  | false => simpa using h'
  | true =>
    simp only [if_true]
    rw [fancy_reverse, List.pairwise_reverse]
    exact h'

theorem take_all {l : List Int} {n : Nat} {idx : List Nat} (hp : idx.Perm (List.range n)) (hn : l.length = n) :
    (match finish idx with | none => l | some i => fancy l i) = fancy l idx := by
  rcases finish_cases hp with ⟨h, e⟩ | h
  · rw [h, e, ← hn, fancy_range]
  · rw [h]

/-- The labels of an axis after `choose`. -/
theorem choose_labels {n : Nat} {allowed : List Str} {base : Str → Except Err (List Nat)} {l : List Int} {idx : List Nat}
    (h : choose n allowed base (.idx l) = .ok idx) : idx.map (fun i : Nat => (i : Int)) = l ∧ idx.Perm (List.range n) := by
  simp only [choose] at h
  split at h
  · rename_i hp
    simp only [Except.ok.injEq] at h
    subst h
    obtain ⟨q, hq⟩ := isIndexPerm_spec hp
    refine ⟨?_, q⟩
    rw [List.map_map]
    conv_rhs => rw [← List.map_id l]
    exact List.map_congr_left (fun i hi => by simp [hq i hi])
  · simp at h

theorem fancy_of_index {α : Type} {xs : List α} {idx : List Nat} {l : List Int} (h : idx.map (fun i : Nat => (i : Int)) = l)
    (hp : idx.Perm (List.range xs.length)) : (fancy xs idx).map some = l.map (fun i => xs[i.toNat]?) := by
  rw [fancy_map xs idx (perm_lt hp), ← h, List.map_map]
  rfl

/-- The antennas and Jones components after reordering: what was asked for. -/
structure Attained (names : Int → Option N) (o : Order) (before after : List Int) : Prop where
  index : ∀ l, o = .idx l → after.map some = l.map (fun i => before[i.toNat]?)
  number : o = .str "number".toList → SortedBy false id after
  numberDown : o = .str "-number".toList → SortedBy true id after
  name : o = .str "name".toList → ∃ ns, after.mapM names = some ns ∧ ns.Pairwise (· ≤ ·)
  nameDown : o = .str "-name".toList → ∃ ns, after.mapM names = some ns ∧ ns.Pairwise (· ≥ ·)

theorem mapM_some_iff {α β : Type} (f : α → Option β) : ∀ (l : List α) (ys : List β), l.mapM f = some ys ↔ l.map f = ys.map some := by
  intro l
  induction l with
  | nil => intro ys; cases ys <;> simp
  | cons x l ih =>
    intro ys
    rw [List.mapM_cons]
    cases ys with
    | nil =>
      cases hx : f x with
      | none => simp
      | some y => cases hl : l.mapM f <;> simp
    | cons z zs =>
      cases hx : f x with
      | none => simp [hx]
      | some y =>
        cases hl : l.mapM f with
        | none =>
          simp only [List.map_cons, hx]
          constructor
          · intro h; simp at h
          · intro h
            have := (ih zs).2 (by simpa using (List.cons.inj h).2)
            rw [hl] at this; simp at this
        | some ws =>
          have := ih zs
          rw [hl] at this
          simp only [List.map_cons, hx]
          constructor
          · intro h
            have h' : y :: ws = z :: zs := by simpa using h
            obtain ⟨rfl, rfl⟩ := List.cons.inj h'
            rw [this.1 rfl]
          · intro h
            obtain ⟨h1, h2⟩ := List.cons.inj h
            have h3 := this.2 h2
            simp only [Option.some.injEq] at h1 h3
            subst h1; subst h3; rfl

theorem names_sorted (so : Sorts K N) (names : Int → Option N) {l : List Int} {ns : List N} (h : l.mapM names = some ns) :
    (fancy l (so.name.run ns)).mapM names = some (fancy ns (so.name.run ns)) ∧ (fancy ns (so.name.run ns)).Pairwise (· ≤ ·) ∧
    (fancy l (so.name.run ns).reverse).mapM names = some (fancy ns (so.name.run ns).reverse) ∧
    (fancy ns (so.name.run ns).reverse).Pairwise (· ≥ ·) := by
  have e := (mapM_some_iff names l ns).1 h
  have hs := sorted_of_argsort so.name ns id false
  have hd := sorted_of_argsort so.name ns id true
  simp only [SortedBy, List.map_id, Bool.false_eq_true, if_false, if_true, id] at hs hd
  refine ⟨?_, hs, ?_, hd⟩
  · rw [mapM_some_iff, ← FreqSort.fancy_map_comm, ← FreqSort.fancy_map_comm, e]
  · rw [mapM_some_iff, ← FreqSort.fancy_map_comm, ← FreqSort.fancy_map_comm, e]

theorem attained (so : Sorts K N) (names : Int → Option N) {l : List Int} {o : Order} {idx : List Nat}
    (base : Str → Except Err (List Nat))
    (hb : ∀ s, base s = if "number".toList <:+: s then .ok (so.int.run l) else match l.mapM names with
      | none => .error .name
      | some ns => .ok (so.name.run ns))
    (h : choose l.length numberOrName base o = .ok idx) : Attained names o l (fancy l idx) := by
  have key : ∀ (s : Str), o = .str s → ∃ b, base s = .ok b ∧ idx = if s.head? = some '-' then b.reverse else b := by
    rintro s rfl
    simp only [choose] at h
    split at h
    · split at h
      · simp at h
      · rename_i b hbs
        simp only [Except.ok.injEq] at h
        exact ⟨b, hbs, h.symm⟩
    · simp at h
  have nameCase : ∀ s : Str, ¬ ("number".toList <:+: s) → o = .str s → ∃ ns, l.mapM names = some ns ∧
      idx = if s.head? = some '-' then (so.name.run ns).reverse else so.name.run ns := by
    intro s hs ho
    obtain ⟨b, e1, e2⟩ := key s ho
    rw [hb, if_neg hs] at e1
    split at e1
    · simp at e1
    · rename_i ns hns
      simp only [Except.ok.injEq] at e1
      subst e1
      exact ⟨ns, hns, e2⟩
  constructor
  · rintro q rfl
    obtain ⟨e, hp⟩ := choose_labels h
    exact fancy_of_index e hp
  · intro ho
    obtain ⟨b, e1, e2⟩ := key _ ho
    rw [hb, if_pos (by decide)] at e1
    simp only [Except.ok.injEq] at e1
    rw [e2, if_neg (by decide), ← e1]
    simpa using sorted_of_argsort so.int l id false
  · intro ho
    obtain ⟨b, e1, e2⟩ := key _ ho
    rw [hb, if_pos (by decide)] at e1
    simp only [Except.ok.injEq] at e1
    rw [e2, if_pos (by decide), ← e1]
    simpa using sorted_of_argsort so.int l id true
  · intro ho
    obtain ⟨ns, e1, e2⟩ := nameCase _ (by decide) ho
    rw [e2, if_neg (by decide)]
    exact ⟨_, (names_sorted so names e1).1, (names_sorted so names e1).2.1⟩
  · intro ho
    obtain ⟨ns, e1, e2⟩ := nameCase _ (by decide) ho
    rw [e2, if_pos (by decide)]
    exact ⟨_, (names_sorted so names e1).2.2.1, (names_sorted so names e1).2.2.2⟩

/-- C84: antennas come out in the order asked for. -/
theorem reorder_antennas_order (so : Sorts K N) (antName : Int → Option N) {c c' : Cal K V} (o : Order)
    (h : reorderAnts so antName c o = .ok c') : Attained antName o c.ants c'.ants := by
  unfold reorderAnts at h
  split at h
  · simp at h
  · rename_i idx hidx
    have hp := choose_perm (antBase_perm so antName c.ants) hidx
    simp only [Except.ok.injEq] at h
    have e : c'.ants = fancy c.ants idx := by
      rw [← take_all hp rfl, ← h]
      cases finish idx <;> rfl
    rw [e]
    exact attained so antName _ (fun s => rfl) hidx

/-- C84: Jones components come out in the order asked for. -/
theorem reorder_jones_order (so : Sorts K N) (jName : Int → Option N) {c c' : Cal K V} (o : Order)
    (h : reorderJones so jName c o = .ok c') : Attained jName o c.jones c'.jones := by
  unfold reorderJones at h
  split at h
  · simp at h
  · rename_i idx hidx
    have hp := choose_perm (jonesBase_perm so jName c.jones) hidx
    simp only [Except.ok.injEq] at h
    have e : c'.jones = fancy c.jones idx := by
      rw [← take_all hp rfl, ← h]
      cases finish idx <;> rfl
    rw [e]
    exact attained so jName _ (fun s => rfl) hidx

theorem finish_opt {α : Type} {o : Option (List α)} {n : Nat} {idx : List Nat} (hp : idx.Perm (List.range n)) (hl : ColLen o n) :
    (match finish idx with | none => o | some i => o.map (ax0 i)) = o.map (ax0 idx) := by
  rcases finish_cases hp with ⟨h, e⟩ | h
  · rw [h, e]
    cases o with
    | none => rfl
    | some l => simp only [Option.map_some, ax0]; rw [← hl l rfl, fancy_range]
  · rw [h]

/-- C84: times come out in the order asked for: by the array of times or by the beginnings of the ranges, whichever the object has. -/
theorem reorder_times_order (so : Sorts K N) {c c' : Cal K V} (g : Good c) (o : Order) (h : reorderTimes so c o = .ok c') :
    (∀ ts, c.times.time = some ts → ∃ ts', c'.times.time = some ts' ∧
      (∀ l, o = .idx l → ts'.map some = l.map (fun i => ts[i.toNat]?)) ∧
      (o = .str "time".toList → SortedBy false id ts') ∧ (o = .str "-time".toList → SortedBy true id ts')) ∧
    (∀ rs, c.times.timeRange = some rs → ∃ rs', c'.times.timeRange = some rs' ∧
      (∀ l, o = .idx l → rs'.map some = l.map (fun i => rs[i.toNat]?)) ∧
      (o = .str "time".toList → SortedBy false Prod.fst rs') ∧ (o = .str "-time".toList → SortedBy true Prod.fst rs')) := by
  unfold reorderTimes at h
  split at h
  · simp at h
  · rename_i idx hidx
    have hp := choose_perm (timeBase_perm so g) hidx
    simp only [Except.ok.injEq] at h
    have e1 : c'.times.time = c.times.time.map (ax0 idx) := by
      rw [← finish_opt hp g.time, ← h]; cases finish idx <;> rfl
    have e2 : c'.times.timeRange = c.times.timeRange.map (ax0 idx) := by
      rw [← finish_opt hp g.timeRange, ← h]; cases finish idx <;> rfl
    have key : ∀ (s : Str), o = .str s → ∃ b, timeBase so c.times s = .ok b ∧ idx = if s.head? = some '-' then b.reverse else b := by
      rintro s rfl
      simp only [choose] at hidx
      split at hidx
      · split at hidx
        · simp at hidx
        · rename_i b hbs
          simp only [Except.ok.injEq] at hidx
          exact ⟨b, hbs, hidx.symm⟩
      · simp at hidx
    constructor
    · intro ts hts
      refine ⟨fancy ts idx, by rw [e1, hts]; rfl, ?_, ?_, ?_⟩
      · rintro l rfl
        obtain ⟨e, hp⟩ := choose_labels hidx
        exact fancy_of_index e (g.time ts hts ▸ hp)
      all_goals
        intro ho
        obtain ⟨b, f1, f2⟩ := key _ ho
        have fb : b = so.num.run ts := by
          unfold timeBase at f1
          rw [hts] at f1
          cases hr : c.times.timeRange with
          | none => rw [hr] at f1; simp at f1; exact f1.symm
          | some r => rw [hr] at f1; simp at f1
        rw [f2, fb]
      · simpa using sorted_of_argsort so.num ts id false
      · simpa using sorted_of_argsort so.num ts id true
    · intro rs hrs
      refine ⟨fancy rs idx, by rw [e2, hrs]; rfl, ?_, ?_, ?_⟩
      · rintro l rfl
        obtain ⟨e, hp⟩ := choose_labels hidx
        exact fancy_of_index e (g.timeRange rs hrs ▸ hp)
      all_goals
        intro ho
        obtain ⟨b, f1, f2⟩ := key _ ho
        have fb : b = so.num.run (rs.map Prod.fst) := by
          unfold timeBase at f1
          rw [hrs] at f1
          cases hr : c.times.time with
          | none => rw [hr] at f1; simp at f1; exact f1.symm
          | some r => rw [hr] at f1; simp at f1
        rw [f2, fb]
      · simpa using sorted_of_argsort so.num rs Prod.fst false
      · simpa using sorted_of_argsort so.num rs Prod.fst true

/-- The middle of a range. -/
def middle (r : K × K) : K := (r.1 + r.2) / 2

/-- C84: windows of a wide-band object come out in the order asked for, by number if nothing is asked for. -/
theorem reorder_windows_order (so : Sorts K N) {c c' : Cal K V} (g : Good c) (hw : c.wide = true) (hn : c.spws.length ≠ 1) (o co : Order)
    (sel : Option (List Int)) (h : reorderFreqs so c o co sel = .ok c') :
    (∀ l, o = .idx l → c'.spws.map some = l.map (fun i => c.spws[i.toNat]?)) ∧
    (o = .none ∨ o = .str "number".toList → SortedBy false id c'.spws) ∧ (o = .str "-number".toList → SortedBy true id c'.spws) ∧
    (o = .str "freq".toList → SortedBy false middle c'.ranges) ∧ (o = .str "-freq".toList → SortedBy true middle c'.ranges) := by
  obtain ⟨hr, hd⟩ := g.wides hw
  unfold reorderFreqs at h
  rw [if_neg (by simp [hn]), if_pos hw] at h
  split at h
  · simp at h
  · rename_i idx hidx
    simp only [Except.ok.injEq] at h
    subst h
    have key : ∀ (s : Str), o = .str s → ∃ b, wideBase so c s = .ok b ∧ idx = if s.head? = some '-' then b.reverse else b := by
      rintro s rfl
      simp only [wideOrder, choose] at hidx
      split at hidx
      · split at hidx
        · simp at hidx
        · rename_i b hbs
          simp only [Except.ok.injEq] at hidx
          exact ⟨b, hbs, hidx.symm⟩
      · simp at hidx
    refine ⟨?_, ?_, ?_, ?_, ?_⟩
    · rintro l rfl
      simp only [wideOrder] at hidx
      split at hidx
      · rename_i hp
        simp only [Except.ok.injEq] at hidx
        obtain ⟨q, hq⟩ := isIndexPerm_spec hp
        rw [idxOf_fancy hd q] at hidx
        subst hidx
        change (fancy c.spws (l.map Int.toNat)).map some = _
        rw [fancy_map _ _ (perm_lt q), List.map_map]
        rfl
      · simp at hidx
    · rintro (rfl | ho)
      · simp only [wideOrder, Except.ok.injEq] at hidx
        subst hidx
        simpa [moveWide, ax0] using sorted_of_argsort so.int c.spws id false
      · obtain ⟨b, f1, f2⟩ := key _ ho
        rw [wideBase, if_pos (by decide)] at f1
        simp only [Except.ok.injEq] at f1
        rw [f2, if_neg (by decide), ← f1]
        simpa [moveWide, ax0] using sorted_of_argsort so.int c.spws id false
    · intro ho
      obtain ⟨b, f1, f2⟩ := key _ ho
      rw [wideBase, if_pos (by decide)] at f1
      simp only [Except.ok.injEq] at f1
      rw [f2, if_pos (by decide), ← f1]
      simpa [moveWide, ax0] using sorted_of_argsort so.int c.spws id true
    · intro ho
      obtain ⟨b, f1, f2⟩ := key _ ho
      rw [wideBase, if_neg (by decide)] at f1
      simp only [Except.ok.injEq] at f1
      rw [f2, if_neg (by decide), ← f1]
      change SortedBy false middle (fancy c.ranges (so.num.run (c.ranges.map middle)))
      simpa using sorted_of_argsort so.num c.ranges middle false
    · intro ho
      obtain ⟨b, f1, f2⟩ := key _ ho
      rw [wideBase, if_neg (by decide)] at f1
      simp only [Except.ok.injEq] at f1
      rw [f2, if_pos (by decide), ← f1]
      change SortedBy true middle (fancy c.ranges (so.num.run (c.ranges.map middle)).reverse)
      simpa using sorted_of_argsort so.num c.ranges middle true

/-- Frequencies of a window after channels have been picked. -/
theorem windowFreqs_fancy {freqs : List K} {ids : List Int} (hl : ids.length = freqs.length) (w : Int) (idx : List Nat)
    (hi : ∀ i ∈ idx, i < freqs.length) : (windowFreqs (fancy freqs idx) (fancy ids idx) w).map some = (chans ids w idx).map (fun i => freqs[i]?) := by
  unfold windowFreqs chans fancy
  induction idx with
  | nil => rfl
  | cons i idx ih =>
    have hlt := hi i (by simp)
    have ih := ih (fun j hj => hi j (by simp [hj]))
    rw [List.filterMap_cons, List.filterMap_cons, List.getElem?_eq_getElem hlt, List.getElem?_eq_getElem (hl ▸ hlt)]
    simp only [List.zip_cons_cons, List.filter_cons, List.getElem?_eq_getElem (hl ▸ hlt)]
    by_cases hw : ids[i]'(hl ▸ hlt) = w
    · simp only [hw, beq_self_eq_true, if_true, List.map_cons, ih, List.getElem?_eq_getElem hlt]
    · have h1 : (ids[i]'(hl ▸ hlt) == w) = false := by simpa using hw
      have h2 : (some (ids[i]'(hl ▸ hlt)) == some w) = false := by simpa using hw
      simp only [h1, h2, Bool.false_eq_true, if_false, ih]

theorem windowFreqs_sorted {freqs : List K} {ids : List Int} (hl : ids.length = freqs.length) (w : Int) (idx : List Nat)
    (hi : ∀ i ∈ idx, i < freqs.length) {co : Order} (h : ChannelsSorted freqs co (chans ids w idx)) :
    (co = .str "freq".toList → SortedBy false id (windowFreqs (fancy freqs idx) (fancy ids idx) w)) ∧
    (co = .str "-freq".toList → SortedBy true id (windowFreqs (fancy freqs idx) (fancy ids idx) w)) := by
  have e := windowFreqs_fancy hl w idx hi
  have conv : ∀ (R : K → K → Prop), (chans ids w idx).Pairwise (fun i j => ∀ x y, freqs[i]? = some x → freqs[j]? = some y → R x y) →
      (windowFreqs (fancy freqs idx) (fancy ids idx) w).Pairwise R := by
    intro R hR
    have h1 : ((chans ids w idx).map (fun i => freqs[i]?)).Pairwise (fun a b => ∀ x y, a = some x → b = some y → R x y) :=
      List.pairwise_map.2 hR
    rw [← e, List.pairwise_map] at h1
    exact h1.imp (fun h => h _ _ rfl rfl)
  constructor
  · intro hc
    exact conv _ (h.1 hc)
  · intro hc
    refine conv (fun x y => y ≤ x) ((h.2 hc).imp ?_)
    intro i j hij x y hx hy
    exact hij y x hy hx

/-- C84: channels come out in the order asked for: windows as blocks in the requested order, channels of each window by frequency, or
exactly the given index array. -/
theorem reorder_channels_order (so : Sorts K N) {c c' : Cal K V} (g : Good c) (hw : c.wide = false)
    (hn : ¬ (c.spws.length = 1 ∧ c.freqs.length = 1)) (o co : Order) (sel : Option (List Int)) (h : reorderFreqs so c o co sel = .ok c') :
    (∀ l, co = .idx l → c'.freqs.map some = l.map (fun i => c.freqs[i.toNat]?)) ∧
    ((∀ l, co ≠ .idx l) → o ≠ .none → sel = none → ∃ ord, Requested c.freqs c.spws c.ids o ord ∧
      c'.ids = ord.flatMap (fun w => List.replicate (c.ids.count w) w)) ∧
    ((o = .none ∨ sel ≠ none) → (∀ l, co ≠ .idx l) → c'.ids = c.ids) ∧
    (∀ w ∈ c.spws, (∀ ws, sel = some ws → w ∈ ws) → (co = .str "freq".toList → SortedBy false id (windowFreqs c'.freqs c'.ids w)) ∧
      (co = .str "-freq".toList → SortedBy true id (windowFreqs c'.freqs c'.ids w))) := by
  obtain ⟨v, -⟩ := g.chans hw
  unfold reorderFreqs at h
  rw [if_neg (by simpa [hw] using hn), if_neg (by simp [hw])] at h
  obtain ⟨r, hr, ef, ei⟩ : ∃ r, sortFreq so.int so.num c.freqs c.spws c.ids o co sel = .ok r ∧
      c'.freqs = fancy c.freqs (arrangement c.freqs.length r) ∧ c'.ids = fancy c.ids (arrangement c.freqs.length r) := by
    split at h
    · simp at h
    · rename_i hs
      simp only [Except.ok.injEq] at h
      subst h
      exact ⟨none, hs, (fancy_range _).symm, by rw [arrangement, Option.getD_none, ← v.len, fancy_range]⟩
    · rename_i idx hs
      simp only [Except.ok.injEq] at h
      subst h
      exact ⟨some idx, hs, rfl, rfl⟩
  have someIds : ∀ {l : List (Option Int)}, (∀ i ∈ arrangement c.freqs.length r, i < c.freqs.length) →
      (arrangement c.freqs.length r).map (fun i => c.ids[i]?) = l → c'.ids.map some = l := by
    intro l hb hl
    rw [ei, fancy_map _ _ (by rw [v.len]; exact hb), hl]
  refine ⟨?_, ?_, ?_, ?_⟩
  · rintro l rfl
    obtain ⟨e, hp⟩ := sort_freq_index so.int so.num c.freqs c.spws c.ids o l sel r hr
    rw [ef]
    exact fancy_of_index e hp
  · rintro hco ho rfl
    obtain ⟨hp, ⟨ord, h1, h2⟩, -⟩ := sort_freq_windows so.int so.num c.freqs c.spws c.ids o co r v ho hco hr
    refine ⟨ord, h1, ?_⟩
    have := someIds (perm_lt hp) h2
    apply List.map_injective_iff.2 (Option.some_injective _)
    rw [this, List.map_flatMap]
    simp
  · intro ho hco
    by_cases hc : co = .none
    · subst hc
      rw [sort_freq_noop so.int so.num c.freqs c.spws c.ids o sel ho] at hr
      simp only [Except.ok.injEq] at hr
      subst hr
      rw [ei, arrangement, Option.getD_none, ← v.len, fancy_range]
    · obtain ⟨hp, h2, -⟩ := sort_freq_channels so.int so.num c.freqs c.spws c.ids o co sel r v hco hc ho hr
      exact List.map_injective_iff.2 (Option.some_injective _) (someIds (perm_lt hp) h2)
  · intro w hw' hsel
    rw [ef, ei]
    by_cases hco : ∀ l, co ≠ .idx l
    · by_cases hc : co = .none
      · subst hc; exact ⟨by simp, by simp⟩
      · by_cases ho : o = .none ∨ sel ≠ none
        · obtain ⟨hp, -, h3, -⟩ := sort_freq_channels so.int so.num c.freqs c.spws c.ids o co sel r v hco hc ho hr
          exact windowFreqs_sorted v.len w _ (perm_lt hp) (h3 w hw' hsel)
        · push Not at ho
          obtain ⟨ho, rfl⟩ := ho
          obtain ⟨hp, -, h3, -⟩ := sort_freq_windows so.int so.num c.freqs c.spws c.ids o co r v ho hco hr
          exact windowFreqs_sorted v.len w _ (perm_lt hp) (h3 w hw')
    · push Not at hco
      obtain ⟨l, rfl⟩ := hco
      exact ⟨by simp, by simp⟩

end Verif.CalSort
