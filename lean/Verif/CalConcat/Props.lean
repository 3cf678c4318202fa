import Mathlib.Data.List.Nodup
import Verif.Add.Plan
import Verif.CalConcat.Model

/-! # Concatenated calibrations -/

namespace Verif.CalConcat

open Verif.Add (firstAppearance)
open Verif.Pol (Str)

variable {K V W H : Type}

/-! ### Arrays and labels -/

theorem setAt_self {i : Pos} {d : Dim} {n : Nat} : setAt i d n d = n := by simp [setAt]

theorem setAt_twice {i : Pos} {d : Dim} {n m : Nat} : setAt (setAt i d n) d m = setAt i d m := by
  funext e; unfold setAt; split <;> simp_all

theorem setAt_id {i : Pos} {d : Dim} : setAt i d (i d) = i := by
  funext e; unfold setAt; split <;> simp_all

theorem cat_first {d : Dim} : ∀ (l : List (Arr V)) (a : Arr V) (i : Pos), i d < a.n d → (catAll d a l).v i = a.v i
  | [], _, _, _ => rfl
  | b :: l, a, i, h => by
    show (catAll d (a.cat d b) l).v i = _
    rw [cat_first l (a.cat d b) i (by show _ < setAt _ _ _ d; rw [setAt_self]; omega)]
    show (if i d < a.n d then _ else _) = _
    rw [if_pos h]

theorem cat_later {d : Dim} {b : Arr V} {post : List (Arr V)} : ∀ (pre : List (Arr V)) (a : Arr V) (i : Pos), i d < b.n d →
    (catAll d a (pre ++ b :: post)).v (setAt i d (a.n d + (pre.map fun x => x.n d).sum + i d)) = b.v i
  | [], a, i, h => by
    show (catAll d (a.cat d b) post).v _ = _
    rw [cat_first post (a.cat d b) _ (by show _ < setAt _ _ _ d; simp only [setAt_self, List.map_nil, List.sum_nil]; omega)]
    show (if _ then _ else _) = _
    simp only [setAt_self, List.map_nil, List.sum_nil]
    rw [if_neg (by omega), setAt_twice, show a.n d + 0 + i d - a.n d = i d by omega, setAt_id]
  | c :: pre, a, i, h => by
    show (catAll d (a.cat d c) (pre ++ b :: post)).v _ = _
    have := cat_later (post := post) pre (a.cat d c) i h
    have e : (a.cat d c).n d = a.n d + c.n d := setAt_self
    rw [e] at this
    rw [← this, List.map_cons, List.sum_cons]
    congr 2
    omega

/-- The value of an array at its place in the concatenation. -/
theorem cat_at {d : Dim} {a b : Arr V} {l pre post : List (Arr V)} (e : a :: l = pre ++ b :: post) {i : Pos} (h : i d < b.n d) :
    (catAll d a l).v (setAt i d ((pre.map fun x => x.n d).sum + i d)) = b.v i := by
  cases pre with
  | nil =>
    cases e
    simp only [List.map_nil, List.sum_nil, Nat.zero_add, setAt_id]
    exact cat_first _ _ _ h
  | cons c pre =>
    cases e
    have := cat_later (post := post) pre a i h
    rw [← this, List.map_cons, List.sum_cons]
    rfl

theorem flatten_at {α : Type} {l : List α} {post : List (List α)} : ∀ (pre : List (List α)) (p : Nat), p < l.length →
    (pre ++ l :: post).flatten[(pre.map List.length).sum + p]? = l[p]?
  | [], p, h => by
    simp only [List.nil_append, List.flatten_cons, List.map_nil, List.sum_nil, Nat.zero_add]
    rw [List.getElem?_append_left h]
  | c :: pre, p, h => by
    simp only [List.cons_append, List.flatten_cons, List.map_cons, List.sum_cons]
    rw [List.getElem?_append_right (by omega), ← flatten_at pre p h]
    congr 1
    omega

theorem cat1_at {α β : Type} {f : β → List α} {a b : β} {l pre post : List β} (e : a :: l = pre ++ b :: post) {p : Nat} (h : p < (f b).length) :
    (cat1 (f a) (l.map f))[(pre.map fun x => (f x).length).sum + p]? = (f b)[p]? := by
  have e2 : cat1 (f a) (l.map f) = (pre.map f ++ f b :: post.map f).flatten := by
    have := congrArg (fun x => (x.map f).flatten) e
    simpa [cat1] using this
  rw [e2]
  have := flatten_at (post := post.map f) (pre.map f) p h
  rw [List.map_map] at this
  exact this

/-! ### Objects -/

/-- Labels have the lengths of arrays, and all arrays have the shape of the flags. -/
structure Fits (o : Obj K V W H) : Prop where
  soln : o.soln.n = o.flag.n
  quality : ∀ q, o.quality = some q → q.n = o.flag.n
  total : ∀ q, o.total = some q → q.n = setAt o.flag.n .ant 1
  ants : o.ants.length = o.flag.n .ant
  jones : o.jones.length = o.flag.n .jones
  freq : ∀ l, o.freq = some l → l.length = o.flag.n .freq
  width : ∀ l, o.width = some l → l.length = o.flag.n .freq
  spwId : ∀ l, o.spwId = some l → l.length = o.flag.n .freq
  spws : o.wide = true → o.spws.length = o.flag.n .freq
  freqRange : ∀ l, o.freqRange = some l → l.length = o.flag.n .freq
  flexJones : ∀ l, o.flexJones = some l → l.length = o.spws.length
  time : ∀ l, o.time = some l → l.length = o.flag.n .time
  timeRange : ∀ l, o.timeRange = some l → l.length = o.flag.n .time
  integ : o.integ.length = o.flag.n .time
  lst : ∀ l, o.lst = some l → l.length = o.flag.n .time
  lstRange : ∀ l, o.lstRange = some l → l.length = o.flag.n .time
  pcId : ∀ l, o.pcId = some l → l.length = o.flag.n .time
  refAnt : ∀ l, o.refAnt = some l → l.length = o.flag.n .time

/-- Both objects have the same parameters. -/
def SameParams (a b : Obj K V W H) : Prop :=
  a.freq.isSome = b.freq.isSome ∧ a.width.isSome = b.width.isSome ∧ a.spwId.isSome = b.spwId.isSome ∧ a.freqRange.isSome = b.freqRange.isSome ∧
  a.flexJones.isSome = b.flexJones.isSome ∧ a.time.isSome = b.time.isSome ∧ a.timeRange.isSome = b.timeRange.isSome ∧ a.lst.isSome = b.lst.isSome ∧
  a.lstRange.isSome = b.lstRange.isSome ∧ a.pcId.isSome = b.pcId.isSome ∧ a.refAnt.isSome = b.refAnt.isSome

/-- What belongs to a position along an axis. -/
structure Label (K : Type) where
  ant : Option Int := none
  freq : Option K := none
  width : Option K := none
  spw : Option Int := none
  range : Option (K × K) := none
  flexJones : Option Int := none
  time : Option K := none
  timeRange : Option (K × K) := none
  integ : Option K := none
  lst : Option K := none
  lstRange : Option (K × K) := none
  pcId : Option Int := none
  refAnt : Option Int := none
  jones : Option Int := none

def label (o : Obj K V W H) (ax : Axis) (p : Nat) : Label K :=
  match ax with
  | .antenna => { ant := o.ants[p]? }
  | .freq => { freq := o.freq.bind (·[p]?), width := o.width.bind (·[p]?), spw := o.spwId.bind (·[p]?) }
  | .spw => { spw := o.spws[p]?, range := o.freqRange.bind (·[p]?), flexJones := o.flexJones.bind (·[p]?) }
  | .time => { time := o.time.bind (·[p]?), timeRange := o.timeRange.bind (·[p]?), integ := o.integ[p]?, lst := o.lst.bind (·[p]?),
               lstRange := o.lstRange.bind (·[p]?), pcId := o.pcId.bind (·[p]?), refAnt := o.refAnt.bind (·[p]?) }
  | .jones => { jones := o.jones[p]? }

theorem catO_at {α : Type} {f : Obj K V W H → Option (List α)} {d : Dim} {a b : Obj K V W H} {l pre post : List (Obj K V W H)}
    (e : a :: l = pre ++ b :: post) (hs : ∀ o ∈ a :: l, (f a).isSome = (f o).isSome) (hf : ∀ o ∈ a :: l, ∀ x, f o = some x → x.length = o.flag.n d)
    {p : Nat} (h : p < b.flag.n d) :
    (catO (f a) (l.map f)).bind (·[(pre.map fun x => x.flag.n d).sum + p]?) = (f b).bind (·[p]?) := by
  have hb : b ∈ a :: l := by rw [e]; simp
  unfold catO
  cases ha : f a with
  | none =>
    have := hs b hb
    rw [ha] at this
    cases hfb : f b with
    | none => rfl
    | some y => rw [hfb] at this; cases this
  | some x =>
    obtain ⟨y, hy⟩ := Option.isSome_iff_exists.1 ((hs b hb).symm.trans (by rw [ha]; rfl))
    rw [hy, Option.map_some, Option.bind_some, Option.bind_some]
    have h1 := cat1_at (f := fun o => (f o).getD []) e (p := p) (by simp only [hy, Option.getD_some]; rw [hf b hb y hy]; exact h)
    simp only [hy, ha, Option.getD_some] at h1
    rw [List.map_map]
    rw [show ((fun x => Option.getD x []) ∘ f) = fun o => (f o).getD [] from rfl]
    have e2 : (pre.map fun x => ((f x).getD []).length) = pre.map fun x => x.flag.n d := by
      apply List.map_congr_left
      intro o ho
      have hm : o ∈ a :: l := by rw [e]; simp [ho]
      obtain ⟨z, hz⟩ := Option.isSome_iff_exists.1 ((hs o hm).symm.trans (by rw [ha]; rfl))
      rw [hz, Option.getD_some, hf o hm z hz]
    rw [e2] at h1
    exact h1

theorem len_at {α : Type} {f : Obj K V W H → List α} {d : Dim} {a b : Obj K V W H} {l pre post : List (Obj K V W H)}
    (e : a :: l = pre ++ b :: post) (hf : ∀ o ∈ a :: l, (f o).length = o.flag.n d) {p : Nat} (h : p < b.flag.n d) :
    (cat1 (f a) (l.map f))[(pre.map fun x => x.flag.n d).sum + p]? = (f b)[p]? := by
  have hb : b ∈ a :: l := by rw [e]; simp
  have h1 := cat1_at (f := f) e (p := p) (by rw [hf b hb]; exact h)
  rw [← h1]
  have e2 : (pre.map fun x => x.flag.n d) = pre.map fun x => (f x).length := by
    apply List.map_congr_left
    intro o ho
    rw [hf o (by rw [e]; simp [ho])]
  rw [e2]

section
variable [DecidableEq H] [Zero W]

/-- What a success means. -/
theorem concat_ok {c : Close K} {more : Str → List Str → Str} {ax : Axis} {this : Obj K V W H} {others : List (Obj K V W H)} {r : Obj K V W H}
    (h : fastConcat c more ax this others = (r, none)) :
    refusal ax this others = none ∧ (∀ o ∈ others, compatible c ax this o = true) ∧
    (∃ new, labels ax { this with history := newHistory more ax this.history (others.map Obj.history) } others = some new ∧
      r = { new with
              flag := catAll ax.dim this.flag (others.map Obj.flag)
              soln := catAll ax.dim this.soln (others.map Obj.soln)
              quality := qualities ax.dim this others
              total := totals ax this others }) ∧ ∀ o ∈ others, sameOther ax.dim this.flag.n o.flag.n = true := by
  unfold fastConcat at h
  split at h
  · cases h
  · next hr =>
    dsimp only at h
    split at h
    · next hc =>
      split at h
      · cases h
      · next new hn =>
        split at h
        · next hs =>
          cases h
          exact ⟨hr, List.all_eq_true.1 hc, ⟨new, hn, rfl⟩, List.all_eq_true.1 hs⟩
        · cases h
    · cases h

/-- **C204.** Solutions, flags and qualities of each object are found in the result where its part begins. Objects without qualities get zeros if another
one has them. Whole-array qualities are dropped if antennas are added. -/
theorem concat_values {c : Close K} {more : Str → List Str → Str} {ax : Axis} {this : Obj K V W H} {others : List (Obj K V W H)} {r : Obj K V W H}
    (h : fastConcat c more ax this others = (r, none)) (hf : ∀ o ∈ this :: others, Fits o) {pre post : List (Obj K V W H)} {o : Obj K V W H}
    (e : this :: others = pre ++ o :: post) {i : Pos} (hi : i ax.dim < o.flag.n ax.dim) :
    let j := setAt i ax.dim ((pre.map fun x => x.flag.n ax.dim).sum + i ax.dim)
    r.soln.v j = o.soln.v i ∧ r.flag.v j = o.flag.v i ∧
      ((∃ x ∈ this :: others, x.quality.isSome) → ∃ q, r.quality = some q ∧ q.v j = ((o.quality.map fun q => q.v i).getD 0)) ∧
      ((∀ x ∈ this :: others, x.quality = none) → r.quality = none) ∧
      (ax ≠ .antenna → (∃ x ∈ this :: others, x.total.isSome) → ∃ q, r.total = some q ∧ q.v j = ((o.total.map fun q => q.v i).getD 0)) ∧
      (ax = .antenna ∨ (∀ x ∈ this :: others, x.total = none) → r.total = none) := by
  obtain ⟨_, _, ⟨new, _, rfl⟩, _⟩ := concat_ok h
  have hsum : ∀ {β : Type} (g : Obj K V W H → Arr β), (∀ x ∈ this :: others, (g x).n ax.dim = x.flag.n ax.dim) →
      (catAll ax.dim (g this) (others.map g)).v (setAt i ax.dim ((pre.map fun x => x.flag.n ax.dim).sum + i ax.dim)) = (g o).v i := by
    intro β g hg
    have e2 : g this :: others.map g = pre.map g ++ g o :: post.map g := by
      have := congrArg (List.map g) e
      simpa using this
    have := cat_at e2 (i := i) (by rw [hg o (by rw [e]; simp)]; exact hi)
    rw [← this, List.map_map]
    congr 3
    congr 1
    apply List.map_congr_left
    intro x hx
    exact (hg x (by rw [e]; simp [hx])).symm
  refine ⟨hsum Obj.soln fun x hx => by rw [(hf x hx).soln], hsum Obj.flag fun x _ => rfl, ?_, ?_, ?_, ?_⟩
  · rintro ⟨x, hx, hq⟩
    have hcond : (this.quality.isSome || others.any (·.quality.isSome)) = true := by
      rcases List.mem_cons.1 hx with rfl | hx
      · simp [hq]
      · rw [Bool.or_eq_true, List.any_eq_true]; exact Or.inr ⟨x, hx, hq⟩
    refine ⟨_, by show qualities _ _ _ = _; unfold qualities; rw [if_pos hcond], ?_⟩
    rw [hsum (fun x => orZero x.quality x.flag.n) ?_]
    · unfold orZero
      cases o.quality <;> rfl
    · intro x hx
      unfold orZero
      cases hq : x.quality with
      | none => rfl
      | some q => simp only [Option.getD_some]; rw [(hf x hx).quality q hq]
  · intro hq
    show qualities _ _ _ = _
    unfold qualities
    rw [if_neg]
    · exact hq this (by simp)
    · rw [Bool.or_eq_true, List.any_eq_true]
      rintro (h1 | ⟨x, hx, h1⟩)
      · rw [hq this (by simp)] at h1; cases h1
      · rw [hq x (by simp [hx])] at h1; cases h1
  · rintro hne ⟨x, hx, hq⟩
    have hcond : (this.total.isSome || others.any (·.total.isSome)) = true := by
      rcases List.mem_cons.1 hx with rfl | hx
      · simp [hq]
      · rw [Bool.or_eq_true, List.any_eq_true]; exact Or.inr ⟨x, hx, hq⟩
    refine ⟨_, by show totals _ _ _ = _; unfold totals; rw [if_pos hcond, if_neg hne], ?_⟩
    have hd : ax.dim ≠ .ant := by cases ax <;> first | exact absurd rfl hne | decide
    rw [hsum (fun x => orZero x.total (setAt x.flag.n .ant 1)) ?_]
    · unfold orZero
      cases o.total <;> rfl
    · intro x hx
      have e3 : setAt x.flag.n .ant 1 ax.dim = x.flag.n ax.dim := by unfold setAt; rw [if_neg hd]
      unfold orZero
      cases hq : x.total with
      | none => exact e3
      | some q => simp only [Option.getD_some]; rw [(hf x hx).total q hq, e3]
  · intro hq
    show totals _ _ _ = _
    unfold totals
    split
    · next hc =>
      rcases hq with rfl | hq
      · rw [if_pos rfl]
      · rw [Bool.or_eq_true, List.any_eq_true] at hc
        rcases hc with h1 | ⟨x, hx, h1⟩
        · rw [hq this (by simp)] at h1; cases h1
        · rw [hq x (by simp [hx])] at h1; cases h1
    · next hc =>
      cases ht : this.total with
      | none => rfl
      | some q => rw [ht] at hc; simp at hc

/-- **C204.** Labels along the axis are those of each object, where its part begins. -/
theorem concat_labels {c : Close K} {more : Str → List Str → Str} {ax : Axis} {this : Obj K V W H} {others : List (Obj K V W H)} {r : Obj K V W H}
    (h : fastConcat c more ax this others = (r, none)) (hf : ∀ o ∈ this :: others, Fits o) (hs : ∀ o ∈ this :: others, SameParams this o)
    {pre post : List (Obj K V W H)} {o : Obj K V W H} (e : this :: others = pre ++ o :: post) {p : Nat} (hp : p < o.flag.n ax.dim) :
    label r ax ((pre.map fun x => x.flag.n ax.dim).sum + p) = label o ax p := by
  obtain ⟨hr, _, ⟨new, hn, rfl⟩, _⟩ := concat_ok h
  cases ax with
  | antenna =>
    cases hn
    have a1 := len_at e (f := Obj.ants) (fun x hx => (hf x hx).ants) hp
    exact congrArg (fun z => ({ ant := z } : Label K)) a1
  | jones =>
    cases hn
    have a1 := len_at e (f := Obj.jones) (fun x hx => (hf x hx).jones) hp
    exact congrArg (fun z => ({ jones := z } : Label K)) a1
  | spw =>
    cases hn
    have hw : ∀ x ∈ this :: others, x.wide = true := by
      unfold refusal at hr
      split at hr
      · cases hr
      · split at hr
        · cases hr
        · split at hr
          · cases hr
          · next h3 =>
            split at hr
            · cases hr
            · next h4 =>
              have ht : this.wide = true := by
                by_contra hc
                exact h4 (Or.inl ⟨rfl, by simpa using hc⟩)
              intro x hx
              rcases List.mem_cons.1 hx with rfl | hx
              · exact ht
              · by_contra hc
                apply h3
                rw [List.any_eq_true]
                exact ⟨x, hx, by rw [ht]; simpa using hc⟩
    simp only [label]
    have a1 := len_at e (f := Obj.spws) (fun x hx => (hf x hx).spws (hw x hx)) hp
    have a2 := catO_at e (f := Obj.freqRange) (fun x hx => (hs x hx).2.2.2.1) (fun x hx => (hf x hx).freqRange) hp
    have a3 := catO_at e (f := Obj.flexJones) (d := .freq) (fun x hx => (hs x hx).2.2.2.2.1)
      (fun x hx l hl => by rw [(hf x hx).flexJones l hl]; exact (hf x hx).spws (hw x hx)) hp
    rw [show Axis.dim .spw = .freq from rfl, a1, a2, a3]
  | time =>
    cases hn
    simp only [label]
    have a1 := catO_at e (f := Obj.time) (fun x hx => (hs x hx).2.2.2.2.2.1) (fun x hx => (hf x hx).time) hp
    have a2 := catO_at e (f := Obj.timeRange) (fun x hx => (hs x hx).2.2.2.2.2.2.1) (fun x hx => (hf x hx).timeRange) hp
    have a3 := len_at e (f := Obj.integ) (fun x hx => (hf x hx).integ) hp
    have a4 := catO_at e (f := Obj.lst) (fun x hx => (hs x hx).2.2.2.2.2.2.2.1) (fun x hx => (hf x hx).lst) hp
    have a5 := catO_at e (f := Obj.lstRange) (fun x hx => (hs x hx).2.2.2.2.2.2.2.2.1) (fun x hx => (hf x hx).lstRange) hp
    have a6 := catO_at e (f := Obj.pcId) (fun x hx => (hs x hx).2.2.2.2.2.2.2.2.2.1) (fun x hx => (hf x hx).pcId) hp
    have a7 := catO_at e (f := Obj.refAnt) (fun x hx => (hs x hx).2.2.2.2.2.2.2.2.2.2) (fun x hx => (hf x hx).refAnt) hp
    rw [show Axis.dim .time = .time from rfl, a1, a2, a3, a4, a5, a6, a7]
  | freq =>
    have a1 := catO_at e (f := Obj.freq) (fun x hx => (hs x hx).1) (fun x hx => (hf x hx).freq) hp
    have a2 := catO_at e (f := Obj.width) (fun x hx => (hs x hx).2.1) (fun x hx => (hf x hx).width) hp
    have a3 := catO_at e (f := Obj.spwId) (fun x hx => (hs x hx).2.2.1) (fun x hx => (hf x hx).spwId) hp
    have hnew : new.freq = catO this.freq (others.map Obj.freq) ∧ new.width = catO this.width (others.map Obj.width) ∧
        new.spwId = catO this.spwId (others.map Obj.spwId) := by
      simp only [labels] at hn
      split at hn
      · cases hn; exact ⟨rfl, rfl, rfl⟩
      · obtain ⟨f, _, rfl⟩ := Option.map_eq_some_iff.1 hn
        exact ⟨rfl, rfl, rfl⟩
    simp only [label]
    rw [hnew.1, hnew.2.1, hnew.2.2, show Axis.dim .freq = .freq from rfl, a1, a2, a3]

/-- **C204.** Labels along other axes are those of the first object, and match those of all others: antennas and Jones terms are equal, times and frequencies
within tolerances. -/
theorem concat_rest {c : Close K} {more : Str → List Str → Str} {ax : Axis} {this : Obj K V W H} {others : List (Obj K V W H)} {r : Obj K V W H}
    (h : fastConcat c more ax this others = (r, none)) :
    r.head = this.head ∧ (∀ o ∈ others, o.head = this.head ∧ o.wide = this.wide) ∧
    (ax ≠ .antenna → r.ants = this.ants ∧ ∀ o ∈ others, o.ants = this.ants) ∧
    (ax ≠ .jones → r.jones = this.jones ∧ ∀ o ∈ others, o.jones = this.jones) ∧
    (ax ≠ .time → r.time = this.time ∧ r.timeRange = this.timeRange ∧ r.integ = this.integ ∧ r.pcId = this.pcId ∧
      ∀ o ∈ others, nearO c.time this.time o.time = true ∧ nearO (both c.time) this.timeRange o.timeRange = true ∧ near c.integ this.integ o.integ = true ∧
        (this.pcId.isSome → o.pcId = this.pcId)) ∧
    (ax.dim ≠ .freq → r.freq = this.freq ∧ r.width = this.width ∧ ∀ o ∈ others, nearO c.freq this.freq o.freq = true ∧ nearO c.width this.width o.width = true) := by
  obtain ⟨hr, hc, ⟨new, hn, rfl⟩, _⟩ := concat_ok h
  have hw : ∀ o ∈ others, o.wide = this.wide := by
    unfold refusal at hr
    split at hr
    · cases hr
    · split at hr
      · cases hr
      · split at hr
        · cases hr
        · next h3 =>
          intro x hx
          by_contra hc
          apply h3
          rw [List.any_eq_true]
          exact ⟨x, hx, by simpa using fun h => hc h.symm⟩
  have hnew : new.head = this.head ∧ (ax ≠ .antenna → new.ants = this.ants) ∧ (ax ≠ .jones → new.jones = this.jones) ∧
      (ax ≠ .time → new.time = this.time ∧ new.timeRange = this.timeRange ∧ new.integ = this.integ ∧ new.pcId = this.pcId) ∧
      (ax.dim ≠ .freq → new.freq = this.freq ∧ new.width = this.width) := by
    cases ax with
    | freq =>
      simp only [labels] at hn
      split at hn
      · cases hn; simp [Axis.dim]
      · obtain ⟨f, _, rfl⟩ := Option.map_eq_some_iff.1 hn
        simp [Axis.dim]
    | _ => cases hn; simp [Axis.dim]
  refine ⟨hnew.1, fun o ho => ⟨?_, hw o ho⟩, fun hne => ⟨hnew.2.1 hne, fun o ho => ?_⟩, fun hne => ⟨hnew.2.2.1 hne, fun o ho => ?_⟩,
    fun hne => ⟨(hnew.2.2.2.1 hne).1, (hnew.2.2.2.1 hne).2.1, (hnew.2.2.2.1 hne).2.2.1, (hnew.2.2.2.1 hne).2.2.2, fun o ho => ?_⟩,
    fun hne => ⟨(hnew.2.2.2.2 hne).1, (hnew.2.2.2.2 hne).2, fun o ho => ?_⟩⟩
  all_goals
    have hx := hc o ho
    unfold compatible at hx
    simp only [Bool.and_eq_true, decide_eq_true_eq, Bool.or_eq_true] at hx
  · exact hx.1.1.symm
  · cases ax <;> first | exact absurd rfl hne | skip
    all_goals
      simp only [Bool.and_eq_true, decide_eq_true_eq] at hx
      simp_all
  · cases ax <;> first | exact absurd rfl hne | skip
    all_goals
      simp only [Bool.and_eq_true, decide_eq_true_eq] at hx
      simp_all
  · have hpc : this.pcId.isSome → o.pcId = this.pcId := by
      intro hs
      rcases hx.1.2 with (h1 | h1) | h1
      · exact absurd h1 hne
      · cases hq : this.pcId <;> simp_all
      · exact h1.symm
    cases ax <;> first | exact absurd rfl hne | skip
    all_goals
      simp only [Bool.and_eq_true, decide_eq_true_eq, sameTimes] at hx
      exact ⟨by tauto, by tauto, by tauto, hpc⟩
  · cases ax <;> first | exact absurd rfl hne | skip
    all_goals
      simp only [Bool.and_eq_true, decide_eq_true_eq, sameFreqs] at hx
      exact ⟨by tauto, by tauto⟩

/-- **C205.** What is refused before parameters are compared changes nothing. -/
theorem refused_unchanged {c : Close K} {more : Str → List Str → Str} {ax : Axis} {this r : Obj K V W H} {others : List (Obj K V W H)} {e : Err}
    (h : fastConcat c more ax this others = (r, some e)) (he : e ≠ .compat ∧ e ≠ .shape) : r = this := by
  unfold fastConcat at h
  split at h
  · cases h; rfl
  · dsimp only at h
    split at h
    · split at h
      · cases h; exact absurd rfl he.2
      · split at h
        · cases h
        · cases h; exact absurd rfl he.2
    · cases h; exact absurd rfl he.1

/-- **C205.** Objects with parameters that do not match are refused, but the history of the first one then says that data were combined. -/
theorem history_counterexample {c : Close K} {more : Str → List Str → Str} {ax : Axis} {this r : Obj K V W H} {others : List (Obj K V W H)}
    (h : fastConcat c more ax this others = (r, some .compat)) :
    ∃ s, r.history = this.history ++ " Combined data along ".toList ++ ax.text ++ " axis using pyuvdata.".toList ++ s ∧ r ≠ this := by
  have key : r = { this with history := newHistory more ax this.history (others.map Obj.history) } := by
    unfold fastConcat at h
    split at h
    · next e' he =>
      unfold refusal at he
      repeat' split at he
      all_goals (cases he <;> cases h)
    · dsimp only at h
      split at h
      · split at h
        · cases h
        · split at h
          · cases h
          · cases h
      · cases h; rfl
  subst key
  refine ⟨_, by simp only [newHistory, List.append_assoc]; rfl, ?_⟩
  intro hc
  have := congrArg (fun o => o.history.length) hc
  simp only [newHistory, List.length_append] at this
  have h1 : (" Combined data along ".toList).length = 21 := by decide
  omega

/-- **C205.** Windows, ranges of frequencies and flexible Jones terms of other objects are not compared: whatever they are, the result is the same, with those
of the first object. -/
theorem windows_counterexample {c : Close K} {more : Str → List Str → Str} {ax : Axis} {this o r : Obj K V W H} (hax : ax.dim ≠ .freq)
    (h : fastConcat c more ax this [o] = (r, none)) (spws : List Int) (ranges : Option (List (K × K))) (ids : Option (List Int)) (fj : List Int)
    (hfj : o.flexJones.isSome) :
    fastConcat c more ax this [{ o with spws := spws, freqRange := ranges, spwId := ids, flexJones := some fj }] = (r, none) ∧
      r.spws = this.spws ∧ r.freqRange = this.freqRange ∧ r.spwId = this.spwId ∧ r.flexJones = this.flexJones := by
  have hr : r.spws = this.spws ∧ r.freqRange = this.freqRange ∧ r.spwId = this.spwId ∧ r.flexJones = this.flexJones := by
    obtain ⟨_, _, ⟨new, hn, rfl⟩, _⟩ := concat_ok h
    cases ax <;> first | exact absurd rfl hax | (cases hn; exact ⟨rfl, rfl, rfl, rfl⟩)
  refine ⟨?_, hr⟩
  rw [← h]
  have e1 : refusal ax this [{ o with spws := spws, freqRange := ranges, spwId := ids, flexJones := some fj }] = refusal ax this [o] := by
    have : o.flexJones.isNone = false := by cases hq : o.flexJones <;> simp_all
    unfold refusal
    simp only [List.any_cons, List.any_nil, Bool.or_false, this, Option.isNone_some]
  have e2 : compatible c ax this { o with spws := spws, freqRange := ranges, spwId := ids, flexJones := some fj } = compatible c ax this o := by
    cases ax <;> rfl
  unfold fastConcat
  rw [e1]
  simp only [List.all_cons, List.all_nil, Bool.and_true, e2]
  cases ax <;> first | exact absurd rfl hax | rfl

/-! ### Flexible Jones terms -/

/-- The Jones term of a channel. -/
def jonesOf (o : Obj K V W H) (p : Nat) : Option Int := (o.spwId.bind (·[p]?)).bind fun s => o.flexJones.bind (·[o.spws.idxOf s]?)

omit [DecidableEq H] [Zero W] in
theorem range_mapM {α : Type} (l : List α) : ∀ (n : Nat) (f : List α), (List.range n).mapM (fun i => l[i]?) = some f ↔ f = l.take n ∧ n ≤ l.length
  | 0, f => by simp [eq_comm]
  | n + 1, f => by
    rw [List.range_succ, List.mapM_append]
    cases h : (List.range n).mapM fun i => l[i]? with
    | none =>
      constructor
      · intro h'; cases h'
      · rintro ⟨_, h2⟩
        have := (range_mapM l n (l.take n)).2 ⟨rfl, by omega⟩
        rw [h] at this; cases this
    | some g =>
      obtain ⟨rfl, h2⟩ := (range_mapM l n g).1 h
      cases hx : l[n]? with
      | none =>
        have hle := List.getElem?_eq_none_iff.1 hx
        constructor
        · intro h'; simp [hx] at h'
        · rintro ⟨_, h3⟩; omega
      | some x =>
        have hlt := (List.getElem?_eq_some_iff.1 hx).1
        simp only [List.mapM_cons, hx, List.mapM_nil, Option.pure_def, Option.bind_eq_bind, Option.bind_some, Option.some.injEq, List.take_add_one,
          Option.toList_some]
        constructor
        · rintro rfl; exact ⟨rfl, by omega⟩
        · rintro ⟨rfl, _⟩; rfl

omit [DecidableEq H] [Zero W] in
/-- Positions in the new list of windows are those of the windows themselves. -/
theorem flexOf_take {spws : List Int} {this : Obj K V W H} {others : List (Obj K V W H)} {f : List Int} (hn : spws.Nodup) :
    flexOf spws this others = some f ↔ f = (cat1 (this.flexJones.getD []) (others.map fun o => o.flexJones.getD [])).take spws.length ∧
      spws.length ≤ (cat1 (this.flexJones.getD []) (others.map fun o => o.flexJones.getD [])).length := by
  unfold flexOf
  have e : spws.map (fun s => (cat1 spws (others.map Obj.spws)).idxOf s) = List.range spws.length := by
    apply List.ext_getElem (by simp)
    intro k h1 h2
    simp only [List.getElem_map, List.getElem_range, cat1]
    simp only [List.length_map] at h1
    rw [List.idxOf_append_of_mem (List.getElem_mem _)]
    exact hn.idxOf_getElem k h1
  rw [e, range_mapM]

/-- Labels of concatenated channels with flexible Jones terms. -/
theorem flex_ok {c : Close K} {more : Str → List Str → Str} {this r : Obj K V W H} {others : List (Obj K V W H)}
    (h : fastConcat c more .freq this others = (r, none)) {fs : List Int} (hf : this.flexJones = some fs) :
    r.spwId = catO this.spwId (others.map Obj.spwId) ∧ r.spws = firstAppearance (r.spwId.getD []) ∧
      r.flexJones = some ((cat1 fs (others.map fun o => o.flexJones.getD [])).take r.spws.length) := by
  obtain ⟨_, _, ⟨new, hn, rfl⟩, _⟩ := concat_ok h
  simp only [labels, hf] at hn
  obtain ⟨f, hf', rfl⟩ := Option.map_eq_some_iff.1 hn
  rw [flexOf_take (Verif.Add.firstAppearance_nodup _)] at hf'
  refine ⟨rfl, rfl, ?_⟩
  simp only [hf, Option.getD_some] at hf'
  simp only [hf'.1]

/-- **C206.** If the windows of all objects, one after the other, are those of the channels in the order in which they appear, each channel keeps the Jones term
of its window. -/
theorem flex_partial {c : Close K} {more : Str → List Str → Str} {this r : Obj K V W H} {others : List (Obj K V W H)}
    (h : fastConcat c more .freq this others = (r, none)) (hf : ∀ o ∈ this :: others, Fits o) (hs : ∀ o ∈ this :: others, SameParams this o)
    (hj : this.flexJones.isSome) (hw : ∀ o ∈ this :: others, ∀ l, o.spwId = some l → ∀ s ∈ l, s ∈ o.spws)
    (horder : firstAppearance ((catO this.spwId (others.map Obj.spwId)).getD []) = cat1 this.spws (others.map Obj.spws))
    {pre post : List (Obj K V W H)} {o : Obj K V W H} (e : this :: others = pre ++ o :: post) {p : Nat} (hp : p < o.flag.n .freq) :
    jonesOf r ((pre.map fun x => x.flag.n .freq).sum + p) = jonesOf o p := by
  obtain ⟨fs, hfs⟩ := Option.isSome_iff_exists.1 hj
  obtain ⟨h1, h2, h3⟩ := flex_ok h hfs
  rw [h1, horder] at h2
  have hnd : (cat1 this.spws (others.map Obj.spws)).Nodup := horder ▸ Verif.Add.firstAppearance_nodup _
  have ho : o ∈ this :: others := by rw [e]; simp
  have hflex : ∀ x ∈ this :: others, (x.flexJones.getD []).length = x.spws.length := by
    intro x hx
    have := (hs x hx).2.2.2.2.1
    rw [hfs] at this
    obtain ⟨l, hl⟩ := Option.isSome_iff_exists.1 this.symm
    rw [hl, Option.getD_some, (hf x hx).flexJones l hl]
  have hlen : (cat1 fs (others.map fun o => o.flexJones.getD [])).length = (cat1 this.spws (others.map Obj.spws)).length := by
    have h0 := hflex this (by simp)
    rw [hfs, Option.getD_some] at h0
    simp only [cat1, List.length_append, List.length_flatten, List.map_map, h0]
    congr 2
    apply List.map_congr_left
    intro x hx
    exact hflex x (by simp [hx])
  rw [h2, ← hlen, List.take_length] at h3
  have hid := catO_at e (f := Obj.spwId) (fun x hx => (hs x hx).2.2.1) (fun x hx => (hf x hx).spwId) hp
  unfold jonesOf
  rw [h1, hid]
  cases hq : o.spwId with
  | none => rfl
  | some l =>
    simp only [Option.bind_some]
    cases hl : l[p]? with
    | none => rfl
    | some s =>
      have hsm : s ∈ o.spws := hw o ho l hq s (List.mem_of_getElem? hl)
      have hidx : o.spws.idxOf s < o.spws.length := List.idxOf_lt_length_iff.2 hsm
      have hpos := cat1_at (f := Obj.spws) e hidx
      rw [List.getElem?_eq_getElem hidx, List.getElem_idxOf hidx] at hpos
      obtain ⟨hlt, hval⟩ := List.getElem?_eq_some_iff.1 hpos
      have hidx2 : r.spws.idxOf s = (pre.map fun x => x.spws.length).sum + o.spws.idxOf s := by
        rw [h2]
        have := hnd.idxOf_getElem _ hlt
        rw [hval] at this
        exact this
      simp only [Option.bind_some]
      rw [hidx2, h3, Option.bind_some]
      have hfl := cat1_at (f := fun x : Obj K V W H => x.flexJones.getD []) e (p := o.spws.idxOf s) (by rw [hflex o ho]; exact hidx)
      simp only [hfs, Option.getD_some] at hfl
      have e2 : (pre.map fun x => (x.flexJones.getD []).length) = pre.map fun x => x.spws.length := by
        apply List.map_congr_left
        intro x hx
        exact hflex x (by rw [e]; simp [hx])
      rw [e2] at hfl
      rw [hfl]
      obtain ⟨f', hf'⟩ : ∃ l, o.flexJones = some l := by
        have := (hs o ho).2.2.2.2.1
        rw [hfs] at this
        exact Option.isSome_iff_exists.1 this.symm
      rw [hf']; rfl

/-- **C206.** A window that is in both objects shifts the Jones terms of those after it: if the second object has windows `s` and `s'`, the first one being known,
then the new window gets the Jones term of the known one. -/
theorem split_counterexample {c : Close K} {more : Str → List Str → Str} {this o r : Obj K V W H} (h : fastConcat c more .freq this [o] = (r, none))
    {fs ids ids' : List Int} {s s' j j' : Int} (hf : this.flexJones = some fs) (hl : fs.length = this.spws.length)
    (hs : s ∈ this.spws) (hs' : s' ∉ this.spws) (ho : o.spws = [s, s']) (hoj : o.flexJones = some [j, j']) (hi : this.spwId = some ids) (hi' : o.spwId = some ids')
    (hfirst : firstAppearance (ids ++ ids') = this.spws ++ [s']) {p : Nat} (hp : ids'[p]? = some s') :
    jonesOf o p = some j' ∧ jonesOf r (ids.length + p) = some j := by
  obtain ⟨h1, h2, h3⟩ := flex_ok h hf
  have e1 : r.spwId = some (ids ++ ids') := by rw [h1]; simp [catO, cat1, hi, hi']
  rw [e1, Option.getD_some, hfirst] at h2
  have e3 : r.flexJones = some (fs ++ [j]) := by
    rw [h3, h2]
    simp only [cat1, List.map_cons, List.map_nil, hoj, Option.getD_some, List.flatten_cons, List.flatten_nil, List.append_nil, List.length_append,
      List.length_cons, List.length_nil]
    rw [List.take_append, List.take_of_length_le (by omega), show this.spws.length + (0 + 1) - fs.length = 1 by omega]
    rfl
  have hne : s ≠ s' := fun e => hs' (e ▸ hs)
  refine ⟨?_, ?_⟩
  · unfold jonesOf
    have hb : (s == s') = false := by simpa using hne
    simp [hi', hp, hoj, ho, List.idxOf_cons, hb]
  · unfold jonesOf
    rw [e1, h2, e3]
    simp only [Option.bind_some]
    rw [List.getElem?_append_right (by omega), show ids.length + p - ids.length = p by omega, hp, Option.bind_some, List.idxOf_append_of_notMem hs',
      List.getElem?_append_right (by omega)]
    simp [hl]

/-- **C206.** Windows that are not listed in the order of their channels exchange their Jones terms. -/
theorem order_counterexample {c : Close K} {more : Str → List Str → Str} {this r : Obj K V W H} {others : List (Obj K V W H)}
    (h : fastConcat c more .freq this others = (r, none)) {ids rest : List Int} {a b ja jb : Int} (hab : a ≠ b) (hw : this.spws = [b, a])
    (hf : this.flexJones = some [jb, ja]) (hi : this.spwId = some ids)
    (hfirst : firstAppearance ((catO this.spwId (others.map Obj.spwId)).getD []) = a :: b :: rest) {p : Nat} (hp : ids[p]? = some a) :
    jonesOf this p = some ja ∧ jonesOf r p = some jb := by
  obtain ⟨h1, h2, h3⟩ := flex_ok h hf
  rw [h1, hfirst] at h2
  have hpl := (List.getElem?_eq_some_iff.1 hp).1
  refine ⟨?_, ?_⟩
  · unfold jonesOf
    have hb : (b == a) = false := by simpa using hab.symm
    simp [hi, hp, hf, hw, List.idxOf_cons, hb]
  · have e1 : r.spwId.bind (·[p]?) = some a := by
      rw [h1, hi]
      simp only [catO, cat1, Option.map_some, Option.bind_some]
      rw [List.getElem?_append_left hpl, hp]
    unfold jonesOf
    rw [e1, h3, h2]
    simp [cat1]

end

end Verif.CalConcat
