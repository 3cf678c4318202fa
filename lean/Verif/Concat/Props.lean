import Verif.Concat.Model

/-!
C33: `fast_concat` is concatenation along the chosen axis.
-/
namespace Verif.Concat
open Verif.Add (firstAppearance)

variable {K V : Type}

/-! ### Specification -/

/-- `whole` is made of the pieces in this order. -/
def Blocks {α : Type} (pieces : List (List α)) (whole : List α) : Prop :=
  whole.length = (pieces.map List.length).sum ∧
  ∀ (k : Nat) (p : List α), pieces[k]? = some p → (whole.drop ((pieces.take k).map List.length).sum).take p.length = p

/-- The same for arrays of two axes, along the second one: for every row. -/
def Blocks2 {α : Type} (pieces : List (List (List α))) (whole : List (List α)) : Prop :=
  ∀ (r : Nat) (row : List α), whole[r]? = some row → ∃ rows : List (List α),
    rows.length = pieces.length ∧ (∀ (k : Nat) (p : List (List α)), pieces[k]? = some p → p[r]? = rows[k]?) ∧ Blocks rows row

/-- The same for arrays of three axes, along the last one. -/
def Blocks3 {α : Type} (pieces : List (List (List (List α)))) (whole : List (List (List α))) : Prop :=
  ∀ (r : Nat) (row : List (List α)), whole[r]? = some row → ∃ rows : List (List (List α)),
    rows.length = pieces.length ∧ (∀ (k : Nat) (p : List (List (List α))), pieces[k]? = some p → p[r]? = rows[k]?) ∧ Blocks2 rows row ∧
    ∀ q ∈ rows, row.length = q.length

/-- The shape of an array. -/
def Shape {α : Type} (n m k : Nat) (a : List (List (List α))) : Prop :=
  a.length = n ∧ ∀ b ∈ a, b.length = m ∧ ∀ c ∈ b, c.length = k

/-- Array shapes and counts, as `check` demands. -/
structure Valid (o : Obj K V) : Prop where
  ant1 : o.ant1.length = o.nBlts
  ant2 : o.ant2.length = o.nBlts
  bl : o.bl.length = o.nBlts
  time : o.time.length = o.nBlts
  lst : o.lst.length = o.nBlts
  integ : o.integ.length = o.nBlts
  uvw : o.uvw.length = o.nBlts
  pc : o.pc.length = o.nBlts
  freq : o.freq.length = o.nFreqs
  width : o.width.length = o.nFreqs
  spwId : o.spwId.length = o.nFreqs
  pol : o.pol.length = o.nPols
  data : Shape o.nBlts o.nFreqs o.nPols o.data
  flag : Shape o.nBlts o.nFreqs o.nPols o.flag
  nsample : Shape o.nBlts o.nFreqs o.nPols o.nsample

/-! ### Lists -/

theorem cat1_eq {α : Type} (a : List α) (others : List (List α)) : cat1 a others = (a :: others).flatten := by
  unfold cat1
  induction others generalizing a with
  | nil => simp
  | cons b others ih => rw [List.foldl_cons, ih]; simp

theorem blocks_flatten {α : Type} (pieces : List (List α)) : Blocks pieces pieces.flatten := by
  refine ⟨List.length_flatten, ?_⟩
  induction pieces with
  | nil => intro k p h; simp at h
  | cons a pieces ih =>
    intro k p h
    cases k with
    | zero =>
      simp only [List.getElem?_cons_zero, Option.some.injEq] at h
      subst h
      simp
    | succ k =>
      rw [List.getElem?_cons_succ] at h
      have := ih k p h
      simp only [List.take_succ_cons, List.map_cons, List.sum_cons, List.flatten_cons]
      rw [List.drop_append, List.drop_eq_nil_of_le (by omega), List.nil_append, Nat.add_sub_cancel_left]
      exact this

theorem blocks_cat1 {α : Type} (a : List α) (others : List (List α)) : Blocks (a :: others) (cat1 a others) := by
  rw [cat1_eq]; exact blocks_flatten _

/-- Zipping many lists with concatenation. -/
theorem foldl_zipWith_get {α : Type} (f : α → α → α) (a : List α) (others : List (List α)) (n : Nat) (ha : a.length = n)
    (ho : ∀ b ∈ others, b.length = n) :
    (others.foldl (List.zipWith f) a).length = n ∧
    ∀ r : Nat, r < n → ∃ (x : α) (ys : List α), a[r]? = some x ∧ ys.length = others.length ∧
      (∀ (k : Nat) (b : List α), others[k]? = some b → b[r]? = ys[k]?) ∧ (others.foldl (List.zipWith f) a)[r]? = some (ys.foldl f x) := by
  induction others generalizing a with
  | nil =>
    refine ⟨ha, fun r hr => ⟨a[r], [], List.getElem?_eq_getElem (by omega), rfl, by simp, ?_⟩⟩
    simp [List.getElem?_eq_getElem (show r < a.length by omega)]
  | cons b others ih =>
    have hb := ho b (by simp)
    have hz : (List.zipWith f a b).length = n := by rw [List.length_zipWith, ha, hb]; simp
    obtain ⟨h1, h2⟩ := ih (List.zipWith f a b) hz (fun c hc => ho c (by simp [hc]))
    refine ⟨h1, fun r hr => ?_⟩
    obtain ⟨x, ys, e1, e2, e3, e4⟩ := h2 r hr
    have har : a[r]? = some (a[r]'(by omega)) := List.getElem?_eq_getElem (by omega)
    have hbr : b[r]? = some (b[r]'(by omega)) := List.getElem?_eq_getElem (by omega)
    have hx : x = f (a[r]'(by omega)) (b[r]'(by omega)) := by
      rw [List.getElem?_zipWith, har, hbr] at e1
      simpa using e1.symm
    refine ⟨a[r]'(by omega), (b[r]'(by omega)) :: ys, har, by simp [e2], ?_, ?_⟩
    · intro k c hk
      cases k with
      | zero =>
        simp only [List.getElem?_cons_zero, Option.some.injEq] at hk
        subst hk
        simpa using hbr
      | succ k =>
        rw [List.getElem?_cons_succ] at hk ⊢
        exact e3 k c hk
    · rw [List.foldl_cons, e4, List.foldl_cons, ← hx]

/-- Concatenation along the second axis. -/
theorem blocks2_zipWith {α : Type} (a : List (List α)) (others : List (List (List α))) (n : Nat) (ha : a.length = n)
    (ho : ∀ b ∈ others, b.length = n) :
    (others.foldl (List.zipWith (· ++ ·)) a).length = n ∧ Blocks2 (a :: others) (others.foldl (List.zipWith (· ++ ·)) a) := by
  obtain ⟨h1, h2⟩ := foldl_zipWith_get (· ++ ·) a others n ha ho
  refine ⟨h1, ?_⟩
  intro r row hrow
  have hr : r < n := by rw [← h1]; exact (List.getElem?_eq_some_iff.1 hrow).1
  obtain ⟨x, ys, e1, e2, e3, e4⟩ := h2 r hr
  rw [hrow] at e4
  injection e4 with e4
  refine ⟨x :: ys, by simp [e2], ?_, ?_⟩
  · intro k p hk
    cases k with
    | zero =>
      simp only [List.getElem?_cons_zero, Option.some.injEq] at hk
      subst hk
      simpa using e1
    | succ k =>
      rw [List.getElem?_cons_succ] at hk ⊢
      exact e3 k p hk
  · rw [e4]
    exact blocks_cat1 x ys

/-- Concatenation along the third axis. -/
theorem blocks3_zipWith {α : Type} (a : List (List (List α))) (others : List (List (List (List α)))) (n m : Nat) (ha : a.length = n)
    (ho : ∀ b ∈ others, b.length = n) (ha' : ∀ x ∈ a, x.length = m) (ho' : ∀ b ∈ others, ∀ x ∈ b, x.length = m) :
    (others.foldl (List.zipWith (List.zipWith (· ++ ·))) a).length = n ∧
    Blocks3 (a :: others) (others.foldl (List.zipWith (List.zipWith (· ++ ·))) a) := by
  obtain ⟨h1, h2⟩ := foldl_zipWith_get (List.zipWith (· ++ ·)) a others n ha ho
  refine ⟨h1, ?_⟩
  intro r row hrow
  have hr : r < n := by rw [← h1]; exact (List.getElem?_eq_some_iff.1 hrow).1
  obtain ⟨x, ys, e1, e2, e3, e4⟩ := h2 r hr
  rw [hrow] at e4
  injection e4 with e4
  have hxm : x.length = m := ha' x (List.mem_of_getElem? e1)
  have hym : ∀ y ∈ ys, y.length = m := by
    intro y hy
    obtain ⟨k, hk⟩ := List.mem_iff_getElem?.1 hy
    have hlt : k < others.length := by rw [← e2]; exact (List.getElem?_eq_some_iff.1 hk).1
    have hb := List.getElem?_eq_getElem hlt
    have := e3 k _ hb
    rw [hk] at this
    exact ho' _ (List.getElem_mem hlt) y (List.mem_of_getElem? this)
  obtain ⟨b1, b2⟩ := blocks2_zipWith x ys m hxm hym
  refine ⟨x :: ys, by simp [e2], ?_, by rw [e4]; exact b2, ?_⟩
  · intro k p hk
    cases k with
    | zero =>
      simp only [List.getElem?_cons_zero, Option.some.injEq] at hk
      subst hk
      simpa using e1
    | succ k =>
      rw [List.getElem?_cons_succ] at hk ⊢
      exact e3 k p hk
  · intro q hq
    rw [e4, b1]
    rcases List.mem_cons.1 hq with rfl | hq
    · exact hxm.symm
    · exact (hym q hq).symm

theorem near_length {α : Type} {c : α → α → Bool} {a b : List α} (h : near c a b = true) : a.length = b.length := by
  unfold near at h
  simp only [Bool.and_eq_true, decide_eq_true_eq] at h
  exact h.1

theorem near_iff {α : Type} (c : α → α → Bool) (a b : List α) : near c a b = true ↔ List.Forall₂ (fun x y => c x y = true) a b := by
  induction a generalizing b with
  | nil => cases b <;> simp [near]
  | cons x a ih =>
    cases b with
    | nil => simp [near]
    | cons y b =>
      rw [List.forall₂_cons, ← ih b]
      simp only [near, List.length_cons, List.zip_cons_cons, List.all_cons, Bool.and_eq_true, decide_eq_true_eq, Nat.add_right_cancel_iff]
      tauto

/-! ### The three axes -/

variable [DecidableEq K] {c : Close K} {this res : Obj K V} {other : List (Obj K V)}

theorem all_compatible {ax : Axis} (h : fastConcat c ax this other = some res) : ∀ o ∈ other, compatible c ax this o = true := by
  unfold fastConcat at h
  split at h
  · rename_i hall
    simpa [List.all_eq_true] using hall
  · simp at h

theorem result {ax : Axis} (h : fastConcat c ax this other = some res) :
    res = combine ax this other := by
  unfold fastConcat at h
  split at h
  · injection h with h; exact h.symm
  · simp at h

theorem sum_lengths {α : Type} (f : Obj K V → List α) (n : Obj K V → Nat) (h1 : (f this).length = n this)
    (h2 : ∀ o ∈ other, (f o).length = n o) : (cat1 (f this) (other.map f)).length = (n this :: other.map n).sum := by
  rw [cat1_eq, List.length_flatten]
  congr 1
  simp only [List.map_cons, List.map_map, h1]
  congr 1
  apply List.map_congr_left
  intro o ho
  exact h2 o ho

/-- Blocks of one array. -/
abbrev BlocksOf {α : Type} (this : Obj K V) (other : List (Obj K V)) (f : Obj K V → List α) (whole : List α) : Prop :=
  Blocks ((this :: other).map f) whole

/-- C33 along baseline-time: every array along this axis, and the data, is the concatenation of those of the inputs; nothing
else is changed; the counts are right. -/
theorem concat_blt (h1 : Valid this) (h2 : ∀ o ∈ other, Valid o) (h : fastConcat c .blt this other = some res) :
    (BlocksOf this other Obj.ant1 res.ant1 ∧ BlocksOf this other Obj.ant2 res.ant2 ∧ BlocksOf this other Obj.bl res.bl ∧
      BlocksOf this other Obj.time res.time ∧ BlocksOf this other Obj.lst res.lst ∧ BlocksOf this other Obj.integ res.integ ∧
      BlocksOf this other Obj.uvw res.uvw ∧ BlocksOf this other Obj.pc res.pc ∧ BlocksOf this other Obj.data res.data ∧
      BlocksOf this other Obj.flag res.flag ∧ BlocksOf this other Obj.nsample res.nsample) ∧
    (res.freq = this.freq ∧ res.width = this.width ∧ res.spwId = this.spwId ∧ res.spws = this.spws ∧ res.pol = this.pol ∧
      res.flexPol = this.flexPol ∧ res.nFreqs = this.nFreqs ∧ res.nPols = this.nPols ∧ res.nSpws = this.nSpws) ∧
    res.nBlts = res.time.length ∧ res.data.length = res.nBlts ∧ res.nTimes = res.time.dedup.length ∧ res.nBls = res.bl.dedup.length ∧
    res.nAnts = (res.ant1 ++ res.ant2).dedup.length := by
  have hr := result h
  simp only [combine] at hr
  subst hr
  refine ⟨⟨blocks_cat1 _ _, blocks_cat1 _ _, blocks_cat1 _ _, blocks_cat1 _ _, blocks_cat1 _ _, blocks_cat1 _ _, blocks_cat1 _ _,
    blocks_cat1 _ _, blocks_cat1 _ _, blocks_cat1 _ _, blocks_cat1 _ _⟩, ⟨rfl, rfl, rfl, rfl, rfl, rfl, rfl, rfl, rfl⟩, ?_, ?_, rfl, rfl, rfl⟩
  · exact (sum_lengths Obj.time Obj.nBlts h1.time (fun o ho => (h2 o ho).time)).symm
  · exact sum_lengths Obj.data Obj.nBlts h1.data.1 (fun o ho => (h2 o ho).data.1)

theorem mem_map_elim {α : Type} {f : Obj K V → α} {P : α → Prop} (h : ∀ o ∈ other, P (f o)) : ∀ b ∈ other.map f, P b := by
  intro b hb
  obtain ⟨o, ho, rfl⟩ := List.mem_map.1 hb
  exact h o ho

theorem sameRows_length (h1 : Valid this) {o : Obj K V} (ho : Valid o) (h : sameRows c this o = true) : o.nBlts = this.nBlts := by
  unfold sameRows at h
  simp only [Bool.and_eq_true, decide_eq_true_eq] at h
  rw [← h1.ant1, ← ho.ant1, h.1.1.1.1.1]

theorem firstAppearance_mem' (ids : List Int) (w : Int) : w ∈ firstAppearance ids ↔ w ∈ ids := by
  unfold firstAppearance; simp

/-- C33 along frequency. -/
theorem concat_freq (h1 : Valid this) (h2 : ∀ o ∈ other, Valid o) (h : fastConcat c .freq this other = some res) :
    (BlocksOf this other Obj.freq res.freq ∧ BlocksOf this other Obj.width res.width ∧ BlocksOf this other Obj.spwId res.spwId ∧
      Blocks2 ((this :: other).map Obj.data) res.data ∧ Blocks2 ((this :: other).map Obj.flag) res.flag ∧
      Blocks2 ((this :: other).map Obj.nsample) res.nsample) ∧
    (res.data.length = this.nBlts ∧ res.flag.length = this.nBlts ∧ res.nsample.length = this.nBlts) ∧
    (res.time = this.time ∧ res.ant1 = this.ant1 ∧ res.ant2 = this.ant2 ∧ res.bl = this.bl ∧ res.lst = this.lst ∧ res.integ = this.integ ∧
      res.uvw = this.uvw ∧ res.pc = this.pc ∧ res.pol = this.pol ∧ res.nBlts = this.nBlts ∧ res.nPols = this.nPols) ∧
    res.nFreqs = res.freq.length ∧ (res.spws.Nodup ∧ (∀ w, w ∈ res.spws ↔ w ∈ res.spwId) ∧ res.nSpws = res.spws.length) := by
  have hc := all_compatible h
  have hr := result h
  simp only [combine] at hr
  subst hr
  have hn : ∀ o ∈ other, o.nBlts = this.nBlts := by
    intro o ho
    have := hc o ho
    simp only [compatible, Bool.and_eq_true] at this
    exact sameRows_length h1 (h2 o ho) this.2
  have d1 := blocks2_zipWith this.data (other.map Obj.data) this.nBlts h1.data.1
    (mem_map_elim (f := Obj.data) (P := fun b => b.length = this.nBlts) (fun o ho => by rw [(h2 o ho).data.1, hn o ho]))
  have d2 := blocks2_zipWith this.flag (other.map Obj.flag) this.nBlts h1.flag.1
    (mem_map_elim (f := Obj.flag) (P := fun b => b.length = this.nBlts) (fun o ho => by rw [(h2 o ho).flag.1, hn o ho]))
  have d3 := blocks2_zipWith this.nsample (other.map Obj.nsample) this.nBlts h1.nsample.1
    (mem_map_elim (f := Obj.nsample) (P := fun b => b.length = this.nBlts) (fun o ho => by rw [(h2 o ho).nsample.1, hn o ho]))
  refine ⟨⟨blocks_cat1 _ _, blocks_cat1 _ _, blocks_cat1 _ _, d1.2, d2.2, d3.2⟩, ⟨d1.1, d2.1, d3.1⟩,
    ⟨rfl, rfl, rfl, rfl, rfl, rfl, rfl, rfl, rfl, rfl, rfl⟩, ?_, ?_, ?_, rfl⟩
  · exact (sum_lengths Obj.freq Obj.nFreqs h1.freq (fun o ho => (h2 o ho).freq)).symm
  · show (firstAppearance _).Nodup
    unfold firstAppearance
    rw [List.nodup_reverse]
    exact List.nodup_dedup _
  · intro w
    exact firstAppearance_mem' _ w

/-- C33 along polarization. -/
theorem concat_pol (h1 : Valid this) (h2 : ∀ o ∈ other, Valid o) (h : fastConcat c .pol this other = some res) :
    (BlocksOf this other Obj.pol res.pol ∧
      Blocks3 ((this :: other).map Obj.data) res.data ∧ Blocks3 ((this :: other).map Obj.flag) res.flag ∧
      Blocks3 ((this :: other).map Obj.nsample) res.nsample) ∧
    (res.data.length = this.nBlts ∧ res.flag.length = this.nBlts ∧ res.nsample.length = this.nBlts) ∧
    (res.time = this.time ∧ res.ant1 = this.ant1 ∧ res.ant2 = this.ant2 ∧ res.bl = this.bl ∧ res.lst = this.lst ∧ res.integ = this.integ ∧
      res.uvw = this.uvw ∧ res.pc = this.pc ∧ res.freq = this.freq ∧ res.width = this.width ∧ res.spwId = this.spwId ∧
      res.spws = this.spws ∧ res.nBlts = this.nBlts ∧ res.nFreqs = this.nFreqs) ∧
    res.nPols = res.pol.length := by
  have hc := all_compatible h
  have hr := result h
  simp only [combine] at hr
  subst hr
  have hcc : ∀ o ∈ other, o.nBlts = this.nBlts ∧ o.nFreqs = this.nFreqs := by
    intro o ho
    have := hc o ho
    simp only [compatible, Bool.and_eq_true] at this
    refine ⟨sameRows_length h1 (h2 o ho) this.2, ?_⟩
    rw [← (h2 o ho).freq, ← h1.freq, near_length this.1.1.1]
  have d1 := blocks3_zipWith this.data (other.map Obj.data) this.nBlts this.nFreqs h1.data.1
    (mem_map_elim (f := Obj.data) (P := fun b => b.length = this.nBlts) (fun o ho => by rw [(h2 o ho).data.1, (hcc o ho).1]))
    (fun x hx => (h1.data.2 x hx).1)
    (mem_map_elim (f := Obj.data) (P := fun b => ∀ x ∈ b, x.length = this.nFreqs) (fun o ho x hx => by rw [((h2 o ho).data.2 x hx).1, (hcc o ho).2]))
  have d2 := blocks3_zipWith this.flag (other.map Obj.flag) this.nBlts this.nFreqs h1.flag.1
    (mem_map_elim (f := Obj.flag) (P := fun b => b.length = this.nBlts) (fun o ho => by rw [(h2 o ho).flag.1, (hcc o ho).1]))
    (fun x hx => (h1.flag.2 x hx).1)
    (mem_map_elim (f := Obj.flag) (P := fun b => ∀ x ∈ b, x.length = this.nFreqs) (fun o ho x hx => by rw [((h2 o ho).flag.2 x hx).1, (hcc o ho).2]))
  have d3 := blocks3_zipWith this.nsample (other.map Obj.nsample) this.nBlts this.nFreqs h1.nsample.1
    (mem_map_elim (f := Obj.nsample) (P := fun b => b.length = this.nBlts) (fun o ho => by rw [(h2 o ho).nsample.1, (hcc o ho).1]))
    (fun x hx => (h1.nsample.2 x hx).1)
    (mem_map_elim (f := Obj.nsample) (P := fun b => ∀ x ∈ b, x.length = this.nFreqs) (fun o ho x hx => by rw [((h2 o ho).nsample.2 x hx).1, (hcc o ho).2]))
  refine ⟨⟨blocks_cat1 _ _, d1.2, d2.2, d3.2⟩, ⟨d1.1, d2.1, d3.1⟩,
    ⟨rfl, rfl, rfl, rfl, rfl, rfl, rfl, rfl, rfl, rfl, rfl, rfl, rfl, rfl⟩, ?_⟩
  exact (sum_lengths Obj.pol Obj.nPols h1.pol (fun o ho => (h2 o ho).pol)).symm

/-! ### Incompatible inputs -/

/-- Values match within the tolerances. -/
abbrev Matching {α : Type} (c : α → α → Bool) : List α → List α → Prop := List.Forall₂ (fun x y => c x y = true)

/-- The rows of two objects match, as far as the code looks: not the times. -/
structure RowsMatch (c : Close K) (a b : Obj K V) : Prop where
  ant1 : a.ant1 = b.ant1
  ant2 : a.ant2 = b.ant2
  integ : Matching c.integ a.integ b.integ
  uvw : Matching c.uvw a.uvw b.uvw
  lst : Matching c.lst a.lst b.lst
  pc : a.pc = b.pc

theorem sameRows_iff (a b : Obj K V) : sameRows c a b = true ↔ RowsMatch c a b := by
  unfold sameRows
  simp only [Bool.and_eq_true, decide_eq_true_eq, near_iff]
  constructor
  · rintro ⟨⟨⟨⟨⟨h1, h2⟩, h3⟩, h4⟩, h5⟩, h6⟩; exact ⟨h1, h2, h3, h4, h5, h6⟩
  · rintro ⟨h1, h2, h3, h4, h5, h6⟩; exact ⟨⟨⟨⟨⟨h1, h2⟩, h3⟩, h4⟩, h5⟩, h6⟩

/-- C33: exactly when `fast_concat` succeeds. Missing from the full claim: times are not compared along frequency and
polarization, channel widths and the polarizations of flexible windows are not compared along baseline-time. -/
theorem concat_accepts_partial (this : Obj K V) (other : List (Obj K V)) :
    ((∃ res, fastConcat c .blt this other = some res) ↔
      ∀ o ∈ other, Matching c.freq this.freq o.freq ∧ this.pol = o.pol ∧ this.spwId = o.spwId) ∧
    ((∃ res, fastConcat c .freq this other = some res) ↔ ∀ o ∈ other, this.pol = o.pol ∧ RowsMatch c this o) ∧
    ((∃ res, fastConcat c .pol this other = some res) ↔
      ∀ o ∈ other, Matching c.freq this.freq o.freq ∧ Matching c.width this.width o.width ∧ this.spwId = o.spwId ∧ RowsMatch c this o) := by
  have key : ∀ ax, (∃ res, fastConcat c ax this other = some res) ↔ ∀ o ∈ other, compatible c ax this o = true := by
    intro ax
    unfold fastConcat
    split
    · rename_i hh
      simp only [List.all_eq_true] at hh
      simpa using hh
    · rename_i hh
      simp only [List.all_eq_true] at hh
      simpa using hh
  refine ⟨?_, ?_, ?_⟩
  · rw [key]
    simp only [compatible, Bool.and_eq_true, decide_eq_true_eq, near_iff]
    exact forall₂_congr fun o _ => by tauto
  · rw [key]
    simp only [compatible, Bool.and_eq_true, decide_eq_true_eq, sameRows_iff]
  · rw [key]
    simp only [compatible, Bool.and_eq_true, decide_eq_true_eq, near_iff, sameRows_iff]
    exact forall₂_congr fun o _ => by tauto

end Verif.Concat
