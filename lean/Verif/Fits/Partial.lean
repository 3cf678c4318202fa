import Verif.Fits.Props
import Mathlib.Data.Rat.Lemmas
import Mathlib.Algebra.Order.Ring.Rat

/-!
Model of reading a part of a uvfits file, `_get_data`, `src/pyuvdata/uvdata/uvfits.py` lines 245–346. The positions that are selected are given, as
they come from `_select_preprocess`: sorted, different, within the axis and not empty. Arrays are functions of positions with the lengths of their
axes; `np.reshape` goes through the flat position. C109: what reading a part of a file gives.
-/
namespace Verif.Fits

variable {K : Type}

inductive PErr where
  | assert | range | shape | index
deriving DecidableEq

/-- An array with the axes of row, window, channel and polarization. -/
structure Raw (K : Type) where
  nb : Nat
  nw : Nat
  nc : Nat
  np : Nat
  val : Nat → Nat → Nat → Nat → K × K × K

/-- The array of the whole file. -/
def whole (f : File K) : Raw K := ⟨f.nblts, f.nspws, f.nchan, f.npols, f.groups⟩

/-- Indexing one axis with a list of positions. -/
def takeB (o : Option (List Nat)) (r : Raw K) : Except PErr (Raw K) :=
  match o with
  | none => .error .index
  | some l => if l.any (fun i => decide (r.nb ≤ i)) then .error .range
      else .ok { r with nb := l.length, val := fun b w c p => r.val (l.getD b 0) w c p }

def takeC (o : Option (List Nat)) (r : Raw K) : Except PErr (Raw K) :=
  match o with
  | none => .error .index
  | some l => if l.any (fun i => decide (r.nc ≤ i)) then .error .range
      else .ok { r with nc := l.length, val := fun b w c p => r.val b w (l.getD c 0) p }

def takeP (o : Option (List Nat)) (r : Raw K) : Except PErr (Raw K) :=
  match o with
  | none => .error .index
  | some l => if l.any (fun i => decide (r.np ≤ i)) then .error .range
      else .ok { r with np := l.length, val := fun b w c p => r.val b w c (l.getD p 0) }

/-- `len(inds) / float(N)`, or 1; lines 245–258. -/
def frac (o : Option (List Nat)) (m n : Nat) : ℚ :=
  match o with
  | none => 1
  | some l => (l.length : ℚ) * m / n

/-- The entries at some positions. -/
def pick {α : Type} (o : Option (List Nat)) (l : List α) : List α :=
  match o with
  | none => l
  | some is => is.filterMap (l[·]?)

variable [Field K] [LinearOrder K]

/-- `_select_by_index` before the values are read: labels only. -/
def pickLabels (o : Obj K) (bi fi pi : Option (List Nat)) : Obj K :=
  { o with
    nblts := match bi with
      | none => o.nblts
      | some l => l.length
    freqs := pick fi o.freqs
    widths := pick fi o.widths
    chanSpw := pick fi o.chanSpw
    spws := o.spws.filter fun s => (pick fi o.chanSpw).contains s
    pols := pick pi o.pols }

/-- The sizes must agree; then the flat array is cut anew, lines 335–346. -/
def reshape (s : Obj K) (r : Raw K) : Except PErr (Obj K) :=
  if r.nb * r.nw * r.nc * r.np ≠ s.nblts * s.freqs.length * s.pols.length then .error .shape
  else
    let at' : Nat → Nat → Nat → K × K × K := fun b k p =>
      let i := (b * s.freqs.length + k) * s.pols.length + p
      r.val (i / r.np / r.nc / r.nw) (i / r.np / r.nc % r.nw) (i / r.np % r.nc) (i % r.np)
    .ok { s with
      data := fun b k p => ((at' b k p).1, -(at' b k p).2.1)
      flags := fun b k p => decide ((at' b k p).2.2 ≤ 0)
      nsamp := fun b k p => |(at' b k p).2.2| }

/-- `assert self.Nspws == raw_data_array.shape[1]`. -/
def windows (s : Obj K) (r : Raw K) : Except PErr (Raw K) := if s.spws.length = r.nw then .ok r else .error .assert

/-- A further axis is indexed only if its part is less than one. -/
def ifLess (x : ℚ) (g : Raw K → Except PErr (Raw K)) (r : Raw K) : Except PErr (Raw K) := if x < 1 then g r else .ok r

/-- `_get_data`, lines 245–346. -/
def partRead (f : File K) (bi fi pi : Option (List Nat)) : Except PErr (Obj K) :=
  let bf := frac bi 1 f.nblts
  let ff := frac fi f.nspws (f.nspws * f.nchan)
  let pf := frac pi 1 f.npols
  let m := min bf (min ff pf)
  if m = 1 then windows (read f) (whole f) >>= reshape (read f)
  else
    let s := pickLabels (read f) bi fi pi
    if bf = m then takeB bi (whole f) >>= windows s >>= ifLess ff (takeC fi) >>= ifLess pf (takeP pi) >>= reshape s
    else if ff = m then takeC fi (whole f) >>= windows s >>= ifLess bf (takeB bi) >>= ifLess pf (takeP pi) >>= reshape s
    else takeP pi (whole f) >>= windows s >>= ifLess bf (takeB bi) >>= ifLess ff (takeC fi) >>= reshape s

/-! The specification: the whole file is read, then the positions are selected. -/

/-- The position in the whole that a position of the part stands for. -/
def pos (o : Option (List Nat)) (i : Nat) : Nat :=
  match o with
  | none => i
  | some l => l.getD i 0

/-- `r` is the selection of `o` at the given positions. -/
structure IsPart (o : Obj K) (bi fi pi : Option (List Nat)) (r : Obj K) : Prop where
  nblts : r.nblts = (match bi with | none => o.nblts | some l => l.length)
  freqs : r.freqs = pick fi o.freqs
  widths : r.widths = pick fi o.widths
  chanSpw : r.chanSpw = pick fi o.chanSpw
  spws : r.spws = o.spws.filter fun s => (pick fi o.chanSpw).contains s
  pols : r.pols = pick pi o.pols
  vals : ∀ b k p, b < r.nblts → k < r.freqs.length → p < r.pols.length →
    r.data b k p = o.data (pos bi b) (pos fi k) (pos pi p) ∧ r.flags b k p = o.flags (pos bi b) (pos fi k) (pos pi p) ∧
      r.nsamp b k p = o.nsamp (pos bi b) (pos fi k) (pos pi p)

/-- A selection of positions of an axis of length `n`. -/
def Good (n : Nat) (o : Option (List Nat)) : Prop := ∀ l, o = some l → l ≠ [] ∧ l.Pairwise (· < ·) ∧ ∀ i ∈ l, i < n

omit [Field K] [LinearOrder K] in
theorem sorted_le {l : List Nat} (h : l.Pairwise (· < ·)) : ∀ (i x : Nat), l[i]? = some x → i ≤ x := by
  intro i
  induction i with
  | zero => intro x _; exact Nat.zero_le x
  | succ i ih =>
    intro x hx
    obtain ⟨hi, rfl⟩ := List.getElem?_eq_some_iff.mp hx
    have h1 := ih l[i] (List.getElem?_eq_getElem (by omega))
    have h2 := List.pairwise_iff_getElem.mp h i (i + 1) (by omega) hi (by omega)
    omega

theorem sorted_length {n : Nat} {l : List Nat} (h : l.Pairwise (· < ·)) (hb : ∀ i ∈ l, i < n) : l.length ≤ n := by
  by_contra hc
  have hl : l[n]? = some (l[n]'(by omega)) := List.getElem?_eq_getElem (by omega)
  have h1 := sorted_le h _ _ hl
  have h2 := hb _ (List.mem_of_getElem? hl)
  omega

/-- A sorted list of all positions is the range. -/
theorem sorted_full {n : Nat} {l : List Nat} (h : l.Pairwise (· < ·)) (hb : ∀ i ∈ l, i < n) (hl : l.length = n) : l = List.range n := by
  have key : ∀ (d i : Nat), i + d + 1 = n → ∀ x, l[i]? = some x → x = i := by
    intro d
    induction d with
    | zero =>
      intro i hi x hx
      have h1 := sorted_le h _ _ hx
      have h2 := hb _ (List.mem_of_getElem? hx)
      omega
    | succ d ih =>
      intro i hi x hx
      have h1 := sorted_le h _ _ hx
      obtain ⟨hi', rfl⟩ := List.getElem?_eq_some_iff.mp hx
      have h2 := ih (i + 1) (by omega) l[i + 1] (List.getElem?_eq_getElem (by omega))
      have h3 := List.pairwise_iff_getElem.mp h i (i + 1) (by omega) (by omega) (by omega)
      omega
  apply List.ext_getElem (by simp [hl])
  intro i h1 h2
  have := key (n - i - 1) i (by omega) _ (List.getElem?_eq_getElem h1)
  simp [this]

theorem pick_get {α : Type} {is : List Nat} {l : List α} (h : ∀ i ∈ is, i < l.length) (j : Nat) :
    (pick (some is) l)[j]? = is[j]?.bind (l[·]?) := by
  simp only [pick]
  induction is generalizing j with
  | nil => simp
  | cons i is ih =>
    have hi : l[i]? = some (l[i]'(h i (by simp))) := List.getElem?_eq_getElem (h i (by simp))
    rw [List.filterMap_cons, hi]
    cases j with
    | zero => simp [hi]
    | succ j => simpa using ih (fun x hx => h x (by simp [hx])) j

theorem pick_length {α : Type} {is : List Nat} {l : List α} (h : ∀ i ∈ is, i < l.length) : (pick (some is) l).length = is.length := by
  simp only [pick]
  induction is with
  | nil => simp
  | cons i is ih =>
    have hi : l[i]? = some (l[i]'(h i (by simp))) := List.getElem?_eq_getElem (h i (by simp))
    rw [List.filterMap_cons, hi]
    simp only [List.length_cons]
    rw [ih (fun x hx => h x (by simp [hx]))]

theorem pick_full {α : Type} {n : Nat} {l : List α} (hn : l.length = n) : pick (some (List.range n)) l = l := by
  apply List.ext_getElem?
  intro j
  rw [pick_get (by simp [hn])]
  by_cases hj : j < n
  · rw [List.getElem?_range hj]; rfl
  · rw [List.getElem?_eq_none (by simp; omega), List.getElem?_eq_none (by omega)]; rfl

/-- The number of positions of an axis that are selected. -/
def size (o : Option (List Nat)) (n : Nat) : Nat :=
  match o with
  | none => n
  | some l => l.length

theorem good_size {n : Nat} {o : Option (List Nat)} (h : Good n o) : size o n ≤ n := by
  cases o with
  | none => exact le_refl _
  | some l => exact sorted_length (h l rfl).2.1 (h l rfl).2.2

theorem good_pos {n : Nat} (hn : 0 < n) {o : Option (List Nat)} (h : Good n o) : 0 < size o n := by
  cases o with
  | none => exact hn
  | some l => exact List.length_pos_iff.mpr (h l rfl).1

theorem pick_size {α : Type} {n : Nat} {o : Option (List Nat)} (h : Good n o) {l : List α} (hl : l.length = n) : (pick o l).length = size o n := by
  cases o with
  | none => exact hl
  | some is => exact pick_length (by rw [hl]; exact (h is rfl).2.2)

theorem good_full {n : Nat} {o : Option (List Nat)} (h : Good n o) (hs : size o n = n) :
    (∀ i, i < n → pos o i = i) ∧ ∀ {α : Type} (l : List α), l.length = n → pick o l = l := by
  cases o with
  | none => exact ⟨fun _ _ => rfl, fun _ _ => rfl⟩
  | some is =>
    have e := sorted_full (h is rfl).2.1 (h is rfl).2.2 hs
    subst e
    refine ⟨fun i hi => ?_, fun l hl => pick_full hl⟩
    simp only [pos]
    exact getD_get (List.getElem?_range hi)

theorem frac_eq {n m : Nat} {o : Option (List Nat)} (hn : 0 < n) (hm : o = none → m = 1) : frac o m n = (size o n : ℚ) * m / n := by
  have h0 : (n : ℚ) ≠ 0 := by exact_mod_cast hn.ne'
  cases o with
  | none => simp only [frac, size, hm rfl]; field_simp; simp
  | some l => rfl

theorem frac1 {n : Nat} {o : Option (List Nat)} (hn : 0 < n) (h : Good n o) : frac o 1 n ≤ 1 ∧ (frac o 1 n < 1 ↔ size o n < n) := by
  have h0 : (0 : ℚ) < n := by exact_mod_cast hn
  rw [frac_eq hn (fun _ => rfl), Nat.cast_one, mul_one]
  constructor
  · rw [div_le_one h0]; exact_mod_cast good_size h
  · rw [div_lt_one h0]; norm_cast

/-- `r` is the part of the array of the file where the given positions have been taken. -/
structure Part (f : File K) (B C P : Option (List Nat)) (r : Raw K) : Prop where
  nb : r.nb = size B f.nblts
  nw : r.nw = f.nspws
  nc : r.nc = size C f.nchan
  np : r.np = size P f.npols
  val : ∀ b w c p, r.val b w c p = f.groups (pos B b) w (pos C c) (pos P p)

omit [Field K] [LinearOrder K] in
theorem takeB_ok {f : File K} {C P o : Option (List Nat)} {r : Raw K} (h : Part f none C P r) (ho : Good f.nblts o) (hs : o ≠ none) :
    ∃ r', takeB o r = .ok r' ∧ Part f o C P r' := by
  cases o with
  | none => exact absurd rfl hs
  | some l =>
    have : l.any (fun i => decide (r.nb ≤ i)) = false := by
      simp only [List.any_eq_false, decide_eq_true_eq, not_le, h.nb, size]
      exact (ho l rfl).2.2
    refine ⟨{ r with nb := l.length, val := fun b w c p => r.val (l.getD b 0) w c p }, by simp only [takeB]; rw [this]; rfl, ⟨rfl, h.nw, h.nc, h.np, fun b w c p => ?_⟩⟩
    simp only [h.val, pos]

omit [Field K] [LinearOrder K] in
theorem takeC_ok {f : File K} {B P o : Option (List Nat)} {r : Raw K} (h : Part f B none P r) (ho : Good f.nchan o) (hs : o ≠ none) :
    ∃ r', takeC o r = .ok r' ∧ Part f B o P r' := by
  cases o with
  | none => exact absurd rfl hs
  | some l =>
    have : l.any (fun i => decide (r.nc ≤ i)) = false := by
      simp only [List.any_eq_false, decide_eq_true_eq, not_le, h.nc, size]
      exact (ho l rfl).2.2
    refine ⟨{ r with nc := l.length, val := fun b w c p => r.val b w (l.getD c 0) p }, by simp only [takeC]; rw [this]; rfl, ⟨h.nb, h.nw, rfl, h.np, fun b w c p => ?_⟩⟩
    simp only [h.val, pos]

omit [Field K] [LinearOrder K] in
theorem takeP_ok {f : File K} {B C o : Option (List Nat)} {r : Raw K} (h : Part f B C none r) (ho : Good f.npols o) (hs : o ≠ none) :
    ∃ r', takeP o r = .ok r' ∧ Part f B C o r' := by
  cases o with
  | none => exact absurd rfl hs
  | some l =>
    have : l.any (fun i => decide (r.np ≤ i)) = false := by
      simp only [List.any_eq_false, decide_eq_true_eq, not_le, h.np, size]
      exact (ho l rfl).2.2
    refine ⟨{ r with np := l.length, val := fun b w c p => r.val b w c (l.getD p 0) }, by simp only [takeP]; rw [this]; rfl, ⟨h.nb, h.nw, h.nc, rfl, fun b w c p => ?_⟩⟩
    simp only [h.val, pos]

/-- Two selections stand for the same positions. -/
def Alike (n : Nat) (A B : Option (List Nat)) : Prop := size A n = size B n ∧ ∀ i, i < size A n → pos A i = pos B i

theorem alike_refl (n : Nat) (A : Option (List Nat)) : Alike n A A := ⟨rfl, fun _ _ => rfl⟩

theorem alike_full {n : Nat} {o : Option (List Nat)} (h : Good n o) (hs : size o n = n) : Alike n none o :=
  ⟨hs.symm, fun i hi => ((good_full h hs).1 i hi).symm⟩

theorem ifLessB {f : File K} (hn : 0 < f.nblts) {C P o : Option (List Nat)} {r : Raw K} (h : Part f none C P r) (ho : Good f.nblts o) :
    ∃ B r', ifLess (frac o 1 f.nblts) (takeB o) r = .ok r' ∧ Part f B C P r' ∧ Alike f.nblts B o := by
  unfold ifLess
  obtain ⟨h1, h2⟩ := frac1 hn ho
  split
  · rename_i hl
    obtain ⟨r', e, hp⟩ := takeB_ok h ho (by rintro rfl; simp [frac] at hl)
    exact ⟨o, r', e, hp, alike_refl _ _⟩
  · rename_i hl
    have := good_size ho
    exact ⟨none, r, rfl, h, alike_full ho (by have := mt h2.mpr hl; omega)⟩

theorem ifLessP {f : File K} (hn : 0 < f.npols) {B C o : Option (List Nat)} {r : Raw K} (h : Part f B C none r) (ho : Good f.npols o) :
    ∃ P r', ifLess (frac o 1 f.npols) (takeP o) r = .ok r' ∧ Part f B C P r' ∧ Alike f.npols P o := by
  unfold ifLess
  obtain ⟨h1, h2⟩ := frac1 hn ho
  split
  · rename_i hl
    obtain ⟨r', e, hp⟩ := takeP_ok h ho (by rintro rfl; simp [frac] at hl)
    exact ⟨o, r', e, hp, alike_refl _ _⟩
  · rename_i hl
    have := good_size ho
    exact ⟨none, r, rfl, h, alike_full ho (by have := mt h2.mpr hl; omega)⟩

/-! Labels of what is read. -/

theorem flatMap_const_get {α : Type} (n : Nat) (g : Nat → α) : ∀ (m s k : Nat), k < m * n →
    ((List.range' s m).flatMap fun w => List.replicate n (g w))[k]? = some (g (s + k / n)) := by
  intro m
  induction m with
  | zero => intro s k hk; simp at hk
  | succ m ih =>
    intro s k hk
    have hn : 0 < n := by
      rcases Nat.eq_zero_or_pos n with h | h
      · simp [h] at hk
      · exact h
    rw [List.range'_succ, List.flatMap_cons]
    by_cases h : k < n
    · rw [List.getElem?_append_left (by simpa using h), List.getElem?_replicate, if_pos h, Nat.div_eq_of_lt h, Nat.add_zero]
    · rw [List.getElem?_append_right (by simp; omega), List.length_replicate, ih _ _ (by rw [Nat.succ_mul] at hk; omega)]
      have : k / n = (k - n) / n + 1 := by
        conv_lhs => rw [show k = (k - n) + n by omega, Nat.add_div_right _ hn]
      rw [this]
      congr 2
      omega

theorem chanSpw_get (f : File K) {k : Nat} (hk : k < f.nspws * f.nchan) : (read f).chanSpw[k]? = some ((k / f.nchan : Nat) : Int) := by
  have := flatMap_const_get f.nchan (fun w => (w : Int)) f.nspws 0 k hk
  rw [← List.range_eq_range', Nat.zero_add] at this
  exact this

theorem chanSpw_len (f : File K) : (read f).chanSpw.length = f.nspws * f.nchan := by
  simp [read, List.length_flatMap]

/-- Files as they are written: a table for more than one window. -/
def Tabled (f : File K) : Prop := f.table = none → f.nspws = 1

theorem freqs_len {f : File K} (ht : Tabled f) : (read f).freqs.length = f.nspws * f.nchan := by
  simp only [read, readFreqs]
  split
  · simp [List.length_flatMap]
  · rename_i h
    rw [ht h]
    simp

theorem widths_len {f : File K} (ht : Tabled f) : (read f).widths.length = f.nspws * f.nchan := by
  simp only [read, readWidths]
  split
  · simp [List.length_flatMap]
  · rename_i h
    rw [ht h]
    simp

theorem pols_len (f : File K) : (read f).pols.length = f.npols := by simp [read, readPols]

/-- What reshaping gives when the axes fit. -/
theorem reshape_ok {f : File K} {s : Obj K} {r : Raw K} {B C P : Option (List Nat)} (h : Part f B C P r) (hb : r.nb = s.nblts)
    (hc : r.nw * r.nc = s.freqs.length) (hp : r.np = s.pols.length) : ∃ o, reshape s r = .ok o ∧ o.nblts = s.nblts ∧ o.freqs = s.freqs ∧
      o.widths = s.widths ∧ o.chanSpw = s.chanSpw ∧ o.spws = s.spws ∧ o.pols = s.pols ∧
      ∀ b k p, b < s.nblts → k < s.freqs.length → p < s.pols.length →
        ∃ g, g = f.groups (pos B b) (k / r.nc) (pos C (k % r.nc)) (pos P p) ∧
          o.data b k p = (g.1, -g.2.1) ∧ o.flags b k p = decide (g.2.2 ≤ 0) ∧ o.nsamp b k p = |g.2.2| := by
  unfold reshape
  rw [if_neg (by rw [← hb, ← hc, ← hp, not_not]; ring)]
  refine ⟨_, rfl, rfl, rfl, rfl, rfl, rfl, rfl, fun b k p hb' hk hp' => ?_⟩
  have h1 : ((b * s.freqs.length + k) * s.pols.length + p) / r.np = b * s.freqs.length + k := by
    rw [hp, Nat.mul_comm, Nat.mul_add_div (by omega), Nat.div_eq_of_lt hp', Nat.add_zero]
  have h2 : ((b * s.freqs.length + k) * s.pols.length + p) % r.np = p := by
    rw [hp, Nat.mul_comm, Nat.mul_add_mod, Nat.mod_eq_of_lt hp']
  have hcp : 0 < r.nc := by
    rcases Nat.eq_zero_or_pos r.nc with h0 | h0
    · rw [h0, Nat.mul_zero] at hc; omega
    · exact h0
  have hkw : k / r.nc < r.nw := Nat.div_lt_of_lt_mul (by rw [Nat.mul_comm, hc]; exact hk)
  have h3 : (b * s.freqs.length + k) / r.nc = b * r.nw + k / r.nc := by
    rw [← hc, show b * (r.nw * r.nc) + k = r.nc * (b * r.nw) + k by ring, Nat.mul_add_div hcp]
  have h4 : (b * s.freqs.length + k) % r.nc = k % r.nc := by
    rw [← hc, show b * (r.nw * r.nc) + k = r.nc * (b * r.nw) + k by ring, Nat.mul_add_mod]
  have h5 : (b * r.nw + k / r.nc) / r.nw = b := by
    rw [Nat.mul_comm, Nat.mul_add_div (Nat.lt_of_le_of_lt (Nat.zero_le _) hkw), Nat.div_eq_of_lt hkw, Nat.add_zero]
  have h6 : (b * r.nw + k / r.nc) % r.nw = k / r.nc := by
    rw [Nat.mul_comm, Nat.mul_add_mod, Nat.mod_eq_of_lt hkw]
  refine ⟨_, rfl, ?_⟩
  simp only [h1, h2, h3, h4, h5, h6, h.val]
  exact ⟨trivial, trivial, trivial⟩

/-- All windows are kept when all channels are. -/
theorem spws_full {f : File K} (hn : 0 < f.nchan) {fi : Option (List Nat)} (hfi : Good (f.nspws * f.nchan) fi)
    (hs : size fi (f.nspws * f.nchan) = f.nspws * f.nchan) :
    ((read f).spws.filter fun s => (pick fi (read f).chanSpw).contains s) = (read f).spws := by
  rw [(good_full hfi hs).2 _ (chanSpw_len f), List.filter_eq_self]
  intro s hs
  simp only [read, List.mem_map, List.mem_range] at hs
  obtain ⟨w, hw, rfl⟩ := hs
  have hk : w * f.nchan < f.nspws * f.nchan := Nat.mul_lt_mul_of_pos_right hw hn
  have := chanSpw_get f hk
  rw [Nat.mul_div_cancel _ hn] at this
  simpa using List.mem_of_getElem? this

theorem spws_len (f : File K) : (read f).spws.length = f.nspws := by simp [read]

/-- Which windows are kept. -/
theorem spws_mem {f : File K} {l : List Nat} (hb : ∀ i ∈ l, i < f.nspws * f.nchan) (s : Int) :
    (pick (some l) (read f).chanSpw).contains s = true ↔ ∃ i ∈ l, s = ((i / f.nchan : Nat) : Int) := by
  rw [List.contains_iff_mem, List.mem_iff_getElem?]
  constructor
  · rintro ⟨j, hj⟩
    rw [pick_get (by rw [chanSpw_len]; exact hb)] at hj
    cases hl : l[j]? with
    | none => simp [hl] at hj
    | some i =>
      have hm := List.mem_of_getElem? hl
      rw [hl, Option.bind_some, chanSpw_get f (hb i hm)] at hj
      exact ⟨i, hm, (Option.some.inj hj).symm⟩
  · rintro ⟨i, hi, rfl⟩
    obtain ⟨j, hj⟩ := List.getElem?_of_mem hi
    refine ⟨j, ?_⟩
    rw [pick_get (by rw [chanSpw_len]; exact hb), hj, Option.bind_some, chanSpw_get f (hb i hi)]

theorem spws_one {f : File K} (h1 : f.nspws = 1) {fi : Option (List Nat)} (hfi : Good (f.nspws * f.nchan) fi) (hn : 0 < f.nchan) :
    ((read f).spws.filter fun s => (pick fi (read f).chanSpw).contains s) = (read f).spws := by
  cases fi with
  | none => exact spws_full hn hfi rfl
  | some l =>
    obtain ⟨hne, -, hb⟩ := hfi l rfl
    rw [List.filter_eq_self]
    intro s hs
    simp only [read, List.mem_map, List.mem_range] at hs
    obtain ⟨w, hw, rfl⟩ := hs
    obtain ⟨i, hi⟩ := List.exists_mem_of_ne_nil _ hne
    refine (spws_mem hb _).mpr ⟨i, hi, ?_⟩
    have : i / f.nchan = 0 := Nat.div_eq_of_lt (by have := hb i hi; rwa [h1, Nat.one_mul] at this)
    rw [this]
    congr 1
    omega

theorem fracF_one {f : File K} (h1 : f.nspws = 1) (hn : 0 < f.nchan) {fi : Option (List Nat)} (hfi : Good (f.nspws * f.nchan) fi) :
    frac fi f.nspws (f.nspws * f.nchan) ≤ 1 ∧ (frac fi f.nspws (f.nspws * f.nchan) < 1 ↔ size fi (f.nspws * f.nchan) < f.nspws * f.nchan) := by
  have := frac1 (by rw [h1]; omega) hfi
  rwa [h1] at this ⊢

theorem ifLessC {f : File K} (hn : 0 < f.nchan) (hw : 0 < f.nspws) {B P fi : Option (List Nat)} {r : Raw K} (h : Part f B none P r)
    (hfi : Good (f.nspws * f.nchan) fi) (hc : f.nspws = 1 ∨ size fi (f.nspws * f.nchan) = f.nspws * f.nchan) :
    ∃ C r', ifLess (frac fi f.nspws (f.nspws * f.nchan)) (takeC fi) r = .ok r' ∧ Part f B C P r' ∧
      f.nspws * size C f.nchan = size fi (f.nspws * f.nchan) ∧
      ∀ k, k < size fi (f.nspws * f.nchan) → k / size C f.nchan = pos fi k / f.nchan ∧ pos C (k % size C f.nchan) = pos fi k % f.nchan := by
  have hN : 0 < f.nspws * f.nchan := Nat.mul_pos hw hn
  have full : size fi (f.nspws * f.nchan) = f.nspws * f.nchan → ∃ C : Option (List Nat), Part f B C P r ∧
      f.nspws * size C f.nchan = size fi (f.nspws * f.nchan) ∧
      ∀ k, k < size fi (f.nspws * f.nchan) → k / size C f.nchan = pos fi k / f.nchan ∧ pos C (k % size C f.nchan) = pos fi k % f.nchan := by
    intro hs
    refine ⟨none, h, hs.symm, fun k hk => ?_⟩
    rw [(good_full hfi hs).1 k (by omega)]
    exact ⟨rfl, rfl⟩
  unfold ifLess
  rcases hc with h1 | hs
  · obtain ⟨-, h2⟩ := fracF_one h1 hn hfi
    split
    · rename_i hl
      have hfi' : Good f.nchan fi := by rw [h1, Nat.one_mul] at hfi; exact hfi
      obtain ⟨r', e, hp⟩ := takeC_ok h hfi' (by rintro rfl; simp [frac] at hl)
      refine ⟨fi, r', e, hp, by rw [h1, Nat.one_mul, Nat.one_mul], fun k hk => ?_⟩
      rw [h1, Nat.one_mul] at hk
      rw [Nat.div_eq_of_lt hk, Nat.mod_eq_of_lt hk]
      cases fi with
      | none => simp [frac] at hl
      | some l =>
        have hlt : pos (some l) k < f.nchan := by
          simp only [pos, size] at hk ⊢
          rw [List.getD_eq_getElem?_getD, List.getElem?_eq_getElem hk]
          exact (hfi' l rfl).2.2 _ (List.getElem_mem hk)
        rw [Nat.div_eq_of_lt hlt, Nat.mod_eq_of_lt hlt]
        exact ⟨rfl, rfl⟩
    · rename_i hl
      have h3 := good_size hfi
      obtain ⟨C, hC⟩ := full (by have := mt h2.mpr hl; omega)
      exact ⟨C, r, rfl, hC⟩
  · have : ¬ frac fi f.nspws (f.nspws * f.nchan) < 1 := by
      cases fi with
      | none => simp [frac]
      | some l =>
        rw [frac_eq hN (by simp), hs]
        have h0 : ((f.nspws * f.nchan : Nat) : ℚ) ≠ 0 := by exact_mod_cast hN.ne'
        rw [mul_comm, mul_div_assoc, div_self h0, mul_one, not_lt]
        exact_mod_cast hw
    rw [if_neg this]
    obtain ⟨C, hC⟩ := full hs
    exact ⟨C, r, rfl, hC⟩

/-- The last step, for all ways through. -/
theorem finish {f : File K} (ht : Tabled f) {bi fi pi B C P : Option (List Nat)} (hbi : Good f.nblts bi)
    (hfi : Good (f.nspws * f.nchan) fi) (hpi : Good f.npols pi) {r : Raw K} (h : Part f B C P r) (hB : Alike f.nblts B bi)
    (hC : f.nspws * size C f.nchan = size fi (f.nspws * f.nchan) ∧
      ∀ k, k < size fi (f.nspws * f.nchan) → k / size C f.nchan = pos fi k / f.nchan ∧ pos C (k % size C f.nchan) = pos fi k % f.nchan)
    (hP : Alike f.npols P pi) :
    ∃ o, reshape (pickLabels (read f) bi fi pi) r = .ok o ∧ IsPart (read f) bi fi pi o := by
  have e1 : (pickLabels (read f) bi fi pi).nblts = size bi f.nblts := by cases bi <;> rfl
  have e2 : (pickLabels (read f) bi fi pi).freqs.length = size fi (f.nspws * f.nchan) := pick_size hfi (freqs_len ht)
  have e3 : (pickLabels (read f) bi fi pi).pols.length = size pi f.npols := pick_size hpi (pols_len f)
  obtain ⟨o, ho, n1, n2, n3, n4, n5, n6, hv⟩ := reshape_ok (s := pickLabels (read f) bi fi pi) h
    (by rw [h.nb, hB.1, e1]) (by rw [h.nw, h.nc, hC.1, e2]) (by rw [h.np, hP.1, e3])
  refine ⟨o, ho, ⟨?_, n2, n3, n4, n5, n6, fun b k p hb hk hp => ?_⟩⟩
  · rw [n1]
    cases bi <;> rfl
  · rw [n1] at hb
    rw [n2] at hk
    rw [n6] at hp
    obtain ⟨g, hg, v1, v2, v3⟩ := hv b k p hb hk hp
    rw [e1] at hb
    rw [e2] at hk
    rw [e3] at hp
    have hg' : g = f.groups (pos bi b) (pos fi k / f.nchan) (pos fi k % f.nchan) (pos pi p) := by
      rw [hg, h.nc, (hC.2 k hk).1, (hC.2 k hk).2, hB.2 b (by rw [hB.1]; exact hb), hP.2 p (by rw [hP.1]; exact hp)]
    rw [v1, v2, v3, hg']
    exact ⟨rfl, rfl, rfl⟩

omit [Field K] [LinearOrder K] in
theorem whole_part (f : File K) : Part f none none none (whole f) := ⟨rfl, rfl, rfl, rfl, fun _ _ _ _ => rfl⟩

theorem windows_ok {s : Obj K} {r : Raw K} (h : s.spws.length = r.nw) : windows s r = .ok r := by
  unfold windows; rw [if_pos h]

theorem pickLabels_none (o : Obj K) (h : (o.spws.filter fun s => o.chanSpw.contains s) = o.spws) : pickLabels o none none none = o := by
  unfold pickLabels
  simp only [pick, h]

/-- C109: a part of a file with one window, and a part of any file in which all channels are, is what selecting after reading all of it gives. -/
theorem partRead_partial {f : File K} (ht : Tabled f) (hb : 0 < f.nblts) (hw : 0 < f.nspws) (hn : 0 < f.nchan) (hp : 0 < f.npols)
    {bi fi pi : Option (List Nat)} (hbi : Good f.nblts bi) (hfi : Good (f.nspws * f.nchan) fi) (hpi : Good f.npols pi)
    (hc : f.nspws = 1 ∨ size fi (f.nspws * f.nchan) = f.nspws * f.nchan) :
    ∃ r, partRead f bi fi pi = .ok r ∧ IsPart (read f) bi fi pi r := by
  have hN : 0 < f.nspws * f.nchan := Nat.mul_pos hw hn
  obtain ⟨b1, b2⟩ := frac1 hb hbi
  obtain ⟨p1, p2⟩ := frac1 hp hpi
  have hfull : 1 ≤ frac fi f.nspws (f.nspws * f.nchan) → size fi (f.nspws * f.nchan) = f.nspws * f.nchan := by
    intro h
    rcases hc with h1 | h1
    · have := (fracF_one h1 hn hfi).2
      have h2 := good_size hfi
      have := mt this.mpr (not_lt.mpr h)
      omega
    · exact h1
  have hspw : ((read f).spws.filter fun s => (pick fi (read f).chanSpw).contains s).length = f.nspws := by
    rcases hc with h1 | h1
    · rw [spws_one h1 hfi hn, spws_len]
    · rw [spws_full hn hfi h1, spws_len]
  have hwin : ∀ {B C P : Option (List Nat)} {r : Raw K}, Part f B C P r → windows (pickLabels (read f) bi fi pi) r = .ok r :=
    fun h => windows_ok (by rw [h.nw]; exact hspw)
  simp only [partRead]
  split
  · rename_i hm
    have hbf : size bi f.nblts = f.nblts := by
      have h1 := good_size hbi
      have h2 : ¬ size bi f.nblts < f.nblts := fun h => by
        have := b2.mpr h
        have := min_le_left (frac bi 1 f.nblts) (min (frac fi f.nspws (f.nspws * f.nchan)) (frac pi 1 f.npols))
        linarith
      omega
    have hpf : size pi f.npols = f.npols := by
      have h1 := good_size hpi
      have h2 : ¬ size pi f.npols < f.npols := fun h => by
        have := p2.mpr h
        have h3 := min_le_right (frac bi 1 f.nblts) (min (frac fi f.nspws (f.nspws * f.nchan)) (frac pi 1 f.npols))
        have h4 := min_le_right (frac fi f.nspws (f.nspws * f.nchan)) (frac pi 1 f.npols)
        linarith
      omega
    have hff := hfull (by
      have h3 := min_le_right (frac bi 1 f.nblts) (min (frac fi f.nspws (f.nspws * f.nchan)) (frac pi 1 f.npols))
      have h4 := min_le_left (frac fi f.nspws (f.nspws * f.nchan)) (frac pi 1 f.npols)
      linarith)
    have hlab : pickLabels (read f) bi fi pi = read f := by
      unfold pickLabels
      rw [(good_full hfi hff).2 _ (freqs_len ht), (good_full hfi hff).2 _ (widths_len ht), (good_full hpi hpf).2 _ (pols_len f),
        spws_full hn hfi hff, (good_full hfi hff).2 _ (chanSpw_len f)]
      cases bi with
      | none => rfl
      | some l => simp only [size] at hbf; simp only [hbf]; rfl
    obtain ⟨o, ho, hpart⟩ := finish ht hbi hfi hpi (whole_part f) (alike_full hbi hbf)
      ⟨hff.symm, fun k hk => by rw [(good_full hfi hff).1 k (by omega)]; exact ⟨rfl, rfl⟩⟩ (alike_full hpi hpf)
    rw [hlab] at ho
    refine ⟨o, ?_, hpart⟩
    rw [windows_ok (by rw [spws_len]; rfl)]
    exact ho
  · rename_i hm
    have hmle := min_le_left (frac bi 1 f.nblts) (min (frac fi f.nspws (f.nspws * f.nchan)) (frac pi 1 f.npols))
    have hmlt : min (frac bi 1 f.nblts) (min (frac fi f.nspws (f.nspws * f.nchan)) (frac pi 1 f.npols)) < 1 := lt_of_le_of_ne (hmle.trans b1) hm
    split
    · rename_i hbm
      have hbs : bi ≠ none := by rintro rfl; simp only [frac] at hbm; exact hm hbm.symm
      obtain ⟨r1, g1, q1⟩ := takeB_ok (whole_part f) hbi hbs
      obtain ⟨C, r2, g2, q2, hC⟩ := ifLessC hn hw q1 hfi hc
      obtain ⟨P, r3, g3, q3, hP⟩ := ifLessP hp q2 hpi
      obtain ⟨o, ho, hpart⟩ := finish ht hbi hfi hpi q3 (alike_refl _ _) hC hP
      refine ⟨o, ?_, hpart⟩
      simp only [g1, hwin q1, g2, g3, ho, bind, Except.bind]
    · split
      · rename_i hbm hfm
        have hfl : frac fi f.nspws (f.nspws * f.nchan) < 1 := by rw [hfm]; exact hmlt
        obtain ⟨C, r1, g1, q1, hC⟩ := ifLessC hn hw (whole_part f) hfi hc
        rw [ifLess, if_pos hfl] at g1
        obtain ⟨B, r2, g2, q2, hB⟩ := ifLessB hb q1 hbi
        obtain ⟨P, r3, g3, q3, hP⟩ := ifLessP hp q2 hpi
        obtain ⟨o, ho, hpart⟩ := finish ht hbi hfi hpi q3 hB hC hP
        refine ⟨o, ?_, hpart⟩
        simp only [g1, hwin q1, g2, g3, ho, bind, Except.bind]
      · rename_i hbm hfm
        have hpm : frac pi 1 f.npols = min (frac bi 1 f.nblts) (min (frac fi f.nspws (f.nspws * f.nchan)) (frac pi 1 f.npols)) := by
          rcases min_choice (frac bi 1 f.nblts) (min (frac fi f.nspws (f.nspws * f.nchan)) (frac pi 1 f.npols)) with h | h
          · exact absurd h.symm hbm
          · rcases min_choice (frac fi f.nspws (f.nspws * f.nchan)) (frac pi 1 f.npols) with h' | h'
            · rw [h'] at h; exact absurd (by rw [h', h]) hfm
            · rw [h'] at h ⊢; exact h.symm
        have hps : pi ≠ none := by rintro rfl; simp only [frac] at hpm hmlt; rw [← hpm] at hmlt; exact lt_irrefl _ hmlt
        obtain ⟨r1, g1, q1⟩ := takeP_ok (whole_part f) hpi hps
        obtain ⟨B, r2, g2, q2, hB⟩ := ifLessB hb q1 hbi
        obtain ⟨C, r3, g3, q3, hC⟩ := ifLessC hn hw q2 hfi hc
        obtain ⟨o, ho, hpart⟩ := finish ht hbi hfi hpi q3 hB hC (alike_refl _ _)
        refine ⟨o, ?_, hpart⟩
        simp only [g1, hwin q1, g2, g3, ho, bind, Except.bind]

theorem fracF_some {f : File K} (hw : 0 < f.nspws) {l : List Nat} :
    frac (some l) f.nspws (f.nspws * f.nchan) = (l.length : ℚ) / f.nchan := by
  have h0 : (f.nspws : ℚ) ≠ 0 := by exact_mod_cast hw.ne'
  simp only [frac]
  push_cast
  rw [mul_comm (l.length : ℚ), mul_div_mul_left _ _ h0]

/-- C109 is false for files with several windows: a selection of at least as many channels as a window has is not made, and all of the file is read. -/
theorem partRead_ignored {f : File K} (hb : 0 < f.nblts) (hw : 0 < f.nspws) (hn : 0 < f.nchan) (hp : 0 < f.npols)
    {bi pi : Option (List Nat)} (hbi : Good f.nblts bi) (hpi : Good f.npols pi) (hbf : size bi f.nblts = f.nblts) (hpf : size pi f.npols = f.npols)
    {l : List Nat} (hl : f.nchan ≤ l.length) : partRead f bi (some l) pi = partRead f none none none := by
  have e1 : frac bi 1 f.nblts = 1 := by
    obtain ⟨h1, h2⟩ := frac1 hb hbi
    exact le_antisymm h1 (not_lt.mp fun h => absurd (h2.mp h) (by omega))
  have e2 : frac pi 1 f.npols = 1 := by
    obtain ⟨h1, h2⟩ := frac1 hp hpi
    exact le_antisymm h1 (not_lt.mp fun h => absurd (h2.mp h) (by omega))
  have e3 : 1 ≤ frac (some l) f.nspws (f.nspws * f.nchan) := by
    rw [fracF_some hw, le_div_iff₀ (by exact_mod_cast hn), one_mul]
    exact_mod_cast hl
  simp only [partRead]
  rw [if_pos, if_pos]
  · simp [frac]
  · rw [e1, e2, min_eq_right e3, min_self]

theorem windows_err {s : Obj K} {r : Raw K} (h : s.spws.length ≠ r.nw) : windows s r = .error .assert := by
  unfold windows; rw [if_neg h]

/-- C109: any other selection of channels from a file with several windows is refused. -/
theorem partRead_refused {f : File K} (ht : Tabled f) (hb : 0 < f.nblts) (hw : 1 < f.nspws) (hn : 0 < f.nchan) (hp : 0 < f.npols)
    {bi pi : Option (List Nat)} (hbi : Good f.nblts bi) (hpi : Good f.npols pi) {l : List Nat} (hl : Good (f.nspws * f.nchan) (some l))
    (hlt : l.length < f.nspws * f.nchan) (hno : l.length < f.nchan ∨ size bi f.nblts < f.nblts ∨ size pi f.npols < f.npols) :
    ∃ e, partRead f bi (some l) pi = .error e := by
  obtain ⟨hne, -, hlb⟩ := hl l rfl
  obtain ⟨b1, b2⟩ := frac1 hb hbi
  obtain ⟨p1, p2⟩ := frac1 hp hpi
  have hf : frac (some l) f.nspws (f.nspws * f.nchan) = (l.length : ℚ) / f.nchan := fracF_some (by omega)
  have hmlt : min (frac bi 1 f.nblts) (min (frac (some l) f.nspws (f.nspws * f.nchan)) (frac pi 1 f.npols)) < 1 := by
    rcases hno with h | h | h
    · refine lt_of_le_of_lt ((min_le_right _ _).trans (min_le_left _ _)) ?_
      rw [hf, div_lt_one (by exact_mod_cast hn)]
      exact_mod_cast h
    · exact lt_of_le_of_lt (min_le_left _ _) (b2.mpr h)
    · exact lt_of_le_of_lt ((min_le_right _ _).trans (min_le_right _ _)) (p2.mpr h)
  -- if all windows are kept then some channel is beyond the first
  have hbeyond : ((read f).spws.filter fun s => (pick (some l) (read f).chanSpw).contains s).length = f.nspws → ∃ i ∈ l, f.nchan ≤ i := by
    intro h
    have hall : ((read f).spws.filter fun s => (pick (some l) (read f).chanSpw).contains s) = (read f).spws :=
      (List.filter_sublist (l := (read f).spws)).eq_of_length (by rw [h, spws_len])
    have hmem : (1 : Int) ∈ (read f).spws := by
      simp only [read, List.mem_map, List.mem_range]
      exact ⟨1, hw, rfl⟩
    rw [← hall, List.mem_filter] at hmem
    obtain ⟨i, hi, h1⟩ := (spws_mem hlb 1).mp hmem.2
    refine ⟨i, hi, ?_⟩
    by_contra hc
    rw [Nat.div_eq_of_lt (by omega)] at h1
    exact absurd h1 (by decide)
  -- after taking the channels, or not taking them, nothing fits
  have hC : ∀ {B P : Option (List Nat)} {r : Raw K}, Part f B none P r →
      ((read f).spws.filter fun s => (pick (some l) (read f).chanSpw).contains s).length = f.nspws →
      ifLess (frac (some l) f.nspws (f.nspws * f.nchan)) (takeC (some l)) r = .error .range ∨
      ifLess (frac (some l) f.nspws (f.nspws * f.nchan)) (takeC (some l)) r = .ok r := by
    intro B P r h hs
    unfold ifLess
    split
    · left
      obtain ⟨i, hi, hin⟩ := hbeyond hs
      have : l.any (fun i => decide (r.nc ≤ i)) = true := by
        rw [List.any_eq_true]
        exact ⟨i, hi, by simp only [h.nc, size]; simpa using hin⟩
      simp only [takeC]
      rw [this]
      rfl
    · right; rfl
  have hR : ∀ {B P : Option (List Nat)} {r : Raw K}, Part f B none P r → Alike f.nblts B bi → Alike f.npols P pi →
      reshape (pickLabels (read f) bi (some l) pi) r = .error .shape := by
    intro B P r h hB hP
    unfold reshape
    rw [if_pos]
    have e1 : (pickLabels (read f) bi (some l) pi).nblts = size bi f.nblts := by cases bi <;> rfl
    have e2 : (pickLabels (read f) bi (some l) pi).freqs.length = l.length := pick_size hl (freqs_len ht)
    have e3 : (pickLabels (read f) bi (some l) pi).pols.length = size pi f.npols := pick_size hpi (pols_len f)
    rw [e1, e2, e3, h.nb, h.nw, h.nc, h.np, hB.1, hP.1]
    have hb' := good_pos hb hbi
    have hp' := good_pos hp hpi
    rw [show size none f.nchan = f.nchan from rfl]
    intro he
    rw [Nat.mul_assoc (size bi f.nblts)] at he
    have := Nat.eq_of_mul_eq_mul_left hb' (Nat.eq_of_mul_eq_mul_right hp' he)
    omega
  simp only [partRead]
  rw [if_neg hmlt.ne]
  by_cases hs : ((read f).spws.filter fun s => (pick (some l) (read f).chanSpw).contains s).length = f.nspws
  · have hwin : ∀ {B C P : Option (List Nat)} {r : Raw K}, Part f B C P r → windows (pickLabels (read f) bi (some l) pi) r = .ok r :=
      fun h => windows_ok (by rw [h.nw]; exact hs)
    split
    · rename_i hbm
      have hbs : bi ≠ none := by rintro rfl; simp only [frac] at hbm hmlt; rw [← hbm] at hmlt; exact lt_irrefl _ hmlt
      obtain ⟨r1, g1, q1⟩ := takeB_ok (whole_part f) hbi hbs
      rcases hC q1 hs with h | h
      · exact ⟨.range, by simp only [g1, hwin q1, h, bind, Except.bind]⟩
      · obtain ⟨P, r3, g3, q3, hP⟩ := ifLessP hp q1 hpi
        exact ⟨.shape, by simp only [g1, hwin q1, h, g3, hR q3 (alike_refl _ _) hP, bind, Except.bind]⟩
    · split
      · obtain ⟨i, hi, hin⟩ := hbeyond hs
        have : l.any (fun i => decide ((whole f).nc ≤ i)) = true := by
          rw [List.any_eq_true]
          exact ⟨i, hi, decide_eq_true hin⟩
        refine ⟨.range, ?_⟩
        have e : takeC (some l) (whole f) = .error .range := by
          simp only [takeC]
          rw [this]
          rfl
        simp only [e, bind, Except.bind]
      · rename_i hbm hfm
        have hpm : frac pi 1 f.npols = min (frac bi 1 f.nblts) (min (frac (some l) f.nspws (f.nspws * f.nchan)) (frac pi 1 f.npols)) := by
          rcases min_choice (frac bi 1 f.nblts) (min (frac (some l) f.nspws (f.nspws * f.nchan)) (frac pi 1 f.npols)) with h | h
          · exact absurd h.symm hbm
          · rcases min_choice (frac (some l) f.nspws (f.nspws * f.nchan)) (frac pi 1 f.npols) with h' | h'
            · rw [h'] at h; exact absurd (by rw [h', h]) hfm
            · rw [h'] at h ⊢; exact h.symm
        have hps : pi ≠ none := by rintro rfl; simp only [frac] at hpm hmlt; rw [← hpm] at hmlt; exact lt_irrefl _ hmlt
        obtain ⟨r1, g1, q1⟩ := takeP_ok (whole_part f) hpi hps
        obtain ⟨B, r2, g2, q2, hB⟩ := ifLessB hb q1 hbi
        rcases hC q2 hs with h | h
        · exact ⟨.range, by simp only [g1, hwin q1, g2, h, bind, Except.bind]⟩
        · exact ⟨.shape, by simp only [g1, hwin q1, g2, h, hR q2 hB (alike_refl _ _), bind, Except.bind]⟩
  · have hwin : ∀ {B C P : Option (List Nat)} {r : Raw K}, Part f B C P r → windows (pickLabels (read f) bi (some l) pi) r = .error .assert :=
      fun h => windows_err (by rw [h.nw]; exact hs)
    split
    · rename_i hbm
      have hbs : bi ≠ none := by rintro rfl; simp only [frac] at hbm hmlt; rw [← hbm] at hmlt; exact lt_irrefl _ hmlt
      obtain ⟨r1, g1, q1⟩ := takeB_ok (whole_part f) hbi hbs
      exact ⟨.assert, by simp only [g1, hwin q1, bind, Except.bind]⟩
    · split
      · cases hany : l.any (fun i => decide ((whole f).nc ≤ i)) with
        | true =>
          refine ⟨.range, ?_⟩
          have e : takeC (some l) (whole f) = .error .range := by
            simp only [takeC]
            rw [hany]
            rfl
          simp only [e, bind, Except.bind]
        | false =>
          have hg : Good f.nchan (some l) := fun l' he => by
            cases he
            refine ⟨hne, (hl l rfl).2.1, fun i hi => ?_⟩
            have := List.any_eq_false.mp hany i hi
            exact not_le.mp fun hle => this (decide_eq_true hle)
          obtain ⟨r1, g1, q1⟩ := takeC_ok (whole_part f) hg (by simp)
          exact ⟨.assert, by simp only [g1, hwin q1, bind, Except.bind]⟩
      · rename_i hbm hfm
        have hpm : frac pi 1 f.npols = min (frac bi 1 f.nblts) (min (frac (some l) f.nspws (f.nspws * f.nchan)) (frac pi 1 f.npols)) := by
          rcases min_choice (frac bi 1 f.nblts) (min (frac (some l) f.nspws (f.nspws * f.nchan)) (frac pi 1 f.npols)) with h | h
          · exact absurd h.symm hbm
          · rcases min_choice (frac (some l) f.nspws (f.nspws * f.nchan)) (frac pi 1 f.npols) with h' | h'
            · rw [h'] at h; exact absurd (by rw [h', h]) hfm
            · rw [h'] at h ⊢; exact h.symm
        have hps : pi ≠ none := by rintro rfl; simp only [frac] at hpm hmlt; rw [← hpm] at hmlt; exact lt_irrefl _ hmlt
        obtain ⟨r1, g1, q1⟩ := takeP_ok (whole_part f) hpi hps
        exact ⟨.assert, by simp only [g1, hwin q1, bind, Except.bind]⟩

end Verif.Fits
