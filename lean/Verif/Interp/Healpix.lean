import Mathlib.Algebra.Order.Field.Basic
import Mathlib.Algebra.Order.Ring.Abs
import Mathlib.Algebra.Order.Chebyshev
import Mathlib.Algebra.BigOperators.Group.List.Basic
import Mathlib.Algebra.Order.BigOperators.Group.Finset
import Mathlib.Algebra.BigOperators.Field
import Mathlib.Data.List.Nodup
import Mathlib.Data.Rat.Defs
import Mathlib.Data.Complex.Basic
import Mathlib.Tactic.Ring
import Mathlib.Tactic.FieldSimp
import Mathlib.Tactic.Linarith
import Mathlib.Tactic.NormNum

/-!
C106: interpolation in healpix maps and the areas of beams, `src/pyuvdata/uvbeam/uvbeam.py`: `_interp_healpix_bilinear`, lines 1623–1645 and 1736–1759,
`_get_beam`, `get_beam_area` and `get_beam_sq_area`, lines 2226–2344.

What astropy_healpix does is a parameter: for a point, the numbers of the pixels around it with their weights. Values are in a field; for complex values,
where the code interpolates the real and the imaginary part, the two parts are separate maps. π is a parameter. Polarizations are given by number.
-/
namespace Verif.Interp

variable {K : Type}

/-- Lines 1638–1645: a full map, with steps of at most one from each entry to the next and at least one step of one. -/
def mapAccepted (nside : Nat) (pixels : List Nat) : Bool :=
  decide (pixels.length = 12 * nside ^ 2) &&
    decide (((pixels.zip pixels.tail).map fun p => ((p.2 : Int) - p.1).natAbs).max? = some 1)

/-- Lines 1736–1759 for one point of one map: the map is used with positions as pixel numbers. -/
def hpInterp [Field K] (around : List (Nat × K)) (data : Nat → K) : K := (around.map fun p => p.2 * data p.1).sum

/-- The value a map has for a pixel: that at the position of its number. -/
def pixelValue (pixels : List Nat) (data : Nat → K) (p : Nat) : K := data (pixels.idxOf p)

private theorem steps {l : List Nat} (hnd : l.Nodup) (hd : ∀ (i : Nat) (a b : Nat), l[i]? = some a → l[i + 1]? = some b → ((b : Int) - a).natAbs ≤ 1) :
    (∀ i a b, l[0]? = some a → l[i]? = some b → b = a + i) ∨ (∀ i a b, l[0]? = some a → l[i]? = some b → b + i = a) := by
  rcases l with _ | ⟨x, _ | ⟨y, l⟩⟩
  · left; intro i a b h; simp at h
  · left
    intro i a b h h'
    cases i with
    | zero => rw [h] at h'; cases h'; rfl
    | succ i => simp at h'
  · have hxy : x ≠ y := by rintro rfl; simp at hnd
    have h0 := hd 0 x y rfl rfl
    have key : ∀ (i : Nat) (a b : Nat), (x :: y :: l)[i]? = some a → (x :: y :: l)[i + 1]? = some b → (b : Int) - a = (y : Int) - x := by
      intro i
      induction i with
      | zero => intro a b h h'; simp at h h'; omega
      | succ i ih =>
        intro a b h h'
        obtain ⟨hlt, -⟩ := List.getElem?_eq_some_iff.mp h'
        obtain ⟨c, hc⟩ : ∃ c, (x :: y :: l)[i]? = some c := ⟨_, List.getElem?_eq_getElem (by omega)⟩
        have h1 := ih c a hc h
        have h2 := hd (i + 1) a b h h'
        have hab : a ≠ b := by
          rintro rfl
          have := (List.getElem?_inj (List.getElem?_eq_some_iff.mp h).1 hnd).mp (h.trans h'.symm)
          omega
        have hcb : c ≠ b := by
          rintro rfl
          have := (List.getElem?_inj (List.getElem?_eq_some_iff.mp hc).1 hnd).mp (hc.trans h'.symm)
          omega
        omega
    have all : ∀ (i : Nat) (b : Nat), (x :: y :: l)[i]? = some b → (b : Int) = x + i * ((y : Int) - x) := by
      intro i
      induction i with
      | zero => intro b h; simp at h; omega
      | succ i ih =>
        intro b h
        obtain ⟨hlt, -⟩ := List.getElem?_eq_some_iff.mp h
        obtain ⟨c, hc⟩ : ∃ c, (x :: y :: l)[i]? = some c := ⟨_, List.getElem?_eq_getElem (by omega)⟩
        have h1 := ih c hc
        have h2 := key i c b hc h
        push_cast
        linarith
    have hs : (y : Int) - x = 1 ∨ (y : Int) - x = -1 := by omega
    rcases hs with hs | hs
    · left
      intro i a b h h'
      simp only [List.getElem?_cons_zero, Option.some.injEq] at h
      have := all i b h'
      rw [hs] at this
      omega
    · right
      intro i a b h h'
      simp only [List.getElem?_cons_zero, Option.some.injEq] at h
      have := all i b h'
      rw [hs] at this
      omega

/-- C106: an accepted map of different pixels is in the order of the pixel numbers or in the reverse order. -/
theorem order_two_ways {nside : Nat} {pixels : List Nat} (h : mapAccepted nside pixels = true) (hnd : pixels.Nodup)
    (hr : ∀ p ∈ pixels, p < 12 * nside ^ 2) :
    pixels = List.range (12 * nside ^ 2) ∨ pixels = (List.range (12 * nside ^ 2)).reverse := by
  simp only [mapAccepted, Bool.and_eq_true, decide_eq_true_eq] at h
  obtain ⟨hl, hm⟩ := h
  generalize 12 * nside ^ 2 = n at *
  have hd : ∀ (i : Nat) (a b : Nat), pixels[i]? = some a → pixels[i + 1]? = some b → ((b : Int) - a).natAbs ≤ 1 := by
    intro i a b h1 h2
    refine (List.max?_eq_some_iff.mp hm).2 _ ?_
    refine List.mem_map.mpr ⟨(a, b), ?_, rfl⟩
    refine List.mem_of_getElem? (i := i) ?_
    rw [List.getElem?_zip_eq_some]
    exact ⟨h1, by rw [List.getElem?_tail]; exact h2⟩
  rcases Nat.eq_zero_or_pos n with rfl | hn
  · left; exact List.eq_nil_of_length_eq_zero hl
  obtain ⟨a, ha⟩ : ∃ a, pixels[0]? = some a := ⟨_, List.getElem?_eq_getElem (by omega)⟩
  obtain ⟨z, hz⟩ : ∃ z, pixels[n - 1]? = some z := ⟨_, List.getElem?_eq_getElem (by omega)⟩
  have ha' := hr a (List.mem_of_getElem? ha)
  have hz' := hr z (List.mem_of_getElem? hz)
  rcases steps hnd hd with hs | hs
  · left
    have := hs _ _ _ ha hz
    refine List.ext_getElem? fun m => ?_
    by_cases hmn : m < n
    · have hm' : pixels[m]? = some pixels[m] := List.getElem?_eq_getElem (by omega)
      rw [List.getElem?_range hmn, hm', hs m a _ ha hm']
      congr 1
      omega
    · rw [List.getElem?_eq_none (by omega), List.getElem?_eq_none (by simp; omega)]
  · right
    have := hs _ _ _ ha hz
    refine List.ext_getElem? fun m => ?_
    by_cases hmn : m < n
    · have hm' : pixels[m]? = some pixels[m] := List.getElem?_eq_getElem (by omega)
      have h3 := hs m a _ ha hm'
      rw [List.getElem?_reverse (by simpa using hmn), List.length_range, List.getElem?_range (by omega), hm']
      congr 1
      omega
    · rw [List.getElem?_eq_none (by omega), List.getElem?_eq_none (by simp; omega)]

/-- C106, maps in the order of the pixel numbers: the value at a point is that of the pixels around it. -/
theorem healpix_value_partial [Field K] {n : Nat} {around : List (Nat × K)} {data : Nat → K} (hr : ∀ p ∈ around, p.1 < n) :
    hpInterp around data = (around.map fun p => p.2 * pixelValue (List.range n) data p.1).sum := by
  unfold hpInterp
  congr 1
  refine List.map_congr_left fun p hp => ?_
  have : (List.range n).idxOf p.1 = p.1 := by
    have := List.nodup_range (n := n) |>.idxOf_getElem p.1 (by simpa using hr p hp)
    simpa using this
  rw [pixelValue, this]

/-- C106, maps in the reverse order: the value at a point is that of the pixels with the numbers counted from the end, those on the opposite side. -/
theorem healpix_value_reversed [Field K] {n : Nat} {around : List (Nat × K)} {data : Nat → K} (hr : ∀ p ∈ around, p.1 < n) :
    hpInterp around data = (around.map fun p => p.2 * pixelValue (List.range n).reverse data (n - 1 - p.1)).sum := by
  unfold hpInterp
  congr 1
  refine List.map_congr_left fun p hp => ?_
  have hp' := hr p hp
  have : (List.range n).reverse.idxOf (n - 1 - p.1) = p.1 := by
    have := (List.nodup_reverse.mpr (List.nodup_range (n := n))).idxOf_getElem p.1 (by simpa using hp')
    simpa using this
  rw [pixelValue, this]

/-- C106 is false for maps in the reverse order: they are accepted, and the value at the centre of pixel 0 is that of pixel 11. -/
theorem healpix_order_counterexample :
    mapAccepted 1 (List.range 12).reverse = true ∧
      hpInterp (K := ℚ) [(0, 1)] (fun i => 11 - i) = 11 ∧ pixelValue (K := ℚ) (List.range 12).reverse (fun i => 11 - i) 0 = 0 := by
  decide +kernel

/-- C106 is false for maps with a pixel twice: they are accepted as well. -/
theorem healpix_twice_counterexample : mapAccepted 1 [0, 0, 1, 2, 3, 4, 5, 6, 7, 8, 9, 10] = true := by decide +kernel

/-- C106: weights that are not negative and have sum one keep the value between bounds of the map. -/
theorem healpix_between [Field K] [LinearOrder K] [IsStrictOrderedRing K] {around : List (Nat × K)} {data : Nat → K} {lo hi : K}
    (hw : ∀ p ∈ around, 0 ≤ p.2) (hs : (around.map Prod.snd).sum = 1) (hd : ∀ p ∈ around, lo ≤ data p.1 ∧ data p.1 ≤ hi) :
    lo ≤ hpInterp around data ∧ hpInterp around data ≤ hi := by
  have gen : ∀ l : List (Nat × K), (∀ p ∈ l, 0 ≤ p.2) → (∀ p ∈ l, lo ≤ data p.1 ∧ data p.1 ≤ hi) →
      (l.map Prod.snd).sum * lo ≤ hpInterp l data ∧ hpInterp l data ≤ (l.map Prod.snd).sum * hi := by
    intro l
    induction l with
    | nil => intro _ _; simp [hpInterp]
    | cons p l ih =>
      intro h1 h2
      obtain ⟨i1, i2⟩ := ih (fun q hq => h1 q (by simp [hq])) (fun q hq => h2 q (by simp [hq]))
      have := h1 p (by simp)
      obtain ⟨j1, j2⟩ := h2 p (by simp)
      simp only [hpInterp, List.map_cons, List.sum_cons] at i1 i2 ⊢
      constructor
      · nlinarith [mul_le_mul_of_nonneg_left j1 this]
      · nlinarith [mul_le_mul_of_nonneg_left j2 this]
  have := gen around hw hd
  rw [hs, one_mul, one_mul] at this
  exact this

inductive AErr where
  | notPower | vector | norm | notHealpix | noPol
deriving DecidableEq

/-- What the areas are computed from. `data` takes a polarization, a channel and a pixel. -/
structure Map (K : Type) where
  power : Bool
  nvec : Nat
  peak : Bool
  healpix : Bool
  nside : Nat
  npix : Nat
  pols : List Int
  data : Nat → Nat → Nat → K

/-- The checks of lines 2285–2292 and 2253–2257, with the position of the polarization. -/
def areaPol (m : Map K) (pol : Int) : Except AErr Nat :=
  if !m.power then .error .notPower
  else if 1 < m.nvec then .error .vector
  else if !m.peak then .error .norm
  else if !m.healpix then .error .notHealpix
  else if m.pols.contains pol then .ok (m.pols.idxOf pol) else .error .noPol

/-- `get_beam_area` for one channel, lines 2297–2300. -/
def beamArea [Field K] (pi : K) (m : Map K) (pol : Int) (chan : Nat) : Except AErr K :=
  match areaPol m pol with
  | .error e => .error e
  | .ok s => .ok ((∑ x ∈ Finset.range m.npix, m.data s chan x) * pi / (3 * (m.nside : K) ^ 2))

/-- `get_beam_sq_area` for one channel, lines 2339–2342. -/
def beamSqArea [Field K] (pi : K) (m : Map K) (pol : Int) (chan : Nat) : Except AErr K :=
  match areaPol m pol with
  | .error e => .error e
  | .ok s => .ok ((∑ x ∈ Finset.range m.npix, m.data s chan x ^ 2) * pi / (3 * (m.nside : K) ^ 2))

/-- C106: when areas are given. -/
theorem area_accepted_iff [Field K] {pi : K} {m : Map K} {pol : Int} {chan : Nat} :
    (∃ a, beamArea pi m pol chan = .ok a) ↔ m.power = true ∧ m.nvec ≤ 1 ∧ m.peak = true ∧ m.healpix = true ∧ pol ∈ m.pols := by
  unfold beamArea areaPol
  cases m.power <;> cases m.peak <;> cases m.healpix <;> by_cases h : 1 < m.nvec <;> by_cases hp : pol ∈ m.pols <;> simp [h, hp] <;> omega

/-- C106: the areas of a full map are the sums over the pixels of value times the area of a pixel, a twelfth of `4π / nside²`; that of a beam that is
one everywhere is `4π`. -/
theorem area_value [Field K] [CharZero K] {pi : K} {m : Map K} {pol : Int} {chan s : Nat} {a b : K} (ha : beamArea pi m pol chan = .ok a)
    (hb : beamSqArea pi m pol chan = .ok b) (hs : areaPol m pol = .ok s) (hn : m.npix = 12 * m.nside ^ 2) (hpos : 0 < m.nside) :
    m.pols[s]? = some pol ∧ a = ∑ x ∈ Finset.range m.npix, m.data s chan x * (4 * pi / m.npix) ∧
      b = ∑ x ∈ Finset.range m.npix, m.data s chan x ^ 2 * (4 * pi / m.npix) ∧
      ((∀ x < m.npix, m.data s chan x = 1) → a = 4 * pi ∧ b = 4 * pi) := by
  have hn0 : (m.nside : K) ≠ 0 := by exact_mod_cast hpos.ne'
  have e : ∀ t : K, t * pi / (3 * (m.nside : K) ^ 2) = t * (4 * pi / m.npix) := by
    intro t
    rw [hn]
    push_cast
    field_simp
    ring
  unfold beamArea at ha
  unfold beamSqArea at hb
  rw [hs] at ha hb
  simp only [Except.ok.injEq] at ha hb
  have ea : a = ∑ x ∈ Finset.range m.npix, m.data s chan x * (4 * pi / m.npix) := by rw [← ha, e, Finset.sum_mul]
  have eb : b = ∑ x ∈ Finset.range m.npix, m.data s chan x ^ 2 * (4 * pi / m.npix) := by rw [← hb, e, Finset.sum_mul]
  have hnp : (m.npix : K) ≠ 0 := by rw [hn]; exact_mod_cast (by positivity)
  refine ⟨?_, ea, eb, fun h1 => ?_⟩
  · unfold areaPol at hs
    split at hs <;> [cases hs; skip]
    split at hs <;> [cases hs; skip]
    split at hs <;> [cases hs; skip]
    split at hs <;> [cases hs; skip]
    split at hs
    · rename_i hc
      cases hs
      exact List.getElem?_idxOf (by simpa using hc)
    · cases hs
  · constructor
    · rw [ea, Finset.sum_congr rfl (fun x hx => by rw [h1 x (Finset.mem_range.mp hx), one_mul])]
      simp only [Finset.sum_const, Finset.card_range, nsmul_eq_mul]
      field_simp
    · rw [eb, Finset.sum_congr rfl (fun x hx => by rw [h1 x (Finset.mem_range.mp hx), one_pow, one_mul])]
      simp only [Finset.sum_const, Finset.card_range, nsmul_eq_mul]
      field_simp

/-- C106: for a full map with values between zero and one the area of the square is at most the area, the area at most `4π`, and the square of the area at
most `4π` times the area of the square. -/
theorem area_bounds [Field K] [LinearOrder K] [IsStrictOrderedRing K] {pi : K} (hpi : 0 ≤ pi) {m : Map K} {pol : Int} {chan s : Nat} {a b : K}
    (ha : beamArea pi m pol chan = .ok a) (hb : beamSqArea pi m pol chan = .ok b) (hs : areaPol m pol = .ok s) (hn : m.npix = 12 * m.nside ^ 2)
    (hpos : 0 < m.nside) (hd : ∀ x < m.npix, 0 ≤ m.data s chan x ∧ m.data s chan x ≤ 1) :
    0 ≤ b ∧ b ≤ a ∧ a ≤ 4 * pi ∧ a ^ 2 ≤ 4 * pi * b := by
  obtain ⟨-, ea, eb, -⟩ := area_value ha hb hs hn hpos
  have hnp : (0 : K) < m.npix := by rw [hn]; exact_mod_cast (by positivity)
  have hw : 0 ≤ 4 * pi / m.npix := by positivity
  have hcs := sq_sum_le_card_mul_sum_sq (s := Finset.range m.npix) (f := fun x => m.data s chan x)
  rw [← Finset.sum_mul] at ea eb
  rw [Finset.card_range] at hcs
  have h1 : 0 ≤ ∑ x ∈ Finset.range m.npix, m.data s chan x ^ 2 := Finset.sum_nonneg fun x _ => sq_nonneg _
  have h2 : ∑ x ∈ Finset.range m.npix, m.data s chan x ^ 2 ≤ ∑ x ∈ Finset.range m.npix, m.data s chan x := by
    refine Finset.sum_le_sum fun x hx => ?_
    obtain ⟨h, h'⟩ := hd x (Finset.mem_range.mp hx)
    nlinarith
  have h3 : ∑ x ∈ Finset.range m.npix, m.data s chan x ≤ m.npix := by
    calc ∑ x ∈ Finset.range m.npix, m.data s chan x ≤ ∑ x ∈ Finset.range m.npix, (1 : K) :=
          Finset.sum_le_sum fun x hx => (hd x (Finset.mem_range.mp hx)).2
      _ = m.npix := by simp
  generalize (∑ x ∈ Finset.range m.npix, m.data s chan x ^ 2) = B at *
  generalize (∑ x ∈ Finset.range m.npix, m.data s chan x) = A at *
  have hwn : (m.npix : K) * (4 * pi / m.npix) = 4 * pi := by field_simp
  refine ⟨by rw [eb]; positivity, by rw [ea, eb]; exact mul_le_mul_of_nonneg_right h2 hw, ?_, ?_⟩
  · rw [ea]
    refine le_trans ?_ hwn.le
    exact mul_le_mul_of_nonneg_right h3 hw
  · calc a ^ 2 = A ^ 2 * (4 * pi / m.npix) ^ 2 := by rw [ea]; ring
      _ ≤ (m.npix * B) * (4 * pi / m.npix) ^ 2 := mul_le_mul_of_nonneg_right hcs (sq_nonneg _)
      _ = (m.npix * (4 * pi / m.npix)) * (B * (4 * pi / m.npix)) := by ring
      _ = 4 * pi * b := by rw [hwn, eb]

/-- C106 is false for the complex maps of cross polarizations: the area of the square is that of the square and not of the square of the modulus, so that of
a map of modulus one everywhere can be negative. -/
theorem sq_area_complex_counterexample (pi : ℂ) : beamSqArea pi (K := ℂ)
    { power := true, nvec := 1, peak := true, healpix := true, nside := 1, npix := 12, pols := [-7], data := fun _ _ _ => Complex.I } (-7) 0 =
      .ok (-(4 * pi)) := by
  simp [beamSqArea, areaPol]
  ring

/-- A map with the polarizations -5 and -6, of which the second is one half everywhere, meets the conditions of the theorems. -/
def mapEx : Map ℚ where
  power := true
  nvec := 1
  peak := true
  healpix := true
  nside := 1
  npix := 12
  pols := [-5, -6]
  data := fun s _ x => if s = 1 then 1 / 2 else if x = 3 then 1 else 0

example : beamArea (22 / 7) mapEx (-6) 0 = .ok (44 / 7) ∧ beamSqArea (22 / 7) mapEx (-6) 0 = .ok (22 / 7) ∧
    beamArea (22 / 7) mapEx (-5) 0 = .ok (22 / 21) ∧ beamArea (22 / 7) mapEx (-7) 0 = .error .noPol := by
  decide +kernel

example : mapAccepted 1 (List.range 12) = true ∧ hpInterp (K := ℚ) [(0, 1 / 4), (3, 3 / 4)] (fun i => i) = 9 / 4 := by decide +kernel

end Verif.Interp
