import Verif.BeamFits.Props
import Mathlib.Tactic.NormNum

/-!
C118: what reading a part of a beamfits file by ranges of frequencies and angles gives; concrete cases for C117 and C118.
-/
namespace Verif.BeamFits

open Verif.Fits

variable {K : Type} [Field K] [LinearOrder K]

theorem find_first {n : Nat} {p : Nat → Bool} {a : Nat} (h : (List.range n).find? p = some a) : a < n ∧ p a = true ∧ ∀ i < a, p i = false := by
  rw [List.find?_range_eq_some] at h
  obtain ⟨h1, h2, h3⟩ := h
  exact ⟨by simpa using h2, h1, fun i hi => by simpa using h3 i hi⟩

theorem find_last' {n : Nat} {p : Nat → Bool} {a : Nat} (h : (List.range n).reverse.find? p = some a) :
    a < n ∧ p a = true ∧ ∀ i, a < i → i < n → p i = false := by
  induction n with
  | zero => simp at h
  | succ n ih =>
    rw [List.range_succ, List.reverse_append, List.reverse_singleton, List.singleton_append, List.find?_cons] at h
    split at h
    · rename_i hp
      cases h
      exact ⟨by omega, hp, fun i h1 h2 => by omega⟩
    · rename_i hp
      obtain ⟨h1, h2, h3⟩ := ih h
      refine ⟨by omega, h2, fun i hi hn => ?_⟩
      by_cases e : i = n
      · rw [e]; exact hp
      · exact h3 i hi (by omega)

/-- What is found by a range on an axis, without the search. -/
theorem rangeOf_spec {l : List K} {lo hi : K} {a b : Nat} (h : rangeOf l (some (lo, hi)) = .ok (some (a, b))) :
    (∃ x, l[a]? = some x ∧ lo ≤ x) ∧ (∀ (i : Nat) (x : K), i < a → l[i]? = some x → x < lo) ∧
    (∃ x, 0 < b ∧ l[b - 1]? = some x ∧ x ≤ hi) ∧ ∀ (i : Nat) (x : K), b ≤ i → l[i]? = some x → hi < x := by
  unfold rangeOf at h
  simp only at h
  split at h
  · rename_i a' b' ha hb
    simp only [Except.ok.injEq, Option.some.injEq, Prod.mk.injEq] at h
    obtain ⟨rfl, rfl⟩ := h
    obtain ⟨h1, h2, h3⟩ := find_first ha
    obtain ⟨g1, g2, g3⟩ := find_last' hb
    refine ⟨?_, ?_, ?_, ?_⟩
    · rw [List.getElem?_eq_getElem h1] at h2 ⊢
      exact ⟨_, rfl, by simpa using h2⟩
    · intro i x hi hx
      have := h3 i hi
      rw [hx] at this
      simpa using this
    · rw [List.getElem?_eq_getElem g1] at g2
      exact ⟨_, by omega, List.getElem?_eq_getElem (by omega), by simpa using g2⟩
    · intro i x hi hx
      have := g3 i (by omega) (List.getElem?_eq_some_iff.mp hx).1
      rw [hx] at this
      simpa using this
  · cases h

omit [Field K] in
theorem sorted_get {l : List K} (hl : l.Pairwise (· ≤ ·)) {i j : Nat} {x y : K} (hij : i ≤ j) (hx : l[i]? = some x) (hy : l[j]? = some y) : x ≤ y := by
  obtain ⟨h1, rfl⟩ := List.getElem?_eq_some_iff.mp hx
  obtain ⟨h2, rfl⟩ := List.getElem?_eq_some_iff.mp hy
  rcases Nat.lt_or_ge i j with h | h
  · exact List.pairwise_iff_getElem.mp hl i j h1 h2 h
  · have : i = j := by omega
    subst this
    exact le_refl _

/-- C118: on a rising axis a range is what is in it. -/
theorem slice_rising {l : List K} (hl : l.Pairwise (· ≤ ·)) {lo hi : K} {s : Option (Nat × Nat)} (h : rangeOf l (some (lo, hi)) = .ok s) :
    sliceL s l = l.filter fun x => decide (lo ≤ x ∧ x ≤ hi) := by
  cases s with
  | none =>
    unfold rangeOf at h
    simp only at h
    split at h <;> cases h
  | some ab =>
    obtain ⟨a, b⟩ := ab
    obtain ⟨⟨xa, ha, hla⟩, h1, ⟨xb, hb0, hb, hhb⟩, h2⟩ := rangeOf_spec h
    have key : ∀ (i : Nat) (x : K), l[i]? = some x → ((lo ≤ x ∧ x ≤ hi) ↔ (a ≤ i ∧ i < b)) := by
      intro i x hx
      constructor
      · rintro ⟨e1, e2⟩
        refine ⟨?_, ?_⟩
        · by_contra hc
          exact absurd (h1 i x (by omega) hx) (not_lt.mpr e1)
        · by_contra hc
          exact absurd (h2 i x (by omega) hx) (not_lt.mpr e2)
      · rintro ⟨e1, e2⟩
        exact ⟨hla.trans (sorted_get hl e1 ha hx), (sorted_get hl (by omega) hx hb).trans hhb⟩
    show (l.take b).drop a = _
    have hsplit : l = (l.take a) ++ l.drop a := (List.take_append_drop a l).symm
    by_cases hab : a ≤ b
    · have h3 : l = l.take a ++ ((l.take b).drop a ++ l.drop b) := by
        conv_lhs => rw [← List.take_append_drop b l]
        rw [← List.append_assoc]
        congr 1
        conv_lhs => rw [← List.take_append_drop a (l.take b)]
        rw [List.take_take, Nat.min_eq_left hab]
      conv_rhs => rw [h3]
      rw [List.filter_append, List.filter_append]
      have f1 : (l.take a).filter (fun x => decide (lo ≤ x ∧ x ≤ hi)) = [] := by
        rw [List.filter_eq_nil_iff]
        intro x hx
        obtain ⟨i, hi⟩ := List.getElem?_of_mem hx
        rw [List.getElem?_take] at hi
        split at hi
        · have := (key i x hi).not
          simp only [decide_eq_true_eq]
          rw [this]
          omega
        · cases hi
      have f2 : (l.drop b).filter (fun x => decide (lo ≤ x ∧ x ≤ hi)) = [] := by
        rw [List.filter_eq_nil_iff]
        intro x hx
        obtain ⟨i, hi⟩ := List.getElem?_of_mem hx
        rw [List.getElem?_drop] at hi
        have := (key _ x hi).not
        simp only [decide_eq_true_eq]
        rw [this]
        omega
      have f3 : ((l.take b).drop a).filter (fun x => decide (lo ≤ x ∧ x ≤ hi)) = (l.take b).drop a := by
        rw [List.filter_eq_self]
        intro x hx
        obtain ⟨i, hi⟩ := List.getElem?_of_mem hx
        rw [List.getElem?_drop, List.getElem?_take] at hi
        split at hi
        · simp only [decide_eq_true_eq]
          exact (key _ x hi).mpr (by omega)
        · cases hi
      rw [f1, f2, f3]
      simp
    · rw [List.drop_eq_nil_of_le (by simp; omega)]
      symm
      rw [List.filter_eq_nil_iff]
      intro x hx
      obtain ⟨i, hi⟩ := List.getElem?_of_mem hx
      have := (key i x hi).not
      simp only [decide_eq_true_eq]
      rw [this]
      omega

/-- C118 is false on a falling axis: a range with some value in it is ignored, and all is read. -/
theorem falling_counterexample {l : List K} (hl : l.Pairwise (· ≥ ·)) {lo hi x : K} (hx : x ∈ l) (h1 : lo ≤ x) (h2 : x ≤ hi) :
    rangeOf l (some (lo, hi)) = .ok (some (0, l.length)) ∧ sliceL (some (0, l.length)) l = l := by
  refine ⟨?_, by simp [sliceL]⟩
  obtain ⟨i, hi'⟩ := List.getElem?_of_mem hx
  have hlt := (List.getElem?_eq_some_iff.mp hi').1
  have ge : ∀ {i j : Nat} {x y : K}, i ≤ j → l[i]? = some x → l[j]? = some y → y ≤ x := by
    intro i j x y hij hx hy
    obtain ⟨g1, rfl⟩ := List.getElem?_eq_some_iff.mp hx
    obtain ⟨g2, rfl⟩ := List.getElem?_eq_some_iff.mp hy
    rcases Nat.lt_or_ge i j with h | h
    · exact List.pairwise_iff_getElem.mp hl i j g1 g2 h
    · have : i = j := by omega
      subst this
      exact le_refl _
  have hfirst : (List.range l.length).find? (fun i => (l[i]?.map fun x => decide (lo ≤ x)).getD false) = some 0 := by
    rw [List.find?_range_eq_some]
    refine ⟨?_, by simp; omega, by simp⟩
    have h0 : l[0]? = some (l[0]'(by omega)) := List.getElem?_eq_getElem (by omega)
    rw [h0]
    simpa using h1.trans (ge (Nat.zero_le i) h0 hi')
  have hlast : (List.range l.length).reverse.find? (fun i => (l[i]?.map fun x => decide (x ≤ hi)).getD false) = some (l.length - 1) := by
    obtain ⟨n, hn⟩ : ∃ n, l.length = n + 1 := ⟨l.length - 1, by omega⟩
    rw [hn, List.range_succ, List.reverse_append, List.reverse_singleton, List.singleton_append, List.find?_cons_of_pos]
    · simp
    · have h0 : l[n]? = some (l[n]'(by omega)) := List.getElem?_eq_getElem (by omega)
      rw [h0]
      simpa using (ge (by omega) hi' h0).trans h2
  unfold rangeOf
  simp only [hfirst, hlast]
  congr 2
  rw [Nat.sub_add_cancel (by omega)]

theorem sliceL_get {α : Type} {l : List α} {s : Option (Nat × Nat)} {i : Nat} {x : α} (h : (sliceL s l)[i]? = some x) : l[i + start s]? = some x := by
  cases s with
  | none => exact h
  | some ab =>
    obtain ⟨a, b⟩ := ab
    simp only [sliceL, List.getElem?_drop, List.getElem?_take, start] at h ⊢
    split at h
    · rw [Nat.add_comm]; exact h
    · cases h

/-- The part of an axis that is in a range, all of it if there is none. -/
def inRange (r : Option (K × K)) (l : List K) : List K := match r with
  | none => l
  | some (lo, hi) => l.filter fun x => decide (lo ≤ x ∧ x ≤ hi)

theorem slice_inRange {l : List K} (hl : l.Pairwise (· ≤ ·)) {r : Option (K × K)} {s : Option (Nat × Nat)} (h : rangeOf l r = .ok s) :
    sliceL s l = inRange r l := by
  cases r with
  | none => cases h; rfl
  | some p => exact slice_rising hl h

theorem rangeOf_none {l : List K} : rangeOf l none = .ok none := rfl

theorem read_facts {T : BTol K} {azr zar fr : Option (K × K)} {f : BFile K} {b : Beam K} (h : read T azr zar fr f = .ok b) :
    ∃ b₀ s1 s2 s3, read T none none none f = .ok b₀ ∧
      rangeOf b₀.axis1 (azr.map fun r => (r.1 / T.deg, r.2 / T.deg)) = .ok s1 ∧ rangeOf b₀.axis2 (zar.map fun r => (r.1 / T.deg, r.2 / T.deg)) = .ok s2 ∧
      rangeOf b₀.freqs fr = .ok s3 ∧ b.axis1 = sliceL s1 b₀.axis1 ∧ b.axis2 = sliceL s2 b₀.axis2 ∧ b.freqs = sliceL s3 b₀.freqs ∧
      b.cols = (b₀.cols.map fun c => (c.1, sliceL s3 c.2)) ∧ b.healpix = b₀.healpix ∧ b.efield = b₀.efield ∧ b.cplx = b₀.cplx ∧ b.pixels = b₀.pixels ∧
      b.nvec = b₀.nvec ∧ b.pols = b₀.pols ∧ b.feeds = b₀.feeds ∧
      (b.healpix = false → ∀ v p k y x, b.data v p k [y, x] = b₀.data v p (k + start s3) [y + start s2, x + start s1]) ∧
      (b.healpix = true → ∀ v p k s, b.data v p k s = b₀.data v p (k + start s3) s) := by
  unfold read at h
  simp only at h
  split at h
  · cases h
  rename_i hr1
  split at h
  · cases h
  rename_i hr2
  split at h
  · cases h
  · cases h
  rename_i s1 s2 hs1 hs2
  split at h
  · cases h
  rename_i hr3
  split at h
  · cases h
  rename_i s3 hs3
  split at h
  · cases h
  rename_i hr4
  by_cases hr5 : (if (f.efield || decide (axFreq f.healpix + 3 < f.shape.length)) = true then f.shape.tail else f.shape).getD 1 0 ≠ 1
  · rw [if_pos hr5] at h
    cases h
  rw [if_neg hr5] at h
  injection h with h
  subst h
  refine ⟨_, s1, s2, s3, by
    unfold read
    simp only [Option.map_none, rangeOf_none, if_neg hr2, if_neg hr3, if_neg hr4, if_neg hr5, Option.isSome_none, Bool.false_eq_true, or_self, and_false, if_false]
    rfl, ?_⟩
  refine ⟨by simpa [sliceL] using hs1, by simpa [sliceL] using hs2, by simpa [sliceL] using hs3, by simp [sliceL], by simp [sliceL], by simp [sliceL],
    by simp [sliceL], rfl, rfl, rfl, rfl, rfl, rfl, rfl, ?_, ?_⟩
  · intro hh v p k y x
    simp only at hh
    simp [hh, start]
  · intro hh v p k s
    simp only at hh
    simp [hh, start]

/-- C118. Reading a file with ranges, if the axes are rising, gives the beam with those coordinates and frequencies that are in the ranges, and at each of
them the value of the whole beam. -/
theorem ranges_partial {T : BTol K} {azr zar fr : Option (K × K)} {f : BFile K} {b : Beam K} (h : read T azr zar fr f = .ok b) :
    ∃ b₀, read T none none none f = .ok b₀ ∧ b.healpix = b₀.healpix ∧ b.efield = b₀.efield ∧ b.cplx = b₀.cplx ∧ b.pixels = b₀.pixels ∧ b.nvec = b₀.nvec ∧
      b.pols = b₀.pols ∧ b.feeds = b₀.feeds ∧
      (b₀.axis1.Pairwise (· ≤ ·) → b.axis1 = inRange (azr.map fun r => (r.1 / T.deg, r.2 / T.deg)) b₀.axis1) ∧
      (b₀.axis2.Pairwise (· ≤ ·) → b.axis2 = inRange (zar.map fun r => (r.1 / T.deg, r.2 / T.deg)) b₀.axis2) ∧
      (b₀.freqs.Pairwise (· ≤ ·) → b.freqs = inRange fr b₀.freqs) ∧
      ∃ o1 o2 o3 : Nat, (∀ (i : Nat) (x : K), b.axis1[i]? = some x → b₀.axis1[i + o1]? = some x) ∧
        (∀ (i : Nat) (x : K), b.axis2[i]? = some x → b₀.axis2[i + o2]? = some x) ∧ (∀ (i : Nat) (x : K), b.freqs[i]? = some x → b₀.freqs[i + o3]? = some x) ∧
        (∀ (j : Nat) (n : List Char) (c : List K), b.cols[j]? = some (n, c) → ∃ c₀, b₀.cols[j]? = some (n, c₀) ∧ ∀ (i : Nat) (x : K), c[i]? = some x → c₀[i + o3]? = some x) ∧
        (b.healpix = false → ∀ v p k y x, b.data v p k [y, x] = b₀.data v p (k + o3) [y + o2, x + o1]) ∧
        (b.healpix = true → ∀ v p k s, b.data v p k s = b₀.data v p (k + o3) s) := by
  obtain ⟨b₀, s1, s2, s3, h0, r1, r2, r3, e1, e2, e3, e4, e5, e6, e7, e8, e9, e10, e11, d1, d2⟩ := read_facts h
  refine ⟨b₀, h0, e5, e6, e7, e8, e9, e10, e11, fun hl => by rw [e1]; exact slice_inRange hl r1, fun hl => by rw [e2]; exact slice_inRange hl r2,
    fun hl => by rw [e3]; exact slice_inRange hl r3, start s1, start s2, start s3, ?_, ?_, ?_, ?_, d1, d2⟩
  · intro i x hx; rw [e1] at hx; exact sliceL_get hx
  · intro i x hx; rw [e2] at hx; exact sliceL_get hx
  · intro i x hx; rw [e3] at hx; exact sliceL_get hx
  · intro j n c hj
    rw [e4, List.getElem?_map] at hj
    cases hc : b₀.cols[j]? with
    | none => rw [hc] at hj; cases hj
    | some c₀ =>
      rw [hc] at hj
      simp only [Option.map_some, Option.some.injEq, Prod.mk.injEq] at hj
      obtain ⟨rfl, rfl⟩ := hj
      exact ⟨c₀.2, rfl, fun i x hx => sliceL_get hx⟩

/-! Concrete cases. -/

def T1 : BTol ℚ where
  ftol := 1 / 1000
  rtol := 1 / 100000
  atol := 1 / 100000000
  deg := 60

/-- A power beam with two polarizations and real values. -/
def beam2 : Beam ℚ where
  healpix := false
  efield := false
  cplx := false
  axis1 := [0, 1, 2]
  axis2 := [0, 1]
  pixels := []
  freqs := [100, 101]
  nvec := 1
  pols := [-5, -6]
  feeds := []
  cols := [("bandpass".toList, [7, 8])]
  data := fun _ p k s => (p + 10 * k + 100 * (s.getD 0 0) + 1000 * (s.getD 1 0), 0)

def fileB (b : Beam ℚ) : Option (BFile ℚ) :=
  match write T1 b with
  | .ok f => some f
  | .error _ => none

def readB (azr zar fr : Option (ℚ × ℚ)) (b : Beam ℚ) : Option (Except BErr (Beam ℚ)) := (fileB b).map (read T1 azr zar fr)

def errB (r : Option (Except BErr (Beam ℚ))) : Option BErr := match r with
  | some (.error e) => some e
  | _ => none

def beamB (r : Option (Except BErr (Beam ℚ))) : Option (Beam ℚ) := match r with
  | some (.ok b) => some b
  | _ => none

/-- The file is written and cannot be read. -/
example : (fileB beam2).isSome = true ∧ errB (readB none none none beam2) = some .windows := by decide +kernel

/-- With complex values it can be. -/
def beam4 : Beam ℚ := { beam2 with cplx := true }

example : (beamB (readB none none none beam4)).map (fun b => (b.axis1, b.axis2, b.freqs, b.pols)) = some ([0, 1, 2], [0, 1], [100, 101], [-5, -6]) ∧
    (beamB (readB none none none beam4)).map (fun b => b.data 0 1 1 [1, 2]) = some (2111, 0) := by decide +kernel

/-- A part of it. -/
example : (beamB (readB (some (30, 130)) none (some (101, 200)) beam4)).map (fun b => (b.axis1, b.freqs, b.cols)) =
      some ([1, 2], [101], [("bandpass".toList, [8])]) ∧
    (beamB (readB (some (30, 130)) none (some (101, 200)) beam4)).map (fun b => b.data 0 1 0 [1, 0]) = some (1111, 0) := by decide +kernel

/-- The same beam with falling frequencies: the range of frequencies is ignored. -/
example : (beamB (readB none none (some (101, 200)) { beam4 with freqs := [101, 100] })).map (fun b => b.freqs) = some [101, 100] ∧
    ([101, 100] : List ℚ).Pairwise (· ≥ ·) := by decide +kernel

/-- C118: a range between two values gives a beam without any. -/
theorem empty_counterexample : (beamB (readB (some (70, 110)) none none beam4)).map (fun b => b.axis1) = some [] := by decide +kernel

/-- Errors of writing. -/
example : errB ((fileB { beam4 with freqs := [1, 2, 4] }).map fun _ => .error .freqs) = none ∧
    (fileB { beam4 with axis1 := [0, 1, 3] }).isSome = false ∧ (fileB { beam4 with pols := [-5, -6, -8] }).isSome = false := by decide +kernel

end Verif.BeamFits
