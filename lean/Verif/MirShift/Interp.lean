import Verif.MirShift.Kernel
import Mathlib.Tactic.Module
import Mathlib.Tactic.LinearCombination

/-!
# What kernels do to spectra, and to flags
-/

namespace Verif.MirShift

section
variable {K V : Type} [Field K] [AddCommGroup V] [Module K V]

theorem mapM_none {α β : Type} (F : α → Option β) (z : List α) : z.mapM F = none ↔ ∃ x ∈ z, F x = none := by
  induction z with
  | nil => simp
  | cons x z ih =>
    rw [List.mapM_cons]
    cases hx : F x with
    | none => simp [hx]
    | some y =>
      cases hz : z.mapM F with
      | none => simp [hx, ← ih, hz]
      | some ys =>
        have : ¬ ∃ x ∈ z, F x = none := by rw [← ih, hz]; simp
        simp [hx] at this ⊢
        exact fun a ha => this a ha

theorem kernSum_none {W : Type} [AddCommGroup W] [Module K W] (kern : List K) (g : Nat → Option W) :
    kernSum kern g = none ↔ ∃ j < kern.length, g j = none := by
  unfold kernSum
  rw [Option.map_eq_none_iff, mapM_none]
  constructor
  · rintro ⟨x, hx, h⟩
    have := List.mem_zipIdx hx
    exact ⟨x.2, by omega, by simpa using h⟩
  · rintro ⟨j, hj, h⟩
    exact ⟨(kern[j], j), by rw [List.mem_zipIdx_iff_getElem?]; simp [hj], by simp [h]⟩

theorem kernSum_two {W : Type} [AddCommGroup W] [Module K W] (a b : K) (g : Nat → Option W) :
    kernSum [a, b] g = (g 0).bind fun x => (g 1).map fun y => a • x + b • y := by
  unfold kernSum
  cases h0 : g 0 <;> cases h1 : g 1 <;> simp [List.zipIdx, h0, h1]

theorem kernSum_four {W : Type} [AddCommGroup W] [Module K W] (a b c d : K) (g : Nat → Option W) :
    kernSum [a, b, c, d] g = (g 0).bind fun x => (g 1).bind fun y => (g 2).bind fun z => (g 3).map fun t =>
      a • x + (b • y + (c • z + d • t)) := by
  unfold kernSum
  cases h0 : g 0 <;> cases h1 : g 1 <;> cases h2 : g 2 <;> cases h3 : g 3 <;> simp [List.zipIdx, h0, h1, h2, h3]

/-- Data of a channel. -/
def val (l : List (Chan V K)) (p : Int) : V := ((at? l p).map Chan.v).getD 0

/-- Weight of a channel. -/
def wgt (l : List (Chan V K)) (p : Int) : K := ((at? l p).map Chan.w).getD 0

/-- A channel is there and not flagged. -/
def good (l : List (Chan V K)) (p : Int) : Prop := ∃ ch, at? l p = some ch ∧ ch.fl = false

omit [Field K] [AddCommGroup V] [Module K V] in
theorem at?_none {l : List (Chan V K)} {p : Int} : at? l p = none ↔ p < 0 ∨ (l.length : Int) ≤ p := by
  unfold at?
  split
  · rw [List.getElem?_eq_none_iff]; omega
  · simp; omega

omit [Field K] [AddCommGroup V] [Module K V] in
theorem met_adj_none {W : Type} [Zero W] (pick : Chan V K → W) (l : List (Chan V K)) (p : Int) (j : Nat) :
    met true pick l p j = none ↔ ¬ good l (p - j) := by
  unfold met good
  cases h : at? l (p - j) with
  | none => simp
  | some ch => cases hf : ch.fl <;> simp [masked, hf]

omit [Module K V] in
theorem met_good (adj : Bool) (l : List (Chan V K)) (p : Int) (j : Nat) (h : good l (p - j)) :
    met adj Chan.v l p j = some (val l (p - j)) ∧ met adj Chan.w l p j = some (wgt l (p - j)) := by
  obtain ⟨ch, h1, h2⟩ := h
  simp [met, val, wgt, h1, masked, h2]

/-- With flagging of neighbours, a channel is flagged exactly when one of the channels under the kernel is flagged or outside the band. -/
theorem flags_spread (c : Int) (kern : List K) (h : Nat) (hl : kern.length = 2 * h) (hh : 1 ≤ h) (l : List (Chan V K))
    (hn : 2 * h + c.natAbs ≤ l.length) :
    ∃ out, shift (c, some kern) true l = some out ∧ out.length = l.length ∧
      ∀ k < l.length, ∃ ch, out[k]? = some ch ∧
        (ch.fl = true ↔ ∃ p : Int, (k : Int) - c - h ≤ p ∧ p < (k : Int) - c + h ∧ ¬ good l p) ∧ (ch.fl = true → ch.v = 0 ∧ ch.w = 0) := by
  obtain ⟨out, h1, h2, h3⟩ := kernel_get c kern h hl hh true l hn
  refine ⟨out, h1, h2, fun k hk => ⟨_, h3 k hk, ?_⟩⟩
  split
  · rename_i hin
    unfold inner
    simp only [if_true]
    have key : kernSum kern (met true Chan.v l (k - c + h - 1)) = none ↔
        ∃ p : Int, (k : Int) - c - h ≤ p ∧ p < (k : Int) - c + h ∧ ¬ good l p := by
      rw [kernSum_none]
      constructor
      · rintro ⟨j, hj, hm⟩
        exact ⟨k - c + h - 1 - j, by omega, by omega, (met_adj_none _ _ _ _).1 hm⟩
      · rintro ⟨p, hp1, hp2, hp3⟩
        refine ⟨(k - c + h - 1 - p).toNat, by omega, (met_adj_none _ _ _ _).2 ?_⟩
        have : ((k : Int) - c + h - 1 - ((k - c + h - 1 - p).toNat : Int)) = p := by omega
        rwa [this]
    split
    · rename_i hx; exact ⟨iff_of_true rfl (key.1 hx), fun _ => ⟨rfl, rfl⟩⟩
    · rename_i v hx
      refine ⟨iff_of_false (by simp) (fun hp => ?_), by simp⟩
      have := key.2 hp
      rw [this] at hx; cases hx
  · rename_i hin
    refine ⟨iff_of_true rfl ?_, fun _ => ⟨rfl, rfl⟩⟩
    by_cases h0 : 0 ≤ (k : Int) - c - h
    · refine ⟨k - c + h - 1, by omega, by omega, ?_⟩
      rintro ⟨ch, hch, -⟩
      have := (at?_none (l := l) (p := k - c + h - 1)).2 (by omega)
      rw [this] at hch; cases hch
    · refine ⟨k - c - h, by omega, by omega, ?_⟩
      rintro ⟨ch, hch, -⟩
      have := (at?_none (l := l) (p := k - c - h)).2 (by omega)
      rw [this] at hch; cases hch

/-- Without flagging of neighbours a shift with a kernel drops the flags of the spectrum: only channels near the edges of the band are flagged,
whatever was flagged before. -/
theorem flags_dropped_counterexample (c : Int) (kern : List K) (h : Nat) (hl : kern.length = 2 * h) (hh : 1 ≤ h) (l : List (Chan V K))
    (hn : 2 * h + c.natAbs ≤ l.length) :
    ∃ out, shift (c, some kern) false l = some out ∧ out.length = l.length ∧
      ∀ k < l.length, ∃ ch, out[k]? = some ch ∧ (ch.fl = true ↔ (k : Int) - c - h < 0 ∨ l.length < (k : Int) - c + h) := by
  obtain ⟨out, h1, h2, h3⟩ := kernel_get c kern h hl hh false l hn
  refine ⟨out, h1, h2, fun k hk => ⟨_, h3 k hk, ?_⟩⟩
  split
  · rename_i hin
    simp only [inner, Bool.false_eq_true, if_false, false_iff]
    omega
  · simp only [blank, true_iff]; omega

end

section
variable {K V : Type} [Field K] [LinearOrder K] [IsStrictOrderedRing K] [FloorRing K] [AddCommGroup V] [Module K V]

/-- Value at `x` on the line through the samples around it. -/
def lineAt {W : Type} [AddCommGroup W] [Module K W] (d : Int → W) (x : K) : W := d ⌊x⌋ + (x - ⌊x⌋) • (d (⌊x⌋ + 1) - d ⌊x⌋)

/-- Keys' cubic convolution kernel. -/
def keys (a t : K) : K :=
  if |t| ≤ 1 then (a + 2) * |t| ^ 3 - (a + 3) * |t| ^ 2 + 1
  else if |t| < 2 then a * |t| ^ 3 - 5 * a * |t| ^ 2 + 8 * a * |t| - 4 * a else 0

/-- Value at `x` by cubic convolution: the four samples around it, each by the kernel at its distance. -/
def cubicAt {W : Type} [AddCommGroup W] [Module K W] (a : K) (d : Int → W) (x : K) : W :=
  keys a (x - (⌊x⌋ - 1 : Int)) • d (⌊x⌋ - 1) + keys a (x - ⌊x⌋) • d ⌊x⌋ + keys a (x - (⌊x⌋ + 1 : Int)) • d (⌊x⌋ + 1) +
    keys a (x - (⌊x⌋ + 2 : Int)) • d (⌊x⌋ + 2)

theorem floor_of (m : Int) (g x : K) (hx : x = m + g) (h0 : 0 ≤ g) (h1 : g < 1) : ⌊x⌋ = m := by
  rw [Int.floor_eq_iff, hx]; constructor <;> linarith

/-- With the linear kernel a channel takes the value on the lines through the old channels, at the position from which the shift brings it. -/
theorem linear_moves (s a tol : K) (c : Int) (kern : List K) (hg : genKernel s .linear a tol = some (c, some kern)) (adj : Bool)
    (l : List (Chan V K)) (hn : 2 + c.natAbs ≤ l.length) :
    ∃ out, shift (c, some kern) adj l = some out ∧ out.length = l.length ∧
      ∀ k < l.length, good l ⌊(k : K) - s⌋ → good l (⌊(k : K) - s⌋ + 1) →
        out[k]? = some ⟨lineAt (val l) ((k : K) - s), false, lineAt (wgt l) ((k : K) - s)⟩ := by
  obtain ⟨f, hs, hf0, hf1, ⟨-, rfl⟩ | ⟨hk, -⟩⟩ := kernel_parts s a tol _ c kern hg
  swap
  · cases hk
  obtain ⟨out, h1, h2, h3⟩ := kernel_get c [1 - f, f] 1 rfl le_rfl adj l hn
  refine ⟨out, h1, h2, fun k hk g0 g1 => ?_⟩
  have hfl : ⌊(k : K) - s⌋ = (k : Int) - c - 1 := by
    refine floor_of _ (1 - f) _ ?_ (by linarith) (by linarith)
    rw [hs]; push_cast; ring
  rw [hfl] at g0 g1
  have e0 : (k : Int) - c + (1 : Nat) - 1 - (0 : Nat) = k - c - 1 + 1 := by omega
  have e1 : (k : Int) - c + (1 : Nat) - 1 - (1 : Nat) = k - c - 1 := by omega
  have m0 := met_good adj l ((k : Int) - c + (1 : Nat) - 1) 0 (by rw [e0]; exact g1)
  have m1 := met_good adj l ((k : Int) - c + (1 : Nat) - 1) 1 (by rw [e1]; exact g0)
  rw [e0] at m0; rw [e1] at m1
  have r0 : 0 ≤ (k : Int) - c - 1 := by
    obtain ⟨ch, hc, -⟩ := g0
    by_contra hcon
    rw [at?_none.2 (Or.inl (by omega))] at hc; cases hc
  have r1 : (k : Int) - c < l.length := by
    obtain ⟨ch, hc, -⟩ := g1
    by_contra hcon
    rw [at?_none.2 (Or.inr (by omega))] at hc; cases hc
  rw [h3 k hk, if_pos ⟨by omega, by omega⟩, kernSum_two, kernSum_two, m0.1, m0.2, m1.1, m1.2]
  have hx : (k : K) - s - ((k : Int) - c - 1 : Int) = 1 - f := by rw [hs]; push_cast; ring
  unfold lineAt
  rw [hfl, hx]
  simp only [Option.bind_some, Option.map_some, inner, Option.getD_some, ite_self, Option.some.injEq, Chan.mk.injEq, true_and]
  constructor
  · module
  · simp only [smul_eq_mul]; ring

theorem keys_far (a f : K) (h0 : 0 < f) (h1 : f < 1) :
    keys a (1 + f) = a * (1 + f) ^ 3 - 5 * a * (1 + f) ^ 2 + 8 * a * (1 + f) - 4 * a ∧
      keys a f = (a + 2) * f ^ 3 - (a + 3) * f ^ 2 + 1 ∧
      keys a (f - 1) = (a + 2) * (1 - f) ^ 3 - (a + 3) * (1 - f) ^ 2 + 1 ∧
      keys a (f - 2) = a * (2 - f) ^ 3 - 5 * a * (2 - f) ^ 2 + 8 * a * (2 - f) - 4 * a := by
  have a1 : |1 + f| = 1 + f := abs_of_pos (by linarith)
  have a2 : |f| = f := abs_of_pos h0
  have a3 : |f - 1| = 1 - f := by rw [abs_of_neg (by linarith)]; ring
  have a4 : |f - 2| = 2 - f := by rw [abs_of_neg (by linarith)]; ring
  unfold keys
  rw [a1, a2, a3, a4, if_neg (by linarith), if_pos (by linarith), if_pos (by linarith), if_pos (by linarith), if_neg (by linarith),
    if_pos (by linarith)]
  exact ⟨rfl, rfl, rfl, rfl⟩

/-- With the cubic kernel a channel takes the value by cubic convolution at the position from which a shift by the mirrored fraction brings it: the
spectrum is moved by `2 ⌊s⌋ + 1 - s` channels where `s` was asked. -/
theorem cubic_mirrored_counterexample (s a tol : K) (c : Int) (kern : List K) (hg : genKernel s .cubic a tol = some (c, some kern)) (adj : Bool)
    (l : List (Chan V K)) (hn : 4 + c.natAbs ≤ l.length) :
    ∃ out, shift (c, some kern) adj l = some out ∧ out.length = l.length ∧
      ∀ k < l.length, (∀ p : Int, (k : Int) - ⌊s⌋ - 2 ≤ p → p ≤ (k : Int) - ⌊s⌋ + 1 → good l p) →
        out[k]? = some ⟨cubicAt a (val l) ((k : K) - (2 * ⌊s⌋ + 1 - s)), false, cubicAt a (wgt l) ((k : K) - (2 * ⌊s⌋ + 1 - s))⟩ := by
  obtain ⟨f, hs, hf0, hf1, ⟨hk, -⟩ | ⟨-, rfl⟩⟩ := kernel_parts s a tol _ c kern hg
  · cases hk
  have hc : ⌊s⌋ = c := floor_of c f s hs hf0.le hf1
  obtain ⟨out, h1, h2, h3⟩ := kernel_get c (cubicKernel a f) 2 rfl (by omega) adj l hn
  refine ⟨out, h1, h2, fun k hk hg => ?_⟩
  rw [hc] at hg ⊢
  have hfl : ⌊(k : K) - (2 * c + 1 - s)⌋ = (k : Int) - c - 1 := by
    refine floor_of _ f _ ?_ hf0.le hf1
    rw [hs]; push_cast; ring
  have e0 : (k : Int) - c + (2 : Nat) - 1 - (0 : Nat) = k - c - 1 + 2 := by omega
  have e1 : (k : Int) - c + (2 : Nat) - 1 - (1 : Nat) = k - c - 1 + 1 := by omega
  have e2 : (k : Int) - c + (2 : Nat) - 1 - (2 : Nat) = k - c - 1 := by omega
  have e3 : (k : Int) - c + (2 : Nat) - 1 - (3 : Nat) = k - c - 1 - 1 := by omega
  have m0 := met_good adj l ((k : Int) - c + (2 : Nat) - 1) 0 (hg _ (by omega) (by omega))
  have m1 := met_good adj l ((k : Int) - c + (2 : Nat) - 1) 1 (hg _ (by omega) (by omega))
  have m2 := met_good adj l ((k : Int) - c + (2 : Nat) - 1) 2 (hg _ (by omega) (by omega))
  have m3 := met_good adj l ((k : Int) - c + (2 : Nat) - 1) 3 (hg _ (by omega) (by omega))
  rw [e0] at m0; rw [e1] at m1; rw [e2] at m2; rw [e3] at m3
  have r0 : 0 ≤ (k : Int) - c - 2 := by
    obtain ⟨ch, hc, -⟩ := hg (k - c - 2) (by omega) (by omega)
    by_contra hcon
    rw [at?_none.2 (Or.inl (by omega))] at hc; cases hc
  have r1 : (k : Int) - c + 1 < l.length := by
    obtain ⟨ch, hc, -⟩ := hg (k - c + 1) (by omega) (by omega)
    by_contra hcon
    rw [at?_none.2 (Or.inr (by omega))] at hc; cases hc
  rw [h3 k hk, if_pos ⟨by omega, by omega⟩]
  unfold cubicKernel
  rw [kernSum_four, kernSum_four, m0.1, m0.2, m1.1, m1.2, m2.1, m2.2, m3.1, m3.2]
  have hx : (k : K) - (2 * c + 1 - s) = k - c - 1 + f := by rw [hs]; ring
  obtain ⟨k1, k2, k3, k4⟩ := keys_far a f hf0 hf1
  unfold cubicAt
  rw [hfl, hx]
  push_cast
  rw [show (k : K) - c - 1 + f - (k - c - 1 - 1) = 1 + f by ring, show (k : K) - c - 1 + f - (k - c - 1) = f by ring,
    show (k : K) - c - 1 + f - (k - c - 1 + 1) = f - 1 by ring, show (k : K) - c - 1 + f - (k - c - 1 + 2) = f - 2 by ring, k1, k2, k3, k4]
  simp only [Option.bind_some, Option.map_some, inner, Option.getD_some, ite_self, Option.some.injEq, Chan.mk.injEq, true_and]
  constructor
  · abel
  · simp only [smul_eq_mul]; ring

/-- The cubic kernel is right for shifts by whole channels and a half. -/
theorem cubic_half_partial (m : Int) (a tol : K) (h0 : 0 ≤ tol) (h1 : tol ≤ 1 / 2) (adj : Bool) (l : List (Chan V K))
    (hn : 4 + m.natAbs ≤ l.length) :
    ∃ kern out, genKernel ((m : K) + 1 / 2) .cubic a tol = some (m, some kern) ∧ shift (m, some kern) adj l = some out ∧
      ∀ k < l.length, (∀ p : Int, (k : Int) - m - 2 ≤ p → p ≤ (k : Int) - m + 1 → good l p) →
        out[k]? = some ⟨cubicAt a (val l) ((k : K) - (m + 1 / 2)), false, cubicAt a (wgt l) ((k : K) - (m + 1 / 2))⟩ := by
  have hfl : ⌊(m : K) + 1 / 2⌋ = m := floor_of m (1 / 2) _ rfl (by norm_num) (by norm_num)
  have hp : parts ((m : K) + 1 / 2) tol = (m, 1 / 2) := by
    unfold parts
    simp only [hfl]
    rw [if_neg (by push Not; constructor <;> linarith)]
    simp
  have hg : genKernel ((m : K) + 1 / 2) .cubic a tol = some (m, some (cubicKernel a (1 / 2))) := by
    unfold genKernel
    rw [if_neg (by push Not; exact ⟨h0, h1⟩), hp]
    simp
  obtain ⟨out, e1, -, e3⟩ := cubic_mirrored_counterexample _ a tol m _ hg adj l hn
  refine ⟨_, out, hg, e1, fun k hk hgood => ?_⟩
  have := e3 k hk (by rw [hfl]; exact hgood)
  rw [this, hfl, show (k : K) - (2 * m + 1 - (m + 1 / 2)) = k - (m + 1 / 2) by ring]

/-- Cubic convolution with the parameter -1/2 finds the values of a ramp. -/
theorem cubicAt_ramp {W : Type} [AddCommGroup W] [Module K W] (u d : W) (x : K) :
    cubicAt (-1 / 2) (fun p : Int => u + (p : K) • d) x = u + x • d := by
  have hf0 : 0 ≤ x - ⌊x⌋ := sub_nonneg.2 (Int.floor_le x)
  have hf1 : x - ⌊x⌋ < 1 := by have := Int.lt_floor_add_one x; linarith
  obtain ⟨f, hf⟩ : ∃ f, f = x - (⌊x⌋ : K) := ⟨_, rfl⟩
  rw [← hf] at hf0 hf1
  have hx : x = ⌊x⌋ + f := by rw [hf]; ring
  unfold cubicAt
  generalize ⌊x⌋ = m at *
  subst hx
  push_cast
  rw [show (m : K) + f - (m - 1) = 1 + f by ring, show (m : K) + f - m = f by ring,
    show (m : K) + f - (m + 1) = f - 1 by ring, show (m : K) + f - (m + 2) = f - 2 by ring]
  rcases hf0.eq_or_lt with h | h
  · subst h
    have b1 : keys (-1 / 2 : K) (1 + 0) = 0 := by unfold keys; norm_num
    have b2 : keys (-1 / 2 : K) 0 = 1 := by unfold keys; norm_num
    have b3 : keys (-1 / 2 : K) (0 - 1) = 0 := by unfold keys; norm_num
    have b4 : keys (-1 / 2 : K) (0 - 2) = 0 := by unfold keys; norm_num
    rw [b1, b2, b3, b4]
    module
  · obtain ⟨k1, k2, k3, k4⟩ := keys_far (-1 / 2) f h hf1
    rw [k1, k2, k3, k4]
    module

/-- On a ramp, the cubic kernel as it is gives the ramp moved by the mirrored shift; so it is wrong for every ramp that is not constant and every
shift with a fraction other than a half. -/
theorem cubic_ramp_counterexample (s tol : K) (c : Int) (kern : List K) (hg : genKernel s .cubic (-1 / 2) tol = some (c, some kern)) (adj : Bool)
    (l : List (Chan V K)) (hn : 4 + c.natAbs ≤ l.length) (u d : V) (hl : ∀ (p : Nat) ch, l[p]? = some ch → ch.fl = false ∧ ch.v = u + (p : K) • d) :
    ∃ out, shift (c, some kern) adj l = some out ∧
      ∀ k < l.length, 0 ≤ (k : Int) - ⌊s⌋ - 2 → (k : Int) - ⌊s⌋ + 1 < l.length →
        ∃ ch, out[k]? = some ch ∧ ch.fl = false ∧ ch.v = u + ((k : K) - (2 * ⌊s⌋ + 1 - s)) • d ∧
          (ch.v = u + ((k : K) - s) • d ↔ s = ⌊s⌋ + 1 / 2 ∨ d = 0) := by
  obtain ⟨out, h1, -, h3⟩ := cubic_mirrored_counterexample s (-1 / 2) tol c kern hg adj l hn
  refine ⟨out, h1, fun k hk hk0 hk1 => ⟨_, h3 k hk ?_, rfl, ?_⟩⟩
  · intro p hp0 hp1
    have hp : p.toNat < l.length := by omega
    refine ⟨l[p.toNat], ?_, (hl p.toNat _ (List.getElem?_eq_getElem hp)).1⟩
    unfold at?
    rw [if_pos (by omega), List.getElem?_eq_getElem hp]
  · have hv : cubicAt (-1 / 2) (val l) ((k : K) - (2 * ⌊s⌋ + 1 - s)) = u + ((k : K) - (2 * ⌊s⌋ + 1 - s)) • d := by
      rw [← cubicAt_ramp]
      obtain ⟨f, hs, hf0, hf1, -⟩ := kernel_parts s _ tol _ c kern hg
      have hc : ⌊s⌋ = c := floor_of c f s hs hf0.le hf1
      rw [hc] at hk0 hk1 ⊢
      have hfl : ⌊(k : K) - (2 * c + 1 - s)⌋ = (k : Int) - c - 1 := by
        refine floor_of _ f _ ?_ hf0.le hf1
        rw [hs]; push_cast; ring
      have hval : ∀ p : Int, (k : Int) - c - 2 ≤ p → p ≤ (k : Int) - c + 1 → val l p = u + (p : K) • d := by
        intro p hp0 hp1
        have hp : p.toNat < l.length := by omega
        unfold val at?
        rw [if_pos (by omega), List.getElem?_eq_getElem hp]
        simp only [Option.map_some, Option.getD_some]
        rw [(hl p.toNat _ (List.getElem?_eq_getElem hp)).2]
        have : ((p.toNat : Nat) : K) = ((p.toNat : Int) : K) := by push_cast; rfl
        rw [this, Int.toNat_of_nonneg (by omega)]
      unfold cubicAt
      rw [hfl, hval _ (by omega) (by omega), hval _ (by omega) (by omega), hval _ (by omega) (by omega), hval _ (by omega) (by omega)]
    refine ⟨hv, ?_⟩
    simp only
    rw [hv, add_right_inj, ← sub_eq_zero, ← sub_smul, smul_eq_zero]
    refine or_congr ?_ Iff.rfl
    constructor <;> intro h <;> linarith

end

end Verif.MirShift
