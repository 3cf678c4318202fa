import Verif.MirCipher.Model
import Mathlib.Data.List.Basic

/-!
# When records are matched by two numbers (C231)
-/
namespace Verif.MirCipher

/-- `x` is a value of the signed type with `n` values. -/
def Fits (n x : Int) : Prop := -n ≤ 2 * x ∧ 2 * x < n

/-- The type has at most 32 bits. -/
def Small (n : Int) : Prop := 0 < n ∧ n ≤ 2 ^ 32

theorem unsigned_val {n x : Int} (h : Fits n x) : (0 ≤ x → unsigned n x = x) ∧ (x < 0 → unsigned n x = x + n) := by
  obtain ⟨h1, h2⟩ := h
  refine ⟨fun h0 => Int.emod_eq_of_lt h0 (by omega), fun h0 => ?_⟩
  unfold unsigned
  rw [← Int.add_emod_right, Int.emod_eq_of_lt (by omega) (by omega)]

theorem unsigned_range {n : Int} (h : Small n) (x : Int) : 0 ≤ unsigned n x ∧ unsigned n x < 2 ^ 32 := by
  have h1 := Int.emod_nonneg x (show n ≠ 0 by have := h.1; omega)
  have h2 := Int.emod_lt_of_pos x h.1
  have := h.2
  unfold unsigned
  exact ⟨h1, by omega⟩

/-- The cipher of two pairs is one if and only if both numbers are, seen as unsigned ones. -/
theorem cipher_eq {n m n' m' : Int} (hn : Small n) (hm : Small m) (hn' : Small n') (hm' : Small m') (p q : Int × Int) :
    cipher n m p = cipher n' m' q ↔ unsigned n p.1 = unsigned n' q.1 ∧ unsigned m p.2 = unsigned m' q.2 := by
  have h1 := unsigned_range hn p.1
  have h2 := unsigned_range hm p.2
  have h3 := unsigned_range hn' q.1
  have h4 := unsigned_range hm' q.2
  unfold cipher
  constructor
  · intro h; omega
  · rintro ⟨h5, h6⟩; rw [h5, h6]

theorem unsigned_inj {n x y : Int} (hx : Fits n x) (hy : Fits n y) (h : unsigned n x = unsigned n y) : x = y := by
  have h1 := unsigned_val hx
  have h2 := unsigned_val hy
  obtain ⟨a1, a2⟩ := hx
  obtain ⟨b1, b2⟩ := hy
  rcases Int.lt_or_le x 0 with h3 | h3 <;> rcases Int.lt_or_le y 0 with h4 | h4
  · rw [h1.2 h3, h2.2 h4] at h; omega
  · rw [h1.2 h3, h2.1 h4] at h; omega
  · rw [h1.1 h3, h2.2 h4] at h; omega
  · rw [h1.1 h3, h2.1 h4] at h; omega

theorem keyMask_get {n m n' m' : Int} {this other : List (Int × Int)} {i : Nat} {p : Int × Int} (hi : this[i]? = some p)
    (h : ∀ q ∈ other, cipher n' m' q = cipher n m p ↔ q = p) : (keyMask n m this n' m' other)[i]? = some (decide (p ∈ other)) := by
  unfold keyMask
  rw [List.getElem?_map, hi, Option.map_some]
  congr 1
  rw [Bool.eq_iff_iff]
  simp only [List.contains_iff_mem, List.mem_map, decide_eq_true_eq]
  constructor
  · rintro ⟨q, hq, he⟩
    rw [← (h q hq).mp he]; exact hq
  · intro hp
    exact ⟨p, hp, (h p hp).mpr rfl⟩

/-- **C231** (numbers of one type): exactly the records with both numbers of some other record are kept. -/
theorem match_same {n m : Int} {this other : List (Int × Int)} (hn : Small n) (hm : Small m) (ht : ∀ p ∈ this, Fits n p.1 ∧ Fits m p.2)
    (ho : ∀ q ∈ other, Fits n q.1 ∧ Fits m q.2) {i : Nat} {p : Int × Int} (hi : this[i]? = some p) :
    (keyMask n m this n m other)[i]? = some (decide (p ∈ other)) := by
  have hp := ht p (List.mem_of_getElem? hi)
  refine keyMask_get hi (fun q hq => ?_)
  rw [cipher_eq hn hm hn hm]
  constructor
  · rintro ⟨h1, h2⟩
    exact Prod.ext (unsigned_inj (ho q hq).1 hp.1 h1) (unsigned_inj (ho q hq).2 hp.2 h2)
  · rintro rfl; exact ⟨rfl, rfl⟩

/-- **C231** (first numbers of any two types that are not negative): exactly the records with both numbers of some other record are kept. -/
theorem match_antennas_partial {n n' m : Int} {this other : List (Int × Int)} (hn : Small n) (hn' : Small n') (hm : Small m)
    (ht : ∀ p ∈ this, Fits n p.1 ∧ Fits m p.2 ∧ 0 ≤ p.1) (ho : ∀ q ∈ other, Fits n' q.1 ∧ Fits m q.2 ∧ 0 ≤ q.1) {i : Nat} {p : Int × Int}
    (hi : this[i]? = some p) : (keyMask n m this n' m other)[i]? = some (decide (p ∈ other)) := by
  have hp := ht p (List.mem_of_getElem? hi)
  refine keyMask_get hi (fun q hq => ?_)
  have hq' := ho q hq
  rw [cipher_eq hn' hm hn hm, (unsigned_val hq'.1).1 hq'.2.2, (unsigned_val hp.1).1 hp.2.2]
  constructor
  · rintro ⟨h1, h2⟩
    exact Prod.ext h1 (unsigned_inj hq'.2.1 hp.2.1 h2)
  · rintro rfl; exact ⟨rfl, rfl⟩

/-- **C231**: the mask has as many entries as there are records. -/
theorem match_length (n m : Int) (this : List (Int × Int)) (n' m' : Int) (other : List (Int × Int)) :
    (keyMask n m this n' m' other).length = this.length := by simp [keyMask]

/-- **C231 is false** for negative numbers of antennas: in types of different size they are not found, and other antennas are in their place. -/
theorem negative_counterexample {n n' m a b : Int} (hn : Small n) (hn' : Small n') (hm : Small m) (hne : n ≠ n') (ha : a < 0) (h1 : Fits n a)
    (h2 : Fits n' a) : keyMask n m [(a, b)] n' m [(a, b)] = [false] ∧ (Fits n' (a + n) → keyMask n m [(a, b)] n' m [(a + n, b)] = [true]) := by
  have e1 := (unsigned_val h1).2 ha
  have e2 := (unsigned_val h2).2 ha
  constructor
  · have hc : ¬ cipher n m (a, b) = cipher n' m (a, b) := by
      rw [cipher_eq hn hm hn' hm]
      rintro ⟨h, _⟩
      simp only [e1, e2] at h
      omega
    simp [keyMask, hc]
  · intro h3
    have h0 : 0 ≤ a + n := by have := h1.1; have := hn.1; omega
    have hc : cipher n m (a, b) = cipher n' m (a + n, b) := by
      rw [cipher_eq hn hm hn' hm]
      refine ⟨?_, rfl⟩
      simp only [e1, (unsigned_val h3).1 h0]
    simp [keyMask, hc]

end Verif.MirCipher
