import Verif.Baseline.Model

namespace Verif.Baseline

theorem arrayMax_ge (x : Nat) (xs : List Nat) : x ≤ arrayMax x xs ∧ ∀ v ∈ xs, v ≤ arrayMax x xs := by
  induction xs generalizing x with
  | nil => simp [arrayMax]
  | cons y ys ih =>
    simp only [arrayMax, List.foldl_cons, List.mem_cons, forall_eq_or_imp]
    have := ih (if y > x then y else x)
    simp only [arrayMax] at this
    refine ⟨Nat.le_trans ?_ this.1, Nat.le_trans ?_ this.1, this.2⟩ <;> split <;> omega

theorem arrayMax_mem (x : Nat) (xs : List Nat) : arrayMax x xs ∈ x :: xs := by
  induction xs generalizing x with
  | nil => simp [arrayMax]
  | cons y ys ih =>
    have := ih (if y > x then y else x)
    simp only [arrayMax, List.foldl_cons, List.mem_cons] at this ⊢
    rcases this with h | h
    · rw [h]; split <;> simp
    · exact Or.inr (Or.inr h)

theorem arrayMin_le (x : Nat) (xs : List Nat) : arrayMin x xs ≤ x ∧ ∀ v ∈ xs, arrayMin x xs ≤ v := by
  induction xs generalizing x with
  | nil => simp [arrayMin]
  | cons y ys ih =>
    simp only [arrayMin, List.foldl_cons, List.mem_cons, forall_eq_or_imp]
    have := ih (if y < x then y else x)
    simp only [arrayMin] at this
    refine ⟨Nat.le_trans this.1 ?_, Nat.le_trans this.1 ?_, this.2⟩ <;> split <;> omega

theorem arrayMin_mem (x : Nat) (xs : List Nat) : arrayMin x xs ∈ x :: xs := by
  induction xs generalizing x with
  | nil => simp [arrayMin]
  | cons y ys ih =>
    have := ih (if y < x then y else x)
    simp only [arrayMin, List.foldl_cons, List.mem_cons] at this ⊢
    rcases this with h | h
    · rw [h]; split <;> simp
    · exact Or.inr (Or.inr h)

/-- The antennas a formula is used for. -/
def Conv.ok : Conv → Nat → Nat → Prop
  | .c256, a, b => a < 256 ∧ b < 256
  | .c2048, a, b => a < 2048 ∧ b < 2048
  | .large, a, b => a < 2147483648 ∧ b < 2147483648
  | .miriad, _, _ => False

theorem pickEnc_ok (att nl : Bool) (mx a b : Nat) (ha : a ≤ mx) (hb : b ≤ mx) (h : mx < 2147483648) :
    (pickEnc att nl false mx).ok a b := by
  unfold pickEnc
  cases att <;> cases nl <;> simp <;> (repeat' split) <;> simp [Conv.ok] <;> omega

theorem encOne_val (c : Conv) (a b : Nat) (h : c.ok a b) :
    encOne c a b = (match c with
      | .c256 => 256 * a + b | .c2048 => 2048 * a + b + 65536
      | .large => 2147483648 * a + b + 4259840 | .miriad => 0) := by
  cases c <;> simp only [Conv.ok] at h <;> simp only [encOne, u64] <;> omega

theorem pickDec_enc (c : Conv) (a b : Nat) (h : c.ok a b) : pickDec (encOne c a b) = c := by
  have := encOne_val c a b h
  cases c <;> simp only [Conv.ok] at h <;> simp only at this <;> rw [this] <;>
    simp only [pickDec] <;> (repeat' split) <;> simp <;> omega

theorem decOne_enc (c : Conv) (a b : Nat) (h : c.ok a b) : decOne c (encOne c a b) = (a, b) := by
  have := encOne_val c a b h
  cases c <;> simp only [Conv.ok] at h <;> simp only at this <;> rw [this] <;>
    simp only [decOne, sub64, u64, Prod.mk.injEq] <;> omega

theorem encOne_le (c : Conv) (a b : Nat) (h : c.ok a b) : encOne c a b ≤ 4611686018498691072 := by
  have := encOne_val c a b h
  cases c <;> simp only [Conv.ok] at h <;> simp only at this <;> rw [this] <;> omega

theorem zip_map_fst {α β : Type} (xs : List α) (ys : List β) (h : xs.length = ys.length) :
    (xs.zip ys).map Prod.fst = xs ∧ (xs.zip ys).map Prod.snd = ys := by
  induction xs generalizing ys with
  | nil => cases ys <;> simp_all
  | cons x xs ih =>
    cases ys with
    | nil => simp at h
    | cons y ys => simp at h; have := ih ys h; simp [this]

/-- Values of the decoder formulas without wrap-around. -/
theorem decOne_large (b : Nat) (h : b < 2 ^ 63) (hb : 4259840 ≤ b) :
    decOne .large b = ((b - 4259840) / 2147483648, (b - 4259840) % 2147483648) := by
  simp only [decOne, sub64, u64, Prod.mk.injEq]
  omega

theorem decOne_2048 (b : Nat) (h : b < 2 ^ 63) (hb : 65536 ≤ b) :
    decOne .c2048 b = ((b - 65536) / 2048, (b - 65536) % 2048) := by
  simp only [decOne, sub64, u64, Prod.mk.injEq]
  omega

theorem decOne_256 (b : Nat) (h : b < 2 ^ 63) : decOne .c256 b = (b / 256, b % 256) := by
  have e : sub64 b (b % 256) = 256 * (b / 256) := by
    have h1 : b % 256 % 2 ^ 64 = b % 256 := by omega
    have h2 : b + 2 ^ 64 - b % 256 = 256 * (b / 256) + 2 ^ 64 := by omega
    have h3 : 256 * (b / 256) < 2 ^ 64 := by omega
    unfold sub64 u64
    rw [h1, h2, Nat.add_mod_right, Nat.mod_eq_of_lt h3]
  simp only [decOne, e, Prod.mk.injEq, and_true]
  omega

end Verif.Baseline
