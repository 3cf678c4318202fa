import Verif.BltAxis.Model

/-!
What it means for the baseline-time axis to be in an order, and to be rectangular.
-/
namespace Verif.BltAxis

variable {τ : Type} [LinearOrder τ]

/-- Row `p` may stand before row `q` when sorting by one key. -/
def keyLe : Key → Row τ → Row τ → Prop
  | .time, p, q => p.t ≤ q.t
  | .baseline, p, q => p.bl ≤ q.bl
  | .ant1, p, q => p.a ≤ q.a
  | .ant2, p, q => p.b ≤ q.b

/-- Strictly before. -/
def keyLt (k : Key) (p q : Row τ) : Prop := keyLe k p q ∧ ¬ keyLe k q p

/-- Lexicographic comparison by a list of keys. -/
def lexLe : List Key → Row τ → Row τ → Prop
  | [], _, _ => True
  | k :: ks, p, q => keyLt k p q ∨ (keyLe k p q ∧ lexLe ks p q)

/-- The axis is sorted by the listed keys, most significant first. -/
def SortedBy (ks : List Key) (rows : List (Row τ)) : Prop := rows.Pairwise (lexLe ks)

/-- Baseline by baseline: every baseline has the same times in the same order. -/
def BaselineMajor (times : List τ) (bls : List Nat) (nbls ntimes : Nat) : Prop :=
  ∃ (B : List Nat) (T : List τ), B.Nodup ∧ T.Nodup ∧ B.length = nbls ∧ T.length = ntimes ∧
    times = B.flatMap (fun _ => T) ∧ bls = B.flatMap (fun b => T.map (fun _ => b))

/-- Time by time: every time has the same baselines in the same order. -/
def TimeMajor (times : List τ) (bls : List Nat) (nbls ntimes : Nat) : Prop :=
  ∃ (B : List Nat) (T : List τ), B.Nodup ∧ T.Nodup ∧ B.length = nbls ∧ T.length = ntimes ∧
    times = T.flatMap (fun t => B.map (fun _ => t)) ∧ bls = T.flatMap (fun _ => B)

end Verif.BltAxis
