/-
What a user expects of baseline numbers, written without reference to the model.
-/
namespace Verif.Baseline.Spec

/-- The three documented numbering schemes (multiplier, offset): 256 scheme, 2048 scheme, large scheme. -/
def schemes : List (Int × Int) := [(256, 0), (2048, 65536), (2147483648, 4259840)]

/-- `bls` numbers the antenna pairs of `a1`/`a2` in one of the documented schemes, position by position. -/
def NumbersPairs (a1 a2 : List Int) (bls : List Nat) : Prop :=
  ∃ s ∈ schemes, (bls.map (fun b : Nat => (b : Int))) = List.zipWith (fun a b => s.1 * a + b + s.2) a1 a2

/-- The antenna numbers that may be used. -/
def ValidAnts (a1 a2 : List Int) : Prop :=
  a1 ≠ [] ∧ a1.length = a2.length ∧ ∀ a ∈ a1 ++ a2, 0 ≤ a ∧ a < 2147483648

/-- The ranges of numbers reserved for the three schemes. -/
def band (b : Int) : Nat := if b < 65536 then 0 else if b < 4259840 then 1 else 2

/-- Lexicographic order on pairs. -/
def pairLt (p q : Int × Int) : Prop := p.1 < q.1 ∨ (p.1 = q.1 ∧ p.2 < q.2)

end Verif.Baseline.Spec
