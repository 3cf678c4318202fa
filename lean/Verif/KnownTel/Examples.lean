import Verif.KnownTel.Props

namespace Verif.KnownTel
open Verif.Pol (Str)

def ants : Info Int where
  names := [['a'], ['b'], ['c']]
  nums := [10, 11, 12]
  pos := [100, 110, 120]

def hera : Entry Int Nat := ⟨some ants, some [14], some ['e', 'a', 's', 't']⟩

/-- Two antennas, the second with another name than in the file, and no positions. -/
def two : Tel Nat Int Nat := ⟨none, some 2, some [['c'], ['x']], some [12, 10], none, none, none⟩

def view (t : Option (Tel Nat Int Nat)) : Option (Option Nat × Option Nat × Option (List Str)) :=
  t.map (fun t => (t.loc, t.nants, t.names))

def view2 (t : Option (Tel Nat Int Nat)) : Option (Option (List Nat) × Option (List Int) × Option (List Nat)) :=
  t.map (fun t => (t.nums, t.pos, t.diam))

example : view (update false (some 7) (some hera) two) = some (some 7, some 2, some [['c'], ['x']]) ∧
    view2 (update false (some 7) (some hera) two) = some (some [12, 10], some [120, 100], some [14, 14]) := by
  constructor <;> decide +kernel

example : Found ants two [['c']] [10] :=
  ⟨Or.inl ⟨[['x']], by decide +kernel⟩, Or.inl ⟨[12], by decide +kernel⟩, by decide +kernel, by decide +kernel,
    by decide +kernel, by decide +kernel⟩

example : Keeps two two ∧ hera.ants = some ants ∧ (update false (some 7) (some hera) two).isSome ∧
    ants.nums.length = ants.names.length ∧ ants.pos.length = ants.names.length ∧ two.names.isSome :=
  ⟨Keeps.rfl, rfl, by decide +kernel, rfl, rfl, rfl⟩

/-- Nothing is set. -/
def bare : Tel Nat Int Nat := ⟨none, none, none, none, none, none, none⟩

example : view2 (update false (some 7) (some hera) bare) = some (some [10, 11, 12], some [100, 110, 120], some [14, 14, 14]) ∧
    (bare.names = none ∧ bare.nums = none ∧ bare.pos = none ∧ bare.nants = none) := by
  constructor <;> decide +kernel

/-- One antenna that is not in the file: no positions. -/
def unknown : Tel Nat Int Nat := ⟨none, some 2, some [['c'], ['x']], some [12, 99], none, none, none⟩

example : view2 (update false (some 7) (some hera) unknown) = some (some [12, 99], none, some [14, 14]) ∧
    (∀ l, unknown.names = some l → l.length = 2 ∧ ∀ x, l[1]? = some x → x ∉ ants.names) ∧
    (∀ l, unknown.nums = some l → l.length = 2 ∧ ∀ x, l[1]? = some x → x ∉ ants.nums) := by
  refine ⟨by decide +kernel, ?_, ?_⟩
  · intro l hl
    cases hl
    refine ⟨rfl, ?_⟩
    intro x hx
    cases hx
    decide +kernel
  · intro l hl
    cases hl
    refine ⟨rfl, ?_⟩
    intro x hx
    cases hx
    decide +kernel

/-- The same two antennas in the other order. -/
def swapped : Tel Nat Int Nat := ⟨none, some 2, some [['x'], ['c']], some [10, 12], none, none, none⟩

/-- An antenna found by number before one found by name: antenna 10 gets the position of antenna 12 and antenna 12 that
of antenna 10. -/
theorem order_counterexample :
    view2 (update false (some 7) (some hera) swapped) = some (some [10, 12], some [120, 100], some [14, 14]) ∧
    ants.nums[0]? = some 10 ∧ ants.pos[0]? = some 100 ∧ ants.nums[2]? = some 12 ∧ ants.pos[2]? = some 120 := by
  refine ⟨by decide +kernel, rfl, rfl, rfl, rfl⟩

/-- Names and numbers are known but their number is not set: the positions are not filled in, though all antennas are
in the file. -/
theorem nants_counterexample :
    view2 (update false (some 7) (some hera)
      (⟨none, none, some [['c'], ['a']], some [12, 10], none, none, none⟩ : Tel Nat Int Nat)) =
      some (some [12, 10], none, none) := by
  decide +kernel

/-- A name without a position anywhere: refused. -/
example : view (update false none (some hera) two) = none := by decide +kernel

end Verif.KnownTel
