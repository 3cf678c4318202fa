import Mathlib.Algebra.Order.Field.Rat
import Mathlib.Tactic.NormNum
import Verif.Eq.Obj

/-!
# Witnesses and examples about comparing parameters and objects
-/

namespace Verif.Eq

open Verif.Pol (Str)

/-- A parameter with default settings and the given tolerances, holding a value. -/
def par {n : Nat} (rtol atol : ℚ) (v : Val ℚ n) : Param ℚ ℚ n := ⟨0, v, rtol, atol, false, [.num 0], false⟩

/-- The default tolerances, parameter.py 280. -/
def dflt {n : Nat} (v : Val ℚ n) : Param ℚ ℚ n := par (1 / 100000) (1 / 100000000) v

def vec (l : List ℚ) : Val ℚ 0 := .arr 0 [l.length] (l.map .fin)

/-! ## Where comparing goes wrong -/

/-- With the default tolerances, which of two arrays stands on the left can decide whether they are equal. -/
theorem array_symm_counterexample :
    paramEq (dflt (vec [100000])) (dflt (vec [100001 + 1 / 200000])) = .ok true ∧
      paramEq (dflt (vec [100001 + 1 / 200000])) (dflt (vec [100000])) = .ok false := by decide +kernel

/-- Two values that equal a third one need not be equal. -/
theorem array_trans_counterexample :
    paramEq (par 0 1 (vec [0])) (par 0 1 (vec [1])) = .ok true ∧
      paramEq (par 0 1 (vec [1])) (par 0 1 (vec [2])) = .ok true ∧
      paramEq (par 0 1 (vec [0])) (par 0 1 (vec [2])) = .ok false := by decide +kernel

/-- Also strings: a tab counts as whitespace only at the ends. -/
theorem string_trans_counterexample :
    paramEq (dflt (.str ['\t', 'a', ' ', 'b'] : Val ℚ 0)) (dflt (.str ['a', ' ', 'b'])) = .ok true ∧
      paramEq (dflt (.str ['a', ' ', 'b'] : Val ℚ 0)) (dflt (.str ['a', 'b'])) = .ok true ∧
      paramEq (dflt (.str ['\t', 'a', ' ', 'b'] : Val ℚ 0)) (dflt (.str ['a', 'b'])) = .ok false := by decide +kernel

/-- A number equals a list of that number of any length, even an empty one; lists of other lengths make the comparison
raise. -/
theorem list_shape_counterexample :
    paramEq (dflt (.num 0 (.fin 5) : Val ℚ 0)) (dflt (.list [.fin 5, .fin 5, .fin 5])) = .ok true ∧
      paramEq (dflt (.num 0 (.fin 5) : Val ℚ 0)) (dflt (.list [])) = .ok true ∧
      paramEq (dflt (.list [.fin 5] : Val ℚ 0)) (dflt (.list [])) = .ok true ∧
      paramEq (dflt (.list [.fin 5, .fin 5] : Val ℚ 0)) (dflt (.list [.fin 5, .fin 5, .fin 5])) = .error .value := by
  decide +kernel

/-- A list of letters equals the word they spell; the other way round the comparison raises. -/
theorem strings_word_counterexample :
    paramEq (dflt (.strs false ['a'] [['b']] : Val ℚ 0)) (dflt (.str ['a', 'b'])) = .ok true ∧
      paramEq (dflt (.str ['a', 'b'] : Val ℚ 0)) (dflt (.strs false ['a'] [['b']])) = .error .attr := by decide +kernel

/-- An empty array or list cannot be compared with itself. -/
theorem empty_refl_counterexample :
    paramEq (dflt (vec [])) (dflt (vec [])) = .error .index ∧
      paramEq (dflt (.list [] : Val ℚ 0)) (dflt (.list [])) = .error .index := by decide +kernel

def key (c : Char) : Key := .str [c]

def one (x : ℚ) : Level ℚ 0 := Leaf.num (.fin x)

/-- Of two keys that differ in case only the last one is looked at. -/
theorem dict_case_counterexample :
    paramEq (dflt (.dict [(key 'A', one 1), (key 'a', one 2)] : Val ℚ 0))
        (dflt (.dict [(key 'A', one 5), (key 'a', one 2)])) = .ok true ∧
      paramEq (dflt (.dict [(key 'A', one 1), (key 'a', one 2)] : Val ℚ 0)) (dflt (.dict [(key 'a', one 2)])) =
        .ok true := by decide +kernel

/-- A dictionary with a NaN is not equal to another with the same contents, although an array with a NaN is. -/
theorem dict_nan_counterexample :
    paramEq (dflt (.dict [(key 'a', (Leaf.num .nan : Leaf ℚ))] : Val ℚ 0)) (dflt (.dict [(key 'a', (Leaf.num .nan : Leaf ℚ))]))
        = .ok false ∧
      paramEq (dflt (.arr 0 [1] [.nan] : Val ℚ 0)) (dflt (.arr 0 [1] [.nan])) = .ok true := by decide +kernel

/-- A dictionary with an array and a list of strings. -/
def mixed (x : ℚ) : Dict ℚ 0 :=
  [(key 'x', (Leaf.vec true [2] [.fin x, .fin 2] : Leaf ℚ)), (key 's', (Leaf.strs ['a'] [['b']] : Leaf ℚ))]

/-- Comparing a dictionary with an array and a list of strings with one of the same contents raises. -/
theorem dict_strings_counterexample :
    paramEq (dflt (.dict (mixed 1))) (dflt (.dict (mixed 1))) = .error .type := by decide +kernel

/-- A dictionary inside a dictionary where the other one has something else makes the comparison raise; the other way
round they are different. -/
theorem dict_nested_counterexample :
    paramEq (dflt (.dict [(key 'a', (Sum.inr [(key 'b', one 1)] : Leaf ℚ ⊕ Dict ℚ 0))] : Val ℚ 1))
        (dflt (.dict [(key 'a', (Sum.inl .none : Leaf ℚ ⊕ Dict ℚ 0))])) = .error .attr ∧
      paramEq (dflt (.dict [(key 'a', (Sum.inl .none : Leaf ℚ ⊕ Dict ℚ 0))] : Val ℚ 1))
        (dflt (.dict [(key 'a', (Sum.inr [(key 'b', one 1)] : Leaf ℚ ⊕ Dict ℚ 0))])) = .ok false := by decide +kernel

/-- The tolerances of a parameter are not used for numbers in a dictionary. -/
theorem dict_tols_counterexample :
    paramEq (par 0 1 (.dict [(key 'a', one 1)] : Val ℚ 0)) (par 0 1 (.dict [(key 'a', one 2)])) = .ok false ∧
      paramEq (par 0 1 (.num 0 (.fin 1) : Val ℚ 0)) (par 0 1 (.num 0 (.fin 2))) = .ok true := by decide +kernel

/-- Class 1 is a subclass of class 0. -/
def sub (c d : Nat) : Bool := decide (c = d) || (decide (c = 1) && decide (d = 0))

def nameX : Str := ['_', 'x']

def obj (cls : Nat) (l : List ℚ) (file : Val ℚ 0) : Object (Slot ℚ ℚ 0 0) :=
  ⟨cls, [⟨nameX, true, dflt (vec l)⟩, ⟨'_' :: filename, false, dflt file⟩]⟩

/-- An object of a subclass equals one of the class with the same parameters only if it stands on the right. -/
theorem object_symm_counterexample :
    objEq sub (slotEq sub 0) true [filename] (obj 0 [1] .none) (obj 1 [1] .none) = .ok true ∧
      objEq sub (slotEq sub 0) true [filename] (obj 1 [1] .none) (obj 0 [1] .none) = .ok false := by decide +kernel

/-- A parameter that is allowed to differ can still make the comparison of two objects raise. -/
theorem object_allowed_counterexample :
    objEq sub (slotEq sub 0) true [filename] (obj 0 [1] (.str ['f'])) (obj 0 [1] (.num 0 (.fin 1))) = .error .attr := by
  decide +kernel

def noDims : Str → Option Nat := fun _ => none

/-- A value with a range of accepted magnitudes. -/
def ranged (l : List ℚ) : Checked ℚ ℚ 0 :=
  ⟨nameX, ['x'], true, vec l, .dims [.inl l.length], [.num 0], none, none, some (5, 15)⟩

/-- Values outside the range are accepted if their mean is inside. -/
theorem check_range_counterexample :
    check noDims 0 true true false [ranged [0, 20]] = .ok () ∧
      check noDims 0 true true false [ranged [20, 20]] = .error .accept := by decide +kernel

/-! ## The hypotheses of the theorems can be met -/

example : paramEq (dflt (vec [1, 2])) (dflt (vec [1, 2])) = .ok true :=
  param_refl_partial (dflt (vec [1, 2])) (by simp [dflt, par]) (by simp [dflt, par])
    (by show [Num.fin (1 : ℚ), Num.fin 2] ≠ []; simp) (by simp [dflt, par])

example : paramEq (dflt (.dict [(key 'a', one 1), (key 'b', (Leaf.vec true [1] [.fin 3] : Leaf ℚ))] : Val ℚ 0))
    (dflt (.dict [(key 'a', one 1), (key 'b', (Leaf.vec true [1] [.fin 3] : Leaf ℚ))])) = .ok true :=
  param_refl_partial _ (by simp [dflt, par]) (by simp [dflt, par])
    (by
      refine ⟨by simp [key], by simp [Distinct], ?_, Or.inl ?_⟩ <;>
        simp [Every, one, Leaf.NoNan, Leaf.NoText]) (by simp [dflt, par])

example : AllNear (1 / 100000 : ℚ) (1 / 100000000) [Num.fin (1 : ℚ), .nan] [.fin 1, .nan] := by
  have h := (array_eq_iff (p := dflt (.arr 0 [2] [.fin 1, .nan] : Val ℚ 0)) (q := dflt (.arr 0 [2] [.fin 1, .nan]))
    ⟨rfl, rfl, rfl, rfl, rfl, rfl⟩ rfl (by simp) (by simp [Filled]) (by
      intro k' sh' d' h
      cases h
      simp [Filled]) (by simp [dflt, par])).mp (by decide +kernel)
  obtain ⟨k', d', h1, h2⟩ := h
  cases h1
  exact h2

example : Near (1 / 100000 : ℚ) (1 / 100000000) (.fin (1 : ℚ)) (.fin (1 + 1 / 200000)) :=
  (number_eq_iff (n := 0) (p := dflt (.num 0 (.fin 1))) (q := dflt (.num 0 (.fin (1 + 1 / 200000))))
    ⟨rfl, rfl, rfl, rfl, rfl, rfl⟩ rfl rfl (by simp [dflt, par])).mp (by decide +kernel)

example : letters ['a', ' ', 'b'] = letters ['a', 'b', '\n'] :=
  (string_eq (n := 0) (p := dflt (.str ['a', ' ', 'b'])) (q := dflt (.str ['a', 'b', '\n']))
    ⟨rfl, rfl, rfl, rfl, rfl, rfl⟩ rfl rfl (by simp [dflt, par])).1 (by decide +kernel)

example : paramEq (par 0 1 (vec [0, 5])) (par 0 1 (vec [1, 5])) = paramEq (par 0 1 (vec [1, 5])) (par 0 1 (vec [0, 5])) :=
  param_symm_partial ⟨rfl, rfl, rfl, rfl, rfl, rfl⟩ rfl (.arr _ _ _ _ _ _ (by simp) (by simp))

/-- A chain of parameters that move by one each. -/
def moving (i : Nat) : Param ℚ ℚ 0 := par 0 1 (vec [(i : ℚ), 7])

example : ∃ sh k₀ d₀ k d, (moving 0).value = .arr k₀ sh d₀ ∧ (moving 3).value = .arr k sh d ∧
    ∀ (j : Nat) (x : Num ℚ), d₀[j]? = some x → ∃ y, d[j]? = some y ∧ Near 0 ((3 : Nat) * (1 : ℚ)) x y :=
  chain_drift moving 1 3 (fun _ => ⟨rfl, rfl, rfl, rfl, rfl, rfl⟩) (fun _ => rfl) (fun _ => rfl)
    (fun _ => ⟨_, _, _, rfl, by simp, by simp [Filled]⟩)
    (fun i hi => by
      match i, hi with
      | 0, _ => decide +kernel
      | 1, _ => decide +kernel
      | 2, _ => decide +kernel)

example : DictAgree (Agree (1 / 100000 : ℚ) (1 / 100000000) 0) ([(key 'A', one 1)] : Dict ℚ 0)
    [(key 'a', one (1 + 1 / 200000))] :=
  dict_agree_partial _ _ (by simp) (by simp) (by simp [CaseDistinct, Every, one, Leaf.Filled])
    (by simp [CaseDistinct, Every, one, Leaf.Filled]) (by decide +kernel)

example : objEq sub (slotEq sub 0) true [filename] (obj 0 [1, 2] .none) (obj 0 [1, 2] .none) = .ok true :=
  object_refl_partial sub (by simp [sub]) 0 true [filename] (obj 0 [1, 2] .none) (by
    intro a ha
    simp only [obj, List.mem_cons, List.not_mem_nil, or_false] at ha
    rcases ha with rfl | rfl
    · exact ⟨by simp [dflt, par], by simp [dflt, par], by simp [dflt, par, vec, Ready], by simp [dflt, par]⟩
    · exact ⟨by simp [dflt, par], by simp [dflt, par], by simp [dflt, par, Ready], by simp [dflt, par]⟩)

/-- Two objects that differ only in their file names are equal. -/
example : objEq sub (slotEq sub 0) true [filename] (obj 0 [1, 2] (.str ['f'])) (obj 0 [1, 2] (.str ['g'])) =
    .ok true := by decide +kernel

theorem named_file {x : Str} (h : Named [filename] x) : x = '_' :: filename := by
  obtain ⟨y, hy, h⟩ := h
  simp only [List.mem_cons, List.not_mem_nil, or_false] at hy
  subst hy
  rcases h with ⟨rfl, r, hr⟩ | ⟨_, h⟩
  · simp [filename] at hr
  · exact h

theorem obj_get_file (c : Nat) (l : List ℚ) (v : Val ℚ 0) : (obj c l v).get ('_' :: filename) = some (dflt v) := rfl

theorem obj_get_x (c : Nat) (l : List ℚ) (v : Val ℚ 0) : (obj c l v).get nameX = some (dflt (vec l)) := rfl

theorem obj_get {c : Nat} {l : List ℚ} {v : Val ℚ 0} {x : Str} {s : Slot ℚ ℚ 0 0} (h : (obj c l v).get x = some s) :
    x = nameX ∧ s = dflt (vec l) ∨ x = '_' :: filename ∧ s = dflt v := by
  obtain ⟨p, hp, rfl, rfl⟩ := get_mem h
  simp only [obj, List.mem_cons, List.not_mem_nil, or_false] at hp
  rcases hp with rfl | rfl
  · exact Or.inl ⟨rfl, rfl⟩
  · exact Or.inr ⟨rfl, rfl⟩

theorem obj_names (c c' : Nat) (l l' : List ℚ) (v v' : Val ℚ 0) (r : Bool) :
    SameNames (obj c l v) (obj c' l' v') r := by
  intro x
  simp [obj]

example : objEq sub (slotEq sub 0) true [filename] (obj 0 [1, 2] (.str ['h'])) (obj 0 [1, 2] (.str ['g'])) = .ok true :=
  allowed_irrelevant sub (slotEq sub 0) true [filename] (obj 0 [1, 2] (.str ['f'])) _ (obj 0 [1, 2] (.str ['g'])) rfl
    (obj_names _ _ _ _ _ _)
    (by
      intro x hx
      have hne : x ≠ '_' :: filename := by
        rintro rfl
        exact hx ⟨filename, by simp, Or.inr ⟨by simp [filename], rfl⟩⟩
      by_cases hX : x = nameX
      · subst hX; rfl
      · have : ∀ v, (obj 0 [1, 2] v).get x = none := by
          intro v
          cases h : (obj 0 [1, 2] v).get x with
          | none => rfl
          | some s => rcases obj_get h with ⟨h, _⟩ | ⟨h, _⟩ <;> contradiction
        rw [this, this])
    (by
      intro x hx s hs
      obtain rfl := named_file hx
      rw [obj_get_file] at hs
      cases hs
      exact ⟨_, false, obj_get_file _ _ _, by decide +kernel⟩)
    (by decide +kernel)

example : objEq sub (slotEq sub 0) true [filename] (obj 0 [1, 2] .none) (obj 0 [2, 1] .none) = .ok true ↔
    objEq sub (slotEq sub 0) true [filename] (obj 0 [2, 1] .none) (obj 0 [1, 2] .none) = .ok true :=
  object_symm_partial sub (slotEq sub 0) true [filename] _ _ rfl
    (by
      intro x s t c hs ht
      rcases obj_get hs with ⟨rfl, rfl⟩ | ⟨rfl, rfl⟩ <;> rcases obj_get ht with ⟨h, rfl⟩ | ⟨h, rfl⟩
      · show paramEq (dflt (vec [1, 2])) (dflt (vec [2, 1])) = paramEq (dflt (vec [2, 1])) (dflt (vec [1, 2]))
        decide +kernel
      · exact absurd h (by decide)
      · exact absurd h (by decide)
      · rfl)
    (by
      intro x hx
      obtain rfl := named_file hx
      simp [obj_get_file])

example : ∃ k' d', (dflt (vec [1, 2])).value = .arr k' [2] d' ∧
    AllNear (1 / 100000 : ℚ) (1 / 100000000) [.fin (1 : ℚ), .fin 2] d' :=
  object_arrays sub 0 true [filename] (obj 0 [1, 2] .none) (obj 0 [1, 2] .none) (by decide +kernel) nameX
    ⟨_, List.mem_cons_self, rfl, Or.inl rfl⟩ (fun h => absurd (named_file h) (by decide)) (dflt (vec [1, 2]))
    (dflt (vec [1, 2])) rfl rfl ⟨rfl, rfl, rfl, rfl, rfl, rfl⟩ rfl (by simp) (by simp [Filled])
    (by
      intro k' sh' d' h
      cases h
      simp [Filled]) (by simp [dflt, par, vec])

example : Fine noDims 0 true false (ranged [6, 8]) :=
  (check_iff noDims 0 true true false [ranged [6, 8]]).mp (by decide +kernel) _ (by simp) (Or.inr rfl)

end Verif.Eq
