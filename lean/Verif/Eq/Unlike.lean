import Verif.Eq.Examples

/-! Comparing parameters of different classes, unset values, lists, other objects and dictionaries with something else (C79, C80). -/
namespace Verif.Eq

variable {α β : Type} [Field α] [LinearOrder α] [IsStrictOrderedRing α] [AddCommGroup β] [Sized α β] [DecidableEq β] {n : Nat}

/-- Parameters of different classes are never equal. -/
theorem class_differs {p q : Param α β n} (h : p.cls ≠ q.cls) : paramEq p q = .ok false := by rw [paramEq, if_pos h]

/-- If one value is not set, comparing does not raise. -/
theorem unset_no_raise {p q : Param α β n} (h : p.value = .none ∨ q.value = .none) : ∃ b, paramEq p q = .ok b := by
  obtain ⟨cls, v, rtol, atol, strict, expected, ign⟩ := p
  obtain ⟨cls', w, rtol', atol', strict', expected', ign'⟩ := q
  simp only at h
  by_cases hc : cls = cls' <;> cases ign <;> cases v <;> cases w <;> simp_all [paramEq, Val.isNone]

/-- If one value is not set, parameters are equal exactly if neither is set or the left one says that it does not matter. -/
theorem unset_equal {p q : Param α β n} (hc : p.cls = q.cls) (h : p.value = .none ∨ q.value = .none) :
    paramEq p q = .ok true ↔ p.ignoreNone = true ∨ (p.value = .none ∧ q.value = .none) := by
  obtain ⟨cls, v, rtol, atol, strict, expected, ign⟩ := p
  obtain ⟨cls', w, rtol', atol', strict', expected', ign'⟩ := q
  simp only at h hc
  subst hc
  cases ign <;> cases v <;> cases w <;> simp_all [paramEq, Val.isNone]

/-- The types of both values are accepted. -/
def TypesFit (p q : Param α β n) : Prop := (p.strict = true → p.value.kind ∈ q.expected) ∧ (q.strict = true → q.value.kind ∈ p.expected)

theorem paramEq_rest {p q : Param α β n} (hc : p.cls = q.cls) (ht : TypesFit p q) (hp : p.value.isNone = false) (hq : q.value.isNone = false)
    (ha : ∀ k sh d, p.value ≠ .arr k sh d) : paramEq p q = match p.value with
      | .str s => textEq (.str s) q.value
      | .strs a s l => textEq (.strs a s l) q.value
      | .list l => if l = [] then .error .index else plainEq p (.list l) q.value
      | v => plainEq p v q.value := by
  rw [paramEq, if_neg (by simp [hc]), if_neg (by simp [hp, hq]), if_neg (by simp [hp]), if_neg (by simp [hq])]
  have : restEq p q = match p.value with
      | .str s => textEq (.str s) q.value
      | .strs a s l => textEq (.strs a s l) q.value
      | .list l => if l = [] then .error .index else plainEq p (.list l) q.value
      | v => plainEq p v q.value := by
    rw [restEq, if_neg (fun h => h.2 (ht.1 h.1)), if_neg (fun h => h.2 (ht.2 h.1))]
    cases p.value <;> rfl
  cases hv : p.value with
  | arr k sh d => exact absurd hv (ha k sh d)
  | _ => simp only [hv] at this ⊢; exact this

/-- Two lists of the same length are equal exactly if all elements agree within tolerances. -/
theorem list_eq_iff {p q : Param α β n} (hc : p.cls = q.cls) (ht : TypesFit p q) {l m : List (Num β)} (hp : p.value = .list l) (hq : q.value = .list m)
    (hl : l ≠ []) (hm : l.length = m.length) : paramEq p q = .ok true ↔ AllNear p.rtol p.atol l m := by
  rw [paramEq_rest hc ht (by rw [hp]; rfl) (by rw [hq]; rfl) (by simp [hp]), hp, hq]
  simp only
  rw [if_neg hl, ← allClose_iff hm]
  simp [plainEq, flatEq, bcast, hm, allClose]

/-- Values of other types are equal exactly if Python says so. -/
theorem other_eq_iff {p q : Param α β n} (hc : p.cls = q.cls) (ht : TypesFit p q) {c c' i j : Nat} (hp : p.value = .obj c i) (hq : q.value = .obj c' j) :
    paramEq p q = .ok true ↔ i = j := by
  rw [paramEq_rest hc ht (by rw [hp]; rfl) (by rw [hq]; rfl) (by simp [hp]), hp, hq]
  simp [plainEq]

/-- Where a dictionary stands on the left and on the right neither a dictionary nor an array, comparing raises. -/
theorem dict_raises {p q : Param α β n} (hc : p.cls = q.cls) (ht : TypesFit p q) {d : Dict β n} (hp : p.value = .dict d) (hq : q.value.isNone = false)
    (h1 : q.value.kind ≠ .dict) (h2 : q.value.kind ≠ .array) : paramEq p q = .error .attr := by
  rw [paramEq_rest hc ht (by rw [hp]; rfl) hq (by simp [hp]), hp]
  cases hv : q.value with
  | strs a s l => cases a <;> simp_all [plainEq, Val.kind]
  | _ => simp_all [plainEq, Val.kind, Val.isNone]

/-- With an array there it does not. -/
theorem dict_array {p q : Param α β n} (hc : p.cls = q.cls) (ht : TypesFit p q) {d : Dict β n} (hp : p.value = .dict d) (h : q.value.kind = .array) :
    paramEq p q = .ok false := by
  have hq : q.value.isNone = false := by cases hv : q.value <;> simp_all [Val.kind, Val.isNone]
  rw [paramEq_rest hc ht (by rw [hp]; rfl) hq (by simp [hp]), hp]
  cases hv : q.value with
  | strs a s l => cases a <;> simp_all [plainEq, Val.kind]
  | _ => simp_all [plainEq, Val.kind, Val.isNone]

omit [Field α] [LinearOrder α] [IsStrictOrderedRing α] [AddCommGroup β] [Sized α β] [DecidableEq β]

/-- The theorems apply. -/
example : paramEq (dflt (.list [.fin 1, .fin 2] : Val ℚ 0)) (dflt (.list [.fin 1, .fin 3])) ≠ .ok true ∧
    paramEq (dflt (.list [.fin 1, .nan] : Val ℚ 0)) (dflt (.list [.fin 1, .nan])) = .ok true := by
  have ht : ∀ v w : Val ℚ 0, TypesFit (dflt v) (dflt w) := fun v w => ⟨fun h => (nomatch h), fun h => (nomatch h)⟩
  constructor
  · intro h
    rw [list_eq_iff (p := dflt (.list [.fin 1, .fin 2])) (q := dflt (.list [.fin 1, .fin 3])) rfl (ht _ _) rfl rfl (by simp) rfl] at h
    have h1 := h.2 1 (.fin 2) (.fin 3) rfl rfl
    rw [← close_iff] at h1
    revert h1
    decide +kernel
  · rw [list_eq_iff rfl (ht _ _) rfl rfl (by simp) rfl, ← allClose_iff rfl]
    decide +kernel

example : paramEq (dflt (.obj 1 5 : Val ℚ 0)) (dflt (.obj 2 5)) = .ok true :=
  (other_eq_iff (p := dflt (.obj 1 5)) (q := dflt (.obj 2 5)) rfl ⟨fun h => (nomatch h), fun h => (nomatch h)⟩ rfl rfl).2 rfl

example : paramEq { dflt (.none : Val ℚ 0) with ignoreNone := true } (dflt (vec [1])) = .ok true ∧
    paramEq (dflt (.none : Val ℚ 0)) { dflt (vec [1]) with ignoreNone := true } ≠ .ok true :=
  ⟨(unset_equal rfl (Or.inl rfl)).2 (Or.inl rfl), fun h => by
    rcases (unset_equal (p := dflt (.none : Val ℚ 0)) (q := { dflt (vec [1]) with ignoreNone := true }) rfl (Or.inl rfl)).1 h with h | h
    · exact absurd h (by decide)
    · exact (nomatch h.2)⟩

example : paramEq (dflt (.dict [] : Val ℚ 0)) (dflt (.num 0 (.fin 1))) = .error .attr ∧ paramEq (dflt (.dict [] : Val ℚ 0)) (dflt (vec [1])) = .ok false :=
  ⟨dict_raises rfl ⟨fun h => (nomatch h), fun h => (nomatch h)⟩ rfl rfl (by decide) (by decide), dict_array rfl ⟨fun h => (nomatch h), fun h => (nomatch h)⟩ rfl rfl⟩

example : paramEq { dflt (vec [1]) with cls := 1 } (dflt (vec [1])) = .ok false := class_differs (by decide)

end Verif.Eq
