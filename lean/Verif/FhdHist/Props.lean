import Verif.FhdHist.Model
import Mathlib.Data.List.Basic

/-!
# Which lines of FHD settings files are the history (C232)
-/
namespace Verif.FhdHist

variable {L W : Type}

/-- The line begins with none of the three headings. -/
def Plain (begins : L → Begins) (l : L) : Prop := begins l = .other ∨ begins l = .user

theorem loop_cons (begins : L → Begins) (ind : Nat) (l : L) (t : List L) (st : St) : loop begins ind (l :: t) st =
    if full (step (begins l) ind st) then step (begins l) ind st else loop begins (ind + 1) t (step (begins l) ind st) := by rw [loop]

/-- Lines without headings do not end the loop while a heading is missing, and change at most the line of the user. -/
theorem loop_plain (begins : L → Begins) {s : List L} (hs : ∀ l ∈ s, Plain begins l) (ind : Nat) (t : List L) (st : St)
    (hm : st.main = none ∨ st.command = none ∨ st.obs = none) :
    ∃ u, loop begins ind (s ++ t) st = loop begins (ind + s.length) t { st with user := u } ∧
      ((∀ l ∈ s, begins l = .other) → u = st.user) := by
  induction s generalizing ind st with
  | nil => exact ⟨st.user, rfl, fun _ => rfl⟩
  | cons l s ih =>
    have hl := hs l List.mem_cons_self
    have hs' : ∀ l ∈ s, Plain begins l := fun x hx => hs x (List.mem_cons_of_mem _ hx)
    rw [List.cons_append]
    rw [loop_cons]
    rcases hl with hl | hl
    · rw [hl]
      have hf : full (step .other ind st) = false := by
        rcases hm with h | h | h <;> simp [full, step, h]
      rw [hf]
      simp only [Bool.false_eq_true, if_false, step]
      obtain ⟨u, h1, h2⟩ := ih hs' (ind + 1) st hm
      refine ⟨u, ?_, fun h => h2 (fun x hx => h x (List.mem_cons_of_mem _ hx))⟩
      rw [h1, List.length_cons, Nat.add_assoc, Nat.add_comm 1]
    · rw [hl]
      have hf : full (step .user ind st) = false := by
        rcases hm with h | h | h <;> simp [full, step, h]
      rw [hf]
      simp only [Bool.false_eq_true, if_false, step]
      obtain ⟨u, h1, _⟩ := ih hs' (ind + 1) { st with user := some ind } hm
      refine ⟨u, ?_, fun h => ?_⟩
      · rw [h1, List.length_cons, Nat.add_assoc, Nat.add_comm 1]
      · have := h l List.mem_cons_self
        rw [hl] at this
        cases this

theorem slice_mid (a m c : List L) : slice (a ++ m ++ c) a.length (some (a.length + m.length)) = m := by
  have : a.length + m.length = (a ++ m).length := by simp
  simp only [slice, this, List.take_left', List.drop_left']

/-- **C232**: the history is what is under the first two headings, and the user is that of the last line `User` before the third one; what comes after
does not matter. -/
theorem history_of {begins : L → Begins} {clean : L → L} {word : L → Option W} {header : L} {pre m1 m2 c rest : List L} {hM hC hO u : L} {w : W}
    (h1 : begins hM = .main) (h2 : begins hC = .command) (h3 : begins hO = .obs) (h4 : begins u = .user) (hw : word u = some w)
    (hpre : ∀ l ∈ pre, Plain begins l) (hm1 : ∀ l ∈ m1, Plain begins l) (hm2 : ∀ l ∈ m2, begins l = .other) (hc : ∀ l ∈ c, begins l = .other) :
    history begins clean word header (pre ++ hM :: (m1 ++ u :: (m2 ++ hC :: (c ++ hO :: rest)))) =
      some (clean header :: ((m1 ++ u :: m2).map clean ++ c.map clean), w) := by
  have hst : loop begins 0 (pre ++ hM :: (m1 ++ u :: (m2 ++ hC :: (c ++ hO :: rest)))) ⟨none, none, none, none⟩ =
      ⟨some pre.length, some (pre.length + 1 + m1.length + 1 + m2.length), some (pre.length + 1 + m1.length + 1 + m2.length + 1 + c.length),
        some (pre.length + 1 + m1.length)⟩ := by
    obtain ⟨u1, e1, _⟩ := loop_plain begins hpre 0 (hM :: (m1 ++ u :: (m2 ++ hC :: (c ++ hO :: rest)))) ⟨none, none, none, none⟩ (.inl rfl)
    rw [e1]
    rw [loop_cons]
    rw [h1]
    simp only [step, full, Option.isSome_none, Bool.and_false, Bool.false_and, Bool.false_eq_true, if_false, Nat.zero_add]
    obtain ⟨u2, e2, _⟩ := loop_plain begins hm1 (pre.length + 1) (u :: (m2 ++ hC :: (c ++ hO :: rest))) ⟨some pre.length, none, none, u1⟩ (.inr (.inl rfl))
    rw [e2]
    rw [loop_cons]
    rw [h4]
    simp only [step, full, Option.isSome_none, Bool.and_false, Bool.false_and, Bool.false_eq_true, if_false]
    obtain ⟨u3, e3, e3'⟩ := loop_plain begins (fun l hl => .inl (hm2 l hl)) (pre.length + 1 + m1.length + 1) (hC :: (c ++ hO :: rest))
      ⟨some pre.length, none, none, some (pre.length + 1 + m1.length)⟩ (.inr (.inl rfl))
    rw [e3, e3' hm2]
    rw [loop_cons]
    rw [h2]
    simp only [step, full, Option.isSome_none, Bool.and_false, Bool.false_and, Bool.false_eq_true, if_false]
    obtain ⟨u4, e4, e4'⟩ := loop_plain begins (fun l hl => .inl (hc l hl)) (pre.length + 1 + m1.length + 1 + m2.length + 1) (hO :: rest)
      ⟨some pre.length, some (pre.length + 1 + m1.length + 1 + m2.length), none, some (pre.length + 1 + m1.length)⟩ (.inr (.inr rfl))
    rw [e4, e4' hc]
    rw [loop_cons]
    rw [h3]
    simp [step, full]
  unfold history
  simp only [hst]
  have hu : (pre ++ hM :: (m1 ++ u :: (m2 ++ hC :: (c ++ hO :: rest))))[pre.length + 1 + m1.length]? = some u := by
    have : pre ++ hM :: (m1 ++ u :: (m2 ++ hC :: (c ++ hO :: rest))) = (pre ++ [hM] ++ m1) ++ u :: (m2 ++ hC :: (c ++ hO :: rest)) := by simp
    have hl : pre.length + 1 + m1.length = (pre ++ [hM] ++ m1).length := by simp; omega
    rw [this, hl, List.getElem?_append_right (Nat.le_refl _)]
    simp
  have s1 : slice (pre ++ hM :: (m1 ++ u :: (m2 ++ hC :: (c ++ hO :: rest)))) (pre.length + 1) (some (pre.length + 1 + m1.length + 1 + m2.length)) =
      m1 ++ u :: m2 := by
    have e : pre ++ hM :: (m1 ++ u :: (m2 ++ hC :: (c ++ hO :: rest))) = (pre ++ [hM]) ++ (m1 ++ u :: m2) ++ (hC :: (c ++ hO :: rest)) := by simp
    have := slice_mid (pre ++ [hM]) (m1 ++ u :: m2) (hC :: (c ++ hO :: rest))
    rw [← e] at this
    rw [← this]
    congr 1
    · simp
    · simp; omega
  have s2 : slice (pre ++ hM :: (m1 ++ u :: (m2 ++ hC :: (c ++ hO :: rest)))) (pre.length + 1 + m1.length + 1 + m2.length + 1)
      (some (pre.length + 1 + m1.length + 1 + m2.length + 1 + c.length)) = c := by
    have e : pre ++ hM :: (m1 ++ u :: (m2 ++ hC :: (c ++ hO :: rest))) = (pre ++ [hM] ++ m1 ++ [u] ++ m2 ++ [hC]) ++ c ++ (hO :: rest) := by simp
    have := slice_mid (pre ++ [hM] ++ m1 ++ [u] ++ m2 ++ [hC]) c (hO :: rest)
    rw [← e] at this
    refine Eq.trans ?_ this
    congr 1
    · simp; omega
    · simp; omega
  rw [hu, s1, s2]
  simp [hw]

/-- **C232**: without the third heading the history goes to the end of the file. -/
theorem history_no_obs {begins : L → Begins} {clean : L → L} {word : L → Option W} {header : L} {pre m1 m2 c : List L} {hM hC u : L} {w : W}
    (h1 : begins hM = .main) (h2 : begins hC = .command) (h4 : begins u = .user) (hw : word u = some w)
    (hpre : ∀ l ∈ pre, Plain begins l) (hm1 : ∀ l ∈ m1, Plain begins l) (hm2 : ∀ l ∈ m2, begins l = .other) (hc : ∀ l ∈ c, begins l = .other) :
    history begins clean word header (pre ++ hM :: (m1 ++ u :: (m2 ++ hC :: c))) =
      some (clean header :: ((m1 ++ u :: m2).map clean ++ c.map clean), w) := by
  have hst : loop begins 0 (pre ++ hM :: (m1 ++ u :: (m2 ++ hC :: (c ++ [])))) ⟨none, none, none, none⟩ =
      ⟨some pre.length, some (pre.length + 1 + m1.length + 1 + m2.length), none, some (pre.length + 1 + m1.length)⟩ := by
    obtain ⟨u1, e1, _⟩ := loop_plain begins hpre 0 (hM :: (m1 ++ u :: (m2 ++ hC :: (c ++ [])))) ⟨none, none, none, none⟩ (.inl rfl)
    rw [e1]
    rw [loop_cons]
    rw [h1]
    simp only [step, full, Option.isSome_none, Bool.and_false, Bool.false_and, Bool.false_eq_true, if_false, Nat.zero_add]
    obtain ⟨u2, e2, _⟩ := loop_plain begins hm1 (pre.length + 1) (u :: (m2 ++ hC :: (c ++ []))) ⟨some pre.length, none, none, u1⟩ (.inr (.inl rfl))
    rw [e2]
    rw [loop_cons]
    rw [h4]
    simp only [step, full, Option.isSome_none, Bool.and_false, Bool.false_and, Bool.false_eq_true, if_false]
    obtain ⟨u3, e3, e3'⟩ := loop_plain begins (fun l hl => .inl (hm2 l hl)) (pre.length + 1 + m1.length + 1) (hC :: (c ++ []))
      ⟨some pre.length, none, none, some (pre.length + 1 + m1.length)⟩ (.inr (.inl rfl))
    rw [e3, e3' hm2]
    rw [loop_cons]
    rw [h2]
    simp only [step, full, Option.isSome_none, Bool.and_false, Bool.false_and, Bool.false_eq_true, if_false]
    obtain ⟨u4, e4, e4'⟩ := loop_plain begins (fun l hl => .inl (hc l hl)) (pre.length + 1 + m1.length + 1 + m2.length + 1) []
      ⟨some pre.length, some (pre.length + 1 + m1.length + 1 + m2.length), none, some (pre.length + 1 + m1.length)⟩ (.inr (.inr rfl))
    rw [e4, e4' hc]
    rfl
  rw [List.append_nil] at hst
  unfold history
  simp only [hst]
  have hu : (pre ++ hM :: (m1 ++ u :: (m2 ++ hC :: c)))[pre.length + 1 + m1.length]? = some u := by
    have : pre ++ hM :: (m1 ++ u :: (m2 ++ hC :: c)) = (pre ++ [hM] ++ m1) ++ u :: (m2 ++ hC :: c) := by simp
    have hl : pre.length + 1 + m1.length = (pre ++ [hM] ++ m1).length := by simp; omega
    rw [this, hl, List.getElem?_append_right (Nat.le_refl _)]
    simp
  have s1 : slice (pre ++ hM :: (m1 ++ u :: (m2 ++ hC :: c))) (pre.length + 1) (some (pre.length + 1 + m1.length + 1 + m2.length)) =
      m1 ++ u :: m2 := by
    have e : pre ++ hM :: (m1 ++ u :: (m2 ++ hC :: c)) = (pre ++ [hM]) ++ (m1 ++ u :: m2) ++ (hC :: c) := by simp
    have := slice_mid (pre ++ [hM]) (m1 ++ u :: m2) (hC :: c)
    rw [← e] at this
    refine Eq.trans ?_ this
    congr 1
    · simp
    · simp; omega
  have s2 : slice (pre ++ hM :: (m1 ++ u :: (m2 ++ hC :: c))) (pre.length + 1 + m1.length + 1 + m2.length + 1) none = c := by
    have e : pre ++ hM :: (m1 ++ u :: (m2 ++ hC :: c)) = (pre ++ [hM] ++ m1 ++ [u] ++ m2 ++ [hC]) ++ c := by simp
    have hl : pre.length + 1 + m1.length + 1 + m2.length + 1 = (pre ++ [hM] ++ m1 ++ [u] ++ m2 ++ [hC]).length := by simp; omega
    simp only [slice]
    rw [e, hl, List.drop_left]
  rw [hu, s1, s2]
  simp [hw]

/-- What the loop finds was there before or is the number of a line of that kind. -/
theorem loop_none (begins : L → Begins) (lines : List L) (ind : Nat) (st : St) :
    ((∀ l ∈ lines, begins l ≠ .main) → (loop begins ind lines st).main = st.main) ∧
    ((∀ l ∈ lines, begins l ≠ .command) → (loop begins ind lines st).command = st.command) ∧
    ((∀ l ∈ lines, begins l ≠ .user) → (loop begins ind lines st).user = st.user) := by
  induction lines generalizing ind st with
  | nil => exact ⟨fun _ => rfl, fun _ => rfl, fun _ => rfl⟩
  | cons l t ih =>
    rw [loop_cons]
    have ht := ih (ind + 1) (step (begins l) ind st)
    refine ⟨fun h => ?_, fun h => ?_, fun h => ?_⟩
    · have hl := h l List.mem_cons_self
      have e : (step (begins l) ind st).main = st.main := by cases hb : begins l <;> simp_all [step]
      split
      · exact e
      · rw [ht.1 (fun x hx => h x (List.mem_cons_of_mem _ hx)), e]
    · have hl := h l List.mem_cons_self
      have e : (step (begins l) ind st).command = st.command := by cases hb : begins l <;> simp_all [step]
      split
      · exact e
      · rw [ht.2.1 (fun x hx => h x (List.mem_cons_of_mem _ hx)), e]
    · have hl := h l List.mem_cons_self
      have e : (step (begins l) ind st).user = st.user := by cases hb : begins l <;> simp_all [step]
      split
      · exact e
      · rw [ht.2.2 (fun x hx => h x (List.mem_cons_of_mem _ hx)), e]

/-- **C232**: without one of the first two headings, or without a user, there is an exception. -/
theorem history_error (begins : L → Begins) (clean : L → L) (word : L → Option W) (header : L) {lines : List L}
    (h : (∀ l ∈ lines, begins l ≠ .main) ∨ (∀ l ∈ lines, begins l ≠ .command) ∨ ∀ l ∈ lines, begins l ≠ .user) :
    history begins clean word header lines = none := by
  have hn := loop_none begins lines 0 ⟨none, none, none, none⟩
  unfold history
  rcases h with h | h | h
  · have := hn.1 h
    simp only [this]
  · have := hn.2.1 h
    simp only [this]
    split <;> simp_all
  · have := hn.2.2 h
    simp only [this]
    split <;> simp_all

end Verif.FhdHist
