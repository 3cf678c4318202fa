import Mathlib.Tactic.Linarith
import Mathlib.Algebra.Order.Ring.Int
import Verif.Miriad.SelModel

/-!
# Selections on reading Miriad files: theorems
-/

namespace Verif.Miriad

/-- A baseline number gives back the antennas, counted from one. -/
theorem bl2ant_ij2bl (i j : Nat) (hi : i < 2047) (hj : j < 2047) : bl2ant (ij2bl i j) = (min i j + 1, max i j + 1) := by
  unfold bl2ant ij2bl
  by_cases h : i > j
  · simp only [h, if_true]
    rw [Nat.min_eq_right (by omega), Nat.max_eq_left (by omega)]
    by_cases h2 : i + 1 < 256
    · rw [if_pos h2, if_neg (by omega)]; ext <;> simp only <;> omega
    · rw [if_neg h2, if_pos (by omega)]; ext <;> simp only <;> omega
  · simp only [h, if_false]
    rw [Nat.min_eq_left (by omega), Nat.max_eq_right (by omega)]
    by_cases h2 : j + 1 < 256
    · rw [if_pos h2, if_neg (by omega)]; ext <;> simp only <;> omega
    · rw [if_neg h2, if_pos (by omega)]; ext <;> simp only <;> omega

theorem mkbl_eq (i j : Nat) (h : i ≤ j) : mkbl i j = ij2bl i j := by
  unfold mkbl ij2bl
  rw [if_neg (by omega : ¬ i > j)]
  dsimp only
  by_cases h2 : j + 1 < 256
  · rw [if_pos h2, if_pos ⟨by omega, h2⟩]
  · rw [if_neg h2, if_neg (by omega)]; omega

/-- Antennas that are written are read again. -/
theorem getIJ_mkbl (i j : Nat) (h : i ≤ j) (hj : j < 2047) : getIJ (mkbl i j) = ((i : Int), (j : Int)) := by
  rw [mkbl_eq i j h, getIJ, bl2ant_ij2bl i j (by omega) hj, Nat.min_eq_left h, Nat.max_eq_right h]
  simp

/-- Antenna 2047 is read as antenna -1, and the other antenna of the pair as the next one. -/
theorem getIJ_mkbl_counterexample (i : Nat) : getIJ (mkbl i 2047) = ((i : Int) + 1, -1) := by
  unfold getIJ mkbl
  rw [if_neg (by omega)]
  unfold bl2ant
  rw [if_pos (by omega)]
  have h1 : ((i + 1) * 2048 + (2047 + 1 + 65536) - 65536) / 2048 = i + 2 := by omega
  have h2 : ((i + 1) * 2048 + (2047 + 1 + 65536) - 65536) % 2048 = 0 := by omega
  simp only [h1, h2]
  ext
  · simp; omega
  · simp

variable {α : Type} [Field α] [LinearOrder α]

/-- The clause of a pair. -/
def cl (a : Bool) (p : Nat × Nat) : Clause α :=
  ⟨a, some (setAnts (fun _ _ => true) (max p.1 p.2 + 1) (min p.1 p.2 + 1) false), [], []⟩

omit [Field α] in
theorem uvselect_append (cs : List (Clause α)) (c : Clause α) (k : Call α) :
    uvselect (cs ++ [c]) k = (onLast c k).map (fun l => cs ++ l) := by
  unfold uvselect
  rw [List.getLast?_concat, List.dropLast_concat]

omit [Field α] in
theorem calls_append (cs : List (Clause α)) (a b : List (Call α)) : calls cs (a ++ b) = (calls cs a).bind (fun s => calls s b) := by
  unfold calls; rw [List.foldlM_append]; rfl

omit [Field α] in
theorem calls_nil (cs : List (Clause α)) : calls cs [] = some cs := rfl

omit [Field α] in
theorem calls_cons (cs : List (Clause α)) (k : Call α) (b : List (Call α)) : calls cs (k :: b) = (uvselect cs k).bind (fun s => calls s b) := by
  unfold calls; rw [List.foldlM_cons]; rfl

omit [Field α] in
theorem calls_first (p : Nat × Nat) (h1 : p.1 < 2047) (h2 : p.2 < 2047) :
    calls ([] : List (Clause α)) (itemCalls true (pairItem p)) = some [cl true p] := by
  simp only [itemCalls, pairItem, if_true, List.nil_append, List.append_nil]
  rw [calls_cons, bl2ant_ij2bl _ _ h1 h2]
  have hm : max (min p.1 p.2 + 1) (max p.1 p.2 + 1) = max p.1 p.2 + 1 := by omega
  have hn : min (min p.1 p.2 + 1) (max p.1 p.2 + 1) = min p.1 p.2 + 1 := by omega
  simp only [uvselect, List.getLast?_nil, onLast, hm, hn]
  rw [if_neg (by omega)]
  simp [calls_nil, cl, Clause.fresh, Clause.table]

omit [Field α] in
theorem calls_next (cs : List (Clause α)) (c : Clause α) (p : Nat × Nat) (h1 : p.1 < 2047) (h2 : p.2 < 2047) :
    calls (cs ++ [c]) (itemCalls false (pairItem p)) = some (cs ++ [c] ++ [cl false p]) := by
  simp only [itemCalls, pairItem, Bool.false_eq_true, if_false, if_true, List.append_nil, List.singleton_append]
  rw [calls_cons, uvselect_append]
  simp only [onLast, Option.map_some, Option.bind_some]
  rw [calls_cons, show cs ++ [c, Clause.fresh false] = (cs ++ [c]) ++ [Clause.fresh false] by simp, uvselect_append, bl2ant_ij2bl _ _ h1 h2]
  have hm : max (min p.1 p.2 + 1) (max p.1 p.2 + 1) = max p.1 p.2 + 1 := by omega
  have hn : min (min p.1 p.2 + 1) (max p.1 p.2 + 1) = min p.1 p.2 + 1 := by omega
  simp only [onLast, hm, hn]
  rw [if_neg (by omega)]
  simp [calls_nil, cl, Clause.fresh, Clause.table]

omit [Field α] in
theorem calls_more (r : List (Nat × Nat)) : ∀ (cs : List (Clause α)) (c : Clause α), (∀ p ∈ r, p.1 < 2047 ∧ p.2 < 2047) →
    calls (cs ++ [c]) ((r.map pairItem).flatMap (itemCalls false)) = some (cs ++ [c] ++ r.map (cl false)) := by
  induction r with
  | nil => intro cs c _; simp [calls_nil]
  | cons p r ih =>
    intro cs c h
    rw [List.map_cons, List.flatMap_cons, calls_append, calls_next cs c p (h p (by simp)).1 (h p (by simp)).2]
    simp only [Option.bind_some]
    rw [ih (cs ++ [c]) (cl false p) (fun q hq => h q (by simp [hq]))]
    simp

omit [Field α] in
/-- The clauses of a list of antenna pairs. -/
theorem calls_pairs (p : Nat × Nat) (r : List (Nat × Nat)) (h : ∀ x ∈ p :: r, x.1 < 2047 ∧ x.2 < 2047) :
    calls ([] : List (Clause α)) (selectorCalls ((p :: r).map pairItem)) = some (cl true p :: r.map (cl false)) := by
  rw [List.map_cons, selectorCalls, calls_append, calls_first p (h p (by simp)).1 (h p (by simp)).2]
  simp only [Option.bind_some]
  have := calls_more r [] (cl true p : Clause α) (fun q hq => h q (by simp [hq]))
  simpa using this

/-- Conditions on time and polarization added to a clause. -/
def addTo (int0 : α) (cp : Int → Int) (q : Req α) (c : Clause α) : Clause α :=
  { c with
    times := c.times ++ (match q.range with
      | none => []
      | some x => [(false, x.1 - int0 / 2, x.2 - int0 / 2)])
    pols := c.pols ++ (match polsOf cp q with
      | none => []
      | some l => (allPols.filter (fun p => decide (p ∉ l))).map (fun p => (true, p))) }

omit [Field α] in
theorem calls_pol (l : List Int) : ∀ (cs : List (Clause α)) (c : Clause α),
    calls (cs ++ [c]) (l.map (fun p => .pol p false)) = some (cs ++ [{ c with pols := c.pols ++ l.map (fun p => (true, p)) }]) := by
  induction l with
  | nil => intro cs c; simp [calls_nil]
  | cons p l ih =>
    intro cs c
    rw [List.map_cons, calls_cons, uvselect_append]
    simp only [onLast, Option.map_some, Option.bind_some, Bool.not_false]
    rw [ih]
    simp

omit [Field α] in
theorem calls_pol_nil (l : List Int) (h : l ≠ []) :
    calls ([] : List (Clause α)) (l.map (fun p => .pol p false)) = some [{ (Clause.fresh true : Clause α) with pols := l.map (fun p => (true, p)) }] := by
  cases l with
  | nil => exact absurd rfl h
  | cons p l =>
    rw [List.map_cons, calls_cons]
    simp only [uvselect, List.getLast?_nil, onLast, Option.bind_some, Bool.not_false]
    have := calls_pol l [] ({ (Clause.fresh true : Clause α) with pols := [(true, p)] })
    simp only [List.nil_append] at this
    rw [show (Clause.fresh true : Clause α).pols ++ [(true, p)] = [(true, p)] from rfl, this]
    simp

variable [IsStrictOrderedRing α]

theorem calls_addTo (int0 : α) (cp : Int → Int) (q : Req α) (hr : ∀ x, q.range = some x → x.1 < x.2) (cs : List (Clause α)) (c : Clause α) :
    calls (cs ++ [c]) (timeCalls int0 q ++ polCalls cp q) = some (cs ++ [addTo int0 cp q c]) := by
  rw [calls_append]
  have h1 : calls (cs ++ [c]) (timeCalls int0 q) = some (cs ++ [{ c with
      times := c.times ++ (match q.range with
        | none => []
        | some x => [(false, x.1 - int0 / 2, x.2 - int0 / 2)]) }]) := by
    unfold timeCalls
    cases hq : q.range with
    | none => simp [calls_nil]
    | some x =>
      have hx := hr x hq
      dsimp only
      rw [calls_cons, uvselect_append]
      simp only [onLast]
      rw [if_neg (by simp; exact hx)]
      simp [calls_nil]
  rw [h1]
  simp only [Option.bind_some]
  unfold polCalls addTo
  cases hq : polsOf cp q with
  | none => simp [calls_nil]
  | some l =>
    dsimp only
    rw [calls_pol]

omit [Field α] [IsStrictOrderedRing α] in
theorem keeps_snoc (cs : List (Clause α)) (c : Clause α) (r : Rcd α) :
    keeps (cs ++ [c]) r = (if (!keeps cs r && c.isAnd) || (keeps cs r && !c.isAnd) then keeps cs r else !discards c r) := by
  unfold keeps; rw [List.foldl_append]; rfl

theorem evalOps_pols (l : List Int) (p : Int) :
    evalOps (fun x : Int => decide (x = p)) ((allPols.filter (fun p => decide (p ∉ l))).map (fun p => (true, p))) = decide (p ∈ allPols ∧ p ∉ l) := by
  have key : ∀ (m : List Int), evalOps (fun x : Int => decide (x = p)) (m.map (fun p => (true, p))) = decide (p ∈ m) := by
    intro m
    have hf : ∀ (m : List Int) (d : Bool), (m.map (fun p => (true, p))).foldl (fun d (x : Bool × Int) => if decide (x.2 = p) then x.1 else d) d
        = (d || decide (p ∈ m)) := by
      intro m
      induction m with
      | nil => simp
      | cons y m ih =>
        intro d
        rw [List.map_cons, List.foldl_cons, ih]
        by_cases hy : y = p
        · simp [hy]
        · have : ¬ p = y := fun e => hy e.symm
          simp [hy, this]
    cases m with
    | nil => rfl
    | cons y m =>
      have := hf (y :: m) false
      simpa [evalOps] using this
  rw [key]
  congr 1
  simp

/-- Time and polarization of a record are as asked. -/
def metaOk (int0 : α) (cp : Int → Int) (q : Req α) (r : Rcd α) : Prop :=
  (∀ x, q.range = some x → (x.1 ≤ r.time + int0 / 2 ∧ r.time + int0 / 2 ≤ x.2) ∨ (x.1 ≤ r.tod + int0 / 2 ∧ r.tod + int0 / 2 ≤ x.2)) ∧
  (∀ l, polsOf cp q = some l → r.pol ∈ l ∨ r.pol ∉ allPols)

/-- A clause of an antenna pair with conditions on time and polarization. -/
theorem discards_addTo (int0 : α) (cp : Int → Int) (q : Req α) (a : Bool) (t : Option (Nat → Nat → Bool)) (r : Rcd α) :
    discards (addTo int0 cp q ⟨a, t, [], []⟩) r = false ↔
      discards (⟨a, t, [], []⟩ : Clause α) r = false ∧ metaOk int0 cp q r := by
  have hp : evalOps (fun p : Int => decide (p = r.pol)) (match polsOf cp q with
      | none => []
      | some l => (allPols.filter (fun p => decide (p ∉ l))).map (fun p => (true, p))) = false ↔
      ∀ l, polsOf cp q = some l → r.pol ∈ l ∨ r.pol ∉ allPols := by
    cases hq : polsOf cp q with
    | none => simp [evalOps]
    | some l =>
      dsimp only
      rw [evalOps_pols]
      constructor
      · intro h l' hl'
        injection hl' with hl'
        subst hl'
        have := of_decide_eq_false h
        tauto
      · intro h
        have := h l rfl
        exact decide_eq_false (by tauto)
  have ht : evalOps (fun x : α × α => decide (x.1 ≤ r.time ∧ r.time ≤ x.2 ∨ x.1 ≤ r.tod ∧ r.tod ≤ x.2)) (match q.range with
      | none => []
      | some x => [(false, x.1 - int0 / 2, x.2 - int0 / 2)]) = false ↔
      ∀ x, q.range = some x → (x.1 ≤ r.time + int0 / 2 ∧ r.time + int0 / 2 ≤ x.2) ∨ (x.1 ≤ r.tod + int0 / 2 ∧ r.tod + int0 / 2 ≤ x.2) := by
    cases hq : q.range with
    | none => simp [evalOps]
    | some x =>
      simp [evalOps, le_sub_iff_add_le]
      rw [← not_le, ← not_le]
      tauto
  unfold discards addTo metaOk
  dsimp only
  rw [List.nil_append, List.nil_append, Bool.or_eq_false_iff, Bool.or_eq_false_iff, ht, hp]
  simp [evalOps]
  tauto

omit [Field α] [IsStrictOrderedRing α] in
theorem discards_cl (a : Bool) (p : Nat × Nat) (hp : p.1 < 2047 ∧ p.2 < 2047) (r : Rcd α) (i j : Nat) (hij : i ≤ j) (hj : j < 2047)
    (hr : r.bl = mkbl i j) : discards (cl a p) r = false ↔ (min p.1 p.2, max p.1 p.2) = (i, j) := by
  unfold discards cl
  rw [hr, mkbl_eq i j hij, bl2ant_ij2bl i j (by omega) hj, Nat.min_eq_left hij, Nat.max_eq_right hij]
  simp only [evalOps, Bool.or_false]
  rw [if_neg (by omega)]
  unfold setAnts
  rw [if_neg (by omega), if_neg (by omega)]
  by_cases h : j + 1 = max p.1 p.2 + 1 ∧ i + 1 = min p.1 p.2 + 1
  · rw [if_pos h]; simp only [Prod.mk.injEq, true_iff]; omega
  · rw [if_neg h]; simp only [Bool.true_eq_false, Prod.mk.injEq, false_iff]; omega

omit [Field α] [IsStrictOrderedRing α] in
/-- Records that pass clauses of pairs: those of one of the pairs. -/
theorem keeps_cls (p : Nat × Nat) (r : Rcd α) (i j : Nat) (hij : i ≤ j) (hj : j < 2047) (hr : r.bl = mkbl i j) : ∀ (l : List (Nat × Nat)),
    (∀ x ∈ p :: l, x.1 < 2047 ∧ x.2 < 2047) →
    (keeps (cl true p :: l.map (cl false)) r = true ↔ ∃ x ∈ p :: l, (min x.1 x.2, max x.1 x.2) = (i, j)) := by
  intro l
  induction l using List.reverseRecOn with
  | nil =>
    intro h
    have := discards_cl true p (h p (by simp)) r i j hij hj hr
    simp only [keeps, List.map_nil, List.foldl_cons, List.foldl_nil, List.mem_singleton, exists_eq_left]
    rw [← this]
    simp [cl]
  | append_singleton l x ih =>
    intro h
    have ih' := ih (fun y hy => h y (by simp only [List.mem_cons, List.mem_append] at hy ⊢; tauto))
    have hx := discards_cl false x (h x (by simp)) r i j hij hj hr
    rw [List.map_append, List.map_singleton, ← List.cons_append, keeps_snoc]
    have e : (∃ y ∈ p :: (l ++ [x]), (min y.1 y.2, max y.1 y.2) = (i, j)) ↔
        (∃ y ∈ p :: l, (min y.1 y.2, max y.1 y.2) = (i, j)) ∨ (min x.1 x.2, max x.1 x.2) = (i, j) := by
      constructor
      · rintro ⟨y, hy, e⟩
        simp only [List.mem_cons, List.mem_append, List.not_mem_nil, or_false] at hy
        rcases hy with hy | hy | hy
        · exact Or.inl ⟨y, by simp [hy], e⟩
        · exact Or.inl ⟨y, by simp [hy], e⟩
        · exact Or.inr (hy ▸ e)
      · rintro (⟨y, hy, e⟩ | e)
        · refine ⟨y, ?_, e⟩
          simp only [List.mem_cons, List.mem_append] at hy ⊢
          tauto
        · exact ⟨x, by simp, e⟩
    rw [e, ← ih', ← hx]
    cases keeps (cl true p :: l.map (cl false)) r <;> simp [cl]

/-- **What a list of antenna pairs with other keywords selects.** Records of all pairs but the last are read whatever their time and
polarization are; those of the last pair are read if time and polarization are as asked. -/
theorem keeps_pairs (int0 : α) (cp : Int → Int) (q : Req α) (hrange : ∀ x, q.range = some x → x.1 < x.2)
    (init : List (Nat × Nat)) (last : Nat × Nat) (h : ∀ x ∈ init ++ [last], x.1 < 2047 ∧ x.2 < 2047) :
    ∃ cs, calls [] (selectorCalls ((init ++ [last]).map pairItem) ++ timeCalls int0 q ++ polCalls cp q) = some cs ∧
      ∀ (r : Rcd α) (i j : Nat), i ≤ j → j < 2047 → r.bl = mkbl i j →
        (keeps cs r = true ↔ (∃ x ∈ init, (min x.1 x.2, max x.1 x.2) = (i, j)) ∨
          ((min last.1 last.2, max last.1 last.2) = (i, j) ∧ metaOk int0 cp q r)) := by
  cases init with
  | nil =>
    refine ⟨[addTo int0 cp q (cl true last)], ?_, ?_⟩
    · rw [List.nil_append, List.append_assoc, calls_append, calls_pairs last [] (by simpa using h)]
      simp only [Option.bind_some, List.map_nil]
      exact calls_addTo int0 cp q hrange [] (cl true last)
    · intro r i j hij hj hr
      have h1 := discards_cl true last (h last (by simp)) r i j hij hj hr
      have h2 := discards_addTo int0 cp q true (some (setAnts (fun _ _ => true) (max last.1 last.2 + 1) (min last.1 last.2 + 1) false)) r
      rw [← h1]
      have h3 : keeps [addTo int0 cp q (cl true last)] r = true ↔ discards (addTo int0 cp q (cl true last)) r = false := by
        simp [keeps, cl, addTo]
      rw [h3]
      have h4 := h2
      unfold cl
      rw [h4]
      simp
  | cons p init =>
    refine ⟨(cl true p :: init.map (cl false)) ++ [addTo int0 cp q (cl false last)], ?_, ?_⟩
    · rw [List.append_assoc, calls_append, List.cons_append, calls_pairs p (init ++ [last]) (by simpa using h)]
      simp only [Option.bind_some, List.map_append, List.map_cons, List.map_nil]
      rw [← List.cons_append, calls_addTo int0 cp q hrange]
    · intro r i j hij hj hr
      have h1 := discards_cl false last (h last (by simp)) r i j hij hj hr
      have h2 := discards_addTo int0 cp q false (some (setAnts (fun _ _ => true) (max last.1 last.2 + 1) (min last.1 last.2 + 1) false)) r
      have h3 := keeps_cls p r i j hij hj hr init (fun x hx => h x (by simp only [List.mem_cons, List.mem_append] at hx ⊢; tauto))
      rw [keeps_snoc, ← h3, ← h1]
      have h4 : discards (addTo int0 cp q (cl false last)) r = false ↔ discards (cl false last) r = false ∧ metaOk int0 cp q r := h2
      rw [← h4]
      have h5 : (addTo int0 cp q (cl false last)).isAnd = false := rfl
      rw [h5]
      cases keeps (cl true p :: init.map (cl false)) r <;> simp

/-- Without antenna pairs, or with none of them left, time and polarization alone count. -/
theorem keeps_meta (int0 : α) (cp : Int → Int) (q : Req α) (hrange : ∀ x, q.range = some x → x.1 < x.2) :
    ∃ cs, calls ([] : List (Clause α)) (timeCalls int0 q ++ polCalls cp q) = some cs ∧ ∀ (r : Rcd α), keeps cs r = true ↔ metaOk int0 cp q r := by
  have base : ∀ r : Rcd α, discards (⟨true, none, [], []⟩ : Clause α) r = false := by
    intro r; simp [discards, evalOps]
  have one : ∀ r : Rcd α, keeps [addTo int0 cp q (Clause.fresh true)] r = true ↔ metaOk int0 cp q r := by
    intro r
    have h2 := discards_addTo int0 cp q true none r
    rw [show keeps [addTo int0 cp q (Clause.fresh true)] r = !discards (addTo int0 cp q (⟨true, none, [], []⟩ : Clause α)) r by
      simp [keeps, addTo, Clause.fresh]]
    rw [Bool.not_eq_true', h2]
    exact ⟨fun h => h.2, fun h => ⟨base r, h⟩⟩
  cases hq : q.range with
  | some x =>
    refine ⟨[addTo int0 cp q (Clause.fresh true)], ?_, one⟩
    have hx := hrange x hq
    have h1 : calls ([] : List (Clause α)) (timeCalls int0 q) = some [{ (Clause.fresh true : Clause α) with
        times := [(false, x.1 - int0 / 2, x.2 - int0 / 2)] }] := by
      unfold timeCalls
      rw [hq]
      dsimp only
      rw [calls_cons]
      simp only [uvselect, List.getLast?_nil, onLast]
      rw [if_neg (by simp; exact hx)]
      simp [calls_nil, Clause.fresh]
    rw [calls_append, h1]
    simp only [Option.bind_some]
    unfold polCalls addTo
    rw [hq]
    cases hp : polsOf cp q with
    | none => simp [calls_nil, Clause.fresh]
    | some l =>
      dsimp only
      have := calls_pol (allPols.filter (fun p => decide (p ∉ l))) [] ({ (Clause.fresh true : Clause α) with
        times := [(false, x.1 - int0 / 2, x.2 - int0 / 2)] })
      simp only [List.nil_append] at this
      rw [this]
      simp [Clause.fresh]
  | none =>
    have h0 : timeCalls int0 q = [] := by unfold timeCalls; rw [hq]
    rw [h0, List.nil_append]
    cases hp : polsOf cp q with
    | none =>
      refine ⟨[], by unfold polCalls; rw [hp]; rfl, ?_⟩
      intro r
      have : metaOk int0 cp q r := by
        refine ⟨?_, ?_⟩
        · intro x hx; rw [hq] at hx; cases hx
        · intro l hl; rw [hp] at hl; cases hl
      simp [keeps, this]
    | some l =>
      by_cases hl : allPols.filter (fun p => decide (p ∉ l)) = []
      · refine ⟨[], by unfold polCalls; rw [hp]; dsimp only; rw [hl]; rfl, ?_⟩
        intro r
        have : metaOk int0 cp q r := by
          refine ⟨?_, ?_⟩
          · intro x hx; rw [hq] at hx; cases hx
          · intro l' hl'
            rw [hp] at hl'
            injection hl' with hl'
            subst hl'
            by_contra hc
            push Not at hc
            have hm : r.pol ∈ allPols.filter (fun p => decide (p ∉ l)) := by
              rw [List.mem_filter]; exact ⟨hc.2, decide_eq_true hc.1⟩
            rw [hl] at hm
            cases hm
        simp [keeps, this]
      · refine ⟨[addTo int0 cp q (Clause.fresh true)], ?_, one⟩
        unfold polCalls addTo
        rw [hp]
        dsimp only
        rw [calls_pol_nil _ hl, hq]
        simp [Clause.fresh]

/-- Specification: whether a record of antennas `i` and `j` is asked for. -/
def Wanted (cp : Int → Int) (q : Req α) (r : Rcd α) (i j : Nat) : Prop :=
  (∀ n, q.nums = some n → i ∈ n ∧ j ∈ n) ∧
  (∀ b, q.bls = some b → ∃ x ∈ b, ((x.1, x.2.1) = (i, j) ∧ ∀ p, x.2.2 = some p → r.pol = p) ∨
    (x.2.1 < x.1 ∧ (x.2.1, x.1) = (i, j) ∧ ∀ p, x.2.2 = some p → r.pol = cp p)) ∧
  (∀ x, q.range = some x → x.1 ≤ r.time + r.int / 2 ∧ r.time + r.int / 2 ≤ x.2) ∧
  (∀ l, q.pols = some l → r.pol ∈ l)

theorem mem_withRepl (n : List Nat) (i j : Nat) (hij : i ≤ j) :
    (∃ x ∈ withRepl n, (min x.1 x.2, max x.1 x.2) = (i, j)) ↔ i ∈ n ∧ j ∈ n := by
  induction n with
  | nil => simp [withRepl]
  | cons a n ih =>
    constructor
    · rintro ⟨x, hx, e⟩
      rw [withRepl, List.mem_append] at hx
      rcases hx with hx | hx
      · rw [List.mem_map] at hx
        obtain ⟨b, hb, rfl⟩ := hx
        simp only [Prod.mk.injEq] at e
        have h1 : i = a ∨ i = b := by omega
        have h2 : j = a ∨ j = b := by omega
        refine ⟨?_, ?_⟩
        · rcases h1 with rfl | rfl
          · simp
          · exact hb
        · rcases h2 with rfl | rfl
          · simp
          · exact hb
      · have := ih.mp ⟨x, hx, e⟩
        exact ⟨List.mem_cons_of_mem _ this.1, List.mem_cons_of_mem _ this.2⟩
    · rintro ⟨h1, h2⟩
      by_cases ha : i = a
      · refine ⟨(a, j), ?_, ?_⟩
        · rw [withRepl, List.mem_append]; left; exact List.mem_map.mpr ⟨j, h2, rfl⟩
        · subst ha; simp only [Prod.mk.injEq]; omega
      by_cases hb : j = a
      · refine ⟨(a, i), ?_, ?_⟩
        · rw [withRepl, List.mem_append]; left; exact List.mem_map.mpr ⟨i, h1, rfl⟩
        · subst hb; simp only [Prod.mk.injEq]; omega
      have h1' : i ∈ n := by simpa [ha] using h1
      have h2' : j ∈ n := by simpa [hb] using h2
      obtain ⟨x, hx, e⟩ := ih.mpr ⟨h1', h2'⟩
      exact ⟨x, by rw [withRepl, List.mem_append]; exact Or.inr hx, e⟩

/-- Pairs of a sorted list of antennas are sorted. -/
theorem withRepl_sorted (n : List Nat) (h : n.Pairwise (· ≤ ·)) : ∀ x ∈ withRepl n, x.1 ≤ x.2 := by
  induction n with
  | nil => simp [withRepl]
  | cons a n ih =>
    intro x hx
    rw [List.pairwise_cons] at h
    rw [withRepl, List.mem_append, List.mem_map] at hx
    rcases hx with ⟨b, hb, rfl⟩ | hx
    · rcases List.mem_cons.mp hb with rfl | hb
      · exact le_refl _
      · exact h.1 b hb
    · exact ih h.2 x hx

theorem mem_blPairs (b : List (Nat × Nat × Option Int)) (x : Nat × Nat) :
    x ∈ blPairs b ↔ ∃ y ∈ b, (y.1 ≤ y.2.1 ∧ (y.1, y.2.1) = x) ∨ (y.2.1 < y.1 ∧ (y.2.1, y.1) = x) := by
  unfold blPairs
  rw [List.mem_map]
  constructor
  · rintro ⟨y, hy, rfl⟩
    refine ⟨y, hy, ?_⟩
    by_cases h : y.1 ≤ y.2.1
    · left; rw [if_pos h]; exact ⟨h, rfl⟩
    · right; rw [if_neg h]; exact ⟨by omega, rfl⟩
  · rintro ⟨y, hy, ⟨h, rfl⟩ | ⟨h, rfl⟩⟩
    · exact ⟨y, hy, if_pos h⟩
    · exact ⟨y, hy, if_neg (by omega)⟩

omit [Field α] [LinearOrder α] [IsStrictOrderedRing α] in
/-- Which antennas the pairs of a request mean. -/
theorem pairs_mem (inter : List (Nat × Nat) → List (Nat × Nat) → List (Nat × Nat)) (hinter : ∀ a b x, x ∈ inter a b ↔ x ∈ a ∧ x ∈ b)
    (q : Req α) (hsort : ∀ n b, q.nums = some n → q.bls = some b → n.Pairwise (· ≤ ·)) (l : List (Nat × Nat)) (hl : pairs inter q = some l)
    (i j : Nat) (hij : i ≤ j) :
    (∃ x ∈ l, (min x.1 x.2, max x.1 x.2) = (i, j)) ↔
      (∀ n, q.nums = some n → i ∈ n ∧ j ∈ n) ∧
      (∀ b, q.bls = some b → ∃ x ∈ b, (x.1, x.2.1) = (i, j) ∨ (x.2.1 < x.1 ∧ (x.2.1, x.1) = (i, j))) := by
  have hbl : ∀ b, (i, j) ∈ blPairs b ↔ ∃ x ∈ b, (x.1, x.2.1) = (i, j) ∨ (x.2.1 < x.1 ∧ (x.2.1, x.1) = (i, j)) := by
    intro b
    rw [mem_blPairs]
    constructor
    · rintro ⟨y, hy, ⟨_, h⟩ | h⟩
      · exact ⟨y, hy, Or.inl h⟩
      · exact ⟨y, hy, Or.inr h⟩
    · rintro ⟨y, hy, h | h⟩
      · refine ⟨y, hy, Or.inl ⟨?_, h⟩⟩
        simp only [Prod.mk.injEq] at h
        omega
      · exact ⟨y, hy, Or.inr h⟩
  have hmin : ∀ b, (∃ x ∈ blPairs b, (min x.1 x.2, max x.1 x.2) = (i, j)) ↔ (i, j) ∈ blPairs b := by
    intro b
    constructor
    · rintro ⟨x, hx, e⟩
      have hle : x.1 ≤ x.2 := by
        obtain ⟨y, _, ⟨h, rfl⟩ | ⟨h, rfl⟩⟩ := (mem_blPairs b x).mp hx
        · exact h
        · exact le_of_lt h
      rw [Nat.min_eq_left hle, Nat.max_eq_right hle] at e
      rwa [← e]
    · intro h
      exact ⟨(i, j), h, by rw [Nat.min_eq_left hij, Nat.max_eq_right hij]⟩
  unfold pairs at hl
  cases hn : q.nums with
  | none =>
    cases hb : q.bls with
    | none => rw [hn, hb] at hl; cases hl
    | some b =>
      rw [hn, hb] at hl
      injection hl with hl
      subst hl
      rw [hmin, hbl]
      simp
  | some n =>
    cases hb : q.bls with
    | none =>
      rw [hn, hb] at hl
      injection hl with hl
      subst hl
      rw [mem_withRepl n i j hij]
      simp
    | some b =>
      rw [hn, hb] at hl
      injection hl with hl
      subst hl
      have hs := hsort n b hn hb
      constructor
      · rintro ⟨x, hx, e⟩
        rw [hinter] at hx
        refine ⟨?_, ?_⟩
        · intro n' hn'
          injection hn' with hn'
          subst hn'
          exact (mem_withRepl n i j hij).mp ⟨x, hx.1, e⟩
        · intro b' hb'
          injection hb' with hb'
          subst hb'
          exact (hbl b).mp ((hmin b).mp ⟨x, hx.2, e⟩)
      · rintro ⟨h1, h2⟩
        have h3 := (mem_withRepl n i j hij).mpr (h1 n rfl)
        obtain ⟨x, hx, e⟩ := h3
        have hle := withRepl_sorted n hs x hx
        rw [Nat.min_eq_left hle, Nat.max_eq_right hle] at e
        refine ⟨(i, j), ?_, by rw [Nat.min_eq_left hij, Nat.max_eq_right hij]⟩
        rw [hinter]
        refine ⟨?_, (hbl b).mpr (h2 b rfl)⟩
        rw [← e]
        exact hx

/-- Requests for which a selection does what it says: the keywords that give antenna pairs leave one pair, or neither times nor
polarizations are given; a sorted list of antennas if pairs are given as well; a polarization with a pair only for a single pair. -/
structure Simple (inter : List (Nat × Nat) → List (Nat × Nat) → List (Nat × Nat)) (q : Req α) : Prop where
  small : ∀ l, pairs inter q = some l → ∀ x ∈ l, x.1 < 2047 ∧ x.2 < 2047
  one : ∀ l, pairs inter q = some l → l.length = 1 ∨ (l ≠ [] ∧ q.range = none ∧ q.pols = none ∧ ∀ b, q.bls = some b → ∀ x ∈ b, x.2.2 = none)
  sorted : ∀ n b, q.nums = some n → q.bls = some b → n.Pairwise (· ≤ ·)
  pol : ∀ b, q.bls = some b → (∀ x ∈ b, x.2.2 = none) ∨ (q.pols = none ∧ ∃ x, b = [x])
  range : ∀ x, q.range = some x → x.1 < x.2 ∧ 1 ≤ x.1

/-- Records as they are written: antennas in order and below 2047, a time of day, a polarization that is known, and integrations that
are all of the same length. -/
structure Good (int0 : α) (r : Rcd α) (i j : Nat) : Prop where
  bl : r.bl = mkbl i j
  le : i ≤ j
  lt : j < 2047
  tod : r.tod + int0 / 2 < 1
  int : r.int = int0
  pol : r.pol ∈ allPols

omit [Field α] [LinearOrder α] [IsStrictOrderedRing α] in
theorem polsOf_none_pol (cp : Int → Int) (q : Req α) (b : List (Nat × Nat × Option Int)) (hb : q.bls = some b) (h : ∀ x ∈ b, x.2.2 = none) :
    polsOf cp q = q.pols := by
  unfold polsOf
  rw [hb]
  have : blPols cp b = [] := by
    unfold blPols
    rw [List.filterMap_eq_nil_iff]
    intro x hx
    rw [h x hx]
    rfl
  simp [this]

theorem prop1 {N A L E T P Q M : Prop} (hm : M) (hl : ¬ L) : ((N ∧ (A ∨ (L ∧ E))) ∧ T ∧ (P ∨ ¬ M)) ↔ (N ∧ ((A ∧ P) ∨ (L ∧ E ∧ Q)) ∧ T) := by
  tauto

theorem prop2 {N A L E T P Q M : Prop} (hm : M) (ha : ¬ A) : ((N ∧ (A ∨ (L ∧ E))) ∧ T ∧ (P ∨ ¬ M)) ↔ (N ∧ ((A ∧ Q) ∨ (L ∧ E ∧ P)) ∧ T) := by
  tauto

theorem prop3 {N A T : Prop} : ((N ∧ A) ∧ T) ↔ (N ∧ A ∧ T) := and_assoc

/-- **A selection on reading keeps the records that were asked for**, for simple requests. Missing: requests with more than one antenna
pair and times or polarizations, empty intersections, antennas in another order (counterexamples below). -/
theorem readCalls_partial (inter : List (Nat × Nat) → List (Nat × Nat) → List (Nat × Nat)) (hinter : ∀ a b x, x ∈ inter a b ↔ x ∈ a ∧ x ∈ b)
    (cp : Int → Int) (int0 : α) (q : Req α) (hs : Simple inter q) :
    ∃ cs, calls [] (readCalls inter cp int0 q) = some cs ∧
      ∀ (r : Rcd α) (i j : Nat), Good int0 r i j → (keeps cs r = true ↔ Wanted cp q r i j) := by
  have hrange : ∀ x, q.range = some x → x.1 < x.2 := fun x hx => (hs.range x hx).1
  -- times
  have htime : ∀ (r : Rcd α) (i j : Nat), Good int0 r i j →
      ((∀ x, q.range = some x → (x.1 ≤ r.time + int0 / 2 ∧ r.time + int0 / 2 ≤ x.2) ∨ (x.1 ≤ r.tod + int0 / 2 ∧ r.tod + int0 / 2 ≤ x.2)) ↔
      (∀ x, q.range = some x → x.1 ≤ r.time + r.int / 2 ∧ r.time + r.int / 2 ≤ x.2)) := by
    intro r i j hg
    rw [hg.int]
    constructor
    · intro h x hx
      rcases h x hx with h | h
      · exact h
      · exact absurd (lt_of_le_of_lt (le_trans (hs.range x hx).2 h.1) hg.tod) (lt_irrefl _)
    · intro h x hx
      exact Or.inl (h x hx)
  cases hp : pairs inter q with
  | none =>
    obtain ⟨cs, h1, h2⟩ := keeps_meta int0 cp q hrange
    refine ⟨cs, ?_, ?_⟩
    · unfold readCalls; rw [hp]; simpa using h1
    · intro r i j hg
      have hnb : q.nums = none ∧ q.bls = none := by
        unfold pairs at hp
        cases hn : q.nums <;> cases hb : q.bls <;> rw [hn, hb] at hp <;> simp_all
      rw [h2]
      unfold metaOk Wanted
      rw [htime r i j hg, hnb.1, hnb.2]
      have hpo : polsOf cp q = q.pols := by unfold polsOf; rw [hnb.2]
      rw [hpo]
      constructor
      · rintro ⟨h3, h4⟩
        refine ⟨by simp, by simp, h3, ?_⟩
        intro l hl
        rcases h4 l hl with h | h
        · exact h
        · exact absurd hg.pol h
      · rintro ⟨_, _, h3, h4⟩
        exact ⟨h3, fun l hl => Or.inl (h4 l hl)⟩
  | some l =>
    have hne : l ≠ [] := by
      rcases hs.one l hp with h | h
      · intro e; rw [e] at h; simp at h
      · exact h.1
    obtain ⟨init, last, rfl⟩ : ∃ init last, l = init ++ [last] := ⟨l.dropLast, l.getLast hne, (List.dropLast_append_getLast hne).symm⟩
    obtain ⟨cs, h1, h2⟩ := keeps_pairs int0 cp q hrange init last (hs.small _ hp)
    refine ⟨cs, ?_, ?_⟩
    · unfold readCalls; rw [hp]; exact h1
    · intro r i j hg
      rw [h2 r i j hg.le hg.lt hg.bl]
      have hmem := pairs_mem inter hinter q hs.sorted _ hp i j hg.le
      rcases hs.one _ hp with hone | ⟨_, hr, hpl, hb3⟩
      · -- one pair
        have hinit : init = [] := by
          rw [List.length_append] at hone; simp at hone; exact hone
        subst hinit
        have e1 : ((min last.1 last.2, max last.1 last.2) = (i, j)) ↔ ∃ x ∈ [] ++ [last], (min x.1 x.2, max x.1 x.2) = (i, j) := by simp
        simp only [List.not_mem_nil, false_and, exists_false, false_or]
        rw [e1, hmem]
        unfold metaOk Wanted
        rw [htime r i j hg]
        cases hb : q.bls with
        | none =>
          have hpo : polsOf cp q = q.pols := by unfold polsOf; rw [hb]
          rw [hpo]
          constructor
          · rintro ⟨⟨h3, _⟩, h4, h5⟩
            refine ⟨h3, by simp, h4, fun l hl => ?_⟩
            rcases h5 l hl with h | h
            · exact h
            · exact absurd hg.pol h
          · rintro ⟨h3, _, h4, h5⟩
            exact ⟨⟨h3, by simp⟩, h4, fun l hl => Or.inl (h5 l hl)⟩
        | some b =>
          rcases hs.pol b hb with hno | ⟨hpn, x, rfl⟩
          · rw [polsOf_none_pol cp q b hb hno]
            constructor
            · rintro ⟨⟨h3, h6⟩, h4, h5⟩
              refine ⟨h3, ?_, h4, fun l hl => ?_⟩
              · intro b' hb'
                injection hb' with hb'
                subst hb'
                obtain ⟨x, hx, h7⟩ := h6 b rfl
                refine ⟨x, hx, ?_⟩
                have := hno x hx
                rcases h7 with h7 | h7
                · left; exact ⟨h7, by rw [this]; simp⟩
                · right; exact ⟨h7.1, h7.2, by rw [this]; simp⟩
              · rcases h5 l hl with h | h
                · exact h
                · exact absurd hg.pol h
            · rintro ⟨h3, h6, h4, h5⟩
              refine ⟨⟨h3, ?_⟩, h4, fun l hl => Or.inl (h5 l hl)⟩
              intro b' hb'
              obtain ⟨x, hx, h7⟩ := h6 b' hb'
              exact ⟨x, hx, h7.imp (fun h => h.1) (fun h => ⟨h.1, h.2.1⟩)⟩
          · rw [hpn]
            cases hx2 : x.2.2 with
            | none =>
              have hno : ∀ y ∈ [x], y.2.2 = none := by simp [hx2]
              rw [polsOf_none_pol cp q [x] hb hno, hpn]
              simp only [Option.some.injEq, forall_eq', List.mem_singleton, exists_eq_left, hx2, reduceCtorEq, false_implies, implies_true,
                and_true]
              exact prop3
            | some p =>
              have hpo : polsOf cp q = some [if x.1 ≤ x.2.1 then p else cp p] := by
                unfold polsOf
                rw [hb]
                simp [blPols, hx2]
              rw [hpo]
              simp only [Option.some.injEq, forall_eq', List.mem_singleton, exists_eq_left, hx2, reduceCtorEq, false_implies, implies_true,
                and_true]
              have hpol := hg.pol
              by_cases hxx : x.1 ≤ x.2.1
              · rw [if_pos hxx]
                have : ¬ x.2.1 < x.1 := by omega
                exact prop1 hpol this
              · rw [if_neg hxx]
                have h8 : ¬ ((x.1, x.2.1) = (i, j)) := by
                  intro e
                  simp only [Prod.mk.injEq] at e
                  have := hg.le
                  omega
                exact prop2 hpol h8
      · -- many pairs, nothing else
        have hmeta : metaOk int0 cp q r := by
          refine ⟨by rw [hr]; simp, ?_⟩
          have hpo : polsOf cp q = none := by
            cases hb : q.bls with
            | none => unfold polsOf; rw [hb]; exact hpl
            | some b => rw [polsOf_none_pol cp q b hb (hb3 b hb)]; exact hpl
          rw [hpo]
          simp
        have e1 : ((∃ x ∈ init, (min x.1 x.2, max x.1 x.2) = (i, j)) ∨ ((min last.1 last.2, max last.1 last.2) = (i, j) ∧ metaOk int0 cp q r)) ↔
            ∃ x ∈ init ++ [last], (min x.1 x.2, max x.1 x.2) = (i, j) := by
          simp only [hmeta, and_true, List.mem_append, List.mem_singleton]
          constructor
          · rintro (⟨x, hx, e⟩ | e)
            · exact ⟨x, Or.inl hx, e⟩
            · exact ⟨last, Or.inr rfl, e⟩
          · rintro ⟨x, hx | hx, e⟩
            · exact Or.inl ⟨x, hx, e⟩
            · exact Or.inr (hx ▸ e)
        rw [e1, hmem]
        unfold Wanted
        rw [hr, hpl]
        simp only [reduceCtorEq, false_implies, implies_true, and_true]
        constructor
        · rintro ⟨h3, h6⟩
          refine ⟨h3, fun b hb => ?_⟩
          obtain ⟨x, hx, h7⟩ := h6 b hb
          refine ⟨x, hx, ?_⟩
          have := hb3 b hb x hx
          rcases h7 with h7 | h7
          · left; exact ⟨h7, by rw [this]; simp⟩
          · right; exact ⟨h7.1, h7.2, by rw [this]; simp⟩
        · rintro ⟨h3, h6⟩
          refine ⟨h3, fun b hb => ?_⟩
          obtain ⟨x, hx, h7⟩ := h6 b hb
          exact ⟨x, hx, h7.imp (fun h => h.1) (fun h => ⟨h.1, h.2.1⟩)⟩

/-- **What is read from a file**: the records that were asked for, in order; an error if there are none. -/
theorem readSel_partial (inter : List (Nat × Nat) → List (Nat × Nat) → List (Nat × Nat)) (hinter : ∀ a b x, x ∈ inter a b ↔ x ∈ a ∧ x ∈ b)
    (cp : Int → Int) (q : Req α) (hs : Simple inter q) (r0 : Rcd α) (file : List (Rcd α)) (ant : Rcd α → Nat × Nat)
    (hgood : ∀ r ∈ r0 :: file, Good r0.int r (ant r).1 (ant r).2)
    (hpol : ∀ l, polsOf cp q = some l → ∃ p ∈ l, p ∈ allPols) :
    ∃ l : List (Rcd α), l.Sublist (r0 :: file) ∧ (∀ r ∈ r0 :: file, (r ∈ l ↔ Wanted cp q r (ant r).1 (ant r).2)) ∧
      readSel inter cp q (r0 :: file) = if l = [] then none else some l := by
  obtain ⟨cs, h1, h2⟩ := readCalls_partial inter hinter cp r0.int q hs
  refine ⟨(r0 :: file).filter (keeps cs), List.filter_sublist, ?_, ?_⟩
  · intro r hr
    rw [List.mem_filter, h2 r _ _ (hgood r hr)]
    exact ⟨fun h => h.2, fun h => ⟨hr, h⟩⟩
  · have h0 : (polsOf cp q).map (fun l => allPols.filter (fun p => decide (p ∈ l))) ≠ some [] := by
      intro h
      rw [Option.map_eq_some_iff] at h
      obtain ⟨l, hl, e⟩ := h
      obtain ⟨p, hp1, hp2⟩ := hpol l hl
      have : p ∈ allPols.filter (fun p => decide (p ∈ l)) := by rw [List.mem_filter]; exact ⟨hp2, decide_eq_true hp1⟩
      rw [e] at this
      cases this
    have h3 : readSel inter cp q (r0 :: file) = match calls [] (readCalls inter cp r0.int q) with
        | none => none
        | some cs => match (r0 :: file).filter (keeps cs) with
          | [] => none
          | l => some l := by
      unfold readSel
      dsimp only
      cases hm : (polsOf cp q).map (fun l => allPols.filter (fun p => decide (p ∈ l))) with
      | none => rfl
      | some m =>
        cases m with
        | nil => exact absurd hm h0
        | cons _ _ => rfl
    rw [h3, h1]
    dsimp only
    cases (r0 :: file).filter (keeps cs) with
    | nil => rfl
    | cons a l => rfl

/-- **Pairs and polarizations together.** Of a list of antenna pairs, all records of all pairs but the last are read: those of
polarizations and times that were not asked for as well. -/
theorem otherKeywords_counterexample (inter : List (Nat × Nat) → List (Nat × Nat) → List (Nat × Nat)) (cp : Int → Int) (int0 : α)
    (q : Req α) (hn : q.nums = none) (b : List (Nat × Nat × Option Int)) (x y : Nat × Nat × Option Int) (hb : q.bls = some (x :: b ++ [y]))
    (hrange : ∀ x, q.range = some x → x.1 < x.2) (hsmall : ∀ z ∈ x :: b ++ [y], z.1 < 2047 ∧ z.2.1 < 2047) (hx : x.1 ≤ x.2.1) :
    ∃ cs, calls [] (readCalls inter cp int0 q) = some cs ∧ ∀ r : Rcd α, r.bl = mkbl x.1 x.2.1 → keeps cs r = true := by
  have hp : pairs inter q = some (blPairs (x :: b) ++ blPairs [y]) := by
    unfold pairs
    rw [hn, hb]
    unfold blPairs
    simp
  obtain ⟨w, hw⟩ : ∃ w, blPairs [y] = [w] := ⟨_, rfl⟩
  have hsm : ∀ z ∈ blPairs (x :: b) ++ [w], z.1 < 2047 ∧ z.2 < 2047 := by
    intro z hz
    have : z ∈ blPairs (x :: b ++ [y]) := by
      rw [← hw] at hz
      unfold blPairs at hz ⊢
      rw [List.map_append]
      exact hz
    rw [mem_blPairs] at this
    obtain ⟨u, hu, ⟨_, rfl⟩ | ⟨_, rfl⟩⟩ := this
    · exact hsmall u hu
    · exact ⟨(hsmall u hu).2, (hsmall u hu).1⟩
  obtain ⟨cs, h1, h2⟩ := keeps_pairs int0 cp q hrange (blPairs (x :: b)) w hsm
  refine ⟨cs, ?_, ?_⟩
  · unfold readCalls; rw [hp, hw]; exact h1
  · intro r hr
    rw [h2 r x.1 x.2.1 hx (hsmall x (by simp)).2 hr]
    left
    refine ⟨(x.1, x.2.1), ?_, by rw [Nat.min_eq_left hx, Nat.max_eq_right hx]⟩
    rw [mem_blPairs]
    exact ⟨x, by simp, Or.inl ⟨hx, rfl⟩⟩

omit [IsStrictOrderedRing α] in
/-- **Antennas and pairs that have nothing in common**: then all records are read, though none was asked for. -/
theorem emptyIntersection_counterexample (inter : List (Nat × Nat) → List (Nat × Nat) → List (Nat × Nat))
    (hinter : ∀ a b x, x ∈ inter a b ↔ x ∈ a ∧ x ∈ b) (cp : Int → Int) (int0 : α) (q : Req α) (n : List Nat)
    (b : List (Nat × Nat × Option Int)) (hn : q.nums = some n) (hb : q.bls = some b) (hr : q.range = none) (hp : polsOf cp q = none)
    (hdis : ∀ x ∈ blPairs b, x ∉ withRepl n) :
    ∃ cs, calls [] (readCalls inter cp int0 q) = some cs ∧ ∀ r : Rcd α, keeps cs r = true := by
  have hpairs : pairs inter q = some [] := by
    unfold pairs
    rw [hn, hb]
    dsimp only
    rw [Option.some.injEq, List.eq_nil_iff_forall_not_mem]
    intro x hx
    rw [hinter] at hx
    exact hdis x hx.2 hx.1
  refine ⟨[], ?_, fun r => rfl⟩
  unfold readCalls timeCalls polCalls
  rw [hpairs, hr, hp]
  rfl

/-- **Integrations of other lengths**: a record is looked for at the middle of an integration that is as long as the first one of the
file. -/
theorem otherLengths_counterexample (inter : List (Nat × Nat) → List (Nat × Nat) → List (Nat × Nat)) (cp : Int → Int) (int0 lo hi : α)
    (h : lo < hi) : ∃ cs, calls [] (readCalls inter cp int0 (⟨none, none, some (lo, hi), none⟩ : Req α)) = some cs ∧
      ∀ r : Rcd α, r.time + int0 / 2 = hi → lo ≤ r.time + r.int / 2 → int0 < r.int →
        keeps cs r = true ∧ ¬ (lo ≤ r.time + r.int / 2 ∧ r.time + r.int / 2 ≤ hi) := by
  obtain ⟨cs, h1, h2⟩ := keeps_meta int0 cp (⟨none, none, some (lo, hi), none⟩ : Req α) (by rintro x hx; injection hx with hx; subst hx; exact h)
  refine ⟨cs, by unfold readCalls; simpa [pairs] using h1, ?_⟩
  intro r h3 _ h5
  refine ⟨?_, ?_⟩
  · rw [h2]
    refine ⟨?_, by simp [polsOf]⟩
    rintro x hx
    injection hx with hx
    subst hx
    left
    dsimp only
    rw [h3]
    exact ⟨le_of_lt h, le_refl _⟩
  · rintro ⟨_, h6⟩
    have : int0 / 2 < r.int / 2 := by linarith
    rw [← h3] at h6
    linarith

omit [IsStrictOrderedRing α] in
/-- **Antennas that are not in ascending order**: if antennas `a > b` are asked for in this order and the pair of them as well, all
records are read. -/
theorem unsorted_counterexample (inter : List (Nat × Nat) → List (Nat × Nat) → List (Nat × Nat))
    (hinter : ∀ a b x, x ∈ inter a b ↔ x ∈ a ∧ x ∈ b) (cp : Int → Int) (int0 : α) (a b : Nat) (h : b < a) :
    ∃ cs, calls [] (readCalls inter cp int0 (⟨some [a, b], some [(b, a, none)], none, none⟩ : Req α)) = some cs ∧
      ∀ r : Rcd α, keeps cs r = true := by
  refine emptyIntersection_counterexample inter hinter cp int0 _ [a, b] [(b, a, none)] rfl rfl rfl rfl ?_
  intro x hx
  rw [mem_blPairs] at hx
  obtain ⟨y, hy, hx⟩ := hx
  rw [List.mem_singleton] at hy
  subst hy
  rcases hx with ⟨-, rfl⟩ | ⟨g, -⟩
  · simp only [withRepl, List.map_cons, List.map_nil, List.append_nil, List.mem_append, List.mem_cons, Prod.mk.injEq, List.not_mem_nil, or_false]
    omega
  · exact absurd g (by simp only; omega)

omit [IsStrictOrderedRing α] in
/-- **A range of one time** is refused, even if there are records at that time. -/
theorem pointRange_counterexample (inter : List (Nat × Nat) → List (Nat × Nat) → List (Nat × Nat)) (cp : Int → Int) (t : α)
    (file : List (Rcd α)) : readSel inter cp (⟨none, none, some (t, t), none⟩ : Req α) file = none := by
  cases file with
  | nil => rfl
  | cons r l =>
    have : calls ([] : List (Clause α)) (readCalls inter cp r.int (⟨none, none, some (t, t), none⟩ : Req α)) = none := by
      simp [readCalls, pairs, timeCalls, polCalls, polsOf, calls, uvselect, onLast]
    simp [readSel, polsOf, this]

end Verif.Miriad
