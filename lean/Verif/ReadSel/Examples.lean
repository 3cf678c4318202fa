import Verif.ReadSel.Many

/-! # Examples: visibilities are numbers; every keyword asks for numbers that are not its value -/

namespace Verif.ReadSel.Examples

def allKw : List Kw := [.antennaNums, .antennaNames, .antStr, .bls, .frequencies, .freqChans, .times, .timeRange, .lsts, .lstRange,
  .polarizations, .bltInds, .phaseCenterIds, .catalogNames, .corrchunk, .receivers, .sidebands, .selectWhere]

def ok (r : Req Nat) (x : Nat) : Bool := allKw.all (fun k => match r k with | none => true | some v => x ≠ v)

def pick (r : Req Nat) (l : List Nat) : Except Err (List Nat) := if l.filter (ok r) = [] then .error .value else .ok (l.filter (ok r))

/-- A file is a nonempty list of numbers. -/
def world : World Nat (Nat × List Nat) Nat (List Nat) where
  reader _ f _ r := pick r (f.1 :: f.2)
  select r l := pick r l
  add a b := .ok (a ++ b)
  concat a l := .ok (a ++ l.flatten)
  three v := v = 3

theorem ok_iff (r : Req Nat) (x : Nat) : ok r x = true ↔ Asked (fun _ v x => x ≠ v) r x := by
  unfold ok Asked
  rw [List.all_eq_true]
  constructor
  · intro h k v hv
    have hk : k ∈ allKw := by cases k <;> decide
    have := h k hk
    rw [hv] at this
    simpa using this
  · intro h k _
    cases hv : r k with
    | none => rfl
    | some v => simpa using h k v hv

theorem keeps : Keeps world (fun _ v x => x ≠ v) (fun f => f.1 :: f.2) where
  full := by simp
  reader _ f _ r _ := ⟨ok r, fun x _ => ok_iff r x, rfl⟩
  select r l _ _ := ⟨ok r, fun x _ => ok_iff r x, rfl⟩

def req (l : List (Kw × Nat)) : Req Nat := fun k => (l.find? (fun p => p.1 = k)).map (·.2)

theorem miriad_covered : Covered .miriad (req [(.times, 4), (.lsts, 5), (.bls, 6)]) where
  known := by decide
  names := by decide
  lst _ _ := ⟨.times, by decide, by decide⟩
  positions _ := by decide

example : Selects (fun _ v x => x ≠ v) [4, 5, 6, 7] (req [(.times, 4), (.lsts, 5), (.bls, 6)])
    (readOne world .miriad (4, [5, 6, 7]) none (req [(.times, 4), (.lsts, 5), (.bls, 6)])) :=
  read_selects_partial keeps (by decide) (4, [5, 6, 7]) none (by decide) miriad_covered

example : readOne world .miriad (4, [5, 6, 7]) none (req [(.times, 4), (.lsts, 5), (.bls, 6)]) = .ok [7] := by decide +kernel

/-- The keyword is obeyed for the one type of file and not for the other. -/
example : readOne world .uvh5 (4, [5, 6]) none (req [(.catalogNames, 4)]) = .ok [5, 6] ∧
    readOne world .ms (4, [5, 6]) none (req [(.catalogNames, 4)]) = .ok [4, 5, 6] := by
  constructor <;> decide +kernel

example : readOne world .miriad (4, [5, 6]) none (req [(.lsts, 4)]) = .ok [4, 5, 6] := by decide +kernel

example : readOne world .mir (4, [5, 6]) none (req [(.antStr, 4)]) = .ok [4, 5, 6] := by decide +kernel

example : Ignored world .miriad .lstRange (req [(.lstRange, 4), (.bls, 5)]) :=
  lst_ignored_counterexample world _ (Or.inr rfl) _ (by decide)

/-- `read` of MIR files selects by baselines afterwards if they have polarizations. -/
example : readOne world .mir (4, [5, 6]) none (req [(.bls, 5), (.times, 6)]) = .ok [4] := by decide +kernel

example : readOne world .uvfits (4, [5]) none (req [(.times, 4), (.timeRange, 5)]) = .error .value :=
  read_refused _ _ _ _ _ (Or.inl (by decide))

theorem even_req : Even (req [(.times, 9)]) := by
  refine ⟨?_, ?_, ?_, ?_⟩ <;> decide

theorem calm_req : ¬ Conflict (req [(.times, 9)]) := by
  unfold Conflict
  decide

/-- Five files, the second of which has nothing that is asked for. -/
def files : List (Nat × List Nat) := [(1, [9]), (9, []), (2, [3]), (4, []), (5, [9, 6])]

example : goods (fun f => readOne world .uvh5 f none (req [(.times, 9)])) files = [[1], [2, 3], [4], [5, 6]] := by decide +kernel

example : ∃ warned, readMany world .uvh5 true false files [] (req [(.times, 9)]) = .ok (.read [1, 2, 3, 4, 5, 6] warned) ∧
    (warned = [] ↔ ∀ f ∈ files, ∃ d, readOne world .uvh5 f none (req [(.times, 9)]) = .ok d) := by
  have h := many_skip_partial world (ft := .uvh5) (by decide) false files [] even_req calm_req (by
    intro f hf e he
    have hv : readOne world .uvh5 f none (req [(.times, 9)]) = .error .value ∨
        ∃ d, readOne world .uvh5 f none (req [(.times, 9)]) = .ok d := by
      simp only [files, List.mem_cons, List.not_mem_nil, or_false] at hf
      rcases hf with rfl | rfl | rfl | rfl | rfl
      · exact Or.inr ⟨[1], by decide +kernel⟩
      · exact Or.inl (by decide +kernel)
      · exact Or.inr ⟨[2, 3], by decide +kernel⟩
      · exact Or.inr ⟨[4], by decide +kernel⟩
      · exact Or.inr ⟨[5, 6], by decide +kernel⟩
    rcases hv with hv | ⟨d, hv⟩ <;> rw [hv] at he <;> cases he
    decide)
  have hg : goods (fun f => readOne world .uvh5 f none (req [(.times, 9)])) files = [[1], [2, 3], [4], [5, 6]] := by decide +kernel
  have hm : merge world false [1] [[2, 3], [4], [5, 6]] = .ok [1, 2, 3, 4, 5, 6] := by decide +kernel
  rw [hg] at h
  dsimp only at h
  rw [hm] at h
  exact h

example (d : List Nat) (ds : List (List Nat)) : merge world false d ds = .ok (ds.foldl (· ++ ·) d) :=
  merge_fold (fun _ _ => rfl) (fun a b c => List.append_assoc a b c) d ds

example : Sum world.add [[1], [2, 3], [4]] [1, 2, 3, 4] :=
  merge_sum (w := world) (d := [1]) (ds := [[2, 3], [4]]) (by decide +kernel)

theorem readMany_all : readMany world .uvh5 false false [(1, [9]), (2, [3]), (4, [])] [] (req [(.times, 9)]) =
    .ok (.read [1, 2, 3, 4] []) := by
  rw [many_strict_partial world (ft := .uvh5) (by decide) false _ _ [] even_req calm_req
    (g := fun f => (f.1 :: f.2).filter (ok (req [(.times, 9)])))]
  · rfl
  · intro f hf
    simp only [List.mem_cons, List.not_mem_nil, or_false] at hf
    rcases hf with rfl | rfl | rfl <;> decide +kernel

theorem readMany_bad : readMany world .uvh5 false false [(1, [9]), (9, []), (4, [])] [] (req [(.times, 9)]) = .error .value :=
  many_error_partial world (ft := .uvh5) (by decide) false [(1, [9])] (9, []) [(4, [])] [] even_req calm_req
    (by intro f hf; rw [List.mem_singleton] at hf; subst hf; exact ⟨[1], by decide +kernel⟩) (by decide +kernel)

/-- A list of one file, from which one phase center is asked for: the keyword does nothing. -/
example : readMany world .uvh5 false false [(4, [5, 6])] [] (req [(.catalogNames, 4)]) = .ok (.read [4, 5, 6] []) :=
  one_names_counterexample world (by decide) _ _ _ (by decide +kernel) (by unfold Conflict; decide)

/-- Of two MIR files, only the first is selected from by receiver. -/
example : readMany world .mir false false [(4, [5]), (4, [6])] [] (req [(.receivers, 4)]) = .ok (.read [5, 4, 6] []) :=
  two_chunks_counterexample world (by decide) _ _ _ _ (by unfold Conflict; decide) (d₁ := [5]) (d₂ := [4, 6])
    (by decide +kernel) (by decide +kernel) rfl

/-- In this world the auxiliary file is the first number of the object. -/
def fhdWorld : World Nat (Nat × List Nat) Nat (List Nat) := { world with
  reader := fun _ f a r => pick r (a.getD 0 :: f.1 :: f.2) }

example : readMany fhdWorld .fhd false false [(4, []), (5, [])] [1, 2] (req [(.times, 9)]) = .ok (.read [1, 4, 1, 5] []) :=
  fhd_counterexample fhdWorld _ _ 1 2 _ even_req calm_req (d₁ := [1, 4]) (d₂ := [1, 5]) (by decide +kernel) (by decide +kernel) rfl

/-- Files that begin with 0 have a key missing. -/
def badWorld : World Nat (Nat × List Nat) Nat (List Nat) := { world with
  reader := fun _ f _ r => if f.1 = 0 then .error .key else pick r (f.1 :: f.2) }

example : readMany badWorld .uvh5 true false [(0, []), (0, [7]), (5, [])] [] (req [(.times, 9)]) =
    .ok (.read [5] [(0, []), (0, [])]) :=
  warned_counterexample badWorld (by decide) _ _ _ _ _ even_req calm_req (by decide +kernel) (by decide +kernel) (by decide +kernel)

/-- A world in which reading of the file 8 fails in another way. -/
def world' : World Nat (Nat × List Nat) Nat (List Nat) :=
  { world with reader := fun _ f _ r => if f.1 = 8 then .error .other else pick r (f.1 :: f.2) }

example : readMany world' .uvh5 true false ([(9, []), (1, [9])] ++ (8, []) :: [(4, [])]) [] (req [(.times, 9)]) = .error .other :=
  many_uncaught_partial world' (ft := .uvh5) (by decide) false _ _ _ [] even_req calm_req
    (by
      intro f hf
      simp only [List.mem_cons, List.not_mem_nil, or_false] at hf
      rcases hf with rfl | rfl
      · have h : readOne world' .uvh5 (9, []) none (req [(.times, 9)]) = .error .value := by decide +kernel
        rw [h]
        decide
      · have h : readOne world' .uvh5 (1, [9]) none (req [(.times, 9)]) = .ok [1] := by decide +kernel
        rw [h]
        intro g
        cases g)
    (by decide +kernel)

example : ∃ r', r' .bls = some 3 ∧ readOne world .mir (4, [5, 6]) none (req [(.bls, 3), (.times, 6)]) = world.select r' [4, 5, 6] :=
  (mir_baselines world (4, [5, 6]) none (req [(.bls, 3), (.times, 6)]) 3 rfl (by decide) [4, 5, 6] (by decide +kernel)).1 (by decide)

end Verif.ReadSel.Examples
