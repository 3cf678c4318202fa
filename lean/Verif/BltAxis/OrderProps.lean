import Verif.BltAxis.OrderLemmas

/-!
C10: a reported baseline-time order is the actual order.
-/
namespace Verif.BltAxis

variable {τ : Type} [LinearOrder τ]

/-- `Nbls` and `Ntimes` are the numbers of distinct baselines and times, as `UVData` guarantees. -/
def CountsOK (rows : List (Row τ)) (nbls ntimes : Nat) : Prop :=
  ((rows.map Row.bl).dedup).length = nbls ∧ ((rows.map Row.t).dedup).length = ntimes

theorem dedup_one {β : Type} [DecidableEq β] {l : List β} (h : l.dedup.length = 1) :
    ∀ x ∈ l, ∀ y ∈ l, x = y := by
  obtain ⟨z, hz⟩ := List.length_eq_one_iff.1 h
  intro x hx y hy
  have hx' := List.mem_dedup.2 hx
  have hy' := List.mem_dedup.2 hy
  rw [hz] at hx' hy'
  simp at hx' hy'
  rw [hx', hy']

/-- C10: whenever an order is returned, the rows are sorted by exactly the returned keys. -/
theorem blt_order_sound (rows : List (Row τ)) (nbls ntimes : Nat) (ks : List Key)
    (hc : CountsOK rows nbls ntimes) (h : determineBltOrder rows nbls ntimes = .ok (some ks)) :
    SortedBy ks rows := by
  unfold determineBltOrder at h
  split at h
  · rename_i h1
    simp only [Except.ok.injEq, Option.some.injEq] at h
    subst h
    obtain ⟨hb, ht⟩ := hc
    rw [h1.1] at hb
    rw [h1.2] at ht
    have eb := dedup_one hb
    have et := dedup_one ht
    unfold SortedBy
    rw [List.pairwise_iff_getElem]
    intro i j hi hj _
    have e1 := eb _ (List.mem_map_of_mem (List.getElem_mem hi)) _ (List.mem_map_of_mem (List.getElem_mem hj))
    have e2 := et _ (List.mem_map_of_mem (List.getElem_mem hi)) _ (List.mem_map_of_mem (List.getElem_mem hj))
    refine Or.inr ⟨?_, Or.inr ⟨?_, trivial⟩⟩
    · exact e1.le
    · exact e2.le
  · match rows with
    | [] => simp only at h; exact List.Pairwise.nil
    | p :: cs =>
      simp only at h
      split at h
      · simp at h
      · simp only [Except.ok.injEq] at h
        have key : ∀ (π : Flags → Bool) (ks : List Key), (∀ f : Flags, π f = true → f.any = true) →
            (∀ i (p c : Row τ) f, π (step nbls ntimes i p c f) = true → π f = true ∧ lexLe ks p c) →
            π (loop nbls ntimes 1 p cs {}) = true → SortedBy ks (p :: cs) := by
          intro π ks h1 h2 h3
          exact chain_pairwise (R := lexLe ks) (fun _ _ _ a b => lexLe_trans a b) (loop_sound nbls ntimes π _ h1 h2 1 p cs {} h3).2
        unfold Flags.result at h
        repeat' split at h
        all_goals simp only [Option.some.injEq, reduceCtorEq] at h
        all_goals subst h
        · exact key (·.timeBl) _ (fun f => any_of.1) (fun i p c f => (step_timeMajor _ _ i p c f).1) ‹_›
        · exact key (·.blTime) _ (fun f => any_of.2.2.2.1) (fun i p c f => (step_timeMinor _ _ i p c f).1) ‹_›
        · exact key (·.timeA) _ (fun f => any_of.2.1) (fun i p c f => (step_timeMajor _ _ i p c f).2.1) ‹_›
        · exact key (·.aTime) _ (fun f => any_of.2.2.2.2.1) (fun i p c f => (step_timeMinor _ _ i p c f).2.1) ‹_›
        · exact key (·.timeB) _ (fun f => any_of.2.2.1) (fun i p c f => (step_timeMajor _ _ i p c f).2.2) ‹_›
        · exact key (·.bTime) _ (fun f => any_of.2.2.2.2.2.1) (fun i p c f => (step_timeMinor _ _ i p c f).2.2) ‹_›
        · exact key (·.blOrder) _ (fun f => any_of.2.2.2.2.2.2.1) (fun i p c f h => by
            have := (step_single nbls ntimes i p c f).1.1 h; exact ⟨this.1, lexLe_single.2 this.2⟩) ‹_›
        · exact key (·.aOrder) _ (fun f => any_of.2.2.2.2.2.2.2.1) (fun i p c f h => by
            have := (step_single nbls ntimes i p c f).2.1.1 h; exact ⟨this.1, lexLe_single.2 this.2⟩) ‹_›
        · exact key (·.bOrder) _ (fun f => any_of.2.2.2.2.2.2.2.2.1) (fun i p c f h => by
            have := (step_single nbls ntimes i p c f).2.2.1.1 h; exact ⟨this.1, lexLe_single.2 this.2⟩) ‹_›
        · exact key (·.timeOrder) _ (fun f => any_of.2.2.2.2.2.2.2.2.2) (fun i p c f h => by
            have := (step_single nbls ntimes i p c f).2.2.2.1 h; exact ⟨this.1, lexLe_single.2 this.2⟩) ‹_›

/-- Two baselines at two times in time-baseline order. -/
def demoRows : List (Row Nat) := [⟨0, 0, 1, 10⟩, ⟨0, 1, 2, 20⟩, ⟨5, 0, 1, 10⟩, ⟨5, 1, 2, 20⟩]

example : CountsOK demoRows 2 2 ∧ determineBltOrder demoRows 2 2 = .ok (some [.time, .baseline]) := by
  unfold CountsOK; decide +kernel

/-- No order is missed among the single keys: if nothing is reported, the rows are sorted by none of
baseline, first antenna, second antenna or time. -/
theorem blt_order_none (rows : List (Row τ)) (nbls ntimes : Nat) (k : Key)
    (h : determineBltOrder rows nbls ntimes = .ok none) : ¬ SortedBy [k] rows := by
  intro hs
  unfold determineBltOrder at h
  split at h
  · simp at h
  · match rows, hs with
    | [], _ => simp [Flags.result, Flags.conflict] at h; split at h <;> simp at h
    | p :: cs, hs =>
      simp only at h
      split at h
      · simp at h
      · simp only [Except.ok.injEq] at h
        have key : ∀ (π : Flags → Bool) (k : Key), π {} = true → (∀ f : Flags, π f = true → f.any = true) →
            (∀ i (p c : Row τ) f, π f = true → keyLe k p c → π (step nbls ntimes i p c f) = true) →
            SortedBy [k] (p :: cs) → π (loop nbls ntimes 1 p cs {}) = true := by
          intro π k h0 h1 h2 h3
          refine loop_complete nbls ntimes π (keyLe k) h1 h2 1 p cs {} h0 ?_
          exact (pairwise_chain h3).imp (fun _ _ h => lexLe_single.1 h)
        have hres : ∀ f : Flags, f.result = none → f.blOrder = false ∧ f.aOrder = false ∧ f.bOrder = false ∧
            f.timeOrder = false := by
          intro f hf
          obtain ⟨f1, f2, f3, f4, f5, f6, f7, f8, f9, f10⟩ := f
          revert hf
          cases f1 <;> cases f4 <;> cases f2 <;> cases f5 <;> cases f3 <;> cases f6 <;>
            simp only [Flags.result, if_true, Bool.false_eq_true, if_false, reduceCtorEq, false_implies]
          cases f7 <;> cases f8 <;> cases f9 <;> cases f10 <;> simp
        have hr := hres _ h
        cases k with
        | time =>
          have := key (·.timeOrder) .time rfl (fun f => any_of.2.2.2.2.2.2.2.2.2)
            (fun i p c f h1 h2 => (step_single nbls ntimes i p c f).2.2.2.2 ⟨h1, h2⟩) hs
          simp_all
        | baseline =>
          have := key (·.blOrder) .baseline rfl (fun f => any_of.2.2.2.2.2.2.1)
            (fun i p c f h1 h2 => (step_single nbls ntimes i p c f).1.2 ⟨h1, h2⟩) hs
          simp_all
        | ant1 =>
          have := key (·.aOrder) .ant1 rfl (fun f => any_of.2.2.2.2.2.2.2.1)
            (fun i p c f h1 h2 => (step_single nbls ntimes i p c f).2.1.2 ⟨h1, h2⟩) hs
          simp_all
        | ant2 =>
          have := key (·.bOrder) .ant2 rfl (fun f => any_of.2.2.2.2.2.2.2.2.1)
            (fun i p c f h1 h2 => (step_single nbls ntimes i p c f).2.2.1.2 ⟨h1, h2⟩) hs
          simp_all

example : determineBltOrder ([⟨5, 1, 2, 20⟩, ⟨0, 0, 1, 10⟩, ⟨5, 0, 1, 10⟩, ⟨0, 1, 2, 20⟩] : List (Row Nat)) 2 2 =
    .ok none := by decide +kernel

/-- The assertion "this is not meant to happen" fires on ordinary data: two baselines sharing antenna 0,
observed at two times and sorted by time then baseline. -/
theorem blt_order_assertion_counterexample :
    SortedBy [.time, .baseline] ([⟨0, 0, 1, 10⟩, ⟨0, 0, 2, 20⟩, ⟨5, 0, 1, 10⟩, ⟨5, 0, 2, 20⟩] : List (Row Nat)) ∧
    determineBltOrder ([⟨0, 0, 1, 10⟩, ⟨0, 0, 2, 20⟩, ⟨5, 0, 1, 10⟩, ⟨5, 0, 2, 20⟩] : List (Row Nat)) 2 2 =
      .error .assertion := by
  refine ⟨?_, by decide +kernel⟩
  simp [SortedBy, lexLe, keyLt, keyLe]

end Verif.BltAxis
