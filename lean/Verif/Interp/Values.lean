import Verif.Interp.Sky

/-!
C102: the values at the points of the grid; C104: functions that are saved and used again.
-/
namespace Verif.Interp

variable {K V O : Type}

/-- Picking from lists of one length laid end to end. -/
theorem flatMap_get {α β : Type} {g : α → List β} {m : Nat} : ∀ {l : List α} {j i : Nat} {x : α}, (∀ y ∈ l, (g y).length = m) →
    l[j]? = some x → i < m → (l.flatMap g)[j * m + i]? = (g x)[i]?
  | [], _, _, _, _, h, _ => by simp at h
  | y :: l, 0, i, x, hl, h, hi => by
      simp only [List.getElem?_cons_zero, Option.some.injEq] at h
      subst h
      rw [List.flatMap_cons, Nat.zero_mul, Nat.zero_add, List.getElem?_append_left (by rw [hl y (by simp)]; exact hi)]
  | y :: l, j + 1, i, x, hl, h, hi => by
      have hy := hl y (by simp)
      rw [List.flatMap_cons, List.getElem?_append_right (by rw [hy, Nat.succ_mul]; omega), hy]
      have e : (j + 1) * m + i - m = j * m + i := by rw [Nat.succ_mul]; omega
      rw [e]
      exact flatMap_get (fun z hz => hl z (List.mem_cons_of_mem _ hz)) (by simpa using h) hi

theorem flatMap_len {α β : Type} {g : α → List β} {m : Nat} : ∀ {l : List α}, (∀ y ∈ l, (g y).length = m) → (l.flatMap g).length = l.length * m
  | [], _ => by simp
  | y :: l, h => by
      rw [List.flatMap_cons, List.length_append, h y (by simp), flatMap_len fun z hz => h z (List.mem_cons_of_mem _ hz), List.length_cons,
        Nat.succ_mul]
      omega

/-- C102: the order of the loops: frequencies, then axes, then polarizations. -/
theorem jobs_get {plan : List (Pick K) × List K × Kind} {nvec : Nat} {inds : List Nat} {i a r p : Nat} {pk : Pick K} {f : K}
    (h1 : plan.1[i]? = some pk) (h2 : plan.2.1[i]? = some f) (ha : a < nvec) (hr : inds[r]? = some p) :
    (jobs plan nvec inds)[(i * nvec + a) * inds.length + r]? = some ⟨f, pk, p, a⟩ := by
  have hrl := (List.getElem?_eq_some_iff.mp hr).1
  have hz : (plan.1.zip plan.2.1)[i]? = some (pk, f) := List.getElem?_zip_eq_some.mpr ⟨h1, h2⟩
  have hlen : ∀ pf : Pick K × K, ((List.range nvec).flatMap fun a => inds.map fun p => (⟨pf.2, pf.1, p, a⟩ : Job K)).length
      = nvec * inds.length := fun pf => by
    rw [flatMap_len (m := inds.length) (by simp), List.length_range]
  have e : (i * nvec + a) * inds.length + r = i * (nvec * inds.length) + (a * inds.length + r) := by rw [Nat.add_mul, Nat.mul_assoc, Nat.add_assoc]
  have hlt : a * inds.length + r < nvec * inds.length := by
    calc a * inds.length + r < a * inds.length + inds.length := by omega
      _ = (a + 1) * inds.length := by rw [Nat.succ_mul]
      _ ≤ nvec * inds.length := Nat.mul_le_mul_right _ ha
  unfold jobs
  rw [e, flatMap_get (fun pf _ => hlen pf) hz hlt, flatMap_get (m := inds.length) (by simp) (x := a) (by simp [ha]) hrl, List.getElem?_map, hr]
  rfl

theorem mem_jobs {plan : List (Pick K) × List K × Kind} {nvec : Nat} {inds : List Nat} {j : Job K} (h : j ∈ jobs plan nvec inds) :
    ∃ i : Nat, plan.1[i]? = some j.pick ∧ plan.2.1[i]? = some j.freq := by
  simp only [jobs, List.mem_flatMap, List.mem_map] at h
  obtain ⟨pf, hpf, a, -, p, -, rfl⟩ := h
  obtain ⟨i, hi⟩ := List.getElem?_of_mem hpf
  exact ⟨i, (List.getElem?_zip_eq_some.mp hi)⟩

/-! Saved functions. -/

/-- What a function is saved under. -/
def Job.key (j : Job K) : K × Nat × Nat := (j.freq, j.pol, j.axis)

section
variable [DecidableEq K]

theorem runJobs_off (make : Job K → K → K → V) (c : Cache K V) : ∀ js, runJobs make false c js = (js.map make, c)
  | [] => rfl
  | j :: js => by
      show (_, _) = _
      simp only [runJob, Bool.false_eq_true, if_false, runJobs_off make c js, List.map_cons]

/-- The saved functions that a request would use are the ones it would compute. -/
def Good (make : Job K → K → K → V) (c : Cache K V) (js : List (Job K)) : Prop := ∀ e ∈ c, ∀ j ∈ js, e.1 = j.key → e.2 = make j

/-- Two values saved under the same key are computed in the same way. -/
def Consistent (make : Job K → K → K → V) (js : List (Job K)) : Prop := ∀ j ∈ js, ∀ j' ∈ js, j.key = j'.key → make j = make j'

theorem runJobs_on {make : Job K → K → K → V} : ∀ {js all : List (Job K)} {c : Cache K V}, (∀ j ∈ js, j ∈ all) → Good make c all →
    Consistent make all → (runJobs make true c js).1 = js.map make ∧ Good make (runJobs make true c js).2 all ∧
    (∀ e ∈ c, e ∈ (runJobs make true c js).2) ∧ ∀ e ∈ (runJobs make true c js).2, e ∈ c ∨ ∃ j ∈ js, e = (j.key, make j)
  | [], _, c, _, hg, _ => ⟨rfl, hg, fun _ h => h, fun _ h => Or.inl h⟩
  | j :: js, all, c, hsub, hg, hc => by
      have hj := hsub j (by simp)
      have step : (runJob make true c j).1 = make j ∧ Good make (runJob make true c j).2 all ∧
          (∀ e ∈ c, e ∈ (runJob make true c j).2) ∧ ∀ e ∈ (runJob make true c j).2, e ∈ c ∨ e = (j.key, make j) := by
        unfold runJob
        rw [if_pos rfl]
        split
        · rename_i e he
          have hk : e.1 = j.key := by have := List.find?_some he; exact of_decide_eq_true this
          exact ⟨hg e (List.mem_of_find?_eq_some he) j hj hk, hg, fun _ h => h, fun _ h => Or.inl h⟩
        · refine ⟨rfl, ?_, fun e h => List.mem_append_left _ h, ?_⟩
          · intro e he j' hj' hk
            rcases List.mem_append.mp he with he | he
            · exact hg e he j' hj' hk
            · simp only [List.mem_singleton] at he
              subst he
              exact hc j hj j' hj' hk
          · intro e he
            rcases List.mem_append.mp he with he | he
            · exact Or.inl he
            · exact Or.inr (List.mem_singleton.mp he)
      obtain ⟨s1, s2, s3, s4⟩ := step
      obtain ⟨r1, r2, r3, r4⟩ := runJobs_on (js := js) (fun x hx => hsub x (List.mem_cons_of_mem _ hx)) s2 hc
      refine ⟨?_, r2, fun e he => r3 e (s3 e he), fun e he => ?_⟩
      · show (runJob make true c j).1 :: _ = _
        rw [s1, List.map_cons]
        exact congrArg _ r1
      · rcases r4 e he with h | ⟨j', hj', h⟩
        · rcases s4 e h with h | h
          · exact Or.inl h
          · exact Or.inr ⟨j, by simp, h⟩
        · exact Or.inr ⟨j', List.mem_cons_of_mem _ hj', h⟩

/-- A saved function is used whatever would be computed. -/
theorem runJobs_stale {make : Job K → K → K → V} : ∀ {js : List (Job K)} {c : Cache K V} {n : Nat} {j : Job K} {e : (K × Nat × Nat) × (K → K → V)},
    js[n]? = some j → c.find? (fun e => decide (e.1 = j.key)) = some e → (runJobs make true c js).1[n]? = some e.2
  | [], _, _, _, _, h, _ => by simp at h
  | j' :: js, c, 0, j, e, h, he => by
      simp only [List.getElem?_cons_zero, Option.some.injEq] at h
      subst h
      have : (runJob make true c j').1 = e.2 := by
        unfold runJob
        rw [if_pos rfl]
        have he' : c.find? (fun e => decide (e.1 = (j'.freq, j'.pol, j'.axis))) = some e := he
        rw [he']
      show ((runJob make true c j').1 :: _)[0]? = _
      rw [this]; rfl
  | j' :: js, c, n + 1, j, e, h, he => by
      show ((runJob make true c j').1 :: (runJobs make true (runJob make true c j').2 js).1)[n + 1]? = _
      rw [List.getElem?_cons_succ]
      refine runJobs_stale (by simpa using h) ?_
      unfold runJob
      rw [if_pos rfl]
      split
      · exact he
      · rw [List.find?_append, he]; rfl

end

variable [Field K] [LinearOrder K]

/-- What an accepted request over the sky consists of. -/
theorem interp_sky [DecidableEq K] {lib : Lib K V O} {twoPi rtol : K} {o : IBeam K V} {q : Req K O} {c c' : Cache K V} {js : List (Job K)}
    {vals : List (List V)} {bas : Option (Nat → Nat → K)} {bnd : List K} {pts : List (K × K)}
    (h : interp lib twoPi rtol o q c = (.ok (.sky js vals bas bnd pts), c')) :
    ∃ plan inds wrap, points q = .ok (some pts) ∧ freqPlan o q = .ok plan ∧ polInds o q.pols = .ok inds ∧ 2 ≤ o.az.length ∧ 2 ≤ o.za.length ∧
      wrap = wraps twoPi rtol o.az (o.az.getD 1 0 - o.az.getD 0 0) ∧ basisAccepted o = true ∧ bas = basisOut o ∧ bnd = bandOut lib o q plan ∧
      (q.check = true → outside o.za (phiUse wrap o.az (o.az.getD 1 0 - o.az.getD 0 0))
        (max (o.az.getD 1 0 - o.az.getD 0 0) (o.za.getD 1 0 - o.za.getD 0 0)) pts = false) ∧
      (phiUse wrap o.az (o.az.getD 1 0 - o.az.getD 0 0)).length = (srcUse wrap o.az).length ∧ js = jobs plan o.nvec inds ∧
      (runJobs (fresh lib o q.opts plan.2.2 (phiUse wrap o.az (o.az.getD 1 0 - o.az.getD 0 0)) (srcUse wrap o.az)) q.reuse c js).2 = c' ∧
      vals = (runJobs (fresh lib o q.opts plan.2.2 (phiUse wrap o.az (o.az.getD 1 0 - o.az.getD 0 0)) (srcUse wrap o.az)) q.reuse c js).1.map
        fun g => pts.map fun p => g p.2 p.1 := by
  unfold interp at h
  split at h
  · cases h
  · rename_i pts' hpts
    split at h
    · cases h
    · rename_i plan hplan
      split at h
      · cases h
      · rename_i pts''
        split at h
        · cases h
        · rename_i hlen
          simp only at h
          split at h
          · cases h
          · rename_i hb
            split at h
            · cases h
            · rename_i inds hinds
              split at h
              · cases h
              · rename_i hdom
                split at h
                · cases h
                · rename_i hsh
                  simp only [Prod.mk.injEq, Except.ok.injEq, Out.sky.injEq] at h
                  obtain ⟨⟨rfl, hv, rfl, rfl, rfl⟩, hc⟩ := h
                  refine ⟨plan, inds, _, hpts, hplan, hinds, by omega, by omega, rfl, by simpa using hb, rfl, rfl, ?_, not_not.mp hsh, rfl, hc,
                    hv.symm⟩
                  intro hq
                  rw [hq, Bool.true_and] at hdom
                  simpa using hdom

/-- What an accepted request without points consists of. -/
theorem interp_freq [DecidableEq K] {lib : Lib K V O} {twoPi rtol : K} {o : IBeam K V} {q : Req K O} {c c' : Cache K V}
    {data : Nat → Nat → Nat → Nat → Nat → V} {bnd : List K} (h : interp lib twoPi rtol o q c = (.ok (.freq data bnd), c')) :
    ∃ plan, points q = .ok none ∧ freqPlan o q = .ok plan ∧ bnd = bandOut lib o q plan ∧ c' = c ∧
      ∀ (i : Nat) (pk : Pick K), plan.1[i]? = some pk → ∀ a p z k, data a p i z k = pickVal lib.freq o.freqs plan.2.2 (fun i => o.data a p i z k) pk := by
  unfold interp at h
  split at h
  · cases h
  · rename_i pts' hpts
    split at h
    · cases h
    · rename_i plan hplan
      split at h
      · simp only [Prod.mk.injEq, Except.ok.injEq, Out.freq.injEq] at h
        obtain ⟨⟨rfl, rfl⟩, rfl⟩ := h
        refine ⟨plan, hpts, hplan, rfl, rfl, fun i pk hi a p z k => ?_⟩
        simp only [hi]
      · exfalso
        split at h
        · cases h
        · simp only at h
          split at h
          · cases h
          · split at h
            · cases h
            · split at h
              · cases h
              · split at h
                · cases h
                · simp at h

end Verif.Interp
