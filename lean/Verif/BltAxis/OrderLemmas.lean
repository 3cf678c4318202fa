import Verif.BltAxis.Spec

namespace Verif.BltAxis

variable {τ : Type} [LinearOrder τ]

theorem keyLe_trans {k : Key} {p q r : Row τ} (h1 : keyLe k p q) (h2 : keyLe k q r) : keyLe k p r := by
  cases k <;> exact le_trans h1 h2

theorem lexLe_trans {ks : List Key} {p q r : Row τ} (h1 : lexLe ks p q) (h2 : lexLe ks q r) :
    lexLe ks p r := by
  induction ks generalizing p q r with
  | nil => trivial
  | cons k ks ih =>
    rcases h1 with ⟨a, b⟩ | ⟨a, b⟩ <;> rcases h2 with ⟨c, d⟩ | ⟨c, d⟩
    · exact Or.inl ⟨keyLe_trans a c, fun h => b (keyLe_trans c h)⟩
    · exact Or.inl ⟨keyLe_trans a c, fun h => b (keyLe_trans c h)⟩
    · exact Or.inl ⟨keyLe_trans a c, fun h => d (keyLe_trans h a)⟩
    · exact Or.inr ⟨keyLe_trans a c, ih b d⟩

theorem chain_pairwise {β : Type} {R : β → β → Prop} (ht : ∀ a b c, R a b → R b c → R a c)
    {l : List β} (h : l.IsChain R) : l.Pairwise R := by
  induction l with
  | nil => exact .nil
  | cons a l ih =>
    cases l with
    | nil => simp
    | cons b l =>
      rw [List.isChain_cons_cons] at h
      have hb := ih h.2
      refine List.pairwise_cons.2 ⟨?_, hb⟩
      intro c hc
      rcases List.mem_cons.1 hc with rfl | hc
      · exact h.1
      · exact ht _ _ _ h.1 ((List.pairwise_cons.1 hb).1 c hc)

theorem pairwise_chain {β : Type} {R : β → β → Prop} {l : List β} (h : l.Pairwise R) : l.IsChain R := by
  induction l with
  | nil => exact .nil
  | cons a l ih =>
    cases l with
    | nil => exact .singleton _
    | cons b l =>
      rw [List.isChain_cons_cons]
      exact ⟨(List.pairwise_cons.1 h).1 b (by simp), ih (List.pairwise_cons.1 h).2⟩

theorem loop_sound (nbls ntimes : Nat) (π : Flags → Bool) (R : Row τ → Row τ → Prop)
    (hany : ∀ f, π f = true → f.any = true)
    (hstep : ∀ i p c f, π (step nbls ntimes i p c f) = true → π f = true ∧ R p c)
    (i : Nat) (p : Row τ) (cs : List (Row τ)) (f : Flags) (h : π (loop nbls ntimes i p cs f) = true) :
    π f = true ∧ (p :: cs).IsChain R := by
  induction cs generalizing i p f with
  | nil => exact ⟨h, .singleton _⟩
  | cons c cs ih =>
    simp only [loop] at h
    split at h
    · obtain ⟨h1, h2⟩ := ih _ _ _ h
      obtain ⟨h3, h4⟩ := hstep _ _ _ _ h1
      exact ⟨h3, by rw [List.isChain_cons_cons]; exact ⟨h4, h2⟩⟩
    · rename_i hn
      exact absurd (hany _ h) hn

theorem loop_complete (nbls ntimes : Nat) (π : Flags → Bool) (R : Row τ → Row τ → Prop)
    (hany : ∀ f, π f = true → f.any = true)
    (hstep : ∀ i p c f, π f = true → R p c → π (step nbls ntimes i p c f) = true)
    (i : Nat) (p : Row τ) (cs : List (Row τ)) (f : Flags) (h : π f = true) (hc : (p :: cs).IsChain R) :
    π (loop nbls ntimes i p cs f) = true := by
  induction cs generalizing i p f with
  | nil => exact h
  | cons c cs ih =>
    rw [List.isChain_cons_cons] at hc
    have h1 := hstep i p c f h hc.1
    simp only [loop]
    rw [if_pos (hany _ h1)]
    exact ih _ _ _ h1 hc.2

theorem any_of {f : Flags} : (f.timeBl = true → f.any = true) ∧ (f.timeA = true → f.any = true) ∧
    (f.timeB = true → f.any = true) ∧ (f.blTime = true → f.any = true) ∧ (f.aTime = true → f.any = true) ∧
    (f.bTime = true → f.any = true) ∧ (f.blOrder = true → f.any = true) ∧ (f.aOrder = true → f.any = true) ∧
    (f.bOrder = true → f.any = true) ∧ (f.timeOrder = true → f.any = true) := by
  simp only [Flags.any, Bool.or_eq_true]
  tauto

/-- What one iteration leaves of the three time-major flags. -/
theorem step_timeMajor (nbls ntimes i : Nat) (p c : Row τ) (f : Flags) :
    ((step nbls ntimes i p c f).timeBl = true → f.timeBl = true ∧ lexLe [.time, .baseline] p c) ∧
    ((step nbls ntimes i p c f).timeA = true → f.timeA = true ∧ lexLe [.time, .ant1] p c) ∧
    ((step nbls ntimes i p c f).timeB = true → f.timeB = true ∧ lexLe [.time, .ant2] p c) := by
  simp only [step, lexLe, keyLt, keyLe, clr]
  rcases lt_trichotomy c.t p.t with h | h | h
  · simp [h]
  · simp [h]
    refine ⟨fun h1 h2 _ => ⟨h1, ?_⟩, fun h1 h2 _ => ⟨h1, ?_⟩, fun h1 h2 _ => ⟨h1, ?_⟩⟩ <;> omega
  · have h1 : ¬ c.t < p.t := not_lt.2 h.le
    have h2 : ¬ c.t = p.t := ne_of_gt h
    simp [h1, h2, h.le, h]
    tauto

theorem step_timeMinor (nbls ntimes i : Nat) (p c : Row τ) (f : Flags) :
    ((step nbls ntimes i p c f).blTime = true → f.blTime = true ∧ lexLe [.baseline, .time] p c) ∧
    ((step nbls ntimes i p c f).aTime = true → f.aTime = true ∧ lexLe [.ant1, .time] p c) ∧
    ((step nbls ntimes i p c f).bTime = true → f.bTime = true ∧ lexLe [.ant2, .time] p c) := by
  simp only [step, lexLe, keyLt, keyLe, clr]
  rcases lt_trichotomy c.t p.t with h | h | h
  · simp [h]
    refine ⟨fun h1 h2 h3 h4 => ⟨h1, ?_⟩, fun h1 h2 h3 h4 => ⟨h1, ?_⟩, fun h1 h2 h3 h4 => ⟨h1, ?_⟩⟩ <;>
      exact Or.inl (by omega)
  · simp [h]
    refine ⟨fun h1 h2 => ⟨h1, ?_⟩, fun h1 h2 => ⟨h1, ?_⟩, fun h1 h2 => ⟨h1, ?_⟩⟩ <;> omega
  · have h1 : ¬ c.t < p.t := not_lt.2 h.le
    have h2 : ¬ c.t = p.t := ne_of_gt h
    simp [h1, h2, h.le, h]
    tauto

theorem step_single (nbls ntimes i : Nat) (p c : Row τ) (f : Flags) :
    ((step nbls ntimes i p c f).blOrder = true ↔ f.blOrder = true ∧ keyLe .baseline p c) ∧
    ((step nbls ntimes i p c f).aOrder = true ↔ f.aOrder = true ∧ keyLe .ant1 p c) ∧
    ((step nbls ntimes i p c f).bOrder = true ↔ f.bOrder = true ∧ keyLe .ant2 p c) ∧
    ((step nbls ntimes i p c f).timeOrder = true ↔ f.timeOrder = true ∧ keyLe .time p c) := by
  simp only [step, keyLe, clr]
  rcases lt_trichotomy c.t p.t with h | h | h
  · simp [h]
  · simp [h]
  · have h1 : ¬ c.t < p.t := not_lt.2 h.le
    have h2 : ¬ c.t = p.t := ne_of_gt h
    simp [h1, h2, h.le]

theorem lexLe_single {k : Key} {p c : Row τ} : lexLe [k] p c ↔ keyLe k p c := by
  simp only [lexLe, keyLt, and_true]
  constructor
  · rintro (h | h)
    · exact h.1
    · exact h
  · intro h; exact Or.inr h

end Verif.BltAxis
