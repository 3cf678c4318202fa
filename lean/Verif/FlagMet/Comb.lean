import Verif.FlagMet.Props

namespace Verif.FlagMet
open Verif.Np
open Verif.Pol (Str)
open Verif.Collapse (Val Out mean absmean quadmean)

variable {K : Type} [Field K] [LinearOrder K] [IsStrictOrderedRing K]

/-! ## Metrics of several objects -/

omit [Field K] [LinearOrder K] [IsStrictOrderedRing K] in
theorem metricOf_some {o : Obj K} {x : Obj K × Arr (Val K) × Arr K} (h : metricOf o = some x) :
    x.1 = o ∧ o.data = .metric x.2.1 x.2.2 := by
  unfold metricOf at h
  cases hd : o.data with
  | flag b => rw [hd] at h; cases h
  | metric v w => rw [hd] at h; cases h; exact ⟨rfl, rfl⟩

theorem mapM_forall {β γ : Type} {f : β → Option γ} : ∀ {l : List β} {r : List γ}, l.mapM f = some r →
    List.Forall₂ (fun x y => f x = some y) l r := by
  intro l
  induction l with
  | nil => intro r h; cases h; exact .nil
  | cons a l ih =>
    intro r h
    rw [List.mapM_cons] at h
    cases ha : f a with
    | none => rw [ha] at h; cases h
    | some b =>
      rw [ha] at h
      cases hl : l.mapM f with
      | none => rw [hl] at h; cases h
      | some bs =>
        rw [hl] at h
        cases h
        exact .cons ha (ih hl)

theorem mapM_some {β γ : Type} {f : β → Option γ} : ∀ {l : List β}, (∀ x ∈ l, ∃ y, f x = some y) → ∃ r, l.mapM f = some r := by
  intro l
  induction l with
  | nil => exact fun _ => ⟨[], rfl⟩
  | cons a l ih =>
    intro h
    obtain ⟨y, hy⟩ := h a List.mem_cons_self
    obtain ⟨r, hr⟩ := ih (fun x hx => h x (List.mem_cons_of_mem _ hx))
    refine ⟨y :: r, ?_⟩
    rw [List.mapM_cons, hy, hr]
    rfl

/-- The object has metrics. -/
def HasMetric (o : Obj K) : Prop := ∃ v w, o.data = .metric v w

omit [Field K] [LinearOrder K] [IsStrictOrderedRing K] in
theorem metricOf_iff (o : Obj K) : (∃ x, metricOf o = some x) ↔ HasMetric o := by
  unfold metricOf HasMetric
  cases hd : o.data with
  | flag b => simp
  | metric v w => simp

/-- There are as many antennas (if the metrics are of antennas), channels, rows and polarizations. -/
def SameSize (o a : Obj K) : Prop :=
  (o.ty = .antenna ↔ a.ty = .antenna) ∧ (a.ty = .antenna → o.nants = a.nants) ∧ o.nf = a.nf ∧ o.times.length = a.times.length ∧
    o.pols.length = a.pols.length

omit [Field K] [LinearOrder K] [IsStrictOrderedRing K] in
theorem shape_iff (o a : Obj K) : shape o = shape a ↔ SameSize o a := by
  unfold shape SameSize
  by_cases h1 : o.ty = .antenna <;> by_cases h2 : a.ty = .antenna
  · rw [if_pos h1, if_pos h2]
    simp [h1, h2]
  · rw [if_pos h1, if_neg h2]
    simp [h1, h2]
  · rw [if_neg h1, if_pos h2]
    simp [h1, h2]
  · rw [if_neg h1, if_neg h2]
    simp [h1, h2]
    tauto

omit [IsStrictOrderedRing K] in
theorem combine_shapes (sqrt : K → K) (m : Method) (a : Obj K) (os : List (Obj K)) :
    (∃ o', combine sqrt m a os = .ok o') ↔
      HasMetric a ∧ (∀ o ∈ os, HasMetric o ∧ shape o = shape a) ∧ Numeric m := by
  unfold combine
  cases ha : metricOf a with
  | none =>
    constructor
    · rintro ⟨o', h⟩; cases h
    · rintro ⟨h, -⟩
      obtain ⟨x, hx⟩ := (metricOf_iff a).2 h
      rw [ha] at hx
      cases hx
  | some x =>
    cases hm : os.mapM metricOf with
    | none =>
      constructor
      · rintro ⟨o', h⟩; cases h
      · rintro ⟨-, h, -⟩
        obtain ⟨r, hr⟩ := mapM_some (f := metricOf) (l := os) (fun o ho => (metricOf_iff o).2 (h o ho).1)
        rw [hm] at hr
        cases hr
    | some ds =>
      have hf := mapM_forall hm
      dsimp only
      have hsh : (ds.any (fun d => decide (shape a ≠ shape d.1))) = true ↔ ∃ o ∈ os, shape o ≠ shape a := by
        rw [List.any_eq_true]
        clear hm
        induction hf with
        | nil => simp
        | @cons o d os ds h1 h2 ih =>
          simp only [List.mem_cons, exists_eq_or_imp, decide_eq_true_eq] at ih ⊢
          rw [ih, (metricOf_some h1).1, ne_comm]
      have hmet : ∀ o ∈ os, HasMetric o := by
        clear hm hsh
        induction hf with
        | nil => exact fun o ho => nomatch ho
        | @cons o d os ds h1 h2 ih =>
          intro o' ho'
          rcases List.mem_cons.1 ho' with rfl | ho'
          · exact (metricOf_iff o').1 ⟨d, h1⟩
          · exact ih o' ho'
      by_cases hs : (ds.any (fun d => decide (shape a ≠ shape d.1))) = true
      · rw [if_pos hs]
        constructor
        · rintro ⟨o', h⟩; cases h
        · rintro ⟨-, h, -⟩
          obtain ⟨o, ho, hne⟩ := hsh.1 hs
          exact absurd (h o ho).2 hne
      · rw [if_neg hs]
        have hno : ∀ o ∈ os, shape o = shape a := by
          intro o ho
          by_contra hc
          exact hs (hsh.2 ⟨o, ho, hc⟩)
        have hA : HasMetric a := (metricOf_iff a).1 ⟨x, ha⟩
        cases hn : numeric sqrt m with
        | none =>
          constructor
          · rintro ⟨o', h⟩; cases h
          · rintro ⟨-, -, h⟩
            exact absurd hn ((numeric_iff sqrt m).2 h)
        | some g =>
          have : Numeric m := (numeric_iff sqrt m).1 (by rw [hn]; simp)
          exact ⟨fun _ => ⟨hA, fun o ho => ⟨hmet o ho, hno o ho⟩, this⟩, fun _ => ⟨_, rfl⟩⟩

/-- After metrics are combined, metric and weight at each position are average and weight of those of all objects there;
all else is that of the first object. -/
theorem combine_spec (sqrt : K → K) (m : Method) (hs : m = .quadmean → IsSqrt sqrt) (a o' : Obj K) (os : List (Obj K))
    (h : combine sqrt m a os = .ok o') : SameMeta a o' ∧ o'.wsq = a.wsq ∧
    ∀ i r f p es, List.Forall₂ (fun o e => At o i r f p e) (a :: os) es → Plain es →
      ∃ e, At o' i r f p e ∧ Avg m es e.2 e.1 := by
  unfold combine at h
  cases ha : metricOf a with
  | none => rw [ha] at h; cases h
  | some x =>
    rw [ha] at h
    cases hm : os.mapM metricOf with
    | none => rw [hm] at h; cases h
    | some ds =>
      rw [hm] at h
      dsimp only at h
      by_cases hsh : (ds.any (fun d => decide (shape a ≠ shape d.1))) = true
      · rw [if_pos hsh] at h; cases h
      rw [if_neg hsh] at h
      cases hn : numeric sqrt m with
      | none => rw [hn] at h; cases h
      | some g =>
        rw [hn] at h
        cases h
        refine ⟨⟨rfl, rfl, rfl, rfl, rfl, rfl⟩, rfl, ?_⟩
        intro i r f p es hes hpl
        have hall : List.Forall₂ (fun o d => metricOf o = some d) (a :: os) (x :: ds) := .cons ha (mapM_forall hm)
        have hes' : es = (x :: ds).map (fun d => ((d.2.2 i r f p, d.2.1 i r f p) : Entry K)) := by
          generalize a :: os = A at hall hes
          generalize x :: ds = B at hall
          clear hm hpl hsh
          induction hall generalizing es with
          | nil => cases hes; rfl
          | @cons o d os ds h1 h2 ih =>
            cases hes with
            | @cons _ e _ es h3 h4 =>
              obtain ⟨v, w, hd, rfl⟩ := h3
              obtain ⟨-, hd'⟩ := metricOf_some h1
              rw [hd] at hd'
              cases hd'
              rw [List.map_cons, ih es h4]
        obtain ⟨h1, -⟩ := numeric_avg sqrt m hs g hn es hpl
        refine ⟨_, ⟨_, _, rfl, rfl⟩, ?_⟩
        have e1 : es.map (·.2) = (x :: ds).map (fun d => d.2.1 i r f p) := by rw [hes', List.map_map]; rfl
        have e2 : es.map (·.1) = (x :: ds).map (fun d => d.2.2 i r f p) := by rw [hes', List.map_map]; rfl
        rw [e1, e2] at h1
        exact h1

omit [Field K] [LinearOrder K] [IsStrictOrderedRing K] in
theorem at_unique {o : Obj K} {i r f p : Nat} {e e' : Entry K} (h : At o i r f p e) (h' : At o i r f p e') : e = e' := by
  obtain ⟨v, w, h1, rfl⟩ := h
  obtain ⟨v', w', h1', rfl⟩ := h'
  rw [h1] at h1'
  cases h1'
  rfl

omit [Field K] [LinearOrder K] [IsStrictOrderedRing K] in
theorem entries_perm {os os' : List (Obj K)} (hp : os.Perm os') (i r f p : Nat) :
    ∀ {es : List (Entry K)}, List.Forall₂ (fun o e => At o i r f p e) os es →
      ∃ es', List.Forall₂ (fun o e => At o i r f p e) os' es' ∧ es.Perm es' := by
  induction hp with
  | nil => intro es h; exact ⟨es, h, List.Perm.refl _⟩
  | cons x hp ih =>
    intro es h
    cases h with
    | @cons _ e _ es h1 h2 =>
      obtain ⟨es', h3, h4⟩ := ih h2
      exact ⟨e :: es', .cons h1 h3, h4.cons e⟩
  | swap x y l =>
    intro es h
    cases h with
    | @cons _ e _ es h1 h2 =>
      cases h2 with
      | @cons _ e' _ es h2 h3 =>
        exact ⟨e' :: e :: es, .cons h2 (.cons h1 h3), List.Perm.swap _ _ _⟩
  | trans h1 h2 ih1 ih2 =>
    intro es h
    obtain ⟨es1, h3, h4⟩ := ih1 h
    obtain ⟨es2, h5, h6⟩ := ih2 h3
    exact ⟨es2, h5, h4.trans h6⟩

/-- The order of the other objects does not matter. -/
theorem combine_order (sqrt : K → K) (m : Method) (hs : m = .quadmean → IsSqrt sqrt) (a x y : Obj K) (os os' : List (Obj K))
    (hp : os.Perm os') (hx : combine sqrt m a os = .ok x) (hy : combine sqrt m a os' = .ok y) (i r f p : Nat)
    (es : List (Entry K)) (hes : List.Forall₂ (fun o e => At o i r f p e) (a :: os) es) (hpl : Plain es) :
    ∃ e, At x i r f p e ∧ At y i r f p e := by
  obtain ⟨-, -, h1⟩ := combine_spec sqrt m hs a x os hx
  obtain ⟨-, -, h2⟩ := combine_spec sqrt m hs a y os' hy
  obtain ⟨e, he, ha⟩ := h1 i r f p es hes hpl
  obtain ⟨es', hes', hperm⟩ := entries_perm (hp.cons a) i r f p hes
  obtain ⟨e', he', ha'⟩ := h2 i r f p es' hes' (fun e he => hpl e (hperm.mem_iff.2 he))
  obtain ⟨u1, u2⟩ := avg_unique ((avg_perm m hperm _ _).1 ha) ha'
  have : e = e' := Prod.ext u2 u1
  subst this
  exact ⟨e, he, he'⟩

/-- Objects may be combined in two steps, if the first step leaves no weight that is too small to count. -/
theorem combine_steps (sqrt : K → K) (m : Method) (hs : m = .quadmean → IsSqrt sqrt) (a x y z : Obj K) (bs cs : List (Obj K))
    (hx : combine sqrt m a bs = .ok x) (hy : combine sqrt m x cs = .ok y) (hz : combine sqrt m a (bs ++ cs) = .ok z)
    (i r f p : Nat) (es fs : List (Entry K)) (hes : List.Forall₂ (fun o e => At o i r f p e) (a :: bs) es)
    (hfs : List.Forall₂ (fun o e => At o i r f p e) cs fs) (hpe : Plain es) (hpf : Plain fs) (hc : Clear es) :
    ∃ e, At y i r f p e ∧ At z i r f p e := by
  obtain ⟨-, -, h1⟩ := combine_spec sqrt m hs a x bs hx
  obtain ⟨-, -, h2⟩ := combine_spec sqrt m hs x y cs hy
  obtain ⟨-, -, h3⟩ := combine_spec sqrt m hs a z (bs ++ cs) hz
  obtain ⟨e, he, ha⟩ := h1 i r f p es hes hpe
  obtain ⟨-, -, s3, s4⟩ := stands m es hpe hc e.2 e.1 ha
  obtain ⟨e2, he2, ha2⟩ := h2 i r f p (e :: fs) (.cons he hfs) (by
    intro q hq
    rcases List.mem_cons.1 hq with rfl | hq
    · exact ⟨s3, s4⟩
    · exact hpf q hq)
  obtain ⟨e3, he3, ha3⟩ := h3 i r f p (es ++ fs) (by
    have := List.rel_append hes hfs
    simpa using this) (by
    intro q hq
    rcases List.mem_append.1 hq with hq | hq
    · exact hpe q hq
    · exact hpf q hq)
  obtain ⟨u1, u2⟩ := avg_unique ((avg_first m es fs e ha hpe hc _ _).1 ha2) ha3
  have : e2 = e3 := Prod.ext u2 u1
  subst this
  exact ⟨e2, he2, he3⟩

omit [IsStrictOrderedRing K] in
/-- Metrics are combined exactly if all objects have metrics, of the same size, and the method is one for numbers. -/
theorem combine_accepts (sqrt : K → K) (m : Method) (a : Obj K) (os : List (Obj K)) :
    (∃ o', combine sqrt m a os = .ok o') ↔
      HasMetric a ∧ (∀ o ∈ os, HasMetric o ∧ SameSize o a) ∧ Numeric m := by
  rw [combine_shapes]
  simp only [shape_iff]

omit [IsStrictOrderedRing K] in
/-- ... and they can be combined in two steps if and only if they can be combined in one. -/
theorem combine_steps_iff (sqrt : K → K) (m : Method) (a : Obj K) (bs cs : List (Obj K)) :
    (∃ x y, combine sqrt m a bs = .ok x ∧ combine sqrt m x cs = .ok y) ↔ ∃ z, combine sqrt m a (bs ++ cs) = .ok z := by
  have hmeta : ∀ x, combine sqrt m a bs = .ok x → HasMetric x ∧ shape x = shape a := by
    intro x h
    unfold combine at h
    cases ha : metricOf a with
    | none => rw [ha] at h; cases h
    | some x0 =>
      rw [ha] at h
      cases hm : bs.mapM metricOf with
      | none => rw [hm] at h; cases h
      | some ds =>
        rw [hm] at h
        dsimp only at h
        by_cases hsh : (ds.any (fun d => decide (shape a ≠ shape d.1))) = true
        · rw [if_pos hsh] at h; cases h
        rw [if_neg hsh] at h
        cases hn : numeric sqrt m with
        | none => rw [hn] at h; cases h
        | some g =>
          rw [hn] at h
          cases h
          exact ⟨⟨_, _, rfl⟩, rfl⟩
  constructor
  · rintro ⟨x, y, hx, hy⟩
    obtain ⟨h1, h2⟩ := hmeta x hx
    obtain ⟨a1, a2, a3⟩ := (combine_shapes sqrt m a bs).1 ⟨x, hx⟩
    obtain ⟨b1, b2, -⟩ := (combine_shapes sqrt m x cs).1 ⟨y, hy⟩
    refine (combine_shapes sqrt m a (bs ++ cs)).2 ⟨a1, ?_, a3⟩
    intro o ho
    rcases List.mem_append.1 ho with ho | ho
    · exact a2 o ho
    · rw [← h2]
      exact b2 o ho
  · rintro h
    obtain ⟨a1, a2, a3⟩ := (combine_shapes sqrt m a (bs ++ cs)).1 h
    obtain ⟨x, hx⟩ := (combine_shapes sqrt m a bs).2 ⟨a1, fun o ho => a2 o (List.mem_append_left _ ho), a3⟩
    obtain ⟨h1, h2⟩ := hmeta x hx
    obtain ⟨y, hy⟩ := (combine_shapes sqrt m x cs).2 ⟨h1, fun o ho => by
      rw [h2]; exact a2 o (List.mem_append_right _ ho), a3⟩
    exact ⟨x, y, hx, hy⟩

end Verif.FlagMet
