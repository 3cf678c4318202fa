import Verif.Interp.Model
import Mathlib.Tactic.Linarith

/-!
C101: interpolation of a beam in frequency.
-/
namespace Verif.Interp

variable {K V O : Type} [Field K] [LinearOrder K]

theorem argmin_spec : ∀ {l : List K}, l ≠ [] → argmin l < l.length ∧
    ∀ (x : K), l[argmin l]? = some x → (∀ y ∈ l, x ≤ y) ∧ ∀ (j : Nat) (y : K), j < argmin l → l[j]? = some y → x < y
  | [a], _ => by simp [argmin]
  | a :: b :: l, _ => by
      obtain ⟨h1, h2⟩ := argmin_spec (l := b :: l) (by simp)
      obtain ⟨m, hm⟩ : ∃ m, (b :: l)[argmin (b :: l)]? = some m := ⟨_, List.getElem?_eq_getElem h1⟩
      obtain ⟨h3, h4⟩ := h2 m hm
      have hd : (b :: l).getD (argmin (b :: l)) a = m := by rw [List.getD_eq_getElem?_getD, hm]; rfl
      unfold argmin
      rw [hd]
      split
      · rename_i hlt
        refine ⟨by simpa using h1, fun x hx => ?_⟩
        rw [List.getElem?_cons_succ, hm] at hx
        cases hx
        refine ⟨?_, ?_⟩
        · rintro y (_ | ⟨_, hy⟩)
          · exact hlt.le
          · exact h3 y hy
        · intro j y hj hy
          cases j with
          | zero => simp only [List.getElem?_cons_zero, Option.some.injEq] at hy; subst hy; exact hlt
          | succ j => exact h4 j y (by omega) (by simpa using hy)
      · rename_i hge
        refine ⟨by simp, fun x hx => ?_⟩
        simp only [List.getElem?_cons_zero, Option.some.injEq] at hx
        subst hx
        refine ⟨?_, fun j y hj => absurd hj (by omega)⟩
        rintro y (_ | ⟨_, hy⟩)
        · exact le_refl _
        · exact le_trans (not_lt.mp hge) (h3 y hy)

/-- A closest channel, and of several the first. -/
def Closest (freqs : List K) (f : K) (i : Nat) : Prop :=
  ∃ x, freqs[i]? = some x ∧ (∀ y ∈ freqs, |x - f| ≤ |y - f|) ∧ ∀ (j : Nat) (y : K), j < i → freqs[j]? = some y → |x - f| < |y - f|

theorem argmin_closest {freqs : List K} (h : freqs ≠ []) (f : K) : Closest freqs f (argmin (dists freqs f)) := by
  have hne : dists freqs f ≠ [] := by simpa [dists] using h
  obtain ⟨h1, h2⟩ := argmin_spec hne
  have hlt : argmin (dists freqs f) < freqs.length := by simpa [dists] using h1
  obtain ⟨h3, h4⟩ := h2 |freqs[argmin (dists freqs f)] - f| (by
    show (freqs.map (fun x => |x - f|))[argmin (dists freqs f)]? = _
    rw [List.getElem?_map, List.getElem?_eq_getElem hlt]; rfl)
  refine ⟨freqs[argmin (dists freqs f)], List.getElem?_eq_getElem hlt, fun y hy => ?_, fun j y hj hy => ?_⟩
  · exact h3 _ (List.mem_map.mpr ⟨y, hy, rfl⟩)
  · exact h4 j _ hj (by simp [dists, List.getElem?_map, hy])

/-- Every requested frequency is closer to a channel than the tolerance. -/
def AllNear (freqs req : List K) (tol : K) : Prop := ∀ f ∈ req, ∃ x ∈ freqs, |x - f| < tol

theorem kindUsed_eq (freqs req : List K) (tol : K) (kind : Kind) :
    (AllNear freqs req tol → kindUsed freqs req tol kind = .nearest) ∧ (¬ AllNear freqs req tol → kindUsed freqs req tol kind = kind) := by
  have hiff : req.any (fun f => (dists freqs f).all (fun d => decide (tol ≤ d))) = true ↔ ¬ AllNear freqs req tol := by
    simp only [List.any_eq_true, List.all_eq_true, dists, List.mem_map, decide_eq_true_eq, AllNear]
    push Not
    constructor
    · rintro ⟨f, hf, h⟩
      exact ⟨f, hf, fun x hx => h _ ⟨x, hx, rfl⟩⟩
    · rintro ⟨f, hf, h⟩
      exact ⟨f, hf, by rintro d ⟨x, hx, rfl⟩; exact h x hx⟩
  unfold kindUsed
  constructor
  · intro h
    rw [if_neg fun hc => hiff.mp hc h]
  · intro h
    rw [if_pos (hiff.mpr h)]

/-- The requested frequencies lie between the lowest and the highest channel. -/
def InRange (freqs req : List K) : Prop := ∀ f ∈ req, (∃ x ∈ freqs, x ≤ f) ∧ ∃ x ∈ freqs, f ≤ x

/-- C101: which requests are accepted. -/
theorem freq_accepted_iff (o : IBeam K V) (q : Req K O) :
    (∃ plan, freqPlan o q = .ok plan) ↔ ∀ req, q.freqs = some req →
      AllNear o.freqs req q.tol ∨ q.kind = .nearest ∨ (o.freqs.length ≠ 1 ∧ req ≠ [] ∧ InRange o.freqs req) := by
  unfold freqPlan
  cases hq : q.freqs with
  | none => simp
  | some req =>
    simp only [Option.some.injEq, forall_eq']
    by_cases hn : AllNear o.freqs req q.tol
    · rw [(kindUsed_eq _ _ _ _).1 hn]
      simp [picks, hn]
    · rw [(kindUsed_eq _ _ _ _).2 hn]
      simp only [hn, false_or]
      cases hk : q.kind with
      | nearest => simp [picks]
      | other n =>
        have hr : req.any (fun f => o.freqs.all (fun x => decide (f < x)) || o.freqs.all (fun x => decide (x < f))) = true ↔
            ¬ InRange o.freqs req := by
          simp only [List.any_eq_true, Bool.or_eq_true, List.all_eq_true, decide_eq_true_eq, InRange]
          push Not
          constructor
          · rintro ⟨f, hf, h | h⟩
            · exact ⟨f, hf, fun ⟨x, hx, hle⟩ => absurd (h x hx) (not_lt.mpr hle)⟩
            · exact ⟨f, hf, fun _ => h⟩
          · rintro ⟨f, hf, h⟩
            refine ⟨f, hf, ?_⟩
            by_cases h' : ∃ x ∈ o.freqs, x ≤ f
            · exact Or.inr (h h')
            · push Not at h'
              exact Or.inl h'
        simp only [picks, reduceCtorEq, false_or]
        by_cases h1 : o.freqs.length = 1
        · simp [h1]
        · by_cases h2 : req = []
          · simp [h1, h2]
          · by_cases h3 : InRange o.freqs req
            · rw [if_neg h1, if_neg h2, if_neg fun hc => hr.mp hc h3]
              simp [h1, h2, h3]
            · rw [if_neg h1, if_neg h2, if_pos (hr.mpr h3)]
              simp [h3]

/-- C101: what the output is at each frequency. If every requested frequency is closer to a channel than the tolerance, or the nearest channel
is asked for, it is that of a closest channel; otherwise it is interpolated over all channels. The frequencies of the output are those requested;
without a request, they and the values are those of the beam. -/
theorem freq_values {o : IBeam K V} {q : Req K O} {plan : List (Pick K) × List K × Kind} (h : freqPlan o q = .ok plan) (hne : o.freqs ≠ []) :
    plan.1.length = plan.2.1.length ∧ plan.2.1 = q.freqs.getD o.freqs ∧
    ∀ (k : Nat) (f : K), plan.2.1[k]? = some f → ∃ pk, plan.1[k]? = some pk ∧
      ∀ (W : Type) (lut : Nat → List K → (Nat → W) → K → W) (d : Nat → W),
        (q.freqs = none → pickVal lut o.freqs plan.2.2 d pk = d k) ∧
        (∀ req, q.freqs = some req →
          (AllNear o.freqs req q.tol ∨ q.kind = .nearest → ∃ i, Closest o.freqs f i ∧ pickVal lut o.freqs plan.2.2 d pk = d i) ∧
          (∀ n, ¬ AllNear o.freqs req q.tol → q.kind = .other n → pickVal lut o.freqs plan.2.2 d pk = lut n o.freqs d f)) := by
  unfold freqPlan at h
  cases hq : q.freqs with
  | none =>
    simp only [hq, Except.ok.injEq] at h
    subst h
    refine ⟨by simp, rfl, fun k f hk => ?_⟩
    have hlt := (List.getElem?_eq_some_iff.mp hk).1
    exact ⟨.chan k, by simp [hlt], fun W lut d => ⟨fun _ => rfl, by simp⟩⟩
  | some req =>
    simp only [hq] at h
    by_cases hn : AllNear o.freqs req q.tol
    · rw [(kindUsed_eq _ _ _ _).1 hn] at h
      simp only [picks, Except.ok.injEq] at h
      subst h
      refine ⟨by simp, rfl, fun k f hk => ⟨.chan (argmin (dists o.freqs f)), by simp [hk], fun W lut d => ⟨by simp, ?_⟩⟩⟩
      intro r hr
      cases hr
      exact ⟨fun _ => ⟨_, argmin_closest hne f, rfl⟩, fun n hn' => absurd hn hn'⟩
    · rw [(kindUsed_eq _ _ _ _).2 hn] at h
      cases hk : q.kind with
      | nearest =>
        rw [hk] at h
        simp only [picks, Except.ok.injEq] at h
        subst h
        refine ⟨by simp, rfl, fun k f hk => ⟨.chan (argmin (dists o.freqs f)), by simp [hk], fun W lut d => ⟨by simp, ?_⟩⟩⟩
        intro r hr
        cases hr
        exact ⟨fun _ => ⟨_, argmin_closest hne f, rfl⟩, fun n _ hk => (nomatch hk)⟩
      | other n =>
        rw [hk] at h
        simp only [picks] at h
        split at h
        · cases h
        · rename_i l hl
          split at hl
          · cases hl
          · split at hl
            · cases hl
            · split at hl
              · cases hl
              · simp only [Except.ok.injEq] at hl h
                subst hl; subst h
                refine ⟨by simp, rfl, fun k f hk => ⟨.at f, by simp [hk], fun W lut d => ⟨by simp, ?_⟩⟩⟩
                intro r hr
                cases hr
                refine ⟨?_, fun m _ hm => by cases hm; rfl⟩
                rintro (h' | h')
                · exact absurd h' hn
                · cases h'

variable [IsStrictOrderedRing K]

/-- Interpolation along the channels gives back what it was given at the channels. -/
def FreqExact {W : Type} (lut : Nat → List K → (Nat → W) → K → W) : Prop :=
  ∀ n freqs d i f, freqs.Nodup → freqs[i]? = some f → lut n freqs d f = d i

/-- C101: a frequency of the beam gets the values of its channel, however it is asked for. -/
theorem freq_own {o : IBeam K V} {q : Req K O} {plan : List (Pick K) × List K × Kind} (h : freqPlan o q = .ok plan) (hnd : o.freqs.Nodup)
    {W : Type} {lut : Nat → List K → (Nat → W) → K → W} (hlut : FreqExact lut) {i k : Nat} {f : K} (hi : o.freqs[i]? = some f)
    (hk : plan.2.1[k]? = some f) : ∃ pk, plan.1[k]? = some pk ∧ ∀ d : Nat → W, pickVal lut o.freqs plan.2.2 d pk = d i := by
  have hne : o.freqs ≠ [] := List.ne_nil_of_mem (List.mem_of_getElem? hi)
  obtain ⟨-, hpl, H⟩ := freq_values h hne
  obtain ⟨pk, hpk, hv⟩ := H k f hk
  refine ⟨pk, hpk, fun d => ?_⟩
  obtain ⟨v1, v2⟩ := hv W lut d
  cases hq : q.freqs with
  | none =>
    rw [v1 hq]
    rw [hpl, hq] at hk
    have hlt := (List.getElem?_eq_some_iff.mp hi).1
    rw [(List.getElem?_inj hlt hnd).mp (hi.trans hk.symm)]
  | some req =>
    obtain ⟨w1, w2⟩ := v2 req hq
    have close : ∀ j, Closest o.freqs f j → j = i := by
      rintro j ⟨x, hx, hmin, -⟩
      have h0 := hmin f (List.mem_of_getElem? hi)
      rw [sub_self, abs_zero] at h0
      have hxf : x = f := by
        have := abs_eq_zero.mp (le_antisymm h0 (abs_nonneg _))
        linarith
      subst hxf
      have hlt := (List.getElem?_eq_some_iff.mp hx).1
      exact (List.getElem?_inj hlt hnd).mp (hx.trans hi.symm)
    by_cases hn : AllNear o.freqs req q.tol
    · obtain ⟨j, hj, hd⟩ := w1 (Or.inl hn)
      rw [hd, close j hj]
    · cases hkd : q.kind with
      | nearest =>
        obtain ⟨j, hj, hd⟩ := w1 (Or.inr hkd)
        rw [hd, close j hj]
      | other n =>
        rw [w2 n hn hkd]
        exact hlut n _ d i f hnd hi

/-- C101: the bandpass is treated like the values when frequencies are requested. -/
theorem band_values {lib : Lib K V O} {o : IBeam K V} {q : Req K O} {plan : List (Pick K) × List K × Kind} {req : List K}
    (hq : q.freqs = some req) {k : Nat} {pk : Pick K} (hk : plan.1[k]? = some pk) :
    (bandOut lib o q plan)[k]? = some (pickVal lib.band o.freqs plan.2.2 o.band pk) := by
  simp [bandOut, hq, List.getElem?_map, hk]

/-- C101 is false for the bandpass when no frequencies are requested: whatever the number of channels, one number is returned, that of the first. -/
theorem band_first_only {lib : Lib K V O} {o : IBeam K V} {q : Req K O} {plan : List (Pick K) × List K × Kind} (hq : q.freqs = none) :
    bandOut lib o q plan = [o.band 0] := by
  simp [bandOut, hq]

/-- A beam with two channels whose bandpass is 1 and 2, asked for all of its channels. -/
theorem band_counterexample : ∃ (o : IBeam ℚ ℚ) (q : Req ℚ Unit) (plan : List (Pick ℚ) × List ℚ × Kind), freqPlan o q = .ok plan ∧
    o.freqs = [10, 20] ∧ plan.2.1 = [10, 20] ∧ o.band 0 = 1 ∧ o.band 1 = 2 ∧
    ∀ lib : Lib ℚ ℚ Unit, bandOut lib o q plan = [1] :=
  ⟨{ power := true, pols := [-5], npols := 1, nvec := 1, freqs := [10, 20], az := [0, 1], za := [0, 1], data := fun _ _ _ _ _ => 0,
     band := fun i => i + 1, basis := none },
   { az := none, za := none, grid := false, freqs := none, kind := .other 3, tol := 1, pols := none, opts := (), reuse := false, check := true },
   _, rfl, rfl, rfl, by norm_num, by norm_num, fun lib => by simp [bandOut]⟩

/-- A request for one frequency of the beam and one between its channels is accepted. -/
example : ∃ (o : IBeam ℚ ℚ) (q : Req ℚ Unit), (∃ plan, freqPlan o q = .ok plan) ∧ o.freqs.Nodup ∧ q.freqs = some [12, 20] :=
  ⟨{ power := true, pols := [-5], npols := 1, nvec := 1, freqs := [10, 20], az := [0, 1], za := [0, 1], data := fun _ _ i _ _ => i,
     band := fun i => i + 1, basis := none },
   { az := none, za := none, grid := false, freqs := some [12, 20], kind := .other 3, tol := 1, pols := none, opts := (), reuse := false,
     check := true },
   (freq_accepted_iff _ _).mpr fun req hr => by
     cases hr
     refine Or.inr (Or.inr ⟨by decide, by simp, ?_⟩)
     intro f hf
     simp only [List.mem_cons, List.not_mem_nil, or_false] at hf
     rcases hf with rfl | rfl
     · exact ⟨⟨10, by simp, by norm_num⟩, ⟨20, by simp, by norm_num⟩⟩
     · exact ⟨⟨10, by simp, by norm_num⟩, ⟨20, by simp, by norm_num⟩⟩, by simp, rfl⟩

end Verif.Interp
