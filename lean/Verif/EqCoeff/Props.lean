import Verif.EqCoeff.Model
import Verif.AntPair.Props
import Mathlib.Algebra.Field.Basic

/-! Each visibility gets the coefficients of its antennas once (C142). -/

namespace Verif.EqCoeff
open Verif.AntPair (antpair2ind getAntpairs IsRowsOf Numbered LaidOut)

variable {V : Type} [Field V]

/-- Position `i` of the telescope holds an antenna, for the first time. -/
def At (tel : List Nat) (n i : Nat) : Prop := tel[i]? = some n ∧ ∀ k < i, tel[k]? ≠ some n

/-- What a visibility becomes. -/
def Becomes (conv : Conv) (v u w : V) : Prop :=
  match conv with
  | .multiply => w = v * u
  | .divide => w * u = v ∨ (u = 0 ∧ w = 0)
  | .other => False

theorem find_at {tel : List Nat} {n : Nat} (h : n ∈ tel) : ∃ i, tel.findIdx? (fun m => m == n) = some i ∧ At tel n i := by
  cases hf : tel.findIdx? (fun m => m == n) with
  | none =>
    rw [List.findIdx?_eq_none_iff] at hf
    have := hf n h
    simp at this
  | some i =>
    rw [List.findIdx?_eq_some_iff_getElem] at hf
    obtain ⟨h1, h2, h3⟩ := hf
    refine ⟨i, rfl, ?_, ?_⟩
    · rw [List.getElem?_eq_getElem h1]
      simpa using h2
    · intro k hk
      have := h3 k hk
      rw [List.getElem?_eq_getElem (by omega)]
      simpa using this

theorem at_unique {tel : List Nat} {n i j : Nat} (h : At tel n i) (h' : At tel n j) : i = j := by
  rcases Nat.lt_trichotomy i j with hl | hl | hl
  · exact absurd h.1 (h'.2 i hl)
  · exact hl
  · exact absurd h'.1 (h.2 j hl)

/-- The row of a pair. -/
def RowOf (o : AntPair.Obj) (r a b : Nat) : Prop := o.ant1[r]? = some a ∧ o.ant2[r]? = some b

theorem becomes_div {v u : V} : Becomes .divide v u (v / u) := by
  by_cases h : u = 0
  · right; simp [h]
  · left; exact div_mul_cancel₀ v h

theorem loop_ok (c : Nat → Nat → V) (conv : Conv) (hc : conv ≠ .other) (P : AntPair.Obj) (tel : List Nat) (hn : Numbered P)
    (hl : LaidOut P) (ks : List (Nat × Nat)) (hnd : ks.Nodup)
    (hk : ∀ a b, (a, b) ∈ ks → (∃ r, RowOf P r a b) ∧ a ∈ tel ∧ b ∈ tel) (o : Obj V) (ho : o.pairs = P) (ht : o.tel = tel) :
    ∃ d, loop c conv ks o = ({ o with data := d }, none) ∧
      (∀ r, (¬ ∃ a b, (a, b) ∈ ks ∧ RowOf P r a b) → ∀ f p, d r f p = o.data r f p) ∧
      (∀ r a b i j, (a, b) ∈ ks → RowOf P r a b → At tel a i → At tel b j →
        ∀ f p, Becomes conv (o.data r f p) (c i f * c j f) (d r f p)) := by
  induction ks generalizing o with
  | nil => exact ⟨o.data, rfl, fun _ _ _ _ => rfl, by simp⟩
  | cons k ks ih =>
    obtain ⟨a, b⟩ := k
    obtain ⟨⟨r0, hr0⟩, hat, hbt⟩ := hk a b (by simp)
    obtain ⟨res, l, e1, e2, e3, -⟩ := AntPair.antpair2ind_exact P hn hl a b
    have hne : l ≠ [] := by
      intro h
      have := (e2.2 r0).2 hr0
      rw [h] at this
      simp at this
    rw [if_neg hne] at e3
    obtain ⟨i, hi, hi'⟩ := find_at hat
    obtain ⟨j, hj, hj'⟩ := find_at hbt
    have hnd' := List.nodup_cons.1 hnd
    have hks : ∀ a b, (a, b) ∈ ks → (∃ r, RowOf P r a b) ∧ a ∈ tel ∧ b ∈ tel :=
      fun a b h => hk a b (List.mem_cons_of_mem _ h)
    have other : ∀ r, RowOf P r a b → ¬ ∃ a' b', (a', b') ∈ ks ∧ RowOf P r a' b' := by
      rintro r hr ⟨a', b', hm, hr'⟩
      have h1 : a = a' := by have := hr.1.symm.trans hr'.1; simpa using this
      have h2 : b = b' := by have := hr.2.symm.trans hr'.2; simpa using this
      subst h1 h2
      exact hnd'.1 hm
    have apart : ∀ r a' b', (a', b') ∈ ks → RowOf P r a' b' → r ∉ l := by
      intro r a' b' hm hr' hrl
      exact other r ((e2.2 r).1 hrl) ⟨a', b', hm, hr'⟩
    -- one step, for either operation
    have main : ∀ op : V → V → V, (∀ v u, Becomes conv v u (op v u)) →
        loop c conv ((a, b) :: ks) o = loop c conv ks
          { o with data := fun r f p => if r ∈ l then op (o.data r f p) (c i f * c j f) else o.data r f p } →
        ∃ d, loop c conv ((a, b) :: ks) o = ({ o with data := d }, none) ∧
          (∀ r, (¬ ∃ a' b', (a', b') ∈ (a, b) :: ks ∧ RowOf P r a' b') → ∀ f p, d r f p = o.data r f p) ∧
          (∀ r a' b' i j, (a', b') ∈ (a, b) :: ks → RowOf P r a' b' → At tel a' i → At tel b' j →
            ∀ f p, Becomes conv (o.data r f p) (c i f * c j f) (d r f p)) := by
      intro op hop hstep
      obtain ⟨d, f1, f2, f3⟩ := ih hnd'.2 hks
        { o with data := fun r f p => if r ∈ l then op (o.data r f p) (c i f * c j f) else o.data r f p } ho ht
      refine ⟨d, by rw [hstep, f1], ?_, ?_⟩
      · intro r hr f p
        rw [f2 r (fun ⟨a', b', h1, h2⟩ => hr ⟨a', b', List.mem_cons_of_mem _ h1, h2⟩)]
        have : r ∉ l := fun h => hr ⟨a, b, by simp, (e2.2 r).1 h⟩
        simp [this]
      · intro r a' b' i' j' hm hr hi2 hj2 f p
        rcases List.mem_cons.1 hm with h | h
        · simp only [Prod.mk.injEq] at h
          obtain ⟨rfl, rfl⟩ := h
          rw [f2 r (other r hr)]
          have : r ∈ l := (e2.2 r).2 hr
          simp only [this, if_true]
          rw [at_unique hi2 hi', at_unique hj2 hj']
          exact hop _ _
        · have := f3 r a' b' i' j' h hr hi2 hj2 f p
          simpa [apart r a' b' h hr] using this
    subst ho ht
    cases conv with
    | other => exact absurd rfl hc
    | multiply =>
      refine main (fun v u => v * u) (fun _ _ => rfl) ?_
      conv_lhs => unfold loop
      simp only [e1, e3, hi, hj, if_true]
    | divide =>
      refine main (fun v u => v / u) (fun _ _ => becomes_div) ?_
      conv_lhs => unfold loop
      simp only [e1, e3, hi, hj, reduceCtorEq, if_false]

/-- C142: every visibility is multiplied with (or divided by) the coefficients of its two antennas in its channel, once;
nothing else changes. -/
theorem removed (o : Obj V) (hn : Numbered o.pairs) (hl : LaidOut o.pairs)
    (ht : ∀ r a b, RowOf o.pairs r a b → a ∈ o.tel ∧ b ∈ o.tel) {c : Nat → Nat → V} (hc : o.coeffs = some c) {conv : Conv}
    (hv : o.conv = some conv) (hm : conv = .multiply ∨ conv = .divide) :
    ∃ d, remove o = ({ o with data := d }, none) ∧
      ∀ r a b i j, RowOf o.pairs r a b → At o.tel a i → At o.tel b j →
        ∀ f p, Becomes conv (o.data r f p) (c i f * c j f) (d r f p) := by
  obtain ⟨ks, h1, h2, h3⟩ := AntPair.get_antpairs_exact o.pairs hn hl
  have ho : conv ≠ .other := by rcases hm with rfl | rfl <;> simp
  obtain ⟨d, d1, -, d3⟩ := loop_ok c conv ho o.pairs o.tel hn hl ks h2
    (fun a b h => by
      obtain ⟨r, hr⟩ := (h3 a b).1 h
      exact ⟨⟨r, hr⟩, ht r a b hr⟩) o rfl rfl
  refine ⟨d, ?_, fun r a b i j hr hi hj f p => d3 r a b i j ((h3 a b).2 ⟨r, hr⟩) hr hi hj f p⟩
  unfold remove
  simp only [hc, hv, h1]
  rw [if_neg (by rcases hm with rfl | rfl <;> simp), d1, hc, hv]

/-- C142: it is refused exactly without coefficients or without one of the two conventions, and then nothing changes. -/
theorem refused (o : Obj V) (hn : Numbered o.pairs) (hl : LaidOut o.pairs)
    (ht : ∀ r a b, RowOf o.pairs r a b → a ∈ o.tel ∧ b ∈ o.tel) :
    ((remove o).2 = none ↔ o.coeffs.isSome ∧ (o.conv = some .multiply ∨ o.conv = some .divide)) ∧
      ((remove o).2 ≠ none → (remove o).1 = o) := by
  cases hc : o.coeffs with
  | none => simp [remove, hc]
  | some c =>
    cases hv : o.conv with
    | none => simp [remove, hc, hv]
    | some conv =>
      by_cases hm : conv = .multiply ∨ conv = .divide
      · obtain ⟨d, hd, -⟩ := removed o hn hl ht hc hv hm
        rw [hd]
        simpa using hm
      · push Not at hm
        simp [remove, hc, hv, hm.1, hm.2]

end Verif.EqCoeff
