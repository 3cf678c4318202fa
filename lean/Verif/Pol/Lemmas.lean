import Verif.Pol.Model

namespace Verif.Pol
open Verif.Np

theorem Dict.mem_of_get {κ ν : Type} [DecidableEq κ] {d : Dict κ ν} {k : κ} {v : ν}
    (h : d.get k = some v) : (k, v) ∈ d := by
  unfold Dict.get at h
  cases hf : List.find? (fun p => decide (p.1 = k)) d with
  | none => simp [hf] at h
  | some p =>
    simp [hf] at h
    have h1 := List.mem_of_find?_eq_some hf
    have h2 := List.find?_some hf
    simp at h2
    rw [← h2, ← h]; exact h1

/-- The three orientations that matter. -/
def orients : List (Option Str) := [none, some ['e'], some ['n']]

theorem orient_cases (xo : Option Str) : ∃ xo' ∈ orients, xo.bind xOrientPolMap = xo'.bind xOrientPolMap := by
  cases h : xo.bind xOrientPolMap with
  | none => exact ⟨none, by simp [orients], rfl⟩
  | some p =>
    cases xo with
    | none => simp at h
    | some s =>
      simp only [Option.bind_some, xOrientPolMap] at h
      cases hg : xorientMap.get (lower s) with
      | none => simp [hg] at h
      | some b =>
        simp [hg] at h
        cases b
        · exact ⟨some ['n'], by simp [orients], by rw [← h]; decide +kernel⟩
        · exact ⟨some ['e'], by simp [orients], by rw [← h]; decide +kernel⟩

theorem polstr2num_congr {xo xo' : Option Str} (h : xo.bind xOrientPolMap = xo'.bind xOrientPolMap) :
    polstr2num xo = polstr2num xo' := by funext s; simp only [polstr2num, addOriented, h]

theorem polnum2str_congr {xo xo' : Option Str} (h : xo.bind xOrientPolMap = xo'.bind xOrientPolMap) :
    polnum2str xo = polnum2str xo' := by funext s; simp only [polnum2str, orientedNames, h]

theorem jstr2num_congr {xo xo' : Option Str} (h : xo.bind xOrientPolMap = xo'.bind xOrientPolMap) :
    jstr2num xo = jstr2num xo' := by funext s; simp only [jstr2num, addOriented, h]

theorem jnum2str_congr {xo xo' : Option Str} (h : xo.bind xOrientPolMap = xo'.bind xOrientPolMap) :
    jnum2str xo = jnum2str xo' := by funext s; simp only [jnum2str, orientedNames, h]

theorem lower_lower (s : Str) : lower (lower s) = lower s := by
  simp only [lower, List.map_map]
  apply List.map_congr_left
  intro c _
  simp only [Function.comp, Char.toLower]
  split <;> rename_i h1
  · split <;> rename_i h2
    · exfalso
      have hc : c.val.toNat ≤ 90 ∧ 65 ≤ c.val.toNat := ⟨by have := h1.2; exact this, by have := h1.1; exact this⟩
      have h3 := h2.2
      simp only [UInt32.le_iff_toNat_le, UInt32.toNat_add] at h3
      have e1 : UInt32.toNat 32 = 32 := rfl
      have e2 : UInt32.toNat 90 = 90 := rfl
      simp at h3
      have e3 : c.toNat = c.val.toNat := rfl
      omega
    · rfl
  · rfl

theorem mapM_forall₂ {β γ : Type} {f : β → Option γ} {l : List β} {r : List γ} :
    l.mapM f = some r ↔ List.Forall₂ (fun a b => f a = some b) l r := by
  induction l generalizing r with
  | nil => simp [eq_comm]
  | cons a l ih =>
    simp only [List.mapM_cons]
    cases ha : f a with
    | none =>
      simp only [Option.bind_eq_bind, Option.bind_none, reduceCtorEq, false_iff]
      intro h
      cases h with
      | cons h1 _ => rw [ha] at h1; simp at h1
    | some b =>
      cases hl : l.mapM f with
      | none =>
        simp only [Option.bind_eq_bind, Option.bind_some, Option.bind_none, reduceCtorEq, false_iff]
        intro h
        cases h with
        | cons _ h2 => rw [← ih, hl] at h2; simp at h2
      | some t =>
        simp only [Option.bind_eq_bind, Option.bind_some, Option.pure_def, Option.some.injEq]
        constructor
        · rintro rfl; exact .cons ha (ih.1 hl)
        · intro h
          cases h with
          | cons h1 h2 =>
            rw [ha] at h1
            simp at h1
            have := ih.2 h2
            rw [hl] at this
            simp at this
            rw [h1, this]

theorem mapM_getElem? {β γ : Type} {f : β → Option γ} {l : List β} {r : List γ} (h : l.mapM f = some r) :
    r.length = l.length ∧ ∀ i : Nat, ∀ a, l[i]? = some a → ∃ b, f a = some b ∧ r[i]? = some b := by
  rw [mapM_forall₂] at h
  induction h with
  | nil => simp
  | cons h1 _ ih =>
    refine ⟨by simp [ih.1], ?_⟩
    intro i a hi
    cases i with
    | zero => simp at hi; subst hi; exact ⟨_, h1, by simp⟩
    | succ i => simp at hi; simpa using ih.2 i a hi

theorem firstIdx_spec {xs : List Int} {p : Int} {i : Nat} (h : firstIdx xs p = some i) : xs[i]? = some p := by
  unfold firstIdx at h
  rw [List.findIdx?_eq_some_iff_getElem] at h
  obtain ⟨hi, h1, _⟩ := h
  rw [List.getElem?_eq_getElem hi]
  simpa using h1

theorem firstIdx_isSome {xs : List Int} {p : Int} : (firstIdx xs p).isSome ↔ p ∈ xs := by
  unfold firstIdx
  rw [List.findIdx?_isSome]
  simp

end Verif.Pol
