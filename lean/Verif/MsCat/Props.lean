import Verif.MsCat.Model
import Verif.Pol.Lemmas
import Mathlib.Tactic.NormNum

/-! # What becomes of a catalog -/

namespace Verif.MsCat
open Verif.Np

variable {K : Type} [Field K] [LinearOrder K]

/-- Frames that CASA has a name for: FK5, GCRS and ICRS of the epoch 2000 (or none), FK4 of 1950 and 1979. -/
def Named (e : Entry K) : Prop :=
  (e.frame ∈ ["fk5", "gcrs", "icrs"] ∧ e.epoch.getD 2000 = 2000) ∨ (e.frame = "fk4" ∧ (e.epoch.getD 2000 = 1950 ∨ e.epoch.getD 2000 = 1979))

/-- A catalog that can be written: every entry has a frame that CASA knows, numbers are different, and the samples of an ephemeris
are further apart than `tol`. -/
structure Good (tol : K) (c : Cat K) : Prop where
  filled : c ≠ []
  ids : (c.map (fun x => x.1)).Nodup
  frames : ∀ x ∈ c, Named x.2
  apart : ∀ x ∈ c, ∀ l, x.2.place = .path l → l.Pairwise (fun s t => ¬ |s.1 - t.1| ≤ tol)

theorem ref_frame {fr : String} {ep : Option K} {r : String} (h : refOf fr ep = some r) : frameOf r = some (fr, ep.getD 2000) := by
  unfold refOf at h
  obtain ⟨x, hx, rfl⟩ := Option.map_eq_some_iff.1 h
  have hp := List.find?_some hx
  have hm := List.mem_of_find?_eq_some hx
  simp only [Bool.and_eq_true, decide_eq_true_iff] at hp
  rw [← hp.1, ← hp.2]
  unfold frames at hm
  simp only [List.mem_cons, List.not_mem_nil, or_false] at hm
  rcases hm with rfl | rfl | rfl | rfl | rfl <;> simp [frameOf, frames]

theorem ref_some (e : Entry K) : (∃ r, refOf e.frame e.epoch = some r) ↔ Named e := by
  have : (∃ r, refOf e.frame e.epoch = some r) ↔
      ∃ x ∈ frames (K := K), (decide (x.2.1 = e.frame) && decide (x.2.2 = e.epoch.getD 2000)) = true := by
    unfold refOf
    rw [← Option.isSome_iff_exists, Option.isSome_map, List.find?_isSome]
  rw [this]
  unfold frames Named
  simp only [List.mem_cons, List.not_mem_nil, or_false, exists_eq_or_imp, exists_eq_left, Bool.and_eq_true, decide_eq_true_iff]
  constructor
  · rintro (⟨h1, h2⟩ | ⟨h1, h2⟩ | ⟨h1, h2⟩ | ⟨h1, h2⟩ | ⟨h1, h2⟩)
    · exact Or.inl ⟨Or.inl h1.symm, h2.symm⟩
    · exact Or.inl ⟨Or.inr (Or.inl h1.symm), h2.symm⟩
    · exact Or.inr ⟨h1.symm, Or.inl h2.symm⟩
    · exact Or.inr ⟨h1.symm, Or.inr h2.symm⟩
    · exact Or.inl ⟨Or.inr (Or.inr h1.symm), h2.symm⟩
  · rintro (⟨h1 | h1 | h1, h2⟩ | ⟨h1, h2 | h2⟩)
    · exact Or.inl ⟨h1.symm, h2.symm⟩
    · exact Or.inr (Or.inl ⟨h1.symm, h2.symm⟩)
    · exact Or.inr (Or.inr (Or.inr (Or.inr ⟨h1.symm, h2.symm⟩)))
    · exact Or.inr (Or.inr (Or.inl ⟨h1.symm, h2.symm⟩))
    · exact Or.inr (Or.inr (Or.inr (Or.inl ⟨h1.symm, h2.symm⟩)))

theorem mapM_ok {α β : Type} {f : α → Option β} {g : α → β} : ∀ {l : List α}, (∀ x ∈ l, f x = some (g x)) → l.mapM f = some (l.map g)
  | [], _ => rfl
  | x :: l, h => by
    rw [List.mapM_cons, h x (List.mem_cons_self ..), mapM_ok (fun y hy => h y (List.mem_cons_of_mem _ hy))]
    rfl

/-- A catalog is refused exactly if it is empty or has an entry whose frame has no name. -/
theorem write_accepts (med : List K → K) (now : K) (c : Cat K) :
    (∃ f, write med now c = .ok f) ↔ c ≠ [] ∧ ∀ x ∈ c, Named x.2 := by
  cases c with
  | nil => simp [write]
  | cons x l =>
    unfold write
    dsimp only
    constructor
    · rintro ⟨f, h⟩
      refine ⟨by simp, ?_⟩
      cases hr : refOf x.2.frame x.2.epoch with
      | none => rw [hr] at h; cases h
      | some r =>
        rw [hr] at h
        dsimp only at h
        by_cases hv : varRef x.2 l = true
        · rw [if_pos hv] at h
          cases hm : (x :: l).mapM (fun y => refOf y.2.frame y.2.epoch) with
          | none => rw [hm] at h; cases h
          | some rs =>
            intro y hy
            rw [← ref_some]
            obtain ⟨i, hi⟩ := List.mem_iff_getElem?.1 hy
            have := Verif.Pol.mapM_getElem? hm
            obtain ⟨b, hb, _⟩ := this.2 i y hi
            exact ⟨b, hb⟩
        · intro y hy
          rw [← ref_some]
          rcases List.mem_cons.1 hy with rfl | hy
          · exact ⟨r, hr⟩
          · have : x.2.frame = y.2.frame ∧ x.2.epoch = y.2.epoch := by
              unfold varRef at hv
              simp only [List.any_eq_true, not_exists, not_and, Bool.or_eq_true, decide_eq_true_iff, not_or, not_not] at hv
              exact hv y hy
            rw [← this.1, ← this.2]
            exact ⟨r, hr⟩
    · rintro ⟨_, h⟩
      obtain ⟨r, hr⟩ := (ref_some x.2).2 (h x (List.mem_cons_self ..))
      rw [hr]
      dsimp only
      by_cases hv : varRef x.2 l = true
      · rw [if_pos hv]
        rw [mapM_ok (g := fun y => (refOf y.2.frame y.2.epoch).getD "")]
        · exact ⟨_, rfl⟩
        · intro y hy
          obtain ⟨b, hb⟩ := (ref_some y.2).2 (h y hy)
          simp [hb]
      · rw [if_neg hv]
        exact ⟨_, rfl⟩

/-- The frames that are read for a catalog that was written. -/
theorem write_frames {med : List K → K} {now : K} {c : Cat K} {f : File K} (h : write med now c = .ok f) :
    f.fields = c.map (fieldRow med) ∧ f.srcs = c.flatMap (srcRows now) ∧
      (refsOf f).mapM (frameOf (K := K)) = some (c.map (fun x => (x.2.frame, x.2.epoch.getD 2000))) := by
  cases c with
  | nil => simp [write] at h
  | cons x l =>
    unfold write at h
    dsimp only at h
    cases hr : refOf x.2.frame x.2.epoch with
    | none => rw [hr] at h; cases h
    | some r =>
      rw [hr] at h
      dsimp only at h
      by_cases hv : varRef x.2 l = true
      · rw [if_pos hv] at h
        cases hm : (x :: l).mapM (fun y => refOf y.2.frame y.2.epoch) with
        | none => rw [hm] at h; cases h
        | some rs =>
          rw [hm] at h
          cases h
          refine ⟨rfl, rfl, ?_⟩
          show rs.mapM frameOf = _
          have hmm := Verif.Pol.mapM_getElem? hm
          rw [mapM_ok (g := fun s => (frameOf s).getD ("", 0))]
          · congr 1
            apply List.ext_getElem?
            intro i
            rw [List.getElem?_map, List.getElem?_map]
            cases hi : (x :: l)[i]? with
            | none =>
              have : rs[i]? = none := by
                rw [List.getElem?_eq_none_iff] at hi ⊢
                rw [hmm.1]
                exact hi
              rw [this]
              rfl
            | some y =>
              obtain ⟨b, hb, hrs⟩ := hmm.2 i y hi
              rw [hrs, Option.map_some, Option.map_some, ref_frame hb]
              rfl
          · intro s hs
            obtain ⟨i, hi⟩ := List.mem_iff_getElem?.1 hs
            have hil : i < (x :: l).length := by
              rw [← hmm.1]
              exact (List.getElem?_eq_some_iff.1 hi).1
            obtain ⟨b, hb, hrs⟩ := hmm.2 i _ (List.getElem?_eq_getElem hil)
            rw [hi] at hrs
            cases hrs
            rw [ref_frame hb]
            rfl
      · rw [if_neg hv] at h
        cases h
        refine ⟨rfl, rfl, ?_⟩
        show (List.replicate _ r).mapM frameOf = _
        rw [mapM_ok (g := fun _ => (x.2.frame, x.2.epoch.getD 2000))]
        · congr 1
          rw [List.map_replicate, List.length_map]
          symm
          rw [List.eq_replicate_iff]
          refine ⟨by simp, ?_⟩
          intro b hb
          obtain ⟨y, hy, rfl⟩ := List.mem_map.1 hb
          rcases List.mem_cons.1 hy with rfl | hy
          · rfl
          · have : x.2.frame = y.2.frame ∧ x.2.epoch = y.2.epoch := by
              unfold varRef at hv
              simp only [List.any_eq_true, not_exists, not_and, Bool.or_eq_true, decide_eq_true_iff, not_or, not_not] at hv
              exact hv y hy
            rw [this.1, this.2]
        · intro s hs
          rw [(List.mem_replicate.1 hs).2]
          exact ref_frame hr

end Verif.MsCat
