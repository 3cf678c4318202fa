import Mathlib.Data.Finset.Prod
import Mathlib.Data.Finset.Card
import Mathlib.Order.Interval.Finset.Nat
import Mathlib.Algebra.BigOperators.Group.Finset.Basic
import Verif.MirVis.Props

/-! Records of MIR data that do not become what they say. -/

namespace Verif.MirVis
open Verif.Np

variable {V K : Type} [Field K] [LinearOrder K] [Zero V]

/-- C215: polarizations that are tuned to different frequencies share their windows if none has the code 1: of two such spectra the
first one is lost, the data are those without it. -/
theorem codes_counterexample {d : Dat V K} (hsp : d.split = true) (hf : d.fresh = false) {a b e : List (Sp V K)} {s t : Sp V K}
    (hl : d.sps = a ++ s :: (b ++ t :: e)) (hr : s.bl.row = t.bl.row) (hc : s.chunk = t.chunk) (hi : s.bl.isb = t.bl.isb)
    (ha : d.allow = true) (ps : d.pol s ≠ 1) (pt : d.pol t ≠ 1) :
    d.obj.data = (a ++ (b ++ t :: e)).foldl d.put (fun _ _ _ => ⟨0, true, 0⟩) := by
  have hv : d.visited = a ++ s :: (b ++ t :: e) := by unfold Dat.visited; rw [hf, ← hl]; rfl
  have hid : d.id s = d.id t := by
    unfold Dat.id spwId Dat.key
    dsimp only
    rw [hc, hi]
    simp [ps, pt]
  have hh : ∀ r j c, d.hits s r j c = d.hits t r j c := by
    intro r j c
    unfold Dat.hits Dat.rowOf Dat.polIdx
    rw [hid, hr, hsp, ha]
    rfl
  have put_skip : ∀ (l : List (Sp V K)) (x y : Nat → Nat → Nat → Vis V K), (∀ r j c, d.hits t r j c = false → x r j c = y r j c) →
      (b ++ t :: l).foldl d.put x = (b ++ t :: l).foldl d.put y := by
    intro l x y hxy
    rw [List.foldl_append, List.foldl_append, List.foldl_cons, List.foldl_cons]
    congr 1
    have gen : ∀ (b : List (Sp V K)) (x y : Nat → Nat → Nat → Vis V K), (∀ r j c, d.hits t r j c = false → x r j c = y r j c) →
        ∀ r j c, d.hits t r j c = false → b.foldl d.put x r j c = b.foldl d.put y r j c := by
      intro b
      induction b with
      | nil => intro x y h; exact h
      | cons z b ih =>
        intro x y h
        rw [List.foldl_cons, List.foldl_cons]
        refine ih _ _ (fun r j c hh => ?_)
        unfold Dat.put
        rw [h r j c hh]
    funext r j c
    unfold Dat.put
    cases hhit : d.hits t r j c with
    | true => rfl
    | false => exact gen b x y hxy r j c hhit
  show d.visited.foldl d.put (fun _ _ _ => ⟨0, true, 0⟩) = _
  rw [hv, List.foldl_append, List.foldl_append, List.foldl_cons]
  refine put_skip e _ _ (fun r j c h => ?_)
  unfold Dat.put
  rw [hh, h]
  rfl

/-- C215: without flexible polarizations, polarizations that are tuned to different frequencies make an object that the check refuses:
it has two polarizations and polarizations of windows. -/
theorem flex_counterexample {d : Dat V K} (hsp : d.split = true) (ha : d.allow = false) {o : Obj V K} (h : d.read = .ok o) :
    o.flexPol ≠ none ∧ o.pols.length = 2 := by
  unfold Dat.read at h
  split at h
  · cases h
  · split at h
    · cases h
    · cases h
      have h2 : d.pols.length = 2 := by
        have hsp' := hsp
        unfold Dat.split at hsp'
        dsimp only at hsp'
        simp only [Bool.and_eq_true, decide_eq_true_eq] at hsp'
        exact hsp'.1.1.1
      unfold Dat.obj
      dsimp only
      rw [hsp, ha]
      simp [h2]

theorem ordered_card (s : Finset Nat) : ((s ×ˢ s).filter (fun p => p.1 < p.2)).card = s.card * (s.card - 1) / 2 := by
  have h1 : ((s ×ˢ s).filter (fun p => p.2 < p.1)).card = ((s ×ˢ s).filter (fun p => p.1 < p.2)).card := by
    refine Finset.card_bij (fun p _ => (p.2, p.1)) ?_ ?_ ?_
    · rintro ⟨x, y⟩ h
      simp only [Finset.mem_filter, Finset.mem_product] at h ⊢
      exact ⟨⟨h.1.2, h.1.1⟩, h.2⟩
    · rintro ⟨x, y⟩ _ ⟨z, w⟩ _ h
      simp only [Prod.mk.injEq] at h ⊢
      exact ⟨h.2, h.1⟩
    · rintro ⟨x, y⟩ h
      refine ⟨(y, x), ?_, rfl⟩
      simp only [Finset.mem_filter, Finset.mem_product] at h ⊢
      exact ⟨⟨h.1.2, h.1.1⟩, h.2⟩
  have h2 : s.offDiag = (s ×ˢ s).filter (fun p => p.1 < p.2) ∪ (s ×ˢ s).filter (fun p => p.2 < p.1) := by
    ext ⟨x, y⟩
    simp only [Finset.mem_offDiag, Finset.mem_union, Finset.mem_filter, Finset.mem_product]
    constructor
    · rintro ⟨a, b, c⟩
      rcases Nat.lt_or_gt_of_ne c with h | h
      · exact Or.inl ⟨⟨a, b⟩, h⟩
      · exact Or.inr ⟨⟨a, b⟩, h⟩
    · rintro (⟨⟨a, b⟩, h⟩ | ⟨⟨a, b⟩, h⟩)
      · exact ⟨a, b, by omega⟩
      · exact ⟨a, b, by omega⟩
  have h3 : s.offDiag.card = ((s ×ˢ s).filter (fun p => p.1 < p.2)).card + ((s ×ˢ s).filter (fun p => p.2 < p.1)).card := by
    rw [h2]
    refine Finset.card_union_of_disjoint (Finset.disjoint_left.2 ?_)
    rintro ⟨x, y⟩ h h'
    simp only [Finset.mem_filter] at h h'
    omega
  rw [Finset.offDiag_card, h1] at h3
  have h4 : s.card * (s.card - 1) = s.card * s.card - s.card := by rw [Nat.mul_sub, Nat.mul_one]
  omega

/-- Antennas of the records. -/
def IsAnt (bls : List (Bl K)) (x : Nat) : Prop := ∃ b ∈ bls, b.a1 = x ∨ b.a2 = x

omit [Field K] [LinearOrder K] [Zero V] in
/-- C215: the number of baselines is right exactly if there are records of all pairs of antennas that have data (otherwise the check
refuses the object). -/
theorem nbls_iff {d : Dat V K} (h : ∀ b ∈ d.bls, b.a1 < b.a2) : d.nbls = (d.bls.map (fun b => (b.a1, b.a2))).toFinset.card ↔
    ∀ x y, IsAnt d.bls x → IsAnt d.bls y → x < y → ∃ b ∈ d.bls, b.a1 = x ∧ b.a2 = y := by
  have hn : (unique (d.bls.map Bl.a1 ++ d.bls.map Bl.a2)).length = (d.bls.map Bl.a1 ++ d.bls.map Bl.a2).toFinset.card := by
    rw [unique_length, List.card_toFinset]
  have hc : d.nbls = (((d.bls.map Bl.a1 ++ d.bls.map Bl.a2).toFinset ×ˢ (d.bls.map Bl.a1 ++ d.bls.map Bl.a2).toFinset).filter
      (fun p => p.1 < p.2)).card := by
    rw [ordered_card]
    unfold Dat.nbls
    dsimp only
    rw [hn]
  have hm : ∀ x, x ∈ (d.bls.map Bl.a1 ++ d.bls.map Bl.a2).toFinset ↔ IsAnt d.bls x := by
    intro x
    rw [List.mem_toFinset, List.mem_append, List.mem_map, List.mem_map]
    unfold IsAnt
    constructor
    · rintro (⟨b, hb, e⟩ | ⟨b, hb, e⟩)
      · exact ⟨b, hb, Or.inl e⟩
      · exact ⟨b, hb, Or.inr e⟩
    · rintro ⟨b, hb, e | e⟩
      · exact Or.inl ⟨b, hb, e⟩
      · exact Or.inr ⟨b, hb, e⟩
  have hsub : (d.bls.map (fun b => (b.a1, b.a2))).toFinset ⊆
      ((d.bls.map Bl.a1 ++ d.bls.map Bl.a2).toFinset ×ˢ (d.bls.map Bl.a1 ++ d.bls.map Bl.a2).toFinset).filter (fun p => p.1 < p.2) := by
    rintro ⟨x, y⟩ hp
    obtain ⟨b, hb, e⟩ := List.mem_map.1 (List.mem_toFinset.1 hp)
    obtain ⟨rfl, rfl⟩ := Prod.mk.inj e
    rw [Finset.mem_filter, Finset.mem_product]
    exact ⟨⟨(hm _).2 ⟨b, hb, Or.inl rfl⟩, (hm _).2 ⟨b, hb, Or.inr rfl⟩⟩, h b hb⟩
  rw [hc]
  constructor
  · intro e x y hx hy hxy
    have he := Finset.eq_of_subset_of_card_le hsub (le_of_eq e)
    have : (x, y) ∈ (d.bls.map (fun b => (b.a1, b.a2))).toFinset := by
      rw [he, Finset.mem_filter, Finset.mem_product]
      exact ⟨⟨(hm _).2 hx, (hm _).2 hy⟩, hxy⟩
    obtain ⟨b, hb, e⟩ := List.mem_map.1 (List.mem_toFinset.1 this)
    obtain ⟨rfl, rfl⟩ := Prod.mk.inj e
    exact ⟨b, hb, rfl, rfl⟩
  · intro hall
    congr 1
    refine Finset.Subset.antisymm ?_ hsub
    rintro ⟨x, y⟩ hp
    rw [Finset.mem_filter, Finset.mem_product] at hp
    obtain ⟨b, hb, e1, e2⟩ := hall x y ((hm _).1 hp.1.1) ((hm _).1 hp.1.2) hp.2
    exact List.mem_toFinset.2 (List.mem_map.2 ⟨b, hb, by rw [e1, e2]⟩)

end Verif.MirVis
