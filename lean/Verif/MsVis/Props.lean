import Verif.MsVis.Spec
import Verif.Pol.Props
import Mathlib.Tactic.Linarith
import Mathlib.Tactic.Ring

/-! # Polarizations and a single window -/

namespace Verif.MsVis
open Verif.Np Verif.Slices Verif.Pol

variable {T K U C E : Type}

/-! ## Polarizations -/

theorem mapM_one {α β : Type} (f : α → Option β) (a : α) : [a].mapM f = (f a).map (fun b => [b]) := by
  simp only [List.mapM_cons, List.mapM_nil]
  cases f a <;> rfl

/-- The positions picked are those of the order, unless it is the opposite one. -/
theorem polCols_eq {idx : List Nat} {n : Nat} (hp : idx.Perm (List.range n)) (h0 : n ≠ 0)
    (hr : n = 1 ∨ idx ≠ (List.range n).reverse) : polCols idx n = some idx := by
  have hl : idx.length = n := by simpa using hp.length_eq
  have hb : ∀ i ∈ idx, i < n := fun i hi => by simpa using hp.mem_iff.1 hi
  have hnd : idx.Nodup := hp.nodup_iff.2 List.nodup_range
  have hsel : ∀ m : Nat, PSlice.sel m ⟨0, m, some 1⟩ = some (List.range m) := by
    intro m
    unfold PSlice.sel
    simp [Nat.mod_one]
  have hgo : ∀ e, Entry.picks n e = some idx → allPicks n [e] = some idx := by
    intro e he
    unfold allPicks
    rw [mapM_one, he]
    simp
  have hr' : n ≠ 1 → idx ≠ (List.range n).reverse := fun h => hr.resolve_left h
  have hnil : idx.length ≠ 0 := by omega
  unfold polCols convert
  simp only [evalInd]
  unfold convertSeq
  rw [if_neg hnil]
  by_cases h2 : idx.length ≤ 2
  · rw [if_pos h2]
    match idx, hl, hp, hr', hgo with
    | [a], hl, hp, _, hgo =>
      simp only [List.length_cons, List.length_nil] at hl
      subst hl
      have : a < 1 := by simpa using hp.mem_iff.1 (List.mem_singleton_self a)
      have ha : a = 0 := by omega
      subst ha
      exact hgo _ (by decide)
    | [a, b], hl, hp, hr', hgo =>
      simp only [List.length_cons, List.length_nil] at hl
      subst hl
      have h1 : a < 2 := by simpa using hp.mem_iff.1 (show a ∈ [a, b] by simp)
      have h2 : b < 2 := by simpa using hp.mem_iff.1 (show b ∈ [a, b] by simp)
      have hne : a ≠ b := by
        have := hp.nodup_iff.2 List.nodup_range
        simpa using this
      have hrev := hr' (by omega)
      have hc : a = 0 ∧ b = 1 ∨ a = 1 ∧ b = 0 := by omega
      rcases hc with ⟨rfl, rfl⟩ | ⟨rfl, rfl⟩
      · exact hgo _ (by decide)
      · exact absurd (by decide) hrev
    | [], hl, _, _, _ => exact absurd hl.symm h0
    | _ :: _ :: _ :: _, _, _, _, _ => simp at h2
  · rw [if_neg h2, if_pos ⟨rfl, rfl⟩]
    dsimp only
    split
    · rename_i hall
      obtain ⟨a, b, t, rfl⟩ : ∃ a b t, idx = a :: b :: t := by
        match idx, h2 with
        | a :: b :: t, _ => exact ⟨a, b, t, rfl⟩
        | [a], h => simp at h
        | [], h => simp at h
      have hstep : ∀ i (h : i + 1 < (a :: b :: t).length), ((a :: b :: t)[i + 1] : Int) - ((a :: b :: t)[i]'(by omega) : Nat) = (b : Int) - a := by
        intro i h
        rw [List.all_eq_true] at hall
        have := hall ((a :: b :: t)[i]'(by omega), (a :: b :: t)[i + 1]) (by
          rw [List.mem_iff_getElem]
          refine ⟨i, by simp only [List.length_zip, List.length_tail]; omega, ?_⟩
          rw [List.getElem_zip, List.getElem_tail])
        rw [decide_eq_true_iff] at this
        exact this
      have hlin : ∀ i (h : i < (a :: b :: t).length), ((a :: b :: t)[i] : Int) = a + i * ((b : Int) - a) := by
        intro i
        induction i with
        | zero => intro h; simp
        | succ i ih =>
          intro h
          have e1 := hstep i h
          have e2 := ih (by omega)
          push_cast
          linarith [e1, e2, (by ring : (a : Int) + (i + 1) * ((b : Int) - a) = a + i * ((b : Int) - a) + ((b : Int) - a))]
      rcases lt_trichotomy ((b : Int) - a) 0 with hneg | hzero | hpos
      · exfalso
        apply hr' (by omega)
        have hdec : (a :: b :: t).reverse = List.range n := by
          refine strictSorted_ext ?_ List.pairwise_lt_range ?_
          · rw [List.pairwise_reverse, List.pairwise_iff_getElem]
            intro i j hi hj hij
            have e1 := hlin i hi
            have e2 := hlin j hj
            have : ((a :: b :: t)[j] : Int) < (a :: b :: t)[i] := by
              rw [e1, e2]
              have : (i : Int) < j := by exact_mod_cast hij
              nlinarith
            exact_mod_cast this
          · intro x
            rw [List.mem_reverse]
            exact hp.mem_iff
        rw [← hdec, List.reverse_reverse]
      · exfalso
        have : a = b := by omega
        subst this
        simp at hnd
      · have hinc : a :: b :: t = List.range n := by
          refine strictSorted_ext ?_ List.pairwise_lt_range (fun x => hp.mem_iff)
          rw [List.pairwise_iff_getElem]
          intro i j hi hj hij
          have e1 := hlin i hi
          have e2 := hlin j hj
          have : ((a :: b :: t)[i] : Int) < (a :: b :: t)[j] := by
            rw [e1, e2]
            have : (i : Int) < j := by exact_mod_cast hij
            nlinarith
          exact_mod_cast this
        apply hgo
        have h3 : 3 ≤ n := by omega
        have ha : a = 0 := by
          have := congrArg (fun l => l[0]?) hinc
          simpa [List.getElem?_range (show 0 < n by omega)] using this
        have hb' : b = 1 := by
          have := congrArg (fun l => l[1]?) hinc
          simpa [List.getElem?_range (show 1 < n by omega)] using this
        have hlast : (a :: b :: t).getLastD 0 = n - 1 := by
          rw [hinc, List.getLastD_eq_getLast?, List.getLast?_range]
          rw [if_neg (by omega)]
          rfl
        subst ha hb'
        have hn : n - 1 + 1 = n := by omega
        show PSlice.sel n ⟨0, (0 :: 1 :: t).getLastD 0 + 1, some (((1 : Nat) : Int) - ((0 : Nat) : Int))⟩ = some (0 :: 1 :: t)
        rw [hlast, hinc, hn]
        exact hsel n
    · apply hgo
      simp only [Entry.picks, Verif.Slices.picks]
      rw [if_pos hb]

theorem casa_aips {p : Int} (h : -8 ≤ p ∧ p ≤ -1) : ∃ c, casaOf p = some c ∧ aipsOf c = some p := by
  have key : ∀ q ∈ ([-8, -7, -6, -5, -4, -3, -2, -1] : List Int), ∃ c ∈ List.range 13, casaOf q = some c ∧ aipsOf c = some q := by
    decide +kernel
  obtain ⟨c, _, hc⟩ := key p (by
    have : p = -8 ∨ p = -7 ∨ p = -6 ∨ p = -5 ∨ p = -4 ∨ p = -3 ∨ p = -2 ∨ p = -1 := by omega
    rcases this with rfl | rfl | rfl | rfl | rfl | rfl | rfl | rfl <;> decide)
  exact ⟨c, hc⟩

/-- The number that is written is that of the polarization when read. -/
theorem aips_casa {p : Int} (h : -8 ≤ p ∧ p ≤ -1) : aipsOf ((casaOf p).getD 0) = some p := by
  obtain ⟨c, h1, h2⟩ := casa_aips h
  rw [h1]
  exact h2

theorem casa_rank {p : Int} (h : -8 ≤ p ∧ p ≤ -1) : ∃ i, firstIdx casaOrder p = some i ∧ (casaOf p).getD 0 = i + 1 := by
  have key : ∀ q ∈ ([-8, -7, -6, -5, -4, -3, -2, -1] : List Int), ∃ i ∈ List.range 13, firstIdx casaOrder q = some i ∧
      (casaOf q).getD 0 = i + 1 := by
    decide +kernel
  obtain ⟨c, _, hc⟩ := key p (by
    have : p = -8 ∨ p = -7 ∨ p = -6 ∨ p = -5 ∨ p = -4 ∨ p = -3 ∨ p = -2 ∨ p = -1 := by omega
    rcases this with rfl | rfl | rfl | rfl | rfl | rfl | rfl | rfl <;> decide)
  exact ⟨c, hc⟩

theorem casa_inj {p q : Int} (hp : -8 ≤ p ∧ p ≤ -1) (hq : -8 ≤ q ∧ q ≤ -1) (h : (casaOf p).getD 0 = (casaOf q).getD 0) : p = q := by
  have h1 := aips_casa hp
  rw [h, aips_casa hq] at h1
  exact (Option.some.inj h1).symm

/-- The order is one of all positions. -/
theorem order_perm {pols : List Int} {idx : List Nat} (h : PolOrderResult pols .casa idx) : idx.Perm (List.range pols.length) := by
  obtain ⟨ranks, h1, h2⟩ := h
  have := h2.1
  rwa [(mapM_getElem? h1).1] at this

/-- The numbers that are written are increasing. -/
theorem corr_sorted {pols : List Int} {idx : List Nat} (h : PolOrderResult pols .casa idx) (hn : pols.Nodup)
    (hr : ∀ p ∈ pols, -8 ≤ p ∧ p ≤ -1) : (idx.map (fun c => (casaOf (pols.getD c 0)).getD 0)).Pairwise (· < ·) := by
  have hp := order_perm h
  obtain ⟨ranks, h1, h2⟩ := h
  have hnd : idx.Nodup := hp.nodup_iff.2 List.nodup_range
  rw [List.pairwise_map]
  have hlt : ∀ i ∈ idx, i < pols.length := fun i hi => by simpa using hp.mem_iff.1 hi
  refine List.Pairwise.imp_of_mem ?_ (h2.2.and hnd)
  intro i j hi hj ⟨hle, hne⟩
  have li := hlt i hi
  have lj := hlt j hj
  obtain ⟨r1, q1, q1'⟩ := (mapM_getElem? h1).2 _ _ (List.getElem?_eq_getElem li)
  obtain ⟨r2, q2, q2'⟩ := (mapM_getElem? h1).2 _ _ (List.getElem?_eq_getElem lj)
  have hle' := hle r1 r2 q1' q2'
  obtain ⟨i1, e1, f1⟩ := casa_rank (hr _ (List.getElem_mem li))
  obtain ⟨i2, e2, f2⟩ := casa_rank (hr _ (List.getElem_mem lj))
  rw [q1] at e1
  rw [q2] at e2
  have g1 : pols.getD i 0 = pols[i] := by simp [List.getD, List.getElem?_eq_getElem li]
  have g2 : pols.getD j 0 = pols[j] := by simp [List.getD, List.getElem?_eq_getElem lj]
  rw [g1, g2, f1, f2]
  have d1 := Option.some.inj e1
  have d2 := Option.some.inj e2
  rcases Nat.lt_or_ge i1 i2 with h | h
  · omega
  · exfalso
    have : i1 = i2 := by omega
    have heq : pols[i] = pols[j] := casa_inj (hr _ (List.getElem_mem li)) (hr _ (List.getElem_mem lj)) (by omega)
    exact hne ((List.Nodup.getElem_inj_iff hn).1 heq)


end Verif.MsVis
