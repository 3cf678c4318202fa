import Verif.FlexPol.Lists

/-! How windows with the same frequencies and widths are collected. -/
namespace Verif.FlexPol
open Verif.Np Verif.FreqSort

variable {K : Type} [LinearOrder K]

/-- The windows of `L` collected by their frequencies and widths. -/
def mkSet (sig : Int → List K × List K) (pol : Int → Int) (L : List Int) (g : List K × List K) : WinSet K :=
  { freqs := g.1, widths := g.2, spws := L.filter (fun s => decide (sig s = g)), pols := (L.filter (fun s => decide (sig s = g))).map pol }

def groups (sig : Int → List K × List K) (pol : Int → Int) (L : List Int) : List (WinSet K) :=
  (firsts (L.map sig)).map (mkSet sig pol L)

theorem joinSet_none (sig : List K × List K) (s π : Int) (mk : List K × List K → WinSet K) (hf : ∀ g, (mk g).freqs = g.1)
    (hw : ∀ g, (mk g).widths = g.2) : ∀ ks : List (List K × List K), sig ∉ ks → joinSet sig s π (ks.map mk) = .ok none := by
  intro ks
  induction ks with
  | nil => intro _; rfl
  | cons k ks ih =>
    intro h
    have hk : ¬ ((mk k).freqs = sig.1 ∧ (mk k).widths = sig.2) := by
      rw [hf, hw]; rintro ⟨h1, h2⟩; exact h (by rw [← Prod.ext h1 h2]; simp)
    rw [List.map_cons, joinSet, if_neg hk, ih (fun hm => h (by simp [hm]))]

theorem joinSet_error (sig : List K × List K) (s π : Int) (mk : List K × List K → WinSet K) (hf : ∀ g, (mk g).freqs = g.1)
    (hw : ∀ g, (mk g).widths = g.2) (hp : π ∈ (mk sig).pols) : ∀ ks : List (List K × List K), sig ∈ ks →
    joinSet sig s π (ks.map mk) = .error () := by
  intro ks
  induction ks with
  | nil => intro h; simp at h
  | cons k ks ih =>
    intro h
    rw [List.map_cons, joinSet]
    by_cases hk : k = sig
    · rw [if_pos (by rw [hf, hw, hk]; exact ⟨rfl, rfl⟩), if_pos (by rw [hk]; simpa using hp)]
    · have hk' : ¬ ((mk k).freqs = sig.1 ∧ (mk k).widths = sig.2) := by
        rw [hf, hw]; rintro ⟨h1, h2⟩; exact hk (Prod.ext h1 h2)
      rw [if_neg hk', ih (by simpa [Ne.symm hk] using h)]

theorem joinSet_some (sig : List K × List K) (s π : Int) (mk mk' : List K × List K → WinSet K) (hf : ∀ g, (mk g).freqs = g.1)
    (hw : ∀ g, (mk g).widths = g.2) (hp : π ∉ (mk sig).pols)
    (h1 : mk' sig = { mk sig with spws := (mk sig).spws ++ [s], pols := (mk sig).pols ++ [π] }) (h2 : ∀ g, g ≠ sig → mk' g = mk g) :
    ∀ ks : List (List K × List K), ks.Nodup → sig ∈ ks → joinSet sig s π (ks.map mk) = .ok (some (ks.map mk')) := by
  intro ks
  induction ks with
  | nil => intro _ h; simp at h
  | cons k ks ih =>
    intro hn h
    have hn' := List.nodup_cons.1 hn
    rw [List.map_cons, List.map_cons, joinSet]
    by_cases hk : k = sig
    · rw [if_pos (by rw [hf, hw, hk]; exact ⟨rfl, rfl⟩), if_neg (by rw [hk]; simpa using hp), hk, h1]
      have : ks.map mk = ks.map mk' := List.map_congr_left (fun g hg => (h2 g (by rintro rfl; exact hn'.1 (hk ▸ hg))).symm)
      rw [this]
    · have hk' : ¬ ((mk k).freqs = sig.1 ∧ (mk k).widths = sig.2) := by
        rw [hf, hw]; rintro ⟨h1, h2⟩; exact hk (Prod.ext h1 h2)
      rw [if_neg hk', ih hn'.2 (by simpa [Ne.symm hk] using h), h2 k hk]

/-- One more window. -/
theorem setStep_groups (sig : Int → List K × List K) (pol : Int → Int) (L : List Int) (s : Int) :
    setStep sig pol (groups sig pol L) s =
      if ∃ t ∈ L, sig t = sig s ∧ pol t = pol s then .error () else .ok (groups sig pol (L ++ [s])) := by
  unfold setStep groups
  have hf : ∀ g, (mkSet sig pol L g).freqs = g.1 := fun g => rfl
  have hw : ∀ g, (mkSet sig pol L g).widths = g.2 := fun g => rfl
  have hother : ∀ g, g ≠ sig s → mkSet sig pol (L ++ [s]) g = mkSet sig pol L g := by
    intro g hg
    unfold mkSet
    have : (L ++ [s]).filter (fun s => decide (sig s = g)) = L.filter (fun s => decide (sig s = g)) := by
      rw [List.filter_append]; simp [Ne.symm hg]
    rw [this]
  rw [List.map_append, List.map_singleton, firsts_concat]
  by_cases hm : sig s ∈ L.map sig
  · rw [if_pos hm]
    by_cases hp : ∃ t ∈ L, sig t = sig s ∧ pol t = pol s
    · rw [if_pos hp, joinSet_error _ _ _ _ hf hw _ _ (mem_firsts.2 hm)]
      obtain ⟨t, ht, h1, h2⟩ := hp
      rw [← h2]
      exact List.mem_map_of_mem (by simp [ht, h1])
    · rw [if_neg hp, joinSet_some _ _ _ _ (mkSet sig pol (L ++ [s])) hf hw _ _ hother _ (firsts_nodup _) (mem_firsts.2 hm)]
      · intro h
        obtain ⟨t, ht, he⟩ := List.mem_map.1 h
        exact hp ⟨t, (List.mem_filter.1 ht).1, by simpa using (List.mem_filter.1 ht).2, he⟩
      · simp [mkSet, List.filter_append]
  · rw [if_neg hm]
    rw [if_neg (by rintro ⟨t, ht, h1, _⟩; exact hm (h1 ▸ List.mem_map_of_mem ht)),
      joinSet_none _ _ _ _ hf hw _ (fun h => hm (mem_firsts.1 h))]
    have h0 : L.filter (fun t => decide (sig t = sig s)) = [] := by
      rw [List.filter_eq_nil_iff]; intro t ht
      simp only [decide_eq_true_eq]
      intro he; exact hm (he ▸ List.mem_map_of_mem ht)
    have hnew : mkSet sig pol (L ++ [s]) (sig s) = ⟨(sig s).1, (sig s).2, [s], [pol s]⟩ := by
      simp [mkSet, List.filter_append, h0]
    have hold : (firsts (L.map sig)).map (mkSet sig pol L) = (firsts (L.map sig)).map (mkSet sig pol (L ++ [s])) :=
      List.map_congr_left (fun g hg => (hother g (by rintro rfl; exact hm (mem_firsts.1 hg))).symm)
    simp only [List.map_append, List.map_singleton, hnew, hold]

theorem foldlM_groups_ok (sig : Int → List K × List K) (pol : Int → Int) : ∀ L : List Int,
    L.Pairwise (fun s t => ¬ (sig s = sig t ∧ pol s = pol t)) → L.foldlM (setStep sig pol) [] = .ok (groups sig pol L) := by
  intro L
  induction L using List.reverseRecOn with
  | nil => intro _; rfl
  | append_singleton L s ih =>
    intro h
    rw [List.pairwise_append] at h
    rw [List.foldlM_append, ih h.1]
    simp only [List.foldlM_cons, List.foldlM_nil, bind_pure]
    show setStep sig pol (groups sig pol L) s = _
    rw [setStep_groups, if_neg]
    rintro ⟨t, ht, h1, h2⟩
    exact h.2.2 t ht s (by simp) ⟨h1, h2⟩

theorem foldlM_groups_error (sig : Int → List K × List K) (pol : Int → Int) : ∀ L : List Int,
    ¬ L.Pairwise (fun s t => ¬ (sig s = sig t ∧ pol s = pol t)) → L.foldlM (setStep sig pol) [] = .error () := by
  intro L
  induction L using List.reverseRecOn with
  | nil => intro h; simp at h
  | append_singleton L s ih =>
    intro h
    rw [List.foldlM_append]
    by_cases hL : L.Pairwise (fun s t => ¬ (sig s = sig t ∧ pol s = pol t))
    · rw [foldlM_groups_ok sig pol L hL]
      simp only [List.foldlM_cons, List.foldlM_nil, bind_pure]
      show setStep sig pol (groups sig pol L) s = _
      rw [setStep_groups, if_pos]
      by_contra hne
      apply h
      rw [List.pairwise_append]
      refine ⟨hL, by simp, ?_⟩
      intro t ht u hu he
      rw [List.mem_singleton] at hu
      exact hne ⟨t, ht, hu ▸ he⟩
    · rw [ih hL]; rfl

end Verif.FlexPol
