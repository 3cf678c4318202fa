import Verif.FlexJones.Combine

/-! C87: converting to one component per window and back. -/
namespace Verif.FlexJones
open Verif.Np Verif.FreqSort Verif.FlexPol

variable {L V : Type} [DecidableEq L]

/-- C87: if all windows have equally many channels, no two windows have the same channels and there is no `total_quality_array`, then
`convert_to_flex_jones` followed by `remove_flex_jones` gives back the same windows, components and values. -/
theorem flex_round_trip_partial (listSet : List Int → List Int) (hs : ∀ l, (listSet l).Perm l) (blank : V) {o : Obj L V} (g : Good o) (d : DistinctChans o)
    (hf : o.flexJones = none) (hn : o.jones ≠ []) (ht : o.total = false)
    (hlen : ∀ w ∈ o.spws, ∀ w' ∈ o.spws, (chansOf o w).length = (chansOf o w').length)
    (hdis : ∀ w ∈ o.spws, ∀ w' ∈ o.spws, chansOf o w = chansOf o w' → w = w') :
    ∃ c r, convert listSet o = (c, none) ∧ remove blank true c = (r, none) ∧ Good r ∧ r.flexJones = none ∧ r.spws.Perm o.spws ∧ (o.spws ≠ [] → r.jones.Perm o.jones) ∧
      (∀ w ∈ o.spws, chansOf r w = chansOf o w) ∧ ∀ i t w l j v, Says r i t w l j v ↔ Says o i t w l j v := by
  obtain ⟨h1, gc, ⟨fj, hfj⟩, ⟨new, hnew⟩, win, hw1, hw2, hw3, hw4, hw5⟩ := convert_keeps_partial listSet hs g hf hn ht
  have htc : (convert listSet o).1.total = false := by
    unfold convert
    rw [hf]
    simp only
    split <;> exact ht
  set c := (convert listSet o).1 with hc
  have dc : DistinctChans c := by
    intro u hu
    obtain ⟨w, hw, j, hj, rfl⟩ := hw3 u hu
    rw [(hw1 w hw j hj).2.2]
    exact d w hw
  have hacc := remove_accepts gc dc hfj blank htc true (fun _ => by
    refine ⟨?_, ?_⟩
    · intro u hu u' hu'
      obtain ⟨w, hw, j, hj, rfl⟩ := hw3 u hu
      obtain ⟨w', hw', j', hj', rfl⟩ := hw3 u' hu'
      rw [(hw1 w hw j hj).2.2, (hw1 w' hw' j' hj').2.2]
      exact hlen w hw w' hw'
    · intro u hu u' hu' e1 e2
      obtain ⟨w, hw, j, hj, rfl⟩ := hw3 u hu
      obtain ⟨w', hw', j', hj', rfl⟩ := hw3 u' hu'
      rw [(hw1 w hw j hj).2.2, (hw1 w' hw' j' hj').2.2] at e1
      rw [(hw1 w hw j hj).2.1, (hw1 w' hw' j' hj').2.1] at e2
      simp only [Option.some.injEq] at e2
      rw [hdis w hw w' hw' e1, e2])
  obtain ⟨r, hr⟩ : ∃ r, remove blank true c = (r, none) := ⟨_, Prod.ext rfl hacc⟩
  obtain ⟨f, S, -, -, hF⟩ := remove_keeps_partial gc dc hfj blank htc true hr
  have hfirst := hF rfl (by
    intro u hu j u1 hu1 hj1
    obtain ⟨w, hw, j2, hj2, rfl⟩ := hw3 u hu
    obtain ⟨w1, hw1', j1, hj1', rfl⟩ := hw3 u1 hu1
    rw [(hw1 w1 hw1' j1 hj1').2.1] at hj1
    simp only [Option.some.injEq] at hj1
    subst hj1
    exact ⟨win w j1, (hw1 w hw j1 hj1').1, by rw [(hw1 w hw j1 hj1').2.2, (hw1 w hw j2 hj2).2.2], (hw1 w hw j1 hj1').2.1⟩)
  obtain ⟨j0, hj0⟩ : ∃ j0, o.jones.head? = some j0 := by
    cases h : o.jones with
    | nil => exact absurd h hn
    | cons a l => exact ⟨a, rfl⟩
  have hj0m : j0 ∈ o.jones := List.mem_of_head? hj0
  have hself : ∀ w ∈ o.spws, w ∈ c.spws := fun w hw => by rw [hnew]; exact List.mem_append_left _ hw
  have hf0 : ∀ w ∈ o.spws, ∀ j ∈ o.jones, f (win w j) = w := by
    intro w hw j hj
    obtain ⟨hm, hch, hle⟩ := hfirst (win w j) (hw1 w hw j hj).1
    obtain ⟨w', hw', j', hj', e⟩ := hw3 _ hm
    rw [e, (hw1 w' hw' j' hj').2.2, (hw1 w hw j hj).2.2] at hch
    have hww := hdis w' hw' w hw hch
    subst hww
    have hcw : chansOf c w' = chansOf c (win w' j) := by
      rw [(hw1 w' hw j hj).2.2]
      conv_lhs => rw [← hw4 w' hw j0 hj0]
      exact (hw1 w' hw j0 hj0m).2.2
    have hle' := hle w' (hself w' hw) hcw
    have hin : f (win w' j) ∈ o.spws := by
      by_contra hcon
      rw [hnew, List.idxOf_append_of_notMem hcon, List.idxOf_append_of_mem hw] at hle'
      have := List.idxOf_lt_length_of_mem hw
      omega
    have e2 := hw4 _ hin j0 hj0
    have e3 : win (f (win w' j)) j0 = win w' j' := by rw [e2, e]
    exact (hw2 _ hin w' hw j0 hj0m j' hj' e3).1
  have hsp : ∀ w, w ∈ r.spws ↔ w ∈ o.spws := by
    intro w
    rw [S.wins]
    constructor
    · rintro ⟨u, hu, rfl⟩
      obtain ⟨w, hw, j, hj, rfl⟩ := hw3 u hu
      rw [hf0 w hw j hj]; exact hw
    · intro hw
      exact ⟨win w j0, (hw1 w hw j0 hj0m).1, hf0 w hw j0 hj0m⟩
  have hjo : ∀ j, j ∈ r.jones → j ∈ o.jones := by
    intro j h
    obtain ⟨u, hu, e⟩ := (S.jones j).1 h
    obtain ⟨w, hw, j', hj', rfl⟩ := hw3 u hu
    rw [(hw1 w hw j' hj').2.1] at e
    simp only [Option.some.injEq] at e
    exact e ▸ hj'
  refine ⟨c, r, Prod.ext rfl h1, hr, S.good, S.flex, (List.perm_ext_iff_of_nodup S.good.nodup g.nodup).2 hsp, ?_, ?_, ?_⟩
  · intro hne
    refine (List.perm_ext_iff_of_nodup S.good.jones g.jones).2 (fun j => ⟨hjo j, fun hj => ?_⟩)
    obtain ⟨w, hw⟩ := List.exists_mem_of_ne_nil _ hne
    exact (S.jones j).2 ⟨win w j, (hw1 w hw j hj).1, (hw1 w hw j hj).2.1⟩
  · intro w hw
    have := S.chans _ (hw1 w hw j0 hj0m).1
    rw [hf0 w hw j0 hj0m, (hw1 w hw j0 hj0m).2.2] at this
    exact this
  · intro i t w l j v
    rw [S.values]
    constructor
    · rintro (⟨u, hu, rfl, hs'⟩ | ⟨-, hu, -, hj, hno⟩)
      · obtain ⟨w, hw, j', hj', rfl⟩ := hw3 u hu
        rw [hf0 w hw j' hj']
        have hjj : j' = j := by
          obtain ⟨pl, -, h⟩ := hs'
          rw [hfj] at h
          have := h.1
          rw [(hw1 w hw j' hj').2.1] at this
          simpa using this
        subst hjj
        exact (hw5 i t l v w hw j' hj').1 hs'
      · have hw := (hsp w).1 hu
        have hjm := hjo j hj
        exact absurd (hw1 w hw j hjm).2.1 (hno _ (hw1 w hw j hjm).1 (hf0 w hw j hjm))
    · intro hso
      obtain ⟨pl, ⟨k, hk, -⟩, h⟩ := id hso
      rw [hf] at h
      obtain ⟨p, hp, -⟩ := h
      have hw := g.listed w (List.mem_of_getElem? hk)
      have hj := List.mem_of_getElem? hp
      exact Or.inl ⟨win w j, (hw1 w hw j hj).1, hf0 w hw j hj, (hw5 i t l v w hw j hj).2 hso⟩

end Verif.FlexJones
