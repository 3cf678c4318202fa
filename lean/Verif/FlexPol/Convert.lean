import Verif.FlexPol.Sets

/-! What `convert_to_flex_pol` produces. -/
namespace Verif.FlexPol
open Verif.Np Verif.FreqSort

variable {K V : Type}

/-- State of the loop after the pairs `P` (polarization, its position, window). -/
def Inv (spws flexId : List Int) (pol0 : Int) (P : List ((Int × Nat) × Int)) (g : Nat × Int → Int) (st : CSt) : Prop :=
  st.wins = spws.map (fun s => (s, pol0)) ++ P.map (fun q => (g (q.1.2, q.2), q.1.1)) ∧
  (st.wins.map Prod.fst).Nodup ∧
  (∀ f, st.ids f 0 = (flexId[f]?).getD 0) ∧
  (∀ q ∈ P, ∀ f, flexId[f]? = some q.2 → st.ids f q.1.2 = g (q.1.2, q.2))

theorem inv_loop (fresh : List Int → Int) (hfresh : ∀ l, fresh l ∉ l) (spws flexId : List Int) (hs : spws.Nodup) (pol0 : Int) :
    ∀ P : List ((Int × Nat) × Int), (P.map (fun q => (q.1.2, q.2))).Nodup → (∀ q ∈ P, q.1.2 ≠ 0) →
    ∃ g, Inv spws flexId pol0 P g (P.foldl (convertStep fresh flexId)
      { wins := spws.map (fun s => (s, pol0)), ids := fun f p => if p = 0 then (flexId[f]?).getD 0 else 0 }) := by
  intro P
  induction P using List.reverseRecOn with
  | nil =>
    intro _ _
    refine ⟨fun _ => 0, by simp, ?_, ?_, ?_⟩
    · simp only [List.foldl_nil, List.map_map, Function.comp_def]; simpa using hs
    · intro f; simp
    · intro q hq; simp at hq
  | append_singleton P q ih =>
    intro hn hp
    rw [List.map_append, List.nodup_append] at hn
    obtain ⟨g, hw, hnd, h0, hid⟩ := ih hn.1 (fun r hr => hp r (by simp [hr]))
    rw [List.foldl_append]
    generalize P.foldl (convertStep fresh flexId) _ = st at hw hnd h0 hid ⊢
    have hfr := hfresh (st.wins.map Prod.fst)
    have hnew : ∀ r ∈ P, (r.1.2, r.2) ≠ (q.1.2, q.2) := fun r hr => by
      have := hn.2.2 (r.1.2, r.2) (List.mem_map_of_mem hr) (q.1.2, q.2) (by simp)
      exact this
    refine ⟨fun k => if k = (q.1.2, q.2) then fresh (st.wins.map Prod.fst) else g k, ?_, ?_, ?_, ?_⟩
    · simp only [List.foldl_cons, List.foldl_nil, convertStep, List.map_append, List.map_singleton]
      generalize fresh (st.wins.map Prod.fst) = N
      rw [hw, List.append_assoc]
      congr 1
      congr 1
      · exact List.map_congr_left (fun r hr => by rw [if_neg (hnew r hr)])
    · simp only [List.foldl_cons, List.foldl_nil, convertStep, List.map_append, List.map_singleton]
      rw [List.nodup_append]
      exact ⟨hnd, by simp, fun a ha b hb => by rw [List.mem_singleton] at hb; rintro rfl; exact hfr (hb ▸ ha)⟩
    · intro f
      simp only [List.foldl_cons, List.foldl_nil, convertStep]
      rw [if_neg (by rintro ⟨h, _⟩; exact hp q (by simp) h.symm), h0]
    · intro r hr f hf
      simp only [List.foldl_cons, List.foldl_nil, convertStep]
      rcases List.mem_append.1 hr with hr | hr
      · rw [if_neg, if_neg (hnew r hr), hid r hr f hf]
        rintro ⟨h1, h2⟩
        rw [hf] at h2
        exact hnew r hr (Prod.ext h1 (by simpa using h2))
      · rw [List.mem_singleton] at hr; subst hr
        rw [if_pos ⟨rfl, hf⟩, if_pos rfl]

theorem drop_zipIdx_eq (pols : List Int) : (pols.zipIdx.drop 1) =
    ((List.range pols.length).drop 1).map (fun p => ((pols[p]?).getD 0, p)) := by
  apply List.ext_getElem?
  intro i
  rw [List.getElem?_drop, List.getElem?_map, List.getElem?_drop, List.getElem?_zipIdx]
  by_cases h : 1 + i < pols.length
  · simp [h]
  · simp [h]

/-- The new windows: `W p s` is the window of polarization number `p` for the old window `s`. -/
structure Wins (o : Obj K V) (W : Nat → Int → Int) (st : CSt) : Prop where
  zero : ∀ s, W 0 s = s
  wins : st.wins = (List.range o.pols.length).flatMap (fun p => o.spws.map (fun s => (W p s, (o.pols[p]?).getD 0)))
  inj : ∀ p < o.pols.length, ∀ q < o.pols.length, ∀ s ∈ o.spws, ∀ t ∈ o.spws, W p s = W q t → p = q ∧ s = t
  ids : ∀ p < o.pols.length, ∀ f s, o.flexId[f]? = some s → s ∈ o.spws → st.ids f p = W p s
  nodup : (st.wins.map Prod.fst).Nodup

theorem flatMap_inj (l : List Int) (W : Nat → Int → Int) : ∀ n : Nat, ((List.range n).flatMap (fun p => l.map (W p))).Nodup →
    ∀ p < n, ∀ q < n, ∀ s ∈ l, ∀ t ∈ l, W p s = W q t → p = q ∧ (p = q → ∀ (_ : l.Nodup), s = t) := by
  intro n hn p hp q hq s hs t ht he
  rw [List.nodup_flatMap] at hn
  have hpq : p = q := by
    by_contra hne
    have hd : ∀ a b, a < b → b < n → List.Disjoint (l.map (W a)) (l.map (W b)) := by
      intro a b hab hb
      have := List.pairwise_iff_getElem.1 hn.2 a b (by simp; omega) (by simpa using hb) hab
      simpa [Function.onFun] using this
    rcases Nat.lt_or_gt_of_ne hne with h | h
    · exact hd p q h hq (List.mem_map_of_mem hs) (he ▸ List.mem_map_of_mem ht)
    · exact hd q p h hp (List.mem_map_of_mem ht) (he ▸ List.mem_map_of_mem hs)
  refine ⟨hpq, fun _ hl => ?_⟩
  subst hpq
  have := hn.1 p (List.mem_range.2 hp)
  exact List.inj_on_of_nodup_map this hs ht he

theorem convertLoop_wins (fresh : List Int → Int) (hfresh : ∀ l, fresh l ∉ l) (o : Obj K V) (hs : o.spws.Nodup) (hp : o.pols ≠ []) :
    ∃ W, Wins o W (convertLoop fresh o.spws o.flexId o.pols) := by
  have hlen : 0 < o.pols.length := List.length_pos_iff.2 hp
  have hP : (o.pols.zipIdx.drop 1).flatMap (fun q => o.spws.map (fun s => (q, s))) =
      ((List.range o.pols.length).drop 1).flatMap (fun p => o.spws.map (fun s => (((o.pols[p]?).getD 0, p), s))) := by
    rw [drop_zipIdx_eq, List.flatMap_map]
  obtain ⟨g, hw, hnd, h0, hid⟩ := inv_loop fresh hfresh o.spws o.flexId hs (o.pols.headD 0)
    (((List.range o.pols.length).drop 1).flatMap (fun p => o.spws.map (fun s => (((o.pols[p]?).getD 0, p), s))))
    (by
      rw [List.map_flatMap]
      simp only [List.map_map, Function.comp_def]
      rw [List.nodup_flatMap]
      refine ⟨fun p _ => hs.map (fun a b h => by simpa using h), ?_⟩
      refine List.Pairwise.imp ?_ ((List.drop_sublist 1 _).nodup List.nodup_range)
      intro a b hab x hx hy
      simp only [List.mem_map] at hx hy
      obtain ⟨_, _, rfl⟩ := hx
      obtain ⟨_, _, he⟩ := hy
      exact hab (by simpa using (congrArg Prod.fst he).symm))
    (by
      intro q hq
      simp only [List.mem_flatMap, List.mem_map] at hq
      obtain ⟨p, hp, s, _, rfl⟩ := hq
      have : p ∈ (List.range' 1 (o.pols.length - 1)) := by
        rw [List.range_eq_range', List.drop_range'] at hp; simpa using hp
      have := List.mem_range'_1.1 this
      simp only; omega)
  have hconv : convertLoop fresh o.spws o.flexId o.pols = _ := congrArg (fun P => P.foldl (convertStep fresh o.flexId)
    { wins := o.spws.map (fun s => (s, o.pols.headD 0)), ids := fun f p => if p = 0 then (o.flexId[f]?).getD 0 else 0 }) hP
  beta_reduce at hconv
  rw [← hconv] at hw hnd h0 hid
  have hr : List.range o.pols.length = 0 :: (List.range o.pols.length).drop 1 := by
    cases h : o.pols.length with
    | zero => omega
    | succ n => rw [List.range_succ_eq_map]; simp
  have hwins : (convertLoop fresh o.spws o.flexId o.pols).wins = (List.range o.pols.length).flatMap (fun p => o.spws.map
      (fun s => ((if p = 0 then s else g (p, s)), (o.pols[p]?).getD 0))) := by
    rw [hw, hr, List.flatMap_cons]
    congr 1
    · refine List.map_congr_left (fun s _ => ?_)
      rw [if_pos rfl]
      cases hpols : o.pols with
      | nil => exact absurd hpols hp
      | cons a b => simp
    · rw [List.map_flatMap]
      simp only [List.map_map, Function.comp_def]
      rw [← hr]
      apply List.flatMap_congr
      intro p hpm
      have hpne : p ≠ 0 := by
        have : p ∈ (List.range' 1 (o.pols.length - 1)) := by
          rw [List.range_eq_range', List.drop_range'] at hpm; simpa using hpm
        have := List.mem_range'_1.1 this
        omega
      simp [hpne]
  refine ⟨fun p s => if p = 0 then s else g (p, s), fun s => if_pos rfl, hwins, ?_, ?_, hnd⟩
  · intro p hp q hq s hs' t ht he
    rw [hwins, List.map_flatMap] at hnd
    simp only [List.map_map, Function.comp_def] at hnd
    obtain ⟨h1, h2⟩ := flatMap_inj o.spws (fun p s => if p = 0 then s else g (p, s)) o.pols.length hnd p hp q hq s hs' t ht he
    exact ⟨h1, h2 h1 hs⟩
  · intro p hp f s hf hs'
    by_cases hp0 : p = 0
    · subst hp0
      rw [h0, hf, if_pos rfl]; rfl
    · rw [if_neg hp0]
      refine hid (((o.pols[p]?).getD 0, p), s) ?_ f hf
      simp only [List.mem_flatMap, List.mem_map]
      refine ⟨p, ?_, s, hs', rfl⟩
      rw [List.range_eq_range', List.drop_range']
      simp only [List.mem_range'_1]; omega

/-- A table read with the first position fastest. -/
theorem flatten_table {α : Type} (g : Nat → Nat → α) (m : Nat) : ∀ n : Nat,
    (List.range (m * n)).map (fun t => g (t % m) (t / m)) = (List.range n).flatMap (fun p => (List.range m).map (fun f => g f p)) := by
  intro n
  induction n with
  | zero => simp
  | succ n ih =>
    rw [Nat.mul_succ, List.range_add, List.map_append, ih, List.range_succ, List.flatMap_append, List.map_map]
    congr 1
    simp only [List.flatMap_cons, List.flatMap_nil, List.append_nil]
    refine List.map_congr_left (fun f hf => ?_)
    have hf' := List.mem_range.1 hf
    simp only [Function.comp_def]
    rw [Nat.add_comm (m * n), Nat.add_mul_mod_self_left, Nat.mod_eq_of_lt hf', Nat.add_mul_div_left _ _ (by omega), Nat.div_eq_of_lt hf',
      Nat.zero_add]

/-- Objects as the code expects them. -/
structure Valid (o : Obj K V) : Prop where
  spws : o.spws.Nodup
  pols : o.pols.Nodup
  some_pol : o.pols ≠ []
  ids : ∀ s, s ∈ o.flexId ↔ s ∈ o.spws
  len : o.flexId.length = o.freq.length
  width : o.width.length = o.freq.length

theorem flexId_convert (o : Obj K V) (v : Valid o) (W : Nat → Int → Int) (st : CSt) (hW : Wins o W st) :
    (List.range (o.freq.length * o.pols.length)).map (fun t => st.ids (t % o.freq.length) (t / o.freq.length)) =
      (List.range o.pols.length).flatMap (fun p => o.flexId.map (W p)) := by
  rw [flatten_table]
  apply List.flatMap_congr
  intro p hp
  apply List.ext_getElem?
  intro f
  rw [List.getElem?_map, List.getElem?_map]
  by_cases hf : f < o.freq.length
  · rw [List.getElem?_range hf]
    have hf' : f < o.flexId.length := by rw [v.len]; exact hf
    rw [List.getElem?_eq_getElem hf']
    simp only [Option.map_some]
    rw [hW.ids p (List.mem_range.1 hp) f _ (List.getElem?_eq_getElem hf') ((v.ids _).1 (List.getElem_mem hf'))]
  · rw [List.getElem?_eq_none (by simpa using hf), List.getElem?_eq_none (by rw [v.len]; omega)]; rfl

end Verif.FlexPol
