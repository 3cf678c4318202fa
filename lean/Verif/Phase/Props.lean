import Verif.Phase.Set
import Verif.Phasing.UvwMove

/-!
# What `phase` keeps and what it changes
-/

namespace Verif.Phase

open Verif.Coord (V3)
open Verif.Phasing (pick calcUvw)
open Verif.PhaseCat (Entry St keys PointsAt Consistent unprojected Matches genEntry ephem)

/-- The catalog entries of rows that are not selected are safe: there are no such rows, or the name
is new, or it is looked up in the catalog, or the catalog has just that source. -/
def KeepsOthers (c : Verif.PhaseCat.Consts) (cat : Verif.PhaseCat.Cat) (t : Call) : Prop :=
  t.mask = none ∨ FreshName cat t.name ∨ t.lookup = true ∨
    ∃ k x g, (k, x) ∈ cat ∧ genEntry c (userEntry t) = .ok g ∧ Matches c false g x

section
variable {env : Env} {o o' : Obj} {t : Call} {m : List Bool} {e : Entry} {id : Option Int}
  {ra dec pa : List ℝ} {uvw : List V3} {s : St} {k : Int} {o1 : Obj}

/-- The entries of rows that are not selected keep their kind. -/
theorem Did.others (h : Did env o t o' m e id ra dec pa uvw s k o1) (hg : Good o)
    (ho : KeepsOthers env.c o.st.cat t) {i : Nat} (hi : m[i]? = some false) : Unproj o' i ↔ Unproj o i := by
  obtain ⟨h1, h2, h3, h4, h5, h6⟩ := h.cat hg
  obtain ⟨-, -, g, h7, h8⟩ := add_cases hg.cons h.added
  have step : Unproj o' i ↔ ∃ x, PointsAt s i x ∧ x.type = unprojected :=
    ⟨fun ⟨x, a, b⟩ => ⟨x, ((h6 i x).2 hi).1 a, b⟩, fun ⟨x, a, b⟩ => ⟨x, ((h6 i x).2 hi).2 a, b⟩⟩
  rw [step]
  rcases h8 with ⟨rfl, -⟩ | ⟨hno, hc, hfresh, hid⟩
  · exact Iff.rfl
  · have hsame : (∀ x, (k, x) ∈ o.st.cat → x.type = g.type) →
        ((∃ x, PointsAt s i x ∧ x.type = unprojected) ↔ Unproj o i) := by
      intro hk
      constructor
      · rintro ⟨x, ⟨j, a, b⟩, hx⟩
        rw [h2] at a
        rw [hc, Verif.PhaseCat.mem_put] at b
        by_cases hj : j = k
        · obtain ⟨y, hy⟩ := hg.cons.rows j (List.mem_of_getElem? a)
          refine ⟨y, ⟨j, a, hy⟩, ?_⟩
          rw [hk y (by rw [← hj]; exact hy)]
          rcases b with ⟨-, rfl⟩ | ⟨b, -⟩
          · exact hx
          · exact absurd hj b
        · rcases b with ⟨b, -⟩ | ⟨-, b⟩
          · exact absurd b hj
          · exact ⟨x, ⟨j, a, b⟩, hx⟩
      · rintro ⟨x, ⟨j, a, b⟩, hx⟩
        by_cases hj : j = k
        · refine ⟨g, ⟨j, by rw [h2]; exact a, by rw [hc, Verif.PhaseCat.mem_put]; exact .inl ⟨hj, rfl⟩⟩, ?_⟩
          rw [← hk x (by rw [← hj]; exact b)]
          exact hx
        · exact ⟨x, ⟨j, by rw [h2]; exact a, by rw [hc, Verif.PhaseCat.mem_put]; exact .inr ⟨hj, b⟩⟩, hx⟩
    apply hsame
    obtain ⟨e0, hf, ht, hnm, hne, hgen⟩ := phaseDict_found hg.cons.nodup h.dict
    have hgt : g.type = e0.type := by rw [(genEntry_kind h7).1, ht]
    intro x hx
    cases hf with
    | user _ _ => exact absurd (Verif.PhaseCat.mem_keys.2 ⟨x, hx⟩) (hfresh rfl)
    | jpl _ _ _ _ _ => exact absurd (Verif.PhaseCat.mem_keys.2 ⟨x, hx⟩) (hfresh rfl)
    | stored a b c =>
      rename_i k' x'
      rw [hid k' rfl] at hx
      rw [Verif.PhaseCat.key_unique hg.cons.nodup hx a, hgt]
      rfl
    | clash a b c =>
      rcases ho with ho | ho | ho | ⟨k', x', g', a', b', c'⟩
      · exfalso
        rw [h.mask] at hi
        simp only [Call.rows, ho, Option.getD_none, List.getElem?_replicate] at hi
        split_ifs at hi
        simp at hi
      · exact absurd ho a
      · rw [b] at ho; simp at ho
      · exfalso
        have hji : (userEntry t).info ≠ jplh := by
          show Verif.PhaseCat.user ≠ jplh
          decide
        rw [hgen hji, b'] at h7
        obtain rfl := Except.ok.inj h7
        exact hno _ _ a' c'

end

/-- Beyond the rows there is nothing. -/
theorem signal_out {o : Obj} {i j p : Nat} {z : ℂ} (hi : ¬ i < o.uvw.length) : ¬ Signal o i j p z := by
  rintro ⟨w, f, v, h, -⟩
  rcases h with ⟨-, -, h⟩ | ⟨-, v, h, -⟩
  · exact hi h
  · exact hi (List.getElem?_eq_some_iff.1 h).1

section
variable {env : Env} {o o' : Obj} {t : Call}

/-- **C71.** `phase` leaves what the correlator measured unchanged: every visibility is multiplied by
the factor for the change of the path of its row, and by nothing else.  Provided that a source which
is looked up in the catalog is of the kind that the caller names, and that the call does not redefine
the source of rows that are not selected. -/
theorem phase_keeps_signal_partial (hg : Good o) (h : phase env o t = .ok o')
    (hk : KindAgrees o.st.cat t) (ho : KeepsOthers env.c o.st.cat t) : Keeps o o' := by
  obtain ⟨m, e, id, ra, dec, pa, uvw, s, k, o1, H⟩ := phase_did hg h
  obtain ⟨q1, q2, q3, q4, q5, q6⟩ :=
    applyW_spec (o := { o with st := s }) (fun d hd => (hg.data d hd).1) H.applied
  have hfr : o'.freqs = o.freqs := by rw [H.result]
  have hdat : ∀ i row, RowData o' i row ↔ RowData o1 i row := by
    intro i row
    unfold RowData
    rw [H.data]
  obtain ⟨e0, hf, ht, -⟩ := phaseDict_found hg.cons.nodup H.dict
  have hkind : e.type = unprojected ↔ t.type = some unprojected := by
    rw [ht]; exact found_kind hk hf
  intro i j p z
  by_cases hi : i < o.uvw.length
  · rcases bool_get (m := m) (i := i) (by rw [H.len]; exact hi) with hb | hb
    · obtain ⟨b, hpb⟩ := path_exists hi
      have hy : (W.array (oldW o)).at o.uvw.length i = some b :=
        W.at_array (oldW_length o) (oldW_get hg.ids hpb)
      have hu := H.kind hg hb
      by_cases hty : t.type = some unprojected
      · have hpa : Path o' i 0 := .inl ⟨hu.2 (hkind.2 hty), rfl, by rw [H.length]; exact hi⟩
        have hx : (newW o t m uvw).at o.uvw.length i = some 0 := by
          unfold newW
          rw [if_pos hty]
          simp [W.at, hi]
        refine signal_turned hfr hpb hpa (fun row' => ?_) j p z
        rw [hdat]
        exact q6 i 0 b hb hx hy row'
      · have hnu : ¬ Unproj o' i := fun h0 => hty (hkind.1 (hu.1 h0))
        have hr := rank_lt hb
        rw [← pick_count m o.uvw H.len, ← H.luvw] at hr
        have hv : o'.uvw[i]? = some (uvw[rank m i]) := by
          rw [H.result]
          show (maskSet m o.uvw uvw)[i]? = _
          rw [maskSet_true _ _ _ _ H.len (by rw [H.luvw, pick_count _ _ H.len]) hb]
          exact List.getElem?_eq_getElem hr
        have hpa : Path o' i (uvw[rank m i]).z := .inr ⟨hnu, _, hv, rfl⟩
        have hx : (newW o t m uvw).at o.uvw.length i = some (uvw[rank m i]).z := by
          unfold newW
          rw [if_neg hty]
          refine W.at_array (by rw [maskSet_length, List.length_replicate]) ?_
          rw [maskSet_true _ _ _ _ (by rw [List.length_replicate]; exact H.len)
            (by rw [List.length_map, H.luvw, pick_count _ _ H.len]) hb, List.getElem?_map,
            List.getElem?_eq_getElem hr]
          rfl
        refine signal_turned hfr hpb hpa (fun row' => ?_) j p z
        rw [hdat]
        exact q6 i _ b hb hx hy row'
    · have hu := H.others hg ho hb
      have hv : o'.uvw[i]? = o.uvw[i]? := by
        rw [H.result]
        exact maskSet_false _ _ _ _ hb
      refine signal_same hfr (fun w => ?_) (fun row => ?_) j p z
      · unfold Path
        rw [hu, hv, H.length]
      · rw [hdat]
        exact q5 i row hb
  · have hi' : ¬ i < o'.uvw.length := by rw [H.length]; exact hi
    exact ⟨fun h => absurd h (signal_out hi), fun h => absurd h (signal_out hi')⟩

/-- **C72.** Rows that are not selected keep everything that belongs to rows. -/
theorem phase_other_rows (hg : Good o) (h : phase env o t = .ok o') (i : Nat)
    (hi : ¬ Selected t.mask i) : SameRow o o' i := by
  obtain ⟨m, e, id, ra, dec, pa, uvw, s, k, o1, H⟩ := phase_did hg h
  have hml : ∀ q, t.mask = some q → q.length = o.uvw.length := by
    intro q hq
    have := H.len
    rw [H.mask] at this
    unfold Call.rows at this
    rwa [hq] at this
  by_cases hlt : i < o.uvw.length
  · have hb := (H.selected hlt).2.2 hi
    obtain ⟨-, -, -, -, h5, -⟩ := H.cat hg
    obtain ⟨-, q2, q3, -, q5, -⟩ :=
      applyW_spec (o := { o with st := s }) (fun d hd => (hg.data d hd).1) H.applied
    refine ⟨by rw [h5]; exact maskFill_false hb, ?_, ?_, ?_, ?_, ?_⟩
    · rw [H.result]; exact maskSet_false _ _ _ _ hb
    · rw [H.result]; exact maskSet_false _ _ _ _ hb
    · rw [H.result]; exact maskSet_false _ _ _ _ hb
    · rw [H.result]; exact maskSet_false _ _ _ _ hb
    · intro d d' hd hd'
      rw [H.data] at hd'
      have hl' := q3 d' hd'
      have hid' : i < d'.length := by rw [hl']; exact hlt
      have hid : d'[i]? = some d'[i] := List.getElem?_eq_getElem hid'
      obtain ⟨d0, a, b⟩ := (q5 i _ hb).1 ⟨d', hd', hid⟩
      rw [show ({ o with st := s } : Obj).data = o.data from rfl, hd] at a
      obtain rfl := Option.some.inj a
      rw [hid, b]
  · have hn : ∀ {α : Type} {l l' : List α}, l.length = o.uvw.length → l'.length = o.uvw.length →
        l'[i]? = l[i]? := by
      intro α l l' h1 h2
      rw [List.getElem?_eq_none (by omega), List.getElem?_eq_none (by omega)]
    have hg' := H.good hg
    have hl := H.length
    exact ⟨hn hg.ids (by rw [hg'.ids, hl]), hn rfl hl, hn hg.ra (by rw [hg'.ra, hl]),
      hn hg.dec (by rw [hg'.dec, hl]), hn hg.pa (by rw [hg'.pa, hl]),
      fun d d' hd hd' => hn (hg.data d hd).1 (by rw [(hg'.data d' hd').1, hl])⟩

/-- **C72.** The object fits together after `phase`. -/
theorem phase_good (hg : Good o) (h : phase env o t = .ok o') : Good o' := by
  obtain ⟨m, e, id, ra, dec, pa, uvw, s, k, o1, H⟩ := phase_did hg h
  exact H.good hg

/-- The source of the call is the one that the catalog has under the name. -/
def Catalogued (c : Verif.PhaseCat.Consts) (cat : Verif.PhaseCat.Cat) (t : Call) : Prop :=
  (∀ k x, (k, x) ∈ cat → x.name = t.name → Verif.PhaseCat.WellFormed c x ∧ x.type ≠ ephem ∧
    (x.epoch.isSome ∨ x.type = unprojected)) ∧
  (t.lookup = true ∨
    ∃ k x g, (k, x) ∈ cat ∧ genEntry c (userEntry t) = .ok g ∧ Matches c false g x)

/-- **C72.** Rows that are not selected keep their sources - if the name of the new source is new, or
is the name of that very source in the catalog. -/
theorem phase_other_sources_partial (hr : 0 ≤ env.c.radTol) (hg : Good o) (h : phase env o t = .ok o')
    (hn : FreshName o.st.cat t.name ∨ Catalogued env.c o.st.cat t) (i : Nat) (hi : ¬ Selected t.mask i)
    (x : Entry) : PointsAt o.st i x ↔ PointsAt o'.st i x := by
  obtain ⟨m, e, id, ra, dec, pa, uvw, s, k, o1, H⟩ := phase_did hg h
  obtain ⟨h1, h2, h3, h4, h5, h6⟩ := H.cat hg
  by_cases hlt : i < o.uvw.length
  · have hb := (H.selected hlt).2.2 hi
    rw [(h6 i x).2 hb]
    obtain ⟨-, -, g, h7, h8⟩ := add_cases hg.cons H.added
    obtain ⟨e0, hf, ht, hnm, hne, hgen⟩ := phaseDict_found hg.cons.nodup H.dict
    rcases h8 with ⟨rfl, -⟩ | ⟨hno, hc, hfresh, hid⟩
    · exact Iff.rfl
    · -- a new entry was made
      have hnew : k ∉ keys o.st.cat → (PointsAt o.st i x ↔ PointsAt s i x) := by
        intro hk
        unfold PointsAt
        rw [h2, hc]
        constructor
        · rintro ⟨j, a, b⟩
          refine ⟨j, a, Verif.PhaseCat.mem_put.2 (.inr ⟨?_, b⟩)⟩
          rintro rfl
          exact hk (Verif.PhaseCat.mem_keys.2 ⟨x, b⟩)
        · rintro ⟨j, a, b⟩
          refine ⟨j, a, ?_⟩
          rcases Verif.PhaseCat.mem_put.1 b with ⟨rfl, -⟩ | ⟨-, b⟩
          · exact absurd (hg.cons.row_key (List.mem_of_getElem? a)) hk
          · exact b
      have hst : ∀ k' x', (k', x') ∈ o.st.cat → x'.name = t.name → Catalogued env.c o.st.cat t →
          e0 = storedEntry t x' → False := by
        intro k' x' a b hcat he0
        obtain ⟨w1, w2, w3⟩ := hcat.1 k' x' a b
        have hx' : storedEntry t x' = x' := by
          unfold storedEntry
          rw [← b]
          rcases w3 with w3 | w3
          · obtain ⟨q, hq⟩ := Option.isSome_iff_exists.1 w3
            rw [hq]
            cases x'
            simp only at hq
            rw [hq]
          · cases hq : x'.epoch with
            | some q =>
              cases x'
              simp only at hq
              rw [hq]
            | none =>
              cases x'
              simp only at hq w3
              subst hq w3
              simp [theEpoch]
        rw [hx'] at he0
        subst he0
        rw [hne w2, Verif.PhaseCat.wellformed_accepted _ _ w1] at h7
        obtain rfl := Except.ok.inj h7
        exact hno _ _ a ⟨Verif.PhaseCat.equivalent_refl hr _, fun _ => rfl⟩
      cases hf with
      | user _ _ => exact hnew (hfresh rfl)
      | jpl _ _ _ _ _ => exact hnew (hfresh rfl)
      | stored a b c =>
        rcases hn with hn | hn
        · exact absurd b (hn _ _ a)
        · exact (hst _ _ a b hn rfl).elim
      | clash a b c =>
        exfalso
        rcases hn with hn | ⟨-, hn | ⟨k', x', g', a', b', c'⟩⟩
        · exact a hn
        · rw [b] at hn; simp at hn
        · have hji : (userEntry t).info ≠ jplh := by
            show Verif.PhaseCat.user ≠ jplh
            decide
          rw [hgen hji, b'] at h7
          obtain rfl := Except.ok.inj h7
          exact hno _ _ a' c'
  · have hg' := H.good hg
    have hl := H.length
    unfold PointsAt
    rw [List.getElem?_eq_none (by rw [hg.ids]; omega), List.getElem?_eq_none (by rw [hg'.ids, hl]; omega)]
    simp

end

end Verif.Phase
