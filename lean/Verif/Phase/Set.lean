import Verif.Phase.Source

/-!
# What `phase` writes
-/

namespace Verif.Phase

open Verif.Coord (V3)
open Verif.Phasing (pick calcUvw)
open Verif.PhaseCat (Entry St keys PointsAt Consistent unprojected)

theorem maskFill_mem {α : Type} {m : List Bool} {xs : List α} {v y : α} (hl : m.length = xs.length)
    (h : y ∈ maskFill m xs v) : y = v ∨ y ∈ xs := by
  obtain ⟨i, hi⟩ := List.getElem?_of_mem h
  have hlt := (List.getElem?_eq_some_iff.1 hi).1
  rw [maskFill_length] at hlt
  rcases bool_get (m := m) (i := i) (by omega) with hb | hb
  · rw [maskFill_true hl hb] at hi
    exact .inl (Option.some.inj hi).symm
  · rw [maskFill_false hb] at hi
    exact .inr (List.mem_of_getElem? hi)

/-- Rows get the ID of an entry; then entries that no row uses are removed. -/
theorem assign_clear {s s' : St} {m : List Bool} {k : Int} {cleanup : Bool} (hs : Consistent s)
    (hl : m.length = s.ids.length) (hk : k ∈ keys s.cat)
    (h : (if cleanup then Verif.PhaseCat.clearUnused { s with ids := maskFill m s.ids k }
      else .ok { s with ids := maskFill m s.ids k }) = .ok s') :
    Consistent s' ∧ s'.ids = maskFill m s.ids k ∧
    (∀ j ∈ s'.ids, ∀ x, (j, x) ∈ s'.cat ↔ (j, x) ∈ s.cat) := by
  have hc : Consistent { s with ids := maskFill m s.ids k } := by
    refine ⟨hs.distinct, hs.count, ?_⟩
    intro i hi
    rcases maskFill_mem hl hi with rfl | hi
    · exact Verif.PhaseCat.mem_keys.1 hk
    · exact hs.rows i hi
  cases cleanup with
  | false =>
    simp only [Bool.false_eq_true, if_false, Except.ok.injEq] at h
    subst h
    exact ⟨hc, rfl, fun _ _ _ => Iff.rfl⟩
  | true =>
    simp only [if_true] at h
    obtain ⟨h1, h2, h3⟩ := Verif.PhaseCat.clear_spec hc h
    refine ⟨h1, h2, fun j hj x => ?_⟩
    rw [h3]
    rw [h2] at hj
    exact ⟨And.right, fun h => ⟨hj, h⟩⟩

/-- Rows that are not selected keep their entries as far as the catalog does; selected rows have the
entry of the new ID. -/
theorem pointsAt_assigned {s s' : St} {m : List Bool} {k : Int} (hl : m.length = s.ids.length)
    (h1 : s'.ids = maskFill m s.ids k) (h2 : ∀ j ∈ s'.ids, ∀ x, (j, x) ∈ s'.cat ↔ (j, x) ∈ s.cat) (i : Nat)
    (x : Entry) :
    (m[i]? = some true → (PointsAt s' i x ↔ (k, x) ∈ s.cat)) ∧
    (m[i]? = some false → (PointsAt s' i x ↔ PointsAt s i x)) := by
  constructor
  · intro hm
    have hi : s'.ids[i]? = some k := by rw [h1]; exact maskFill_true hl hm
    unfold PointsAt
    rw [hi]
    simp only [Option.some.injEq, exists_eq_left']
    exact h2 k (List.mem_of_getElem? hi) x
  · intro hm
    have hi : s'.ids[i]? = s.ids[i]? := by rw [h1]; exact maskFill_false hm
    unfold PointsAt
    constructor
    · rintro ⟨j, a, b⟩
      exact ⟨j, by rw [← hi]; exact a, (h2 j (List.mem_of_getElem? a) x).1 b⟩
    · rintro ⟨j, a, b⟩
      rw [← hi] at a
      exact ⟨j, a, (h2 j (List.mem_of_getElem? a) x).2 b⟩

/-- What a successful `phase` did. -/
structure Did (env : Env) (o : Obj) (t : Call) (o' : Obj) (m : List Bool) (e : Entry) (id : Option Int)
    (ra dec pa : List ℝ) (uvw : List V3) (s : St) (k : Int) (o1 : Obj) : Prop where
  mask : m = t.rows o.uvw.length
  len : m.length = o.uvw.length
  dict : phaseDict env o.st.cat t o.time = .ok (e, id)
  app : env.app e (pick m o.time) (pick m o.lst) = .ok (ra, dec)
  angle : newAngles env t (pick m o.time) ra dec = .ok pa
  coords : calcUvw env.junk (phaseArgs o t m ra dec pa) = .ok uvw
  added : Verif.PhaseCat.add env.c env.pop o.st e id true = .ok (s, k)
  luvw : uvw.length = (pick m o.uvw).length
  lra : ra.length = (pick m o.uvw).length
  ldec : dec.length = (pick m o.uvw).length
  lpa : pa.length = (pick m o.uvw).length
  applied : applyW { o with st := s } (newW o t m uvw) (.array (oldW o)) m = .ok o1
  cleared : (if t.cleanup then Verif.PhaseCat.clearUnused { s with ids := maskFill m s.ids k }
      else .ok { s with ids := maskFill m s.ids k }) = .ok o'.st
  result : o' = { o with st := o'.st, data := o1.data, uvw := maskSet m o.uvw uvw, ra := maskSet m o.ra ra,
                         dec := maskSet m o.dec dec, pa := maskSet m o.pa pa }

theorem phase_did {env : Env} {o o' : Obj} {t : Call} (hg : Good o) (h : phase env o t = .ok o') :
    ∃ m e id ra dec pa uvw s k o1, Did env o t o' m e id ra dec pa uvw s k o1 := by
  unfold phase at h
  split_ifs at h with h1 h2
  cases hd : phaseDict env o.st.cat t o.time with
  | error err => rw [hd] at h; simp at h
  | ok r =>
    obtain ⟨e, id⟩ := r
    rw [hd] at h
    simp only at h
    split_ifs at h with h3 h4
    push Not at h4
    cases ha : env.app e (pick (t.rows o.uvw.length) o.time) (pick (t.rows o.uvw.length) o.lst) with
    | error err => rw [ha] at h; simp at h
    | ok r =>
      obtain ⟨ra, dec⟩ := r
      rw [ha] at h
      simp only at h
      cases hp : newAngles env t (pick (t.rows o.uvw.length) o.time) ra dec with
      | error err => rw [hp] at h; simp at h
      | ok pa =>
        rw [hp] at h
        simp only at h
        cases hu : calcUvw env.junk (phaseArgs o t (t.rows o.uvw.length) ra dec pa) with
        | error err => rw [hu] at h; simp at h
        | ok uvw =>
          rw [hu] at h
          simp only at h
          unfold setPhase at h
          cases hs : Verif.PhaseCat.add env.c env.pop o.st e id true with
          | error err => rw [hs] at h; simp at h
          | ok r =>
            obtain ⟨s, k⟩ := r
            rw [hs] at h
            simp only at h
            by_cases h5 : ∃ n ∈ [uvw.length, ra.length, dec.length, pa.length],
                n ≠ (pick (t.rows o.uvw.length) o.uvw).length
            · rw [if_pos h5] at h; simp at h
            rw [if_neg h5] at h
            push Not at h5
            cases hw : applyW { o with st := s } (newW o t (t.rows o.uvw.length) uvw) (.array (oldW o))
                (t.rows o.uvw.length) with
            | error err => rw [hw] at h; simp at h
            | ok o1 =>
              rw [hw] at h
              simp only at h
              split at h
              · simp at h
              · rename_i s2 hc
                simp only [Except.ok.injEq] at h
                obtain ⟨q1, -⟩ := applyW_spec (o := { o with st := s }) (fun d hd => (hg.data d hd).1) hw
                subst h
                refine ⟨_, e, id, ra, dec, pa, uvw, s, k, o1, rfl, h4, hd, ha, hp, hu, hs, h5 _ (by simp),
                  h5 _ (by simp), h5 _ (by simp), h5 _ (by simp), hw, hc, ?_⟩
                rw [q1]

section
variable {env : Env} {o o' : Obj} {t : Call} {m : List Bool} {e : Entry} {id : Option Int}
  {ra dec pa : List ℝ} {uvw : List V3} {s : St} {k : Int} {o1 : Obj}

theorem Did.cat (h : Did env o t o' m e id ra dec pa uvw s k o1) (hg : Good o) :
    Consistent s ∧ s.ids = o.st.ids ∧ k ∈ keys s.cat ∧ Consistent o'.st ∧
    o'.st.ids = maskFill m o.st.ids k ∧
    (∀ i x, (m[i]? = some true → (PointsAt o'.st i x ↔ (k, x) ∈ s.cat)) ∧
      (m[i]? = some false → (PointsAt o'.st i x ↔ PointsAt s i x))) := by
  obtain ⟨h1, h2, h3, -⟩ := Verif.PhaseCat.add_spec hg.cons h.added
  have hl : m.length = s.ids.length := by rw [h2, hg.ids]; exact h.len
  obtain ⟨h4, h5, h6⟩ := assign_clear h1 hl h3 h.cleared
  refine ⟨h1, h2, h3, h4, by rw [h5, h2], fun i x => pointsAt_assigned hl h5 h6 i x⟩

/-- The new entry has the kind of the source. -/
theorem Did.kind (h : Did env o t o' m e id ra dec pa uvw s k o1) (hg : Good o) {i : Nat}
    (hi : m[i]? = some true) : Unproj o' i ↔ e.type = unprojected := by
  obtain ⟨h1, h2, h3, h4, h5, h6⟩ := h.cat hg
  obtain ⟨-, -, g, h7, h8⟩ := add_cases hg.cons h.added
  have hty : ∀ x, (k, x) ∈ s.cat → x.type = e.type := by
    intro x hx
    rw [← (genEntry_kind h7).1]
    rcases h8 with ⟨rfl, y, hy, hm⟩ | ⟨-, hc, -, -⟩
    · rw [Verif.PhaseCat.key_unique h1.nodup hx hy]
      exact hm.1.type.symm
    · have : (k, g) ∈ s.cat := by rw [hc]; exact Verif.PhaseCat.mem_put.2 (.inl ⟨rfl, rfl⟩)
      rw [Verif.PhaseCat.key_unique h1.nodup hx this]
  constructor
  · rintro ⟨x, hx, hu⟩
    rw [← hty x (((h6 i x).1 hi).1 hx)]
    exact hu
  · intro he
    obtain ⟨x, hx⟩ := Verif.PhaseCat.mem_keys.1 h3
    exact ⟨x, ((h6 i x).1 hi).2 hx, (hty x hx).trans he⟩

theorem Did.length (h : Did env o t o' m e id ra dec pa uvw s k o1) : o'.uvw.length = o.uvw.length := by
  rw [h.result]
  exact maskSet_length _ _ _

theorem Did.data (h : Did env o t o' m e id ra dec pa uvw s k o1) : o'.data = o1.data := by
  rw [h.result]

/-- The object fits together afterwards. -/
theorem Did.good (h : Did env o t o' m e id ra dec pa uvw s k o1) (hg : Good o) : Good o' := by
  obtain ⟨h1, h2, h3, h4, h5, h6⟩ := h.cat hg
  have hlen := h.length
  obtain ⟨q1, q2, q3, q4, q5, q6⟩ :=
    applyW_spec (o := { o with st := s }) (fun d hd => (hg.data d hd).1) h.applied
  have hr := h.result
  have hw : ∀ i, m[i]? = some true → ∃ x, (newW o t m uvw).at o.uvw.length i = some x := by
    intro i hi
    have hlt : i < o.uvw.length := by rw [← h.len]; exact (List.getElem?_eq_some_iff.1 hi).1
    unfold newW
    split_ifs
    · exact ⟨0, by simp [W.at, hlt]⟩
    · refine ⟨_, W.at_array (by rw [maskSet_length, List.length_replicate]) (List.getElem?_eq_getElem ?_)⟩
      rw [maskSet_length, List.length_replicate]
      exact hlt
  have ho : ∀ i, i < o.uvw.length → ∃ y, (W.array (oldW o)).at o.uvw.length i = some y := by
    intro i hi
    exact ⟨_, W.at_array (oldW_length o) (List.getElem?_eq_getElem (by rw [oldW_length]; exact hi))⟩
  refine ⟨h4, ?_, ?_, ?_, ?_, ?_, ?_, ?_, ?_, ?_, ?_, ?_, ?_⟩
  · rw [h5, maskFill_length, hlen]; exact hg.ids
  · rw [hlen, hr]; exact hg.ant1
  · rw [hlen, hr]; exact hg.ant2
  · rw [hlen, hr]; exact hg.time
  · rw [hlen, hr]; exact hg.lst
  · rw [hlen, hr]; simp only [maskSet_length]; exact hg.ra
  · rw [hlen, hr]; simp only [maskSet_length]; exact hg.dec
  · rw [hlen, hr]; simp only [maskSet_length]; exact hg.pa
  · intro d hd
    rw [hlen]
    rw [h.data] at hd
    refine ⟨q3 d hd, ?_⟩
    have hfr : o'.freqs = o.freqs := by rw [hr]
    rw [hfr]
    intro row hrow
    obtain ⟨i, hi⟩ := List.getElem?_of_mem hrow
    have hlt : i < o.uvw.length := by
      rw [← q3 d hd]; exact (List.getElem?_eq_some_iff.1 hi).1
    rcases bool_get (m := m) (i := i) (by rw [h.len]; exact hlt) with hb | hb
    · obtain ⟨x, hx⟩ := hw i hb
      obtain ⟨y, hy⟩ := ho i hlt
      obtain ⟨row0, ⟨d0, a, b⟩, rfl⟩ := (q6 i x y hb hx hy row).1 ⟨d, hd, hi⟩
      exact turn_length _ _ _ ((hg.data d0 a).2 row0 (List.mem_of_getElem? b))
    · obtain ⟨d0, a, b⟩ := (q5 i row hb).1 ⟨d, hd, hi⟩
      exact (hg.data d0 a).2 row (List.mem_of_getElem? b)
  · rw [hr]; exact hg.nodup
  · rw [hr]; exact hg.placed
  · rw [hr]; exact hg.known

/-- The mask says which rows are selected. -/
theorem Did.selected (h : Did env o t o' m e id ra dec pa uvw s k o1) {i : Nat} (hi : i < o.uvw.length) :
    (m[i]? = some true ↔ Selected t.mask i) ∧ (m[i]? = some false ↔ ¬ Selected t.mask i) := by
  have key : m[i]? = some true ↔ Selected t.mask i := by
    rw [h.mask]
    unfold Call.rows Selected
    cases t.mask with
    | none => simp [List.getElem?_replicate, hi]
    | some q => simp
  refine ⟨key, ?_⟩
  rw [← key]
  rcases bool_get (m := m) (i := i) (by rw [h.len]; exact hi) with hb | hb <;> simp [hb]

end

end Verif.Phase
