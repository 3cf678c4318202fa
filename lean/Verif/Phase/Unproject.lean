import Verif.Phase.Selected
import Verif.Phasing.UvwProps

/-!
# What `unproject_phase` does
-/

namespace Verif.Phase

open Verif.Coord (V3)
open Verif.Phasing (pick calcUvw proj diff StandsAt)
open Verif.PhaseCat (Entry St keys PointsAt Consistent unprojected Matches genEntry ephem altaz)
open Verif.Pol (Str)

/-- The entry that unprojected rows get. -/
theorem unprojId_spec {env : Env} {o : Obj} {name : Str} {s : St} {k : Int} (hc : Consistent o.st)
    (h : unprojId env o name = .ok (s, k)) :
    Consistent s ∧ s.ids = o.st.ids ∧ k ∈ keys s.cat ∧
    (∀ x, (k, x) ∈ s.cat → x.type = unprojected ∧ x.name = name) ∧
    (∀ i x, PointsAt s i x ↔ PointsAt o.st i x) := by
  have hadd : ∀ (hr : Verif.PhaseCat.add env.c env.pop o.st
      ⟨name, unprojected, none, none, none, none, none, none, none, none, none, Verif.PhaseCat.user⟩ none false
      = .ok (s, k)), Consistent s ∧ s.ids = o.st.ids ∧ k ∈ keys s.cat ∧
    (∀ x, (k, x) ∈ s.cat → x.type = unprojected ∧ x.name = name) ∧
    (∀ i x, PointsAt s i x ↔ PointsAt o.st i x) := by
    intro hr
    obtain ⟨h1, h2, h3, e, h4, h5⟩ := Verif.PhaseCat.add_spec hc hr
    have hk := genEntry_kind h4
    simp only at hk
    refine ⟨h1, h2, h3, ?_, ?_⟩
    · intro x hx
      rcases h5 with ⟨rfl, y, hy, hm⟩ | ⟨-, h5, -, -⟩
      · rw [Verif.PhaseCat.key_unique h1.nodup hx hy]
        exact ⟨by rw [← hm.1.type]; exact hk.1, by rw [← hm.2 rfl]; exact hk.2⟩
      · rw [h5, Verif.PhaseCat.mem_put] at hx
        rcases hx with ⟨-, rfl⟩ | ⟨hx, -⟩
        · exact hk
        · exact absurd rfl hx
    · intro i x
      rcases h5 with ⟨rfl, -⟩ | ⟨-, h5, h6, -⟩
      · exact Iff.rfl
      · unfold PointsAt
        rw [h2, h5]
        constructor
        · rintro ⟨j, a, b⟩
          refine ⟨j, a, ?_⟩
          rcases Verif.PhaseCat.mem_put.1 b with ⟨rfl, -⟩ | ⟨-, b⟩
          · exact absurd (hc.row_key (List.mem_of_getElem? a)) (h6 rfl)
          · exact b
        · rintro ⟨j, a, b⟩
          refine ⟨j, a, Verif.PhaseCat.mem_put.2 (.inr ⟨?_, b⟩)⟩
          rintro rfl
          exact h6 rfl (Verif.PhaseCat.mem_keys.2 ⟨x, b⟩)
  unfold unprojId at h
  rcases Verif.PhaseCat.look_spec env.c o.st.cat (unprojEntry env.c name) false with ⟨j, e, h1, h2, h3⟩ | ⟨h1, -⟩
  · rw [h1] at h
    simp only [Except.ok.injEq, Prod.mk.injEq] at h
    obtain ⟨rfl, rfl⟩ := h
    refine ⟨hc, rfl, Verif.PhaseCat.mem_keys.2 ⟨e, h2⟩, ?_, fun _ _ => Iff.rfl⟩
    intro x hx
    rw [Verif.PhaseCat.key_unique hc.nodup hx h2]
    exact ⟨h3.1.type.symm, (h3.2 rfl).symm⟩
  · split at h
    · rename_i j hj
      exact absurd hj (h1 j)
    · split at h
      · simp at h
      · rename_i r hr
        simp only [Except.ok.injEq] at h
        subst h
        exact hadd hr

/-- What a successful `unproject_phase` did. -/
structure DidUn (env : Env) (o : Obj) (b : Bool) (mask : Option (List Bool)) (name : Str) (o' : Obj)
    (use : List Bool) (new : List V3) (s : St) (k : Int) (o1 : Obj) : Prop where
  len : ∀ q, mask = some q → q.length = o.uvw.length
  huse : use = unprojUse o mask
  coords : calcUvw env.junk (unprojArgs o b) = .ok new
  applied : applyW o (.scalar 0) (.array (o.uvw.map (·.z))) use = .ok o1
  id : unprojId env o name = .ok (s, k)
  cleared : Verif.PhaseCat.clearUnused { s with ids := maskFill use s.ids k } = .ok o'.st
  result : o' = { o with st := o'.st, data := o1.data, uvw := new, ra := maskSet use o.ra (pick use o.lst),
                         dec := maskFill use o.dec o.lat, pa := maskFill use o.pa 0 }

theorem unproject_did {env : Env} {o o' : Obj} {b : Bool} {mask : Option (List Bool)} {name : Str}
    (hg : Good o) (h : unproject env o b mask name = .ok o') :
    ∃ use new s k o1, DidUn env o b mask name o' use new s k o1 := by
  unfold unproject at h
  split_ifs at h with h1
  simp only at h
  cases hc : calcUvw env.junk (unprojArgs o b) with
  | error e => rw [hc] at h; simp at h
  | ok new =>
    rw [hc] at h
    simp only at h
    cases hw : applyW o (.scalar 0) (.array (o.uvw.map (·.z))) (unprojUse o mask) with
    | error e => rw [hw] at h; simp at h
    | ok o1 =>
      rw [hw] at h
      simp only at h
      obtain ⟨q1, -⟩ := applyW_spec (fun d hd => (hg.data d hd).1) hw
      have hid : unprojId env o1 name = unprojId env o name := by
        unfold unprojId
        rw [q1]
      rw [hid] at h
      cases hi : unprojId env o name with
      | error e => rw [hi] at h; simp at h
      | ok r =>
        obtain ⟨s, k⟩ := r
        rw [hi] at h
        simp only at h
        cases hs : Verif.PhaseCat.clearUnused { s with ids := maskFill (unprojUse o mask) s.ids k } with
        | error e => rw [hs] at h; simp at h
        | ok s' =>
          rw [hs] at h
          simp only [Except.ok.injEq] at h
          subst h
          refine ⟨_, new, s, k, o1, ?_, rfl, hc, hw, hi, hs, by rw [q1]⟩
          intro q hq
          rw [hq] at h1
          simpa using h1

/-- The rows that are unprojected: selected ones that are projected. -/
theorem use_get {o : Obj} {mask : Option (List Bool)} (hg : Good o)
    (hl : ∀ q, mask = some q → q.length = o.uvw.length) :
    (unprojUse o mask).length = o.uvw.length ∧ ∀ i, i < o.uvw.length →
      ((unprojUse o mask)[i]? = some true ↔ Selected mask i ∧ ¬ Unproj o i) ∧
      ((unprojUse o mask)[i]? = some false ↔ ¬ Selected mask i ∨ Unproj o i) := by
  have hlen : (unprojUse o mask).length = o.uvw.length := by
    unfold unprojUse
    cases mask with
    | none => rw [List.length_map, unprojMask_length]; exact hg.ids
    | some q => rw [List.length_zipWith, unprojMask_length, hg.ids, hl q rfl, min_self]
  refine ⟨hlen, fun i hi => ?_⟩
  have hi' : i < o.st.ids.length := by rw [hg.ids]; exact hi
  have key : (unprojUse o mask)[i]? = some true ↔ Selected mask i ∧ ¬ Unproj o i := by
    rw [← unprojMask_not hi']
    have hb := bool_get (m := unprojMask o.st) (i := i) (by rwa [unprojMask_length])
    unfold unprojUse Selected
    cases mask with
    | none =>
      simp only [List.getElem?_map]
      rcases hb with hb | hb <;> simp [hb]
    | some q =>
      have hq := bool_get (m := q) (i := i) (by rw [hl q rfl]; exact hi)
      simp only [List.getElem?_zipWith]
      rcases hb with hb | hb <;> rcases hq with hq | hq <;> simp [hb, hq]
  refine ⟨key, ?_⟩
  have hb := bool_get (m := unprojUse o mask) (i := i) (by rw [hlen]; exact hi)
  by_cases h1 : Selected mask i ∧ ¬ Unproj o i
  · rw [key.2 h1]
    simp only [Option.some.injEq, Bool.true_eq_false, false_iff]
    tauto
  · have h2 : ¬ (unprojUse o mask)[i]? = some true := fun h => h1 (key.1 h)
    have h3 := hb.resolve_left h2
    rw [h3]
    simp only [true_iff]
    tauto

section
variable {env : Env} {o o' : Obj} {b : Bool} {mask : Option (List Bool)} {name : Str} {use : List Bool}
  {new : List V3} {s : St} {k : Int} {o1 : Obj}

theorem DidUn.len_use (h : DidUn env o b mask name o' use new s k o1) (hg : Good o) :
    use.length = o.uvw.length := by rw [h.huse]; exact (use_get hg h.len).1

theorem DidUn.true_iff (h : DidUn env o b mask name o' use new s k o1) (hg : Good o) {i : Nat}
    (hi : i < o.uvw.length) : use[i]? = some true ↔ Selected mask i ∧ ¬ Unproj o i := by
  rw [h.huse]; exact ((use_get hg h.len).2 i hi).1

theorem DidUn.false_iff (h : DidUn env o b mask name o' use new s k o1) (hg : Good o) {i : Nat}
    (hi : i < o.uvw.length) : use[i]? = some false ↔ ¬ Selected mask i ∨ Unproj o i := by
  rw [h.huse]; exact ((use_get hg h.len).2 i hi).2

theorem antCall_unproj {o : Obj} (hg : Good o) (hn : 0 < o.uvw.length) :
    Verif.Phasing.AntCall (unprojArgs o true) o.pos o.nums o.ant1 o.ant2 o.lon o.uvw.length :=
  ⟨rfl, rfl, rfl, rfl, rfl, rfl, hg.nodup, hg.placed, hg.ant1, hg.ant2, hg.known.1, hg.known.2, hn⟩

theorem moveCall_unproj {o : Obj} (hg : Good o) (hn : 0 < o.uvw.length) :
    Verif.Phasing.MoveCall (unprojArgs o false) o.uvw := by
  refine ⟨rfl, rfl, ?_, fun _ => ⟨rfl, rfl, rfl⟩, fun _ => ⟨rfl, rfl⟩, fun h => by simp [unprojArgs] at h,
    fun _ => .inr ⟨rfl, List.length_pos_iff.1 hn⟩⟩
  unfold Verif.Phasing.Lengths
  intro x hx l hl
  have h1 := hg.lst
  have h2 := hg.ra
  have h3 := hg.dec
  have h4 := hg.pa
  simp only [unprojArgs, List.mem_cons, List.not_mem_nil, or_false] at hx
  rcases hx with rfl | rfl | rfl | rfl | rfl | rfl | rfl <;> first
    | (simp only [Option.some.injEq] at hl; subst hl; assumption)
    | simp at hl

theorem DidUn.len_new (h : DidUn env o b mask name o' use new s k o1) (hg : Good o) (hn : 0 < o.uvw.length) :
    new.length = o.uvw.length := by
  have hc := h.coords
  cases b with
  | true =>
    obtain ⟨out, h1, h2, -⟩ := Verif.Phasing.uvw_enu env.junk (antCall_unproj hg hn) rfl rfl
    rw [hc] at h1
    obtain rfl := Except.ok.inj h1
    exact h2
  | false =>
    obtain ⟨out, h1, h2⟩ := Verif.Phasing.move_succeeds env.junk (moveCall_unproj hg hn)
    rw [hc] at h1
    obtain rfl := Except.ok.inj h1
    exact h2

theorem DidUn.points (h : DidUn env o b mask name o' use new s k o1) (hg : Good o) :
    Consistent o'.st ∧ o'.st.ids = maskFill use o.st.ids k ∧
    (∀ x, (k, x) ∈ s.cat → x.type = unprojected ∧ x.name = name) ∧ k ∈ keys s.cat ∧
    (∀ i x, (use[i]? = some true → (PointsAt o'.st i x ↔ (k, x) ∈ s.cat)) ∧
      (use[i]? = some false → (PointsAt o'.st i x ↔ PointsAt o.st i x))) := by
  obtain ⟨h1, h2, h3, h4, h5⟩ := unprojId_spec hg.cons h.id
  have hl : use.length = s.ids.length := by rw [h2, hg.ids]; exact h.len_use hg
  obtain ⟨c1, c2, c3⟩ := assign_clear (cleanup := true) h1 hl h3 h.cleared
  refine ⟨c1, by rw [c2, h2], h4, h3, fun i x => ?_⟩
  obtain ⟨p1, p2⟩ := pointsAt_assigned hl c2 c3 i x
  exact ⟨p1, fun hi => (p2 hi).trans (h5 i x)⟩

theorem DidUn.length (h : DidUn env o b mask name o' use new s k o1) (hg : Good o) (hn : 0 < o.uvw.length) :
    o'.uvw.length = o.uvw.length := by rw [h.result]; exact h.len_new hg hn

end

section
variable {env : Env} {o o' : Obj} {b : Bool} {mask : Option (List Bool)} {name : Str}

/-- **C73.** A row is unprojected afterwards if it was selected or was unprojected before; rows that are
unprojected now have an entry of the given name. -/
theorem unproject_kind (hg : Good o) (h : unproject env o b mask name = .ok o') (i : Nat)
    (hi : i < o.uvw.length) :
    (Unproj o' i ↔ Unproj o i ∨ Selected mask i) ∧
    (Selected mask i → ¬ Unproj o i → ∃ e, PointsAt o'.st i e ∧ e.type = unprojected ∧ e.name = name) ∧
    (¬ Selected mask i ∨ Unproj o i → ∀ e, PointsAt o'.st i e ↔ PointsAt o.st i e) := by
  obtain ⟨use, new, s, k, o1, H⟩ := unproject_did hg h
  obtain ⟨c1, c2, c3, c4, c5⟩ := H.points hg
  have key : ∀ (_ : Selected mask i) (_ : ¬ Unproj o i), ∃ e, PointsAt o'.st i e ∧ e.type = unprojected ∧ e.name = name := by
    intro h1 h2
    obtain ⟨x, hx⟩ := Verif.PhaseCat.mem_keys.1 c4
    exact ⟨x, ((c5 i x).1 ((H.true_iff hg hi).2 ⟨h1, h2⟩)).2 hx, c3 x hx⟩
  have key' : ∀ (_ : ¬ Selected mask i ∨ Unproj o i), ∀ e, PointsAt o'.st i e ↔ PointsAt o.st i e :=
    fun h1 e => (c5 i e).2 ((H.false_iff hg hi).2 h1)
  refine ⟨?_, key, key'⟩
  by_cases h1 : ¬ Selected mask i ∨ Unproj o i
  · constructor
    · rintro ⟨e, he, ht⟩
      exact .inl ⟨e, (key' h1 e).1 he, ht⟩
    · intro h2
      have hu : Unproj o i := by tauto
      obtain ⟨e, he, ht⟩ := hu
      exact ⟨e, (key' h1 e).2 he, ht⟩
  · push Not at h1
    obtain ⟨e, he, ht, -⟩ := key h1.1 h1.2
    exact ⟨fun _ => .inr h1.1, fun _ => ⟨e, he, ht⟩⟩

/-- **C73.** Rows that are unprojected by the call have a source overhead with position angle zero; the
others keep their source positions. -/
theorem unproject_sources (hg : Good o) (h : unproject env o b mask name = .ok o') (i : Nat)
    (hi : i < o.uvw.length) :
    (Selected mask i → ¬ Unproj o i → ∀ t, o.lst[i]? = some t → SourceAt o' i t o.lat 0) ∧
    (¬ Selected mask i ∨ Unproj o i → ∀ r d p, SourceAt o' i r d p ↔ SourceAt o i r d p) := by
  obtain ⟨use, new, s, k, o1, H⟩ := unproject_did hg h
  have hl := H.len_use hg
  constructor
  · intro h1 h2 t ht
    have hb := (H.true_iff hg hi).2 ⟨h1, h2⟩
    unfold SourceAt
    rw [H.result]
    refine ⟨?_, maskFill_true (by rw [hg.dec]; exact hl) hb, maskFill_true (by rw [hg.pa]; exact hl) hb⟩
    show (maskSet use o.ra (pick use o.lst))[i]? = some t
    rw [maskSet_true _ _ _ _ (by rw [hg.ra]; exact hl) (by rw [pick_count _ _ (by rw [hg.lst]; exact hl)]) hb,
      pick_rank _ _ _ (by rw [hg.lst]; exact hl) hb, ht]
  · intro h1 r d p
    have hb := (H.false_iff hg hi).2 h1
    unfold SourceAt
    rw [H.result]
    show (maskSet use o.ra (pick use o.lst))[i]? = _ ∧ (maskFill use o.dec o.lat)[i]? = _ ∧
      (maskFill use o.pa 0)[i]? = _ ↔ _
    rw [maskSet_false _ _ _ _ hb, maskFill_false hb, maskFill_false hb]

/-- **C73.** The source of every unprojected row stays overhead. -/
theorem unproject_overhead (hg : Good o) (h : unproject env o b mask name = .ok o') (ho : Overhead o) :
    Overhead o' := by
  obtain ⟨use, new, s, k, o1, H⟩ := unproject_did hg h
  have hlst : o'.lst = o.lst := by rw [H.result]
  have hlat : o'.lat = o.lat := by rw [H.result]
  intro i hu t ht
  rw [hlst] at ht
  rw [hlat]
  have hi : i < o.uvw.length := by rw [← hg.lst]; exact (List.getElem?_eq_some_iff.1 ht).1
  obtain ⟨s1, s2⟩ := unproject_sources hg h i hi
  by_cases h1 : Unproj o i
  · exact (s2 (.inr h1) _ _ _).2 (ho i h1 t ht)
  · exact s1 (((unproject_kind hg h i hi).1.1 hu).resolve_left h1) h1 t ht

/-- **C73.** The object fits together after `unproject_phase`. -/
theorem unproject_good (hg : Good o) (hn : 0 < o.uvw.length) (h : unproject env o b mask name = .ok o') :
    Good o' := by
  obtain ⟨use, new, s, k, o1, H⟩ := unproject_did hg h
  obtain ⟨c1, c2, -, -, -⟩ := H.points hg
  have hlen := H.length hg hn
  have hr := H.result
  obtain ⟨q1, q2, q3, q4, q5, q6⟩ := applyW_spec (fun d hd => (hg.data d hd).1) H.applied
  refine ⟨c1, ?_, ?_, ?_, ?_, ?_, ?_, ?_, ?_, ?_, ?_, ?_, ?_⟩
  · rw [c2, maskFill_length, hlen]; exact hg.ids
  · rw [hlen, hr]; exact hg.ant1
  · rw [hlen, hr]; exact hg.ant2
  · rw [hlen, hr]; exact hg.time
  · rw [hlen, hr]; exact hg.lst
  · rw [hlen, hr]; simp only [maskSet_length]; exact hg.ra
  · rw [hlen, hr]; simp only [maskFill_length]; exact hg.dec
  · rw [hlen, hr]; simp only [maskFill_length]; exact hg.pa
  · intro d hd
    have hd1 : o1.data = some d := by rw [← hd, hr]
    have hfr : o'.freqs = o.freqs := by rw [hr]
    rw [hlen, hfr]
    refine ⟨q3 d hd1, ?_⟩
    intro row hrow
    obtain ⟨i, hi⟩ := List.getElem?_of_mem hrow
    have hlt : i < o.uvw.length := by rw [← q3 d hd1]; exact (List.getElem?_eq_some_iff.1 hi).1
    rcases bool_get (m := use) (i := i) (by rw [H.len_use hg]; exact hlt) with hb | hb
    · obtain ⟨row0, ⟨d0, a, b⟩, rfl⟩ := (q6 i 0 (o.uvw[i]).z hb (by simp [W.at, hlt])
        (W.at_array (by rw [List.length_map]) (by rw [List.getElem?_map, List.getElem?_eq_getElem hlt]; rfl))
        row).1 ⟨d, hd1, hi⟩
      exact turn_length _ _ _ ((hg.data d0 a).2 row0 (List.mem_of_getElem? b))
    · obtain ⟨d0, a, b⟩ := (q5 i row hb).1 ⟨d, hd1, hi⟩
      exact (hg.data d0 a).2 row (List.mem_of_getElem? b)
  · rw [hr]; exact hg.nodup
  · rw [hr]; exact hg.placed
  · rw [hr]; exact hg.known

/-- **C73.** Rows that are selected, or were unprojected already, keep what the correlator measured. -/
theorem unproject_row_signal (hg : Good o) (hn : 0 < o.uvw.length)
    (h : unproject env o b mask name = .ok o') (i : Nat) (hs : Selected mask i ∨ Unproj o i) (j p : Nat) (z : ℂ) :
    Signal o i j p z ↔ Signal o' i j p z := by
  obtain ⟨use, new, s, k, o1, H⟩ := unproject_did hg h
  obtain ⟨q1, q2, q3, q4, q5, q6⟩ := applyW_spec (fun d hd => (hg.data d hd).1) H.applied
  have hlen := H.length hg hn
  have hfr : o'.freqs = o.freqs := by rw [H.result]
  have hdat : ∀ i row, RowData o' i row ↔ RowData o1 i row := by
    intro i row
    unfold RowData
    rw [H.result]
  by_cases hi : i < o.uvw.length
  · have hu' : Unproj o' i := ((unproject_kind hg h i hi).1).2 hs.symm
    have hpa : Path o' i 0 := .inl ⟨hu', rfl, by rw [hlen]; exact hi⟩
    by_cases hu : Unproj o i
    · have hb := (H.false_iff hg hi).2 (.inr hu)
      refine signal_same hfr (fun w => ?_) (fun row => ?_) j p z
      · have hp0 : Path o i 0 := .inl ⟨hu, rfl, hi⟩
        constructor
        · intro hw; rw [path_unique hw hp0]; exact hpa
        · intro hw; rw [path_unique hw hpa]; exact hp0
      · rw [hdat]; exact q5 i row hb
    · have hb := (H.true_iff hg hi).2 ⟨hs.resolve_right hu, hu⟩
      have hpb : Path o i (o.uvw[i]).z := .inr ⟨hu, _, List.getElem?_eq_getElem hi, rfl⟩
      refine signal_turned hfr hpb hpa (fun row' => ?_) j p z
      rw [hdat]
      exact q6 i 0 _ hb (by simp [W.at, hi])
        (W.at_array (by rw [List.length_map]) (by rw [List.getElem?_map, List.getElem?_eq_getElem hi]; rfl)) row'
  · have hi' : ¬ i < o'.uvw.length := by rw [hlen]; exact hi
    exact ⟨fun h => absurd h (signal_out hi), fun h => absurd h (signal_out hi')⟩

/-- **C73.** `unproject_phase` leaves what the correlator measured unchanged - if every row that is not
selected is unprojected already. -/
theorem unproject_keeps_signal_partial (hg : Good o) (hn : 0 < o.uvw.length)
    (h : unproject env o b mask name = .ok o')
    (hs : ∀ i, i < o.uvw.length → ¬ Selected mask i → Unproj o i) : Keeps o o' := by
  intro i j p z
  by_cases hi : i < o.uvw.length
  · exact unproject_row_signal hg hn h i (by have := hs i hi; tauto) j p z
  · obtain ⟨use, new, s, k, o1, H⟩ := unproject_did hg h
    have hi' : ¬ i < o'.uvw.length := by rw [H.length hg hn]; exact hi
    exact ⟨fun h => absurd h (signal_out hi), fun h => absurd h (signal_out hi')⟩

/-- **C73.** With antenna positions, every row gets the local coordinates of the baseline between its
antennas; rows that are unprojected by the call have them as the baseline toward their source. -/
theorem unproject_from_antennas (hg : Good o) (h : unproject env o true mask name = .ok o') (i : Nat)
    (n1 n2 : Int) (p1 p2 : V3) (t : ℝ) (e1 : o.ant1[i]? = some n1) (e2 : o.ant2[i]? = some n2)
    (s1 : StandsAt o.nums o.pos n1 p1) (s2 : StandsAt o.nums o.pos n2 p2) (ht : o.lst[i]? = some t) :
    o'.uvw[i]? = some (proj o.lon o.lat 0 (diff p2 p1)) ∧
    (Overhead o → Unproj o' i → Baseline o' i (t - o.lon) (diff p2 p1)) := by
  obtain ⟨use, new, s, k, o1, H⟩ := unproject_did hg h
  have hi : i < o.uvw.length := by rw [← hg.lst]; exact (List.getElem?_eq_some_iff.1 ht).1
  obtain ⟨out, c1, c2, c3⟩ := Verif.Phasing.uvw_enu env.junk (antCall_unproj hg (by omega)) rfl rfl
  rw [H.coords] at c1
  obtain rfl := Except.ok.inj c1
  have huvw : o'.uvw[i]? = some (proj o.lon o.lat 0 (diff p2 p1)) := by
    rw [H.result]; exact c3 i n1 n2 p1 p2 e1 e2 s1 s2
  refine ⟨huvw, fun ho hu => ?_⟩
  have hlst : o'.lst = o.lst := by rw [H.result]
  have hlat : o'.lat = o.lat := by rw [H.result]
  have := unproject_overhead hg h ho i hu t (by rw [hlst]; exact ht)
  rw [hlat] at this
  refine ⟨t, o.lat, 0, this, ?_⟩
  rw [huvw, sub_sub_cancel]

/-- **C73.** Without antenna positions, rows that are unprojected afterwards keep their baselines. -/
theorem unproject_moves_baseline (hg : Good o) (h : unproject env o false mask name = .ok o')
    (ho : Overhead o) (i : Nat) (hu : Unproj o' i) (L : ℝ) (v : V3) (hb : Baseline o i L v) :
    Baseline o' i L v := by
  obtain ⟨use, new, s, k, o1, H⟩ := unproject_did hg h
  obtain ⟨r, d, p, ⟨a1, a2, a3⟩, a4⟩ := hb
  have hi := (List.getElem?_eq_some_iff.1 a4).1
  have ht : o.lst[i]? = some (o.lst[i]'(by rw [hg.lst]; exact hi)) := List.getElem?_eq_getElem _
  have hlst : o'.lst = o.lst := by rw [H.result]
  have hlat : o'.lat = o.lat := by rw [H.result]
  have hsrc := unproject_overhead hg h ho i hu _ (by rw [hlst]; exact ht)
  rw [hlat] at hsrc
  refine ⟨_, _, _, hsrc, ?_⟩
  rw [H.result]
  refine Verif.Phasing.uvw_moved_partial (a := unprojArgs o false) rfl rfl
    ⟨fun h0 => by simp [unprojArgs] at h0, fun h0 => by simp [unprojArgs] at h0,
      fun _ l hl => by simp [unprojArgs] at hl, fun _ l hl => by simp [unprojArgs] at hl⟩ H.coords i r d p _ _ _ L v
      ?_ ?_ a4
  · unfold Verif.Phasing.Was
    rw [if_neg (by simp [unprojArgs])]
    exact ⟨⟨_, rfl, a1⟩, ⟨_, rfl, a2⟩, a3⟩
  · unfold Verif.Phasing.Becomes
    rw [if_pos (by rfl)]
    exact ⟨⟨_, rfl, ht⟩, rfl, rfl⟩

end

end Verif.Phase
