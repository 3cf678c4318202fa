import Verif.Phase.History

/-!
# When the phasing methods succeed
-/

namespace Verif.Phase

open Verif.Coord (V3)
open Verif.Phasing (pick calcUvw proj diff StandsAt)
open Verif.PhaseCat (Entry St Cat keys PointsAt Consistent unprojected Matches genEntry ephem altaz remove)
open Verif.Pol (Str)

theorem remove_all : ∀ (l : List Int) (s : St), Consistent s → l.Nodup → (∀ k ∈ l, k ∈ keys s.cat ∧ k ∉ s.ids) →
    ∃ s', l.foldlM remove s = .ok s' := by
  intro l
  induction l with
  | nil => intro s _ _ _; exact ⟨s, rfl⟩
  | cons k l ih =>
    intro s hs hn hk
    obtain ⟨h1, h2⟩ := hk k (by simp)
    rw [List.nodup_cons] at hn
    have hr : remove s k = .ok { s with cat := Verif.PhaseCat.del s.cat k,
                                        nphase := (Verif.PhaseCat.del s.cat k).length } := by
      unfold remove
      rw [if_pos h1]
    have hm : ∀ j x, (j, x) ∈ Verif.PhaseCat.del s.cat k ↔ j ≠ k ∧ (j, x) ∈ s.cat := by
      intro j x
      simp only [Verif.PhaseCat.del, List.mem_filter, decide_eq_true_eq]
      tauto
    have hc : Consistent { s with cat := Verif.PhaseCat.del s.cat k,
                                  nphase := (Verif.PhaseCat.del s.cat k).length } := by
      refine ⟨?_, rfl, ?_⟩
      · exact hs.distinct.sublist ((List.filter_sublist (l := s.cat)).map Prod.fst)
      · intro i hi
        obtain ⟨e, he⟩ := hs.rows i hi
        exact ⟨e, (hm i e).2 ⟨fun h => h2 (h ▸ hi), he⟩⟩
    obtain ⟨s', h3⟩ := ih _ hc hn.2 (by
      intro j hj
      obtain ⟨h4, h5⟩ := hk j (by simp [hj])
      refine ⟨?_, h5⟩
      obtain ⟨x, hx⟩ := Verif.PhaseCat.mem_keys.1 h4
      exact Verif.PhaseCat.mem_keys.2 ⟨x, (hm j x).2 ⟨fun h => hn.1 (h ▸ hj), hx⟩⟩)
    refine ⟨s', ?_⟩
    rw [List.foldlM_cons, hr]
    exact h3

/-- Unused entries can always be removed. -/
theorem clear_ok {s : St} (hs : Consistent s) : ∃ s', Verif.PhaseCat.clearUnused s = .ok s' := by
  unfold Verif.PhaseCat.clearUnused
  simp only
  split_ifs
  · exact ⟨s, rfl⟩
  · refine remove_all _ _ hs (hs.nodup.filter _) ?_
    intro k hk
    simp only [List.mem_filter, decide_eq_true_eq] at hk
    exact hk

theorem assign_ok {s : St} {m : List Bool} {k : Int} {cleanup : Bool} (hs : Consistent s)
    (hl : m.length = s.ids.length) (hk : k ∈ keys s.cat) :
    ∃ s', (if cleanup then Verif.PhaseCat.clearUnused { s with ids := maskFill m s.ids k }
      else .ok { s with ids := maskFill m s.ids k }) = .ok s' := by
  have hc : Consistent { s with ids := maskFill m s.ids k } := by
    refine ⟨hs.distinct, hs.count, ?_⟩
    intro i hi
    rcases maskFill_mem hl hi with rfl | hi
    · exact Verif.PhaseCat.mem_keys.1 hk
    · exact hs.rows i hi
  cases cleanup with
  | true => exact clear_ok hc
  | false => exact ⟨_, rfl⟩

section
variable {env : Env} {o : Obj} {t : Call}

/-- The positions that the sky gives are one for each row. -/
def OnePerRow (m : List Bool) (o : Obj) (ra dec pa : List ℝ) : Prop :=
  ra.length = (pick m o.uvw).length ∧ dec.length = (pick m o.uvw).length ∧ pa.length = (pick m o.uvw).length

theorem setPhase_ok {m : List Bool} {e : Entry} {id : Option Int} {ra dec pa : List ℝ} {uvw : List V3} {s : St}
    {k : Int} (hg : Good o) (hm : m.length = o.uvw.length) (hadd : Verif.PhaseCat.add env.c env.pop o.st e id true = .ok (s, k))
    (hl : OnePerRow m o ra dec pa) (hu : uvw.length = (pick m o.uvw).length) :
    ∃ o', setPhase env o t m e id ra dec pa uvw = .ok o' := by
  obtain ⟨h1, h2, h3, -⟩ := Verif.PhaseCat.add_spec hg.cons hadd
  unfold setPhase
  rw [hadd]
  simp only
  rw [if_neg (by simp [hu, hl.1, hl.2.1, hl.2.2])]
  obtain ⟨o1, ho1⟩ := applyW_ok (o := { o with st := s }) (new := newW o t m uvw) (old := .array (oldW o)) hm
    (by
      unfold newW
      split_ifs
      · trivial
      · right; rw [maskSet_length, List.length_replicate])
    (by right; rw [oldW_length])
  rw [ho1]
  simp only
  obtain ⟨s', hs'⟩ := assign_ok (cleanup := t.cleanup) h1 (m := m) (by rw [h2, hg.ids]; exact hm) h3
  rw [hs']
  exact ⟨_, rfl⟩

/-- **C72.** `phase` succeeds when it has a source, room for it in the catalog, and one position on the
sky for each selected row - with antenna positions, or without them for all rows. -/
theorem phase_succeeds {e : Entry} {id : Option Int} {s : St} {k : Int} {ra dec pa : List ℝ} (hg : Good o)
    (hmask : ∀ q, t.mask = some q → q.length = o.uvw.length) (hsome : ∃ i, i < o.uvw.length ∧ Selected t.mask i)
    (hlon : t.type = some unprojected ∨ t.theLon ≠ none ∧ t.theLat ≠ none)
    (hdict : phaseDict env o.st.cat t o.time = .ok (e, id))
    (hsize : e.type = ephem ∨ e.type = unprojected ∨ big t.theLon = false ∧ big t.theLat = false)
    (happ : env.app e (pick (t.rows o.uvw.length) o.time) (pick (t.rows o.uvw.length) o.lst) = .ok (ra, dec))
    (hang : newAngles env t (pick (t.rows o.uvw.length) o.time) ra dec = .ok pa)
    (hl : OnePerRow (t.rows o.uvw.length) o ra dec pa)
    (hadd : Verif.PhaseCat.add env.c env.pop o.st e id true = .ok (s, k))
    (hant : t.useAntPos = true ∧ (∀ (i : Nat) (l l' r r' d d' : ℝ), (pick (t.rows o.uvw.length) o.lst)[i]? = some l →
        (pick (t.rows o.uvw.length) o.lst)[i + 1]? = some l' → ra[i]? = some r → ra[i + 1]? = some r' →
        dec[i]? = some d → dec[i + 1]? = some d' → l - r = l' - r' → d = d' → pa[i]? = pa[i + 1]?) ∨
      t.useAntPos = false ∧ t.mask = none) :
    ∃ o', phase env o t = .ok o' := by
  have hm : (t.rows o.uvw.length).length = o.uvw.length := by
    unfold Call.rows
    cases hq : t.mask with
    | none => simp
    | some q => exact hmask q hq
  set m := t.rows o.uvw.length with hmdef
  have hc := pick_count m o.uvw hm
  have lens : ∀ {α : Type} (xs : List α), xs.length = o.uvw.length → (pick m xs).length = (pick m o.uvw).length := by
    intro α xs hx
    rw [pick_count m xs (by rw [hx]; exact hm), hc]
  have hcoord : ∃ uvw, calcUvw env.junk (phaseArgs o t m ra dec pa) = .ok uvw ∧
      uvw.length = (pick m o.uvw).length := by
    rcases hant with ⟨hu, hcons⟩ | ⟨hu, hno⟩
    · have hpos : 0 < (pick m o.uvw).length := by
        obtain ⟨i, hi, hs⟩ := hsome
        have hb : m[i]? = some true := by
          rw [hmdef]
          unfold Call.rows
          cases hq : t.mask with
          | none => simp [List.getElem?_replicate, hi]
          | some q => exact hs q hq
        rw [hc]
        have := rank_lt hb
        omega
      have hcall : Verif.Phasing.AntCall (phaseArgs o t m ra dec pa) o.pos o.nums (pick m o.ant1) (pick m o.ant2)
          o.lon (pick m o.uvw).length :=
        ⟨hu, rfl, rfl, rfl, rfl, rfl, hg.nodup, hg.placed, lens _ hg.ant1, lens _ hg.ant2,
          fun x hx => hg.known.1 x (pick_subset hx), fun x hx => hg.known.2 x (pick_subset hx), hpos⟩
      obtain ⟨out, c1, c2, -⟩ := Verif.Phasing.uvw_from_antennas_partial env.junk (lst := pick m o.lst) (ra := ra)
        (dec := dec) hcall rfl rfl rfl rfl (lens _ hg.lst) hl.1 hl.2.1
        (by intro q hq; obtain rfl := Option.some.inj hq; exact hl.2.2)
        (by intro q hq; obtain rfl := Option.some.inj hq; exact hcons)
      exact ⟨out, c1, c2⟩
    · have hall : pick m o.uvw = o.uvw := by
        rw [hmdef]
        unfold Call.rows
        rw [hno]
        exact pick_all _ _ rfl
      have hcall : Verif.Phasing.MoveCall (phaseArgs o t m ra dec pa) (pick m o.uvw) := by
        refine ⟨hu, rfl, ?_, fun _ => ⟨rfl, rfl, rfl⟩, fun _ => ⟨rfl, rfl⟩, fun _ => ⟨rfl, rfl, rfl⟩,
          fun h => by simp [phaseArgs] at h⟩
        unfold Verif.Phasing.Lengths
        have l1 := lens _ hg.lst
        obtain ⟨l2, l3, l4⟩ := hl
        have l5 : o.ra.length = (pick m o.uvw).length := by rw [hall]; exact hg.ra
        have l6 : o.dec.length = (pick m o.uvw).length := by rw [hall]; exact hg.dec
        have l7 : o.pa.length = (pick m o.uvw).length := by rw [hall]; exact hg.pa
        intro x hx l hl
        simp only [phaseArgs, List.mem_cons, List.not_mem_nil, or_false] at hx
        rcases hx with rfl | rfl | rfl | rfl | rfl | rfl | rfl <;>
          (simp only [Option.some.injEq] at hl; subst hl; assumption)
      obtain ⟨out, c1, c2⟩ := Verif.Phasing.move_succeeds env.junk hcall
      exact ⟨out, c1, c2⟩
  obtain ⟨uvw, c1, c2⟩ := hcoord
  obtain ⟨o', ho'⟩ := setPhase_ok (t := t) hg hm hadd hl c2
  refine ⟨o', ?_⟩
  unfold phase
  rw [if_neg (by tauto), if_neg (by tauto), hdict]
  simp only
  rw [if_neg (by
    rintro ⟨a, b⟩
    rcases hsize with h | h | ⟨h, h'⟩
    · exact a (.inl h)
    · exact a (.inr h)
    · rw [h, h'] at b; simp at b), if_neg (by rw [← hmdef, hm]; simp), ← hmdef, happ]
  simp only
  rw [hang]
  simp only
  rw [c1]
  exact ho'

/-- **C73.** `unproject_phase` succeeds for every object that fits together, when there is room for the
entry in the catalog. -/
theorem unproject_succeeds {b : Bool} {mask : Option (List Bool)} {name : Str} (hg : Good o)
    (hn : 0 < o.uvw.length) (hmask : ∀ q, mask = some q → q.length = o.uvw.length)
    (hid : ∃ r, unprojId env o name = .ok r) : ∃ o', unproject env o b mask name = .ok o' := by
  obtain ⟨hl, -⟩ := use_get (mask := mask) hg hmask
  have hcoord : ∃ new, calcUvw env.junk (unprojArgs o b) = .ok new := by
    cases b with
    | true =>
      obtain ⟨out, h1, -⟩ := Verif.Phasing.uvw_enu env.junk (antCall_unproj hg hn) rfl rfl
      exact ⟨out, h1⟩
    | false =>
      obtain ⟨out, h1, -⟩ := Verif.Phasing.move_succeeds env.junk (moveCall_unproj hg hn)
      exact ⟨out, h1⟩
  obtain ⟨new, hnew⟩ := hcoord
  obtain ⟨o1, ho1⟩ := applyW_ok (o := o) (new := .scalar 0) (old := .array (o.uvw.map (·.z))) hl trivial
    (by right; rw [List.length_map])
  obtain ⟨q1, -⟩ := applyW_spec (fun d hd => (hg.data d hd).1) ho1
  obtain ⟨⟨s, k⟩, hr⟩ := hid
  obtain ⟨h1, h2, h3, -⟩ := unprojId_spec hg.cons hr
  obtain ⟨s', hs'⟩ := assign_ok (cleanup := true) h1 (m := unprojUse o mask) (by rw [h2, hg.ids]; exact hl) h3
  have hid' : unprojId env o1 name = .ok (s, k) := by
    rw [← hr]
    unfold unprojId
    rw [q1]
  unfold unproject
  rw [if_neg (by
    cases mask with
    | none => simp
    | some q => simp [hmask q rfl])]
  simp only
  rw [hnew]
  simp only
  rw [ho1]
  simp only
  rw [hid']
  simp only
  simp only [if_true] at hs'
  rw [hs']
  exact ⟨_, rfl⟩

/-- **C74.** `set_uvws_from_antenna_positions` succeeds for every object that fits together. -/
theorem setUvws_succeeds_partial (hg : Good o) (hn : 0 < o.uvw.length) (hs : SameAngles o) (upd : Bool) :
    ∃ o', setUvws env o upd = .ok o' := by
  obtain ⟨out, c1, c2, -⟩ := antArgs_spec env hg hn hg.placed hs
  obtain ⟨o1, ho1⟩ := applyW_ok (o := o) (new := .array (out.map (·.z))) (old := .array (oldW o))
    (mask := List.replicate o.uvw.length true) (by rw [List.length_replicate])
    (by right; rw [List.length_map, c2]) (by right; rw [oldW_length])
  unfold setUvws
  rw [c1]
  simp only
  split_ifs
  · rw [ho1]; exact ⟨_, rfl⟩
  · exact ⟨_, rfl⟩

/-- **C74.** `update_antenna_positions` succeeds for every object that fits together. -/
theorem updateAnts_succeeds_partial (hg : Good o) (hn : 0 < o.uvw.length) (hs : SameAngles o)
    (new : Int → Option V3) (delta upd : Bool) : ∃ o', updateAnts env o new delta upd = .ok o' := by
  unfold updateAnts
  by_cases h0 : newPos o new = o.pos
  · rw [if_pos h0]; exact ⟨_, rfl⟩
  rw [if_neg h0]
  cases delta with
  | false =>
    simp only [Bool.false_eq_true, if_false]
    have hg' : Good { o with pos := newPos o new } :=
      ⟨hg.cons, hg.ids, hg.ant1, hg.ant2, hg.time, hg.lst, hg.ra, hg.dec, hg.pa, hg.data, hg.nodup,
        newPos_length hg new, hg.known⟩
    have hs' : SameAngles { o with pos := newPos o new } := hs
    exact setUvws_succeeds_partial hg' hn hs' upd
  | true =>
    simp only [if_true]
    obtain ⟨out, c1, c2, -⟩ := antArgs_spec env hg hn (pos := List.zipWith subV (newPos o new) o.pos)
      (by rw [List.length_zipWith, newPos_length hg, hg.placed, min_self]) hs
    obtain ⟨o1, ho1⟩ := applyW_ok (o := o) (new := .scalar 0) (old := .array (out.map (·.z)))
      (mask := unprojMask o.st) (by rw [unprojMask_length, hg.ids]) trivial (by right; rw [List.length_map, c2])
    rw [c1]
    simp only
    cases upd with
    | true =>
      simp only [if_true]
      rw [ho1]
      exact ⟨_, rfl⟩
    | false => exact ⟨_, rfl⟩

end

end Verif.Phase
