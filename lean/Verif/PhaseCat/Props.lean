import Verif.PhaseCat.OpProps

/-! C20 (consistency over histories), C21 (consolidation), C45 (splitting) and C46 (merging). -/
namespace Verif.PhaseCat
open Verif.Pol (Str)

/-! ### C20 -/

/-- Any sequence of catalog operations that return normally, starting from a consistent object.  Merges name each
entry at most once. -/
inductive History (c : Consts) (pop : Pop) (s0 : St) : St → Prop
  | start : History c pop s0 s0
  | add {s s' : St} {raw : Entry} {catId : Option Int} {force : Bool} {k : Int} :
      History c pop s0 s → PhaseCat.add c pop s raw catId force = .ok (s', k) → History c pop s0 s'
  | clear {s s' : St} : History c pop s0 s → clearUnused s = .ok s' → History c pop s0 s'
  | renameName {s s' : St} {old new : Str} :
      History c pop s0 s → PhaseCat.renameName s old new = .ok s' → History c pop s0 s'
  | renameIds {s s' : St} {ks : List Int} {new : Str} :
      History c pop s0 s → PhaseCat.renameIds s ks new = .ok s' → History c pop s0 s'
  | update {s s' : St} {k : Int} {newId : Option Int} {reserved : List Int} :
      History c pop s0 s → updateId pop s k newId reserved = .ok s' → History c pop s0 s'
  | split {s s' : St} {which : Ident} {newName : Option Str} {rows : List Nat} {newId : Option Int} {down : Bool} :
      History c pop s0 s → PhaseCat.split c pop s which newName rows newId down = .ok s' → History c pop s0 s'
  | merge {s s' : St} {which : List Ident} {force ign : Bool} {l : List Int} :
      History c pop s0 s → mergeList s.cat which = .ok l → l.Nodup → PhaseCat.merge c s which force ign = .ok s' →
      History c pop s0 s'

/-- C20, with merges that name each entry once: whatever sequence of operations is performed, every row points at an
entry, IDs are unique and the count is right. -/
theorem history_consistent_partial (c : Consts) (pop : Pop) (s0 s : St) (h0 : Consistent s0) (h : History c pop s0 s) :
    Consistent s := by
  induction h with
  | start => exact h0
  | add _ h ih => exact (add_spec ih h).1
  | clear _ h ih => exact (clear_spec ih h).1
  | renameName _ h ih =>
    unfold PhaseCat.renameName at h
    split at h
    · simp at h
    · split at h
      · simp only [Except.ok.injEq] at h
        exact h ▸ ih
      · simp only [Except.ok.injEq] at h
        rw [← h]
        exact rename_consistent ih _ _
  | renameIds _ h ih =>
    rw [renameIds_ok h]
    exact rename_consistent ih _ _
  | update _ h ih =>
    obtain ⟨_, _, _, _, _, _, hc, _⟩ := update_spec ih h
    exact hc
  | split _ h ih => exact split_consistent ih h
  | merge _ hl hd h ih => exact (merge_spec ih h _ hl hd).1

/-- The number of rows never changes. -/
theorem history_rows (c : Consts) (pop : Pop) (s0 s : St) (h0 : Consistent s0) (h : History c pop s0 s) :
    s.ids.length = s0.ids.length := by
  induction h with
  | start => rfl
  | add hh h ih => rw [(add_spec (history_consistent_partial c pop _ _ h0 hh) h).2.1]; exact ih
  | clear hh h ih => rw [(clear_spec (history_consistent_partial c pop _ _ h0 hh) h).2.1]; exact ih
  | renameName _ h ih =>
    unfold PhaseCat.renameName at h
    split at h
    · simp at h
    · split at h
      · simp only [Except.ok.injEq] at h
        exact h ▸ ih
      · simp only [Except.ok.injEq] at h
        rw [← h]
        exact ih
  | renameIds _ h ih => rw [renameIds_ok h]; exact ih
  | update hh h ih =>
    obtain ⟨_, _, _, _, _, _, _, hi, _⟩ := update_spec (history_consistent_partial c pop _ _ h0 hh) h
    rw [hi]; simpa using ih
  | split hh h ih =>
    have hs := history_consistent_partial c pop _ _ h0 hh
    obtain ⟨k, n, _, _, h | ⟨_, _, t, ht, h⟩ | ⟨_, _, e, t, m, _, ht, h⟩⟩ := split_cases h
    · rw [h.2]; exact ih
    · obtain ⟨_, _, _, _, _, _, _, hi, _⟩ := update_spec hs ht
      have hlen : t.ids.length = s0.ids.length := by rw [hi, List.length_map]; exact ih
      rcases h with ⟨_, rfl⟩ | ⟨nm, _, h⟩
      · exact hlen
      · rw [renameIds_ok h]; exact hlen
    · rw [h]
      simp only [assign, List.length_mapIdx]
      rw [(add_spec hs ht).2.1]; exact ih
  | merge hh hl hd h ih =>
    obtain ⟨_, ⟨_, rfl⟩ | ⟨k, rest, _, _, hi, _⟩⟩ := merge_spec (history_consistent_partial c pop _ _ h0 hh) h _ hl hd
    · exact ih
    · rw [hi]; simpa using ih

/-- Two sources; the first is named twice in the merge, removed, and its rows point nowhere. -/
def twoSources : St :=
  { cat := [(0, { comet with name := ['a'] }), (1, { comet with name := ['b'] })], ids := [0, 1, 0], nphase := 2 }

theorem twoSources_consistent : Consistent twoSources :=
  ⟨by decide, rfl, by
    intro i hi
    simp only [twoSources, List.mem_cons, List.not_mem_nil, or_false] at hi
    rcases hi with rfl | rfl | rfl
    · exact ⟨_, List.mem_cons_self⟩
    · exact ⟨_, List.mem_cons_of_mem _ List.mem_cons_self⟩
    · exact ⟨_, List.mem_cons_self⟩⟩

theorem merge_repeated_counterexample : ∃ s', merge consts twoSources [.id 0, .id 0] false false = .ok s' ∧
    s'.ids = [0, 1, 0] ∧ s'.cat.map Prod.fst = [1] :=
  ⟨⟨[(1, { comet with name := ['b'] })], [0, 1, 0], 1⟩, by decide +kernel⟩

/-! ### C45: splitting -/

/-- C45, with a new name that no equivalent entry has: exactly the selected rows of the phase center move to a new
entry that has the new name and otherwise the same contents, and every other row and entry stays as it is. -/
theorem split_moves_partial (c : Consts) (pop : Pop) (s s' : St) (which : Ident) (nm : Str) (rows : List Nat)
    (newId : Option Int) (down : Bool) (hs : Consistent s) (hw : ∀ k e, (k, e) ∈ s.cat → WellFormed c e)
    (hname : ∀ k e, (k, e) ∈ s.cat → e.name ≠ nm)
    (h : split c pop s which (some nm) rows newId down = .ok s') :
    ∃ k e, resolve s.cat which = .ok k ∧ (k, e) ∈ s.cat ∧
      ∀ r : Nat,
        (r ∈ rows ∧ s.ids[r]? = some k →
          ∃ m e', s'.ids[r]? = some m ∧ (∀ j, newId = some j → m = j) ∧ m ∉ s.cat.map Prod.fst ∧ (m, e') ∈ s'.cat ∧
            e'.name = nm ∧ e' = { e with name := nm, info := e'.info }) ∧
        (¬(r ∈ rows ∧ s.ids[r]? = some k) → s'.ids[r]? = s.ids[r]? ∧ ∀ x, PointsAt s r x ↔ PointsAt s' r x) := by
  obtain ⟨k, n, hk, hn, h | ⟨_, hall, t, ht, h⟩ | ⟨_, hsome, e, t, m, he, ht, h⟩⟩ := split_cases h
  · obtain ⟨e, he⟩ := mem_keys.1 (resolve_key hk)
    refine ⟨k, e, hk, he, fun r => ⟨fun hr => absurd hr.2 (h.1 r hr.1), fun _ => ?_⟩⟩
    rw [h.2]
    exact ⟨rfl, fun x => Iff.rfl⟩
  · obtain ⟨hnf, hnm⟩ := splitId_fresh hn
    obtain ⟨n', e, he, _, _, hn', hc, hids, hmem⟩ := update_spec hs ht
    obtain rfl := hn' n rfl
    rcases h with ⟨hc, _⟩ | ⟨nm', hnm', h⟩
    · simp at hc
    simp only [Option.some.injEq] at hnm'
    subst hnm'
    have h' := renameIds_ok h
    obtain ⟨hkeys, hren⟩ := rename_fold nm [n'] t.cat
    have hcat : ∀ j x, (j, x) ∈ s'.cat ↔
        (j ∈ [n'] ∧ ∃ y, (j, y) ∈ t.cat ∧ x = { y with name := nm }) ∨ (j ∉ [n'] ∧ (j, x) ∈ t.cat) := by
      rw [h']; exact hren
    have hids' : s'.ids = t.ids := by rw [h']
    refine ⟨k, e, hk, he, fun r => ⟨?_, ?_⟩⟩
    · rintro ⟨hr, hrk⟩
      refine ⟨n', { e with name := nm }, ?_, hnm, hnf, ?_, rfl, rfl⟩
      · rw [hids', hids, List.getElem?_map, hrk]; simp
      · rw [hcat]
        exact Or.inl ⟨by simp, e, (hmem n' e).2 (Or.inl ⟨rfl, rfl⟩), rfl⟩
    · intro hr
      have hrk : s.ids[r]? ≠ some k := fun hrk => hr ⟨hall r hrk, hrk⟩
      have hsame : s'.ids[r]? = s.ids[r]? := by
        rw [hids', hids, List.getElem?_map]
        rcases hx : s.ids[r]? with _ | i
        · rfl
        · simp only [Option.map_some, Option.some.injEq]
          rw [if_neg]
          rintro rfl
          exact hrk hx
      refine ⟨hsame, fun x => ?_⟩
      unfold PointsAt
      rw [hsame]
      constructor
      · rintro ⟨i, hi, hx⟩
        refine ⟨i, hi, (hcat i x).2 (Or.inr ⟨?_, (hmem i x).2 (Or.inr ⟨?_, ?_, hx⟩)⟩)⟩
        · simp only [List.mem_singleton]
          rintro rfl
          exact hnf (hs.row_key (List.mem_of_getElem? hi))
        · rintro rfl
          exact hnf (hs.row_key (List.mem_of_getElem? hi))
        · rintro rfl
          exact hrk hi
      · rintro ⟨i, hi, hx⟩
        refine ⟨i, hi, ?_⟩
        have hin : i ≠ n' := by
          rintro rfl
          exact hnf (hs.row_key (List.mem_of_getElem? hi))
        rcases (hcat i x).1 hx with ⟨a, _⟩ | ⟨_, b⟩
        · simp only [List.mem_singleton] at a
          exact absurd a hin
        · rcases (hmem i x).1 b with ⟨a, _⟩ | ⟨_, _, b⟩
          · exact absurd a hin
          · exact b
  · obtain ⟨hnf, hnm⟩ := splitId_fresh hn
    rw [get_some hs.nodup] at he
    obtain ⟨hc, hids, hm, e', he', hcase⟩ := add_spec hs ht
    have hwf : WellFormed c { e with name := nm, info := user } := by
      have w := hw k e he
      exact ⟨w.type, w.lon, w.lat, w.frame, w.pm, w.times, w.ephem, w.scalars, w.horizontal, w.zenith⟩
    have hgen := wellformed_accepted c _ hwf
    simp only [Option.getD_some] at he'
    rw [hgen] at he'
    simp only [Except.ok.injEq] at he'
    subst he'
    rcases hcase with ⟨_, x, hx, hmatch⟩ | ⟨_, hcat, _, hmn⟩
    · exact absurd (hmatch.2 rfl).symm (hname m x hx)
    obtain rfl := hmn n rfl
    have hids' : s'.ids = assign s.ids (rows.filter (fun i => decide (s.ids[i]? = some k))) m := by rw [h, hids]
    have hcat' : s'.cat = put s.cat m { e with name := nm, info := user } := by rw [h]; exact hcat
    refine ⟨k, e, hk, he, fun r => ⟨?_, ?_⟩⟩
    · rintro ⟨hr, hrk⟩
      refine ⟨m, { e with name := nm, info := user }, ?_, hnm, hnf, ?_, rfl, rfl⟩
      · rw [hids', assign, List.getElem?_mapIdx, hrk]
        have : r ∈ rows.filter (fun i => decide (s.ids[i]? = some k)) := List.mem_filter.2 ⟨hr, by simpa using hrk⟩
        simp [this]
      · rw [hcat', mem_put]; exact Or.inl ⟨rfl, rfl⟩
    · intro hr
      have hnot : r ∉ rows.filter (fun i => decide (s.ids[i]? = some k)) := by
        intro hm
        obtain ⟨a, b⟩ := List.mem_filter.1 hm
        exact hr ⟨a, by simpa using b⟩
      have hsame : s'.ids[r]? = s.ids[r]? := by
        rw [hids', assign, List.getElem?_mapIdx]
        cases s.ids[r]? <;> simp [hnot]
      refine ⟨hsame, fun x => ?_⟩
      unfold PointsAt
      rw [hsame]
      have hne : ∀ i, s.ids[r]? = some i → i ≠ m := by
        rintro i hi rfl
        exact hnf (hs.row_key (List.mem_of_getElem? hi))
      constructor
      · rintro ⟨i, hi, hx⟩
        refine ⟨i, hi, ?_⟩
        rw [hcat', mem_put]
        exact Or.inr ⟨hne i hi, hx⟩
      · rintro ⟨i, hi, hx⟩
        refine ⟨i, hi, ?_⟩
        rw [hcat', mem_put] at hx
        rcases hx with ⟨a, _⟩ | ⟨_, b⟩
        · exact absurd a (hne i hi)
        · exact b

/-- C45, the fault: with the default name the new entry equals the old one, so the old ID is used again and
nothing is split, without an error. -/
theorem split_default_name_counterexample :
    ∃ s', split consts slotPop twoSources (.id 0) none [0] none false = .ok s' ∧ s'.ids = [0, 1, 0] ∧
      s'.cat.map Prod.fst = [0, 1] :=
  ⟨twoSources, by decide +kernel⟩

/-! ### C46: merging -/

/-- C46: after a merge, exactly the rows of the merged phase centers carry the first ID, every other row keeps its
ID, the other merged entries are gone and no other entry changes. -/
theorem merge_exact (c : Consts) (s s' : St) (which : List Ident) (force ign : Bool) (hs : Consistent s)
    (l : List Int) (hl : mergeList s.cat which = .ok l) (hd : l.Nodup) (h2 : 2 ≤ l.length)
    (h : merge c s which force ign = .ok s') :
    ∃ k rest, l = k :: rest ∧
      (∀ (r : Nat) (i : Int), s.ids[r]? = some i → s'.ids[r]? = some (if i ∈ l then k else i)) ∧
      (∀ j x, (j, x) ∈ s'.cat ↔ j ∉ rest ∧ (j, x) ∈ s.cat) := by
  obtain ⟨_, ⟨a, _⟩ | ⟨k, rest, h3, _, h4, h5⟩⟩ := merge_spec hs h l hl hd
  · omega
  · refine ⟨k, rest, h3, ?_, h5⟩
    intro r i hi
    rw [h4, List.getElem?_map, hi]
    rfl

/-- C46: unless forced, a merge is refused when some entry does not match the first one. -/
theorem merge_matches (c : Consts) (s s' : St) (which : List Ident) (ign : Bool) (hs : Consistent s)
    (k : Int) (rest : List Int) (hl : mergeList s.cat which = .ok (k :: rest)) (h : merge c s which false ign = .ok s') :
    ∀ j ∈ rest, ∃ e e', (k, e) ∈ s.cat ∧ (j, e') ∈ s.cat ∧ Matches c ign e' e := by
  unfold merge at h
  rw [bind_ok] at h
  obtain ⟨l, hl', h⟩ := h
  rw [hl] at hl'
  simp only [Except.ok.injEq] at hl'
  subst hl'
  rcases rest with _ | ⟨k', rest⟩
  · simp
  simp only at h
  split at h
  · simp at h
  rename_i hno
  intro j hj
  have hag : agrees c s.cat ign k j = true := by
    by_contra hc
    exact hno ⟨⟨j, hj, by simpa using hc⟩, by simp⟩
  unfold agrees at hag
  split at hag
  · rename_i e p he hp
    rw [get_some hs.nodup] at he hp
    simp only [decide_eq_true_eq] at hag
    rcases look_spec c [(k, e)] p ign with ⟨k2, e2, _, h2, h3⟩ | ⟨h2, _⟩
    · simp only [List.mem_singleton, Prod.mk.injEq] at h2
      rw [h2.2] at h3
      exact ⟨e, p, he, hp, h3⟩
    · exact absurd hag (h2 k)
  · simp at hag

example : mergeList twoSources.cat [.name ['b'], .id 0] = .ok [1, 0] ∧ [(1 : Int), 0].Nodup ∧
    (merge consts twoSources [.name ['b'], .id 0] true false).map St.ids = .ok [1, 1, 1] :=
  ⟨by decide +kernel, by decide, by decide +kernel⟩

/-- A history with three operations. -/
example : ∃ s, History consts slotPop twoSources s ∧ s.ids = [2, 1, 1] :=
  ⟨_, .merge (l := [1, 0]) (which := [.id 1, .id 0]) (force := true) (ign := false)
    (.split (which := .id 0) (newName := some ['x']) (rows := [0]) (newId := none) (down := false) .start rfl)
    rfl (by decide) rfl, by decide +kernel⟩

end Verif.PhaseCat
