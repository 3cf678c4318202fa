import Verif.PhaseCat.EntryProps

/-! Every catalog operation keeps the catalog and the rows consistent (C20), and what split and merge do. -/
namespace Verif.PhaseCat
open Verif.Pol (Str)

theorem Consistent.nodup {s : St} (h : Consistent s) : (keys s.cat).Nodup := h.distinct

theorem Consistent.row_key {s : St} (h : Consistent s) {i : Int} (hi : i ∈ s.ids) : i ∈ keys s.cat :=
  mem_keys.2 (h.rows i hi)

theorem mk_consistent {cat : Cat} {ids : List Int} (h1 : (keys cat).Nodup) (h2 : ∀ i ∈ ids, i ∈ keys cat) :
    Consistent ⟨cat, ids, cat.length⟩ := ⟨h1, rfl, fun i hi => mem_keys.1 (h2 i hi)⟩

/-- `_add_phase_center`: the result is an ID of the catalog, nothing is lost and at most the requested ID is
(re)defined. -/
theorem add_spec {c : Consts} {pop : Pop} {s s' : St} {raw : Entry} {catId : Option Int} {force : Bool} {k : Int}
    (hs : Consistent s) (h : add c pop s raw catId force = .ok (s', k)) :
    Consistent s' ∧ s'.ids = s.ids ∧ k ∈ keys s'.cat ∧ ∃ e, genEntry c raw = .ok e ∧
      ((s' = s ∧ ∃ x, (k, x) ∈ s.cat ∧ Matches c false e x) ∨
       ((∀ j x, (j, x) ∈ s.cat → ¬Matches c false e x) ∧ s'.cat = put s.cat k e ∧
        (force = false → k ∉ keys s.cat) ∧ ∀ j, catId = some j → k = j)) := by
  unfold add at h
  rw [bind_ok] at h
  obtain ⟨e, he, h⟩ := h
  rw [bind_ok] at h
  obtain ⟨n, hn, h⟩ := h
  have hfresh : (force = false → n ∉ keys s.cat) ∧ ∀ j, catId = some j → n = j := by
    rcases catId with _ | j
    · simp only [addId] at hn
      have := generateId_fresh pop _ _ _ _ _ hn
      exact ⟨fun _ hm => by simpa using this.2.1 _ rfl hm, by simp⟩
    · simp only [addId] at hn
      split at hn
      · rename_i hf
        simp only [Except.ok.injEq] at hn
        subst hn
        exact ⟨fun hc => by simp [hc] at hf, by simp⟩
      · have := generateId_fresh pop _ _ _ _ _ hn
        exact ⟨fun _ hm => by simpa using this.2.1 _ rfl hm, this.2.2⟩
  simp only [pure, Except.pure, Except.ok.injEq] at h
  unfold insert at h
  rcases look_spec c s.cat e false with ⟨t, x, hl, hx, hm⟩ | ⟨hl, hno⟩
  · rw [hl] at h
    simp only [Prod.mk.injEq] at h
    obtain ⟨rfl, rfl⟩ := h
    exact ⟨hs, rfl, mem_keys.2 ⟨x, hx⟩, e, he, Or.inl ⟨rfl, x, hx, hm⟩⟩
  · split at h
    · rename_i t hlk
      exact absurd hlk (hl t)
    · simp only [Prod.mk.injEq] at h
      obtain ⟨rfl, rfl⟩ := h
      exact ⟨mk_consistent (nodup_put hs.nodup _ _) (fun i hi => mem_keys_put.2 (Or.inr (hs.row_key hi))), rfl,
        mem_keys_put.2 (Or.inl rfl), e, he, Or.inr ⟨hno, rfl, hfresh.1, hfresh.2⟩⟩

theorem remove_spec {s s' : St} {k : Int} (hd : (keys s.cat).Nodup) (h : remove s k = .ok s') :
    (keys s'.cat).Nodup ∧ s'.nphase = s'.cat.length ∧ s'.ids = s.ids ∧ k ∈ keys s.cat ∧ s'.cat = del s.cat k := by
  unfold remove at h
  split at h
  · rename_i hk
    simp only [Except.ok.injEq] at h
    subst h
    exact ⟨nodup_del hd k, rfl, rfl, hk, rfl⟩
  · simp at h

theorem remove_fold {ks : List Int} : ∀ {s s' : St}, (keys s.cat).Nodup → s.nphase = s.cat.length →
    ks.foldlM remove s = .ok s' → (keys s'.cat).Nodup ∧ s'.nphase = s'.cat.length ∧ s'.ids = s.ids ∧
      (∀ j x, (j, x) ∈ s'.cat ↔ j ∉ ks ∧ (j, x) ∈ s.cat) ∧ ks.Nodup := by
  induction ks with
  | nil =>
    intro s s' hd hn h
    simp only [List.foldlM_nil, pure, Except.pure, Except.ok.injEq] at h
    subst h
    exact ⟨hd, hn, rfl, by simp, by simp⟩
  | cons k ks ih =>
    intro s s' hd _ h
    rw [List.foldlM_cons, bind_ok] at h
    obtain ⟨s1, h1, h2⟩ := h
    obtain ⟨a1, a2, a3, a4, a5⟩ := remove_spec hd h1
    obtain ⟨b1, b2, b3, b4, b5⟩ := ih a1 a2 h2
    refine ⟨b1, b2, b3.trans a3, ?_, ?_⟩
    · intro j x
      rw [b4, a5, mem_del]
      simp only [List.mem_cons, not_or]
      tauto
    · -- a key removed once cannot be removed again
      refine List.nodup_cons.2 ⟨?_, b5⟩
      intro hk
      have : ∀ {ks : List Int} {s s' : St}, (keys s.cat).Nodup → ks.foldlM remove s = .ok s' → k ∈ ks → k ∈ keys s.cat := by
        intro ks
        induction ks with
        | nil => intro s s' _ _ hm; simp at hm
        | cons q qs ihq =>
          intro s s' hd h hm
          rw [List.foldlM_cons, bind_ok] at h
          obtain ⟨s1, h1, h2⟩ := h
          obtain ⟨a1, _, _, a4, a5⟩ := remove_spec hd h1
          rcases List.mem_cons.1 hm with rfl | hm
          · exact a4
          · have := ihq a1 h2 hm
            rw [a5, mem_keys_del] at this
            exact this.1
      have hk' := this a1 h2 hk
      rw [a5, mem_keys_del] at hk'
      exact hk'.2 rfl

/-- `_clear_unused_phase_centers` keeps consistency and leaves exactly the entries that rows point at. -/
theorem clear_spec {s s' : St} (hs : Consistent s) (h : clearUnused s = .ok s') :
    Consistent s' ∧ s'.ids = s.ids ∧ ∀ j x, (j, x) ∈ s'.cat ↔ j ∈ s.ids ∧ (j, x) ∈ s.cat := by
  unfold clearUnused at h
  simp only at h
  split at h
  · rename_i hc
    simp only [Except.ok.injEq] at h
    subst h
    refine ⟨hs, rfl, fun j x => ⟨fun hj => ⟨?_, hj⟩, And.right⟩⟩
    by_contra hne
    have hmem : j ∈ (keys s.cat).filter (fun k => decide (k ∉ s.ids)) :=
      List.mem_filter.2 ⟨mem_keys.2 ⟨x, hj⟩, by simpa using hne⟩
    have hpos := List.length_pos_of_mem hmem
    have hlen : (keys s.cat).length = s.cat.length := by simp [keys]
    have hcount := hs.count
    have := List.length_filter_le (fun k => decide (k ∉ s.ids)) (keys s.cat)
    omega
  · obtain ⟨a1, a2, a3, a4, _⟩ := remove_fold hs.nodup hs.count h
    have hmem : ∀ j x, (j, x) ∈ s'.cat ↔ j ∈ s.ids ∧ (j, x) ∈ s.cat := by
      intro j x
      rw [a4]
      constructor
      · rintro ⟨h1, h2⟩
        refine ⟨?_, h2⟩
        by_contra hne
        exact h1 (List.mem_filter.2 ⟨mem_keys.2 ⟨x, h2⟩, by simpa using hne⟩)
      · rintro ⟨h1, h2⟩
        refine ⟨fun hf => ?_, h2⟩
        have := (List.mem_filter.1 hf).2
        simp only [decide_eq_true_eq] at this
        exact this h1
    refine ⟨⟨a1, a2, fun i hi => ?_⟩, a3, hmem⟩
    rw [a3] at hi
    obtain ⟨e, he⟩ := hs.rows i hi
    exact ⟨e, (hmem i e).2 ⟨hi, he⟩⟩

theorem keys_rename (cat : Cat) (n : Str) (k : Int) : keys (renameOne cat n k) = keys cat :=
  keys_modify cat k (fun e => { e with name := n })

theorem rename_fold (n : Str) (ks : List Int) : ∀ cat : Cat,
    keys (ks.foldl (fun cat k => renameOne cat n k) cat) = keys cat ∧
    ∀ j x, (j, x) ∈ ks.foldl (fun cat k => renameOne cat n k) cat ↔
      (j ∈ ks ∧ ∃ y, (j, y) ∈ cat ∧ x = { y with name := n }) ∨ (j ∉ ks ∧ (j, x) ∈ cat) := by
  induction ks with
  | nil => intro cat; simp
  | cons k ks ih =>
    intro cat
    obtain ⟨h1, h2⟩ := ih (renameOne cat n k)
    refine ⟨h1.trans (keys_rename cat n k), ?_⟩
    intro j x
    have hm : ∀ j x, (j, x) ∈ renameOne cat n k ↔
        (j = k ∧ ∃ y, (j, y) ∈ cat ∧ x = { y with name := n }) ∨ (j ≠ k ∧ (j, x) ∈ cat) :=
      fun j x => mem_modify
    simp only [List.foldl_cons]
    rw [h2]
    simp only [List.mem_cons, hm]
    constructor
    · rintro (⟨a, y, (⟨b, z, b2, b3⟩ | ⟨b, b2⟩), a3⟩ | ⟨a, (⟨b, z, b2, b3⟩ | ⟨b, b2⟩)⟩)
      · exact Or.inl ⟨Or.inr a, z, b2, by rw [a3, b3]⟩
      · exact Or.inl ⟨Or.inr a, y, b2, a3⟩
      · exact Or.inl ⟨Or.inl b, z, b2, b3⟩
      · exact Or.inr ⟨by rintro (h | h); exacts [b h, a h], b2⟩
    · rintro (⟨a, y, a2, a3⟩ | ⟨a, a2⟩)
      · by_cases hj : j ∈ ks
        · by_cases hjk : j = k
          · exact Or.inl ⟨hj, { y with name := n }, Or.inl ⟨hjk, y, a2, rfl⟩, by rw [a3]⟩
          · exact Or.inl ⟨hj, y, Or.inr ⟨hjk, a2⟩, a3⟩
        · rcases a with a | a
          · exact Or.inr ⟨hj, Or.inl ⟨a, y, a2, a3⟩⟩
          · exact absurd a hj
      · simp only [not_or] at a
        exact Or.inr ⟨a.2, Or.inr ⟨a.1, a2⟩⟩

theorem rename_consistent {s : St} (hs : Consistent s) (n : Str) (ks : List Int) :
    Consistent { s with cat := ks.foldl (fun cat k => renameOne cat n k) s.cat } := by
  obtain ⟨h1, _⟩ := rename_fold n ks s.cat
  have hl : (ks.foldl (fun cat k => renameOne cat n k) s.cat).length = s.cat.length := by
    have := congrArg List.length h1
    simpa [keys] using this
  refine ⟨?_, ?_, ?_⟩
  · show (keys _).Nodup
    rw [h1]; exact hs.nodup
  · rw [hl]; exact hs.count
  · intro i hi
    rw [← mem_keys, h1]
    exact hs.row_key hi

/-- `_update_phase_center_id`: the entry and all its rows move to the new ID, nothing else changes. -/
theorem update_spec {pop : Pop} {s s' : St} {k : Int} {newId : Option Int} {reserved : List Int} (hs : Consistent s)
    (h : updateId pop s k newId reserved = .ok s') :
    ∃ n e, (k, e) ∈ s.cat ∧ (n = k ∨ n ∉ keys s.cat) ∧ n ∉ reserved ∧ (∀ m, newId = some m → n = m) ∧
      Consistent s' ∧ s'.ids = s.ids.map (fun i => if i = k then n else i) ∧
      ∀ j x, (j, x) ∈ s'.cat ↔ (j = n ∧ x = e) ∨ (j ≠ n ∧ j ≠ k ∧ (j, x) ∈ s.cat) := by
  unfold updateId at h
  split at h
  · simp at h
  rename_i n hn
  obtain ⟨f1, f2, f3⟩ := generateId_fresh pop _ _ _ _ _ hn
  split at h
  · simp at h
  rename_i e he
  rw [get_some hs.nodup] at he
  simp only [Except.ok.injEq] at h
  have hnk : n = k ∨ n ∉ keys s.cat := by
    by_cases hm : n ∈ keys s.cat
    · have := f2 _ rfl hm
      simp only [Option.some.injEq] at this
      exact Or.inl this.symm
    · exact Or.inr hm
  have hmem : ∀ j x, (j, x) ∈ s'.cat ↔ (j = n ∧ x = e) ∨ (j ≠ n ∧ j ≠ k ∧ (j, x) ∈ s.cat) := by
    intro j x
    rw [← h]
    simp only [mem_put, mem_del]
  refine ⟨n, e, he, hnk, f1, f3, ⟨?_, ?_, ?_⟩, by rw [← h], hmem⟩
  · rw [← h]
    exact nodup_put (nodup_del hs.nodup k) n e
  · have hkl : (keys (put (del s.cat k) n e)).length = (keys s.cat).length := by
      rw [keys_put, if_neg]
      · rw [keys_del, List.length_append, List.length_singleton]
        have hk : k ∈ keys s.cat := mem_keys.2 ⟨e, he⟩
        have h2 := hs.nodup.erase_eq_filter k
        have h3 := List.length_erase_of_mem hk
        have h4 := List.length_pos_of_mem hk
        have h5 : (keys s.cat).filter (fun j => decide (j ≠ k)) = (keys s.cat).filter (fun j => j != k) := by
          apply List.filter_congr
          intro j _
          by_cases hj : j = k <;> simp [hj]
        rw [h5, ← h2, h3]
        omega
      · rw [mem_keys_del]
        rintro ⟨a, b⟩
        rcases hnk with h | h
        · exact b h
        · exact h a
    have e1 : s'.cat.length = (keys (put (del s.cat k) n e)).length := by rw [← h]; simp [keys]
    have e2 : s'.nphase = s.nphase := by rw [← h]
    rw [e1, hkl, e2, hs.count]
    simp [keys]
  · intro i hi
    rw [← h] at hi
    simp only [List.mem_map] at hi
    obtain ⟨j, hj, hji⟩ := hi
    by_cases hjk : j = k
    · rw [if_pos hjk] at hji
      exact ⟨e, (hmem i e).2 (Or.inl ⟨hji.symm, rfl⟩)⟩
    · rw [if_neg hjk] at hji
      subst hji
      obtain ⟨x, hx⟩ := hs.rows j hj
      refine ⟨x, (hmem j x).2 (Or.inr ⟨?_, hjk, hx⟩)⟩
      rintro rfl
      rcases hnk with h | h
      · exact hjk h
      · exact h (mem_keys.2 ⟨x, hx⟩)

/-- Moving an entry to another ID changes nothing about what the rows point at. -/
theorem update_points {pop : Pop} {s s' : St} {k : Int} {newId : Option Int} {reserved : List Int} (hs : Consistent s)
    (h : updateId pop s k newId reserved = .ok s') (r : Nat) (x : Entry) : PointsAt s' r x ↔ PointsAt s r x := by
  obtain ⟨n, e, he, hnk, _, _, _, hids, hmem⟩ := update_spec hs h
  unfold PointsAt
  rw [hids]
  simp only [List.getElem?_map, Option.map_eq_some_iff]
  constructor
  · rintro ⟨i, ⟨j, hj, hji⟩, hx⟩
    refine ⟨j, hj, ?_⟩
    rw [hmem] at hx
    by_cases hjk : j = k
    · rw [if_pos hjk] at hji
      rcases hx with ⟨_, hx⟩ | ⟨hx, _⟩
      · rw [hx, hjk]; exact he
      · exact absurd hji.symm hx
    · rw [if_neg hjk] at hji
      subst hji
      rcases hx with ⟨hx, _⟩ | ⟨_, _, hx⟩
      · rcases hnk with h | h
        · exact absurd (hx.trans h) hjk
        · exact absurd (hs.row_key (List.mem_of_getElem? hj)) (hx ▸ h)
      · exact hx
  · rintro ⟨j, hj, hx⟩
    by_cases hjk : j = k
    · refine ⟨n, ⟨j, hj, by rw [if_pos hjk]⟩, (hmem n x).2 (Or.inl ⟨rfl, ?_⟩)⟩
      exact key_unique hs.nodup hx (hjk ▸ he)
    · refine ⟨j, ⟨j, hj, by rw [if_neg hjk]⟩, (hmem j x).2 (Or.inr ⟨?_, hjk, hx⟩)⟩
      rintro rfl
      rcases hnk with h | h
      · exact hjk h
      · exact h (mem_keys.2 ⟨x, hx⟩)

theorem mem_assign {ids : List Int} {rows : List Nat} {k : Int} {i : Int} (h : i ∈ assign ids rows k) :
    i = k ∨ i ∈ ids := by
  unfold assign at h
  obtain ⟨r, hr⟩ := List.mem_iff_getElem?.1 h
  rw [List.getElem?_mapIdx] at hr
  simp only [Option.map_eq_some_iff] at hr
  obtain ⟨j, hj, he⟩ := hr
  split at he
  · exact Or.inl he.symm
  · subst he; exact Or.inr (List.mem_of_getElem? hj)

theorem splitId_fresh {pop : Pop} {s : St} {newId : Option Int} {n : Int} (h : splitId pop s newId = .ok n) :
    n ∉ keys s.cat ∧ ∀ m, newId = some m → n = m := by
  unfold splitId at h
  simp only at h
  split at h
  · simp at h
  · rename_i hn
    simp only [Except.ok.injEq] at h
    subst h
    exact ⟨hn, fun m hm => by simp [hm]⟩

theorem resolve_key {cat : Cat} {w : Ident} {k : Int} (h : resolve cat w = .ok k) : k ∈ keys cat := by
  cases w with
  | name n =>
    simp only [resolve] at h
    split at h
    · simp at h
    · rename_i j hj
      simp only [Except.ok.injEq] at h
      subst h
      have : j ∈ named cat n := by rw [hj]; simp
      unfold named at this
      obtain ⟨p, hp, rfl⟩ := List.mem_map.1 this
      exact mem_keys.2 ⟨p.2, (List.mem_filter.1 hp).1⟩
    · simp at h
  | id j =>
    simp only [resolve] at h
    split at h
    · rename_i hj
      simp only [Except.ok.injEq] at h
      exact h ▸ hj
    · simp at h

/-- The three things that `split_phase_center` can do. -/
theorem split_cases {c : Consts} {pop : Pop} {s s' : St} {which : Ident} {newName : Option Str} {rows : List Nat}
    {newId : Option Int} {down : Bool} (h : split c pop s which newName rows newId down = .ok s') :
    ∃ k n, resolve s.cat which = .ok k ∧ splitId pop s newId = .ok n ∧
      ((∀ i ∈ rows, s.ids[i]? ≠ some k) ∧ s' = s ∨
       (∃ i ∈ rows, s.ids[i]? = some k) ∧ (∀ i, s.ids[i]? = some k → i ∈ rows) ∧
         (∃ t, updateId pop s k (some n) [] = .ok t ∧
            ((newName = none ∧ s' = t) ∨ ∃ nm, newName = some nm ∧ renameIds t [n] nm = .ok s')) ∨
       (∃ i ∈ rows, s.ids[i]? = some k) ∧ (∃ i, s.ids[i]? = some k ∧ i ∉ rows) ∧
         ∃ e t m, get s.cat k = some e ∧
          add c pop s { e with name := newName.getD e.name, info := user } (some n) true = .ok (t, m) ∧
          s' = { t with ids := assign t.ids (rows.filter (fun i => decide (s.ids[i]? = some k))) m }) := by
  unfold split at h
  rw [bind_ok] at h
  obtain ⟨k, hk, h⟩ := h
  rw [bind_ok] at h
  obtain ⟨n, hn, h⟩ := h
  refine ⟨k, n, hk, hn, ?_⟩
  split at h
  · simp at h
  split at h
  · simp at h
  unfold splitRows at h
  split at h
  · rename_i hnil
    simp only [Except.ok.injEq] at h
    refine Or.inl ⟨?_, h.symm⟩
    intro i hi hik
    have : i ∈ rows.filter (fun i => decide (s.ids[i]? = some k)) := List.mem_filter.2 ⟨hi, by simpa using hik⟩
    rw [hnil] at this
    exact List.not_mem_nil this
  · rename_i hne
    have hex : ∃ i ∈ rows, s.ids[i]? = some k := by
      obtain ⟨i, hi⟩ := List.exists_mem_of_ne_nil _ hne
      obtain ⟨h1, h2⟩ := List.mem_filter.1 hi
      exact ⟨i, h1, by simpa using h2⟩
    split at h
    · rename_i hall
      right; left
      refine ⟨hex, ?_, ?_⟩
      · intro i hi
        by_contra hni
        obtain ⟨hlt, _⟩ := List.getElem?_eq_some_iff.1 hi
        exact hall i hlt (fun hm => hni (List.mem_filter.1 hm).1) hi
      · unfold splitAll at h
        split at h
        · simp at h
        · rename_i t ht
          refine ⟨t, ht, ?_⟩
          rcases newName with _ | nm
          · simp only [Except.ok.injEq] at h
            exact Or.inl ⟨rfl, h.symm⟩
          · exact Or.inr ⟨nm, rfl, h⟩
    · rename_i hnall
      right; right
      refine ⟨hex, ?_, ?_⟩
      · by_contra hc
        simp only [not_exists, not_and, not_not] at hc
        apply hnall
        intro i _ hni hik
        exact hni (List.mem_filter.2 ⟨hc i hik, by simpa using hik⟩)
      · unfold splitSome at h
        split at h
        · simp at h
        · rename_i e he
          split at h
          · simp at h
          · rename_i t m ht
            simp only [Except.ok.injEq] at h
            exact ⟨e, t, m, he, ht, h.symm⟩

theorem renameIds_ok {s s' : St} {ks : List Int} {n : Str} (h : renameIds s ks n = .ok s') :
    s' = { s with cat := ks.foldl (fun cat k => renameOne cat n k) s.cat } := by
  unfold renameIds at h
  split at h
  · simp at h
  · simpa using h.symm

theorem split_consistent {c : Consts} {pop : Pop} {s s' : St} {which : Ident} {newName : Option Str} {rows : List Nat}
    {newId : Option Int} {down : Bool} (hs : Consistent s) (h : split c pop s which newName rows newId down = .ok s') :
    Consistent s' := by
  obtain ⟨k, n, _, _, h | ⟨_, _, t, ht, h⟩ | ⟨_, _, e, t, m, _, ht, h⟩⟩ := split_cases h
  · rw [h.2]; exact hs
  · obtain ⟨_, _, _, _, _, _, hc, _⟩ := update_spec hs ht
    rcases h with ⟨_, rfl⟩ | ⟨nm, _, h⟩
    · exact hc
    · rw [renameIds_ok h]
      exact rename_consistent hc nm [n]
  · obtain ⟨hc, _, hm, _⟩ := add_spec hs ht
    rw [h]
    refine ⟨hc.distinct, hc.count, ?_⟩
    intro i hi
    rcases mem_assign hi with rfl | hi
    · exact mem_keys.1 hm
    · exact hc.rows i hi

/-- `merge_phase_centers` with entries named at most once. -/
theorem merge_spec {c : Consts} {s s' : St} {which : List Ident} {force ign : Bool} (hs : Consistent s)
    (h : merge c s which force ign = .ok s') (l : List Int) (hl : mergeList s.cat which = .ok l) (hd : l.Nodup) :
    Consistent s' ∧
    (l.length < 2 ∧ s' = s ∨ ∃ k rest, l = k :: rest ∧ rest ≠ [] ∧
      s'.ids = s.ids.map (fun i => if i ∈ l then k else i) ∧
      (∀ j x, (j, x) ∈ s'.cat ↔ j ∉ rest ∧ (j, x) ∈ s.cat)) := by
  unfold merge at h
  rw [bind_ok] at h
  obtain ⟨l', hl', h⟩ := h
  rw [hl] at hl'
  simp only [Except.ok.injEq] at hl'
  subst hl'
  rcases l with _ | ⟨k, _ | ⟨k', rest⟩⟩
  · simp only [Except.ok.injEq] at h
    subst h
    exact ⟨hs, Or.inl ⟨by simp, rfl⟩⟩
  · simp only [Except.ok.injEq] at h
    subst h
    exact ⟨hs, Or.inl ⟨by simp, rfl⟩⟩
  · simp only at h
    split at h
    · simp at h
    · obtain ⟨a1, a2, a3, a4, _⟩ := remove_fold (s := { s with ids := s.ids.map (fun i => if i ∈ k :: k' :: rest then k else i) })
        hs.nodup hs.count h
      have hkk : ∀ {cat : Cat} {w : List Ident} {l : List Int}, mergeList cat w = .ok l → ∀ j ∈ l, j ∈ keys cat := by
        intro cat w
        induction w with
        | nil => intro l h; simp only [mergeList, Except.ok.injEq] at h; subst h; simp
        | cons q w ih =>
          intro l h
          cases q with
          | name n =>
            simp only [mergeList] at h
            split at h
            · simp at h
            · cases hm : mergeList cat w with
              | error e => rw [hm] at h; simp [Except.map] at h
              | ok l' =>
                rw [hm] at h
                simp only [Except.map, Except.ok.injEq] at h
                subst h
                intro j hj
                rcases List.mem_append.1 hj with hj | hj
                · unfold named at hj
                  obtain ⟨p, hp, rfl⟩ := List.mem_map.1 hj
                  exact mem_keys.2 ⟨p.2, (List.mem_filter.1 hp).1⟩
                · exact ih hm j hj
          | id k =>
            simp only [mergeList] at h
            split at h
            · rename_i hk
              cases hm : mergeList cat w with
              | error e => rw [hm] at h; simp [Except.map] at h
              | ok l' =>
                rw [hm] at h
                simp only [Except.map, Except.ok.injEq] at h
                subst h
                intro j hj
                rcases List.mem_cons.1 hj with rfl | hj
                · exact hk
                · exact ih hm j hj
            · simp at h
      have hk := hkk hl k List.mem_cons_self
      have hkr : k ∉ k' :: rest := (List.nodup_cons.1 hd).1
      refine ⟨⟨a1, a2, ?_⟩, Or.inr ⟨k, k' :: rest, rfl, by simp, a3, a4⟩⟩
      intro i hi
      rw [a3] at hi
      simp only [List.mem_map] at hi
      obtain ⟨j, hj, hji⟩ := hi
      by_cases hjl : j ∈ k :: k' :: rest
      · rw [if_pos hjl] at hji
        subst hji
        obtain ⟨x, hx⟩ := mem_keys.1 hk
        exact ⟨x, (a4 _ x).2 ⟨hkr, hx⟩⟩
      · rw [if_neg hjl] at hji
        subst hji
        obtain ⟨x, hx⟩ := hs.rows _ hj
        exact ⟨x, (a4 _ x).2 ⟨fun h => hjl (List.mem_cons_of_mem _ h), hx⟩⟩

end Verif.PhaseCat
