import Verif.PhaseCat.Props

/-! C21: consolidating the catalog of one object with that of another. -/
namespace Verif.PhaseCat
open Verif.Pol (Str)

theorem sameContents_refl (ign : Bool) (e : Entry) : SameContents ign e e := by
  cases ign <;> rfl

theorem sameContents_trans {ign : Bool} {a b d : Entry} (h1 : SameContents ign a b) (h2 : SameContents ign b d) :
    SameContents ign a d := by
  unfold SameContents at *
  rw [← h2, ← h1]
  cases ign <;> rfl

/-- Matching depends only on the contents. -/
theorem matches_congr {c : Consts} {ign : Bool} {p e e' : Entry} (h : SameContents ign e e') :
    Matches c ign p e ↔ Matches c ign p e' := by
  unfold SameContents at h
  rw [← h]
  cases ign
  · exact ⟨fun m => ⟨⟨m.1.type, m.1.lon, m.1.lat, m.1.frame, m.1.epoch, m.1.times, m.1.pmRa, m.1.pmDec, m.1.dist,
      m.1.vrad⟩, m.2⟩, fun m => ⟨⟨m.1.type, m.1.lon, m.1.lat, m.1.frame, m.1.epoch, m.1.times, m.1.pmRa, m.1.pmDec,
      m.1.dist, m.1.vrad⟩, m.2⟩⟩
  · exact ⟨fun m => ⟨⟨m.1.type, m.1.lon, m.1.lat, m.1.frame, m.1.epoch, m.1.times, m.1.pmRa, m.1.pmDec, m.1.dist,
      m.1.vrad⟩, by simp⟩, fun m => ⟨⟨m.1.type, m.1.lon, m.1.lat, m.1.frame, m.1.epoch, m.1.times, m.1.pmRa, m.1.pmDec,
      m.1.dist, m.1.vrad⟩, by simp⟩⟩

theorem sameContents_adopt (ign : Bool) (r e : Entry) : SameContents ign e (adopt ign r e) := by
  cases ign <;> rfl

/-- Every row of `s'` points at the same contents as the row of `s`. -/
def SameRows (ign : Bool) (s s' : St) : Prop :=
  s'.ids.length = s.ids.length ∧ ∀ r e, PointsAt s r e → ∃ e', PointsAt s' r e' ∧ SameContents ign e e'

theorem sameRows_refl (ign : Bool) (s : St) : SameRows ign s s :=
  ⟨rfl, fun _ e h => ⟨e, h, sameContents_refl ign e⟩⟩

theorem sameRows_trans {ign : Bool} {a b d : St} (h1 : SameRows ign a b) (h2 : SameRows ign b d) : SameRows ign a d := by
  refine ⟨h2.1.trans h1.1, fun r e h => ?_⟩
  obtain ⟨e1, p1, c1⟩ := h1.2 r e h
  obtain ⟨e2, p2, c2⟩ := h2.2 r e1 p1
  exact ⟨e2, p2, sameContents_trans c1 c2⟩

theorem update_exists (pop : Pop) {s : St} {k : Int} (hk : k ∈ keys s.cat) (reserved : List Int) :
    ∃ s', updateId pop s k none reserved = .ok s' := by
  obtain ⟨n, hn, _⟩ := generateId_default pop (keys s.cat) (some k) reserved (by simpa using hk)
  obtain ⟨e, he⟩ := get_isSome.2 hk
  unfold updateId
  rw [hn]
  simp only [he]
  exact ⟨_, rfl⟩

theorem update_to_exists (pop : Pop) {s : St} {k n : Int} (hk : k ∈ keys s.cat) (hn : n ∉ keys s.cat) :
    ∃ s', updateId pop s k (some n) [] = .ok s' := by
  obtain ⟨e, he⟩ := get_isSome.2 hk
  have hg : generateId pop (some (keys s.cat)) (some n) (some k) [] = .ok n := by
    unfold generateId
    rw [if_neg (by simp), if_neg]
    · simp only
      rw [if_neg]
      rw [mem_usedIds]
      simp [hn]
    · rintro ⟨_, h⟩
      exact h k (by simpa using hk) rfl
  unfold updateId
  rw [hg]
  simp only [he]
  exact ⟨_, rfl⟩

/-- First loop: afterwards no ID collides with the reference, and nothing else has changed. -/
theorem clear_fold (pop : Pop) (reserved : List Int) : ∀ (todo : List Int) (s : St), Consistent s → todo.Nodup →
    (∀ k ∈ todo, k ∈ keys s.cat) → (∀ k ∈ keys s.cat, k ∈ reserved → k ∈ todo) →
    ∃ s', todo.foldlM (fun s k => updateId pop s k none reserved) s = .ok s' ∧ Consistent s' ∧
      SameRows false s s' ∧ (∀ k ∈ keys s'.cat, k ∉ reserved) ∧
      (∀ k e, (k, e) ∈ s'.cat → ∃ j, (j, e) ∈ s.cat) := by
  intro todo
  induction todo with
  | nil =>
    intro s hs _ _ hr
    exact ⟨s, rfl, hs, sameRows_refl _ _, fun k hk hkr => List.not_mem_nil (hr k hk hkr), fun k e h => ⟨k, h⟩⟩
  | cons k todo ih =>
    intro s hs hnd hin hr
    obtain ⟨s1, h1⟩ := update_exists pop (hin k List.mem_cons_self) reserved
    obtain ⟨n, e, he, hnk, hnr, _, hc, hids, hmem⟩ := update_spec hs h1
    have hk1 : ∀ j, j ∈ keys s1.cat ↔ j = n ∨ (j ≠ k ∧ j ∈ keys s.cat) := by
      intro j
      constructor
      · intro hj
        obtain ⟨x, hx⟩ := mem_keys.1 hj
        rcases (hmem j x).1 hx with ⟨a, _⟩ | ⟨_, a, b⟩
        · exact Or.inl a
        · exact Or.inr ⟨a, mem_keys.2 ⟨x, b⟩⟩
      · rintro (rfl | ⟨a, b⟩)
        · exact mem_keys.2 ⟨e, (hmem _ e).2 (Or.inl ⟨rfl, rfl⟩)⟩
        · obtain ⟨x, hx⟩ := mem_keys.1 b
          by_cases hjn : j = n
          · exact mem_keys.2 ⟨e, (hmem j e).2 (Or.inl ⟨hjn, rfl⟩)⟩
          · exact mem_keys.2 ⟨x, (hmem j x).2 (Or.inr ⟨hjn, a, hx⟩)⟩
    obtain ⟨hkt, hnd'⟩ := List.nodup_cons.1 hnd
    obtain ⟨s2, h2, a1, a2, a3, a4⟩ := ih s1 hc hnd'
      (fun j hj => (hk1 j).2 (Or.inr ⟨fun h => hkt (h ▸ hj), hin j (List.mem_cons_of_mem _ hj)⟩))
      (fun j hj hjr => by
        rcases (hk1 j).1 hj with rfl | ⟨a, b⟩
        · exact absurd hjr hnr
        · rcases List.mem_cons.1 (hr j b hjr) with rfl | h
          · exact absurd rfl a
          · exact h)
    refine ⟨s2, ?_, a1, ?_, a3, ?_⟩
    · rw [List.foldlM_cons, h1]
      exact h2
    · refine sameRows_trans ⟨?_, ?_⟩ a2
      · rw [hids]; simp
      · intro r x hx
        exact ⟨x, (update_points hs h1 r x).2 hx, sameContents_refl _ _⟩
    · intro j x hx
      obtain ⟨i, hi⟩ := a4 j x hx
      rcases (hmem i x).1 hi with ⟨_, b⟩ | ⟨_, _, b⟩
      · exact ⟨k, b ▸ he⟩
      · exact ⟨i, b⟩

theorem add_new (c : Consts) (pop : Pop) {s : St} {k : Int} {e : Entry} (hw : WellFormed c e) (hk : k ∉ keys s.cat)
    (hno : ∀ j x, (j, x) ∈ s.cat → ¬Matches c false e x) :
    add c pop s e (some k) false = .ok ({ s with cat := put s.cat k e, nphase := (put s.cat k e).length }, k) := by
  have hg : addId pop s (some k) false = .ok k := by
    unfold addId generateId
    have hu : k ∉ usedIds (some (keys s.cat)) none [] := by
      rw [mem_usedIds]
      simp [hk]
    simp [hu]
  unfold add
  rw [wellformed_accepted c e hw, hg]
  simp only [bind, Except.bind, pure, Except.pure, Except.ok.injEq]
  unfold insert
  rcases look_spec c s.cat e false with ⟨t, x, _, hx, hm⟩ | ⟨hl, _⟩
  · exact absurd hm (hno t x hx)
  · split
    · rename_i t hlk
      exact absurd hlk (hl t)
    · rfl

/-- What the second loop has achieved after the part `done` of the reference catalog. -/
structure Absorbed (c : Consts) (ign : Bool) (s0 : St) (done todo : Cat) (s : St) : Prop where
  cons : Consistent s
  rows : SameRows ign s0 s
  apart : ∀ k ∈ keys s.cat, k ∉ keys todo
  agree : ∀ k e e', (k, e) ∈ done → (k, e') ∈ s.cat → Matches c ign e e' ∧ e'.name = e.name ∧ e'.info = e.info
  origin : ∀ k e, (k, e) ∈ s.cat → ∃ x, ((∃ j, (j, x) ∈ s0.cat) ∨ ∃ j, (j, x) ∈ done) ∧ SameContents ign x e

/-- No entry of either catalog matches two different entries of the reference. -/
def Separated (c : Consts) (ign : Bool) (s : St) (ref : Cat) : Prop :=
  ∀ k e k' e' x, (k, e) ∈ ref → (k', e') ∈ ref → ((∃ j, (j, x) ∈ s.cat) ∨ ∃ j, (j, x) ∈ ref) →
    Matches c ign e x → Matches c ign e' x → k = k'

theorem absorb_step (c : Consts) (pop : Pop) (ign : Bool) (hr : 0 ≤ c.radTol) (s0 : St) (done todo : Cat) (r : Int × Entry)
    (s : St) (h : Absorbed c ign s0 done (r :: todo) s) (hnd : (keys (done ++ r :: todo)).Nodup) (hw : WellFormed c r.2) :
    ∃ s', absorb c pop ign s r = .ok s' ∧ Absorbed c ign s0 (done ++ [r]) todo s' ∧ r.1 ∈ keys s'.cat ∧
      (∀ k ∈ keys s.cat, k ∈ keys s'.cat ∨ ∃ e, (k, e) ∈ s.cat ∧ Matches c ign r.2 e) := by
  obtain ⟨k, e⟩ := r
  have hkfresh : k ∉ keys s.cat := fun hk => h.apart k hk (mem_keys.2 ⟨e, List.mem_cons_self⟩)
  have hnd' : (keys done ++ k :: keys todo).Nodup := by simpa [keys] using hnd
  have hkt : k ∉ keys todo := (List.nodup_cons.1 (List.nodup_append.1 hnd').2.1).1
  have hkd : k ∉ keys done := fun hk => (List.nodup_append.1 hnd').2.2 k hk k List.mem_cons_self rfl
  unfold absorb
  rcases look_spec c s.cat e ign with ⟨m, x, hl, hx, hm⟩ | ⟨hl, hno⟩
  · -- an entry matches: it moves to the ID of the reference
    obtain ⟨t, ht⟩ := update_to_exists pop (mem_keys.2 ⟨x, hx⟩) hkfresh
    obtain ⟨n, y, hy, _, _, hn, hc, hids, hmem⟩ := update_spec h.cons ht
    obtain rfl := hn k rfl
    have hyx : y = x := key_unique h.cons.nodup hy hx
    subst hyx
    rw [hl]
    simp only [ht]
    have hcons : Consistent { t with cat := modifyAt t.cat n (adopt ign e) } := by
      refine ⟨?_, ?_, ?_⟩
      · have := hc.nodup
        rw [← keys_modify t.cat n (adopt ign e)] at this
        exact this
      · rw [hc.count]; simp [modifyAt]
      · intro i hi
        have := hc.row_key hi
        rw [← keys_modify t.cat n (adopt ign e)] at this
        exact mem_keys.1 this
    refine ⟨{ t with cat := modifyAt t.cat n (adopt ign e) }, rfl, ⟨hcons, ?_, ?_, ?_, ?_⟩, ?_, ?_⟩
    · -- rows
      refine sameRows_trans h.rows ⟨?_, ?_⟩
      · simp only [hids, List.length_map]
      · intro r z hz
        obtain ⟨i, hi, hiz⟩ := (update_points h.cons ht r z).2 hz
        by_cases hin : i = n
        · exact ⟨adopt ign e z, ⟨i, hi, mem_modify.2 (Or.inl ⟨hin, z, hiz, rfl⟩)⟩, sameContents_adopt _ _ _⟩
        · exact ⟨z, ⟨i, hi, mem_modify.2 (Or.inr ⟨hin, hiz⟩)⟩, sameContents_refl _ _⟩
    · -- apart
      intro j hj
      rw [keys_modify] at hj
      obtain ⟨z, hz⟩ := mem_keys.1 hj
      rcases (hmem j z).1 hz with ⟨a, _⟩ | ⟨_, _, b⟩
      · rw [a]; exact hkt
      · intro hjt
        refine h.apart j (mem_keys.2 ⟨z, b⟩) ?_
        obtain ⟨w, hw⟩ := mem_keys.1 hjt
        exact mem_keys.2 ⟨w, List.mem_cons_of_mem _ hw⟩
    · -- agree
      intro j a b ha hb
      rcases mem_modify.1 hb with ⟨hj, z, hz, rfl⟩ | ⟨hj, hb⟩
      · have hz' : z = y := by
          rcases (hmem j z).1 hz with ⟨_, q⟩ | ⟨q, _⟩
          · exact q
          · exact absurd hj q
        have ha' : a = e := by
          rcases List.mem_append.1 ha with ha | ha
          · exact absurd (mem_keys.2 ⟨a, hj ▸ ha⟩) hkd
          · simp only [List.mem_singleton, Prod.mk.injEq] at ha; exact ha.2
        subst hz' ha'
        refine ⟨(matches_congr (sameContents_adopt ign a z)).1 hm, ?_, rfl⟩
        cases ign
        · exact (hm.2 rfl).symm
        · rfl
      · rcases List.mem_append.1 ha with ha | ha
        · rcases (hmem j b).1 hb with ⟨q, _⟩ | ⟨_, _, q⟩
          · exact absurd q hj
          · exact h.agree j a b ha q
        · simp only [List.mem_singleton, Prod.mk.injEq] at ha
          exact absurd ha.1 hj
    · -- origin
      intro j b hb
      rcases mem_modify.1 hb with ⟨hj, z, hz, rfl⟩ | ⟨hj, hb⟩
      · have hz' : z = y := by
          rcases (hmem j z).1 hz with ⟨_, q⟩ | ⟨q, _⟩
          · exact q
          · exact absurd hj q
        subst hz'
        obtain ⟨w, hw1, hw2⟩ := h.origin m z hx
        refine ⟨w, ?_, sameContents_trans hw2 (sameContents_adopt _ _ _)⟩
        rcases hw1 with q | ⟨i, q⟩
        · exact Or.inl q
        · exact Or.inr ⟨i, List.mem_append_left _ q⟩
      · rcases (hmem j b).1 hb with ⟨q, _⟩ | ⟨_, _, q⟩
        · exact absurd q hj
        · obtain ⟨w, hw1, hw2⟩ := h.origin j b q
          refine ⟨w, ?_, hw2⟩
          rcases hw1 with q | ⟨i, q⟩
          · exact Or.inl q
          · exact Or.inr ⟨i, List.mem_append_left _ q⟩
    · rw [keys_modify]
      exact mem_keys.2 ⟨y, (hmem n y).2 (Or.inl ⟨rfl, rfl⟩)⟩
    · intro j hj
      obtain ⟨z, hz⟩ := mem_keys.1 hj
      by_cases hjm : j = m
      · exact Or.inr ⟨y, hjm ▸ hx, hm⟩
      · left
        rw [keys_modify]
        refine mem_keys.2 ⟨z, (hmem j z).2 (Or.inr ⟨?_, hjm, hz⟩)⟩
        rintro rfl
        exact hkfresh hj
  · -- no entry matches: a copy of the reference entry is added
    have hno' : ∀ j x, (j, x) ∈ s.cat → ¬Matches c false e x := by
      intro j x hx hm
      refine hno j x hx ⟨hm.1, fun _ => hm.2 rfl⟩
    have hadd := add_new c pop hw hkfresh hno'
    have hres : absorb c pop ign s (k, e) = .ok { s with cat := put s.cat k e, nphase := (put s.cat k e).length } := by
      unfold absorb
      split
      · rename_i m hlk
        exact absurd hlk (hl m)
      · rw [hadd]; rfl
    unfold absorb at hres
    refine ⟨_, hres, ⟨?_, ?_, ?_, ?_, ?_⟩, mem_keys_put.2 (Or.inl rfl), fun j hj => Or.inl (mem_keys_put.2 (Or.inr hj))⟩
    · exact mk_consistent (nodup_put h.cons.nodup _ _) (fun i hi => mem_keys_put.2 (Or.inr (h.cons.row_key hi)))
    · refine sameRows_trans h.rows ⟨rfl, ?_⟩
      rintro r z ⟨i, hi, hz⟩
      refine ⟨z, ⟨i, hi, mem_put.2 (Or.inr ⟨?_, hz⟩)⟩, sameContents_refl _ _⟩
      rintro rfl
      exact hkfresh (mem_keys.2 ⟨z, hz⟩)
    · intro j hj
      rcases mem_keys_put.1 hj with rfl | hj
      · exact hkt
      · intro hjt
        refine h.apart j hj ?_
        obtain ⟨w, hw⟩ := mem_keys.1 hjt
        exact mem_keys.2 ⟨w, List.mem_cons_of_mem _ hw⟩
    · intro j a b ha hb
      rcases mem_put.1 hb with ⟨hj, hbe⟩ | ⟨hj, hb⟩
      · have ha' : a = e := by
          rcases List.mem_append.1 ha with ha | ha
          · exact absurd (mem_keys.2 ⟨a, hj ▸ ha⟩) hkd
          · simp only [List.mem_singleton, Prod.mk.injEq] at ha; exact ha.2
        subst hbe ha'
        exact ⟨⟨equivalent_refl hr _, fun _ => rfl⟩, rfl, rfl⟩
      · rcases List.mem_append.1 ha with ha | ha
        · exact h.agree j a b ha hb
        · simp only [List.mem_singleton, Prod.mk.injEq] at ha
          exact absurd ha.1 hj
    · intro j b hb
      rcases mem_put.1 hb with ⟨hj, hbe⟩ | ⟨hj, hb⟩
      · exact ⟨e, Or.inr ⟨k, by simp⟩, hbe ▸ sameContents_refl _ _⟩
      · obtain ⟨w, hw1, hw2⟩ := h.origin j b hb
        refine ⟨w, ?_, hw2⟩
        rcases hw1 with q | ⟨i, q⟩
        · exact Or.inl q
        · exact Or.inr ⟨i, List.mem_append_left _ q⟩

theorem absorb_fold (c : Consts) (pop : Pop) (ign : Bool) (hr : 0 ≤ c.radTol) (s0 : St) : ∀ (todo done : Cat) (s : St),
    Absorbed c ign s0 done todo s → (keys (done ++ todo)).Nodup → (∀ k e, (k, e) ∈ todo → WellFormed c e) →
    ∃ s', todo.foldlM (absorb c pop ign) s = .ok s' ∧ Absorbed c ign s0 (done ++ todo) [] s' ∧
      (Separated c ign s0 (done ++ todo) → (∀ k ∈ keys done, k ∈ keys s.cat) → ∀ k ∈ keys (done ++ todo), k ∈ keys s'.cat) := by
  intro todo
  induction todo with
  | nil =>
    intro done s h _ _
    refine ⟨s, rfl, by simpa using h, fun _ hd k hk => hd k (by simpa using hk)⟩
  | cons r todo ih =>
    intro done s h hnd hw
    obtain ⟨s1, h1, h2, h3, h4⟩ := absorb_step c pop ign hr s0 done todo r s h hnd (hw r.1 r.2 List.mem_cons_self)
    have heq : done ++ [r] ++ todo = done ++ r :: todo := by simp
    obtain ⟨s2, g1, g2, g3⟩ := ih (done ++ [r]) s1 h2 (by rw [heq]; exact hnd)
      (fun k e hk => hw k e (List.mem_cons_of_mem _ hk))
    rw [heq] at g2 g3
    refine ⟨s2, ?_, g2, ?_⟩
    · rw [List.foldlM_cons, h1]; exact g1
    · intro hsep hd
      apply g3 hsep
      intro k hk
      have hkd : k ∈ keys done ∨ k = r.1 := by simpa [keys, or_comm] using hk
      rcases hkd with hkd | rfl
      · rcases h4 k (hd k hkd) with q | ⟨x, hx, hm⟩
        · exact q
        · -- the entry of `k` cannot match a second entry of the reference
          exfalso
          obtain ⟨e, he⟩ := mem_keys.1 hkd
          have hag := (h.agree k e x he hx).1
          obtain ⟨w, hw1, hw2⟩ := h.origin k x hx
          have hk' : k = r.1 := hsep k e r.1 r.2 w (List.mem_append_left _ he)
            (List.mem_append_right _ List.mem_cons_self)
            (by
              rcases hw1 with q | ⟨i, q⟩
              · exact Or.inl q
              · exact Or.inr ⟨i, List.mem_append_left _ q⟩)
            ((matches_congr hw2).2 hag) ((matches_congr hw2).2 hm)
          have hnd' : (keys done ++ r.1 :: keys todo).Nodup := by simpa [keys] using hnd
          exact (List.nodup_append.1 hnd').2.2 k hkd r.1 List.mem_cons_self hk'
      · exact h3

/-- C21: consolidation never fails on well-formed catalogs, keeps the object consistent, every row still points at the
same contents (the name may be replaced if names are ignored), and an ID that both catalogs have afterwards denotes
matching entries with the same name and source. -/
theorem consolidate_keeps (c : Consts) (pop : Pop) (ign : Bool) (hr : 0 ≤ c.radTol) (ref : Cat) (s : St)
    (hs : Consistent s) (hnd : (ref.map Prod.fst).Nodup) (hw : ∀ k e, (k, e) ∈ ref → WellFormed c e) :
    ∃ s', consolidate c pop ign ref s = .ok s' ∧ Consistent s' ∧ s'.ids.length = s.ids.length ∧
      (∀ r e, PointsAt s r e → ∃ e', PointsAt s' r e' ∧ SameContents ign e e') ∧
      (∀ k e e', (k, e) ∈ ref → (k, e') ∈ s'.cat → Matches c ign e e' ∧ e'.name = e.name ∧ e'.info = e.info) ∧
      (Separated c ign s ref → ∀ k e, (k, e) ∈ ref → ∃ e', (k, e') ∈ s'.cat) := by
  obtain ⟨s1, h1, a1, a2, a3, a4⟩ := clear_fold pop (keys ref) (keys s.cat) s hs hs.nodup (fun k hk => hk)
    (fun k hk _ => hk)
  have hrows1 : SameRows ign s s1 := ⟨a2.1, fun r e h => by
    obtain ⟨e', p, q⟩ := a2.2 r e h
    refine ⟨e', p, ?_⟩
    unfold SameContents at *
    rw [← q]; cases ign <;> rfl⟩
  have hab : Absorbed c ign s [] ref s1 := by
    refine ⟨a1, hrows1, a3, by simp, ?_⟩
    intro k e hk
    obtain ⟨j, hj⟩ := a4 k e hk
    exact ⟨e, Or.inl ⟨j, hj⟩, sameContents_refl _ _⟩
  obtain ⟨s2, g1, g2, g3⟩ := absorb_fold c pop ign hr s ref [] s1 hab hnd hw
  simp only [List.nil_append] at g2 g3
  refine ⟨s2, ?_, g2.cons, g2.rows.1, g2.rows.2, g2.agree, ?_⟩
  · unfold consolidate clearIds
    rw [h1]
    exact g1
  · intro hsep k e hk
    exact mem_keys.1 (g3 hsep (by simp [keys]) k (mem_keys.2 ⟨e, hk⟩))

/-- C21 for the sum of two objects: when the second object's catalog is the reference and the rows are then put
together, every row of the second object points at an entry matching its own, and the joint object is consistent
(provided that no entry matches two different entries of the reference). -/
theorem combined_rows_partial (c : Consts) (pop : Pop) (ign : Bool) (hr : 0 ≤ c.radTol) (other s s' : St)
    (hs : Consistent s) (ho : Consistent other) (hw : ∀ k e, (k, e) ∈ other.cat → WellFormed c e)
    (hsep : Separated c ign s other.cat) (h : consolidate c pop ign other.cat s = .ok s') :
    Consistent ⟨s'.cat, s'.ids ++ other.ids, s'.cat.length⟩ ∧
      ∀ r e, PointsAt other r e →
        ∃ e', PointsAt ⟨s'.cat, s'.ids ++ other.ids, s'.cat.length⟩ (s'.ids.length + r) e' ∧ Matches c ign e e' ∧
          e'.name = e.name := by
  obtain ⟨t, h1, h2, _, _, h5, h6⟩ := consolidate_keeps c pop ign hr other.cat s hs ho.distinct hw
  rw [h] at h1
  simp only [Except.ok.injEq] at h1
  subst h1
  constructor
  · refine ⟨h2.distinct, rfl, ?_⟩
    intro i hi
    rcases List.mem_append.1 hi with hi | hi
    · exact h2.rows i hi
    · obtain ⟨e, he⟩ := ho.rows i hi
      exact h6 hsep i e he
  · rintro r e ⟨i, hi, he⟩
    obtain ⟨e', he'⟩ := h6 hsep i e he
    obtain ⟨m1, m2, _⟩ := h5 i e e' he he'
    refine ⟨e', ⟨i, ?_, he'⟩, m1, m2⟩
    rw [List.getElem?_append_right (by omega)]
    simpa using hi

/-! ### Concrete cases -/

/-- Two names for one position. -/
def twins : Cat := [(0, { comet with name := ['a'] }), (1, { comet with name := ['b'] })]

/-- One source that is also in `twins`, and one that is not. -/
def mixed : St :=
  { cat := [(1, { comet with name := ['a'] }), (0, { comet with name := ['d'], frame := some ['f'] })], ids := [1, 0, 1],
    nphase := 2 }

example : (consolidate consts slotPop false twins mixed).map (fun s => (s.ids, s.cat.map Prod.fst)) =
    .ok ([0, 3, 0], [3, 0, 1]) := by decide +kernel

/-- C21, where it fails: if names are ignored, one entry takes the place of both twins in turn, and the rows of the
other object that point at the first twin are left without an entry. -/
theorem consolidate_twins_counterexample :
    (consolidate consts slotPop true twins mixed).map (fun s => (s.ids, s.cat.map Prod.fst)) =
      .ok ([1, 3, 1], [3, 1]) := by
  decide +kernel

theorem comet_wf (n : Str) : WellFormed consts { comet with name := n } := by
  have h : WellFormed consts comet := entry_wellformed consts comet comet (by decide +kernel)
  exact ⟨h.type, h.lon, h.lat, h.frame, h.pm, h.times, h.ephem, h.scalars, h.horizontal, h.zenith⟩

theorem mixed_consistent : Consistent mixed :=
  ⟨by decide, rfl, by
    intro i hi
    simp only [mixed, List.mem_cons, List.not_mem_nil, or_false] at hi
    rcases hi with rfl | rfl | rfl
    · exact ⟨_, List.mem_cons_self⟩
    · exact ⟨_, List.mem_cons_of_mem _ List.mem_cons_self⟩
    · exact ⟨_, List.mem_cons_self⟩⟩

/-- The hypotheses of `consolidate_keeps` and `combined_rows_partial` hold for these objects. -/
example : Consistent mixed ∧ Consistent twoSources ∧ (twins.map Prod.fst).Nodup ∧ 0 ≤ consts.radTol ∧
    (∀ k e, (k, e) ∈ twoSources.cat → WellFormed consts e) ∧ Separated consts false mixed twoSources.cat := by
  refine ⟨mixed_consistent, twoSources_consistent, by decide, by decide +kernel, ?_, ?_⟩
  · intro k e h
    simp only [twoSources, List.mem_cons, Prod.mk.injEq, List.not_mem_nil, or_false] at h
    rcases h with ⟨_, rfl⟩ | ⟨_, rfl⟩ <;> exact comet_wf _
  · intro k e k' e' x h h' _ hm hm'
    have hn : e.name = e'.name := (hm.2 rfl).trans (hm'.2 rfl).symm
    simp only [twoSources, List.mem_cons, Prod.mk.injEq, List.not_mem_nil, or_false] at h h'
    rcases h with ⟨rfl, rfl⟩ | ⟨rfl, rfl⟩ <;> rcases h' with ⟨rfl, rfl⟩ | ⟨rfl, rfl⟩ <;> first | rfl | (revert hn; decide)

/-- The hypotheses of `split_moves_partial`. -/
example : (split consts slotPop twoSources (.id 0) (some ['x']) [0, 1] (some 7) true).map
      (fun s => (s.ids, s.cat.map Prod.fst)) = .ok ([7, 1, 0], [0, 1, 7]) ∧
    (∀ k e, (k, e) ∈ twoSources.cat → e.name ≠ ['x']) := by
  refine ⟨by decide +kernel, ?_⟩
  intro k e h
  simp only [twoSources, List.mem_cons, Prod.mk.injEq, List.not_mem_nil, or_false] at h
  rcases h with ⟨_, rfl⟩ | ⟨_, rfl⟩ <;> decide

end Verif.PhaseCat
