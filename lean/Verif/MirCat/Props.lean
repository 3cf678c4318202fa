import Verif.MirCat.Model

/-! Theorems about MIR data of different files that are put together. -/

namespace Verif.MirCat

variable {F P R V J : Type}

/-- Header keys are different, and those of files, positions and data that are loaded are keys of records. -/
structure Good (o : Obj F P R V J) : Prop where
  ints : o.ints.Nodup
  sps : (o.spectra.map Prod.fst).Nodup
  int : ∀ p ∈ o.spectra, p.2 ∈ o.ints
  dict : ∀ p ∈ o.spDict, p.1 ∈ o.ints ∧ ∀ q ∈ p.2, ∃ i, (q.1, i) ∈ o.spectra
  file : ∀ f ∈ o.files, ∀ q ∈ f.2, q.1 ∈ o.ints
  vis : ∀ v, o.vis = some v → ∀ q ∈ v, ∃ i, (q.1, i) ∈ o.spectra

theorem le_top {l : List Nat} {k : Nat} (h : k ∈ l) : k ≤ top l := by
  unfold top
  induction l with
  | nil => cases h
  | cons x l ih =>
    rw [List.foldr_cons]
    rcases List.mem_cons.1 h with rfl | h
    · exact Nat.le_max_left _ _
    · exact Nat.le_trans (ih h) (Nat.le_max_right _ _)

theorem newKey_gt {own other : List Nat} {k : Nat} (h : k ∈ own) : ∀ x ∈ other, x < newKey own other k := by
  intro x hx
  unfold newKey
  rw [if_pos h]
  have := le_top hx
  omega

theorem newKey_inj {own other : List Nat} {k l : Nat} (hk : k ∈ own) (hl : l ∈ own) (e : newKey own other k = newKey own other l) : k = l := by
  unfold newKey at e
  rw [if_pos hk, if_pos hl] at e
  exact (List.idxOf_inj hk).1 (by omega)

theorem get_append (d e : List (Nat × V)) (k : Nat) : get (d ++ e) k = (get e k).or (get d k) := by
  unfold get
  rw [List.filter_append, List.getLast?_append]
  cases (e.filter (fun p => p.1 == k)).getLast? <;> simp

theorem get_none {d : List (Nat × V)} {k : Nat} (h : ∀ p ∈ d, p.1 ≠ k) : get d k = none := by
  unfold get
  rw [List.filter_eq_nil_iff.2 (fun p hp => by simpa using h p hp)]
  rfl

theorem get_some_mem {d : List (Nat × V)} {k : Nat} {v : V} (h : get d k = some v) : (k, v) ∈ d := by
  unfold get at h
  rw [Option.map_eq_some_iff] at h
  obtain ⟨p, hp, rfl⟩ := h
  have := List.mem_of_getLast? hp
  obtain ⟨h1, h2⟩ := List.mem_filter.1 this
  have : p.1 = k := by simpa using h2
  rw [← this]
  exact h1

/-- Keys of a dictionary are changed. -/
theorem get_map {W : Type} {d : List (Nat × V)} {k : Nat} {g : Nat → Nat} (f : V → W) (h : ∀ p ∈ d, g p.1 = g k → p.1 = k) :
    get (d.map (fun p => (g p.1, f p.2))) (g k) = (get d k).map f := by
  unfold get
  have : (d.map (fun p => (g p.1, f p.2))).filter (fun p => p.1 == g k) = (d.filter (fun p => p.1 == k)).map (fun p => (g p.1, f p.2)) := by
    rw [List.filter_map]
    congr 1
    refine List.filter_congr (fun p hp => ?_)
    rw [Function.comp_apply, Bool.eq_iff_iff, beq_iff_eq, beq_iff_eq]
    exact ⟨h p hp, fun e => by rw [e]⟩
  rw [this, List.getLast?_map, Option.map_map, Option.map_map]
  rfl

variable [DecidableEq J]

omit [DecidableEq J] in
theorem mem_sphids {o : Obj F P R V J} {k : Nat} : k ∈ sphids o ↔ ∃ i, (k, i) ∈ o.spectra := by
  unfold sphids
  rw [List.mem_map]
  constructor
  · rintro ⟨⟨a, b⟩, h, rfl⟩
    exact ⟨b, h⟩
  · rintro ⟨i, h⟩
    exact ⟨_, h, rfl⟩

/-- The file of an integration of the first object. -/
theorem whereInt_first {s o : Obj F P R V J} (ho : Good o) (b : Bool) {i : Nat} (hi : i ∈ s.ints) :
    whereInt (cat b s o) i = whereInt s i := by
  unfold whereInt cat
  dsimp only
  rw [List.filterMap_append, List.getLast?_append]
  have : (o.files.map (fun p => (p.1, p.2.map (fun q => (newKey o.ints s.ints q.1, q.2))))).filterMap (fun f => (get f.2 i).map (fun r => (f.1, r))) = [] := by
    rw [List.filterMap_eq_nil_iff]
    intro f hf
    obtain ⟨f', hf', rfl⟩ := List.mem_map.1 hf
    dsimp only
    rw [get_none, Option.map_none]
    intro q hq e
    obtain ⟨q', hq', rfl⟩ := List.mem_map.1 hq
    dsimp only at e
    have := newKey_gt (other := s.ints) (ho.file f' hf' q' hq') i hi
    omega
  rw [this]
  simp

/-- The file of an integration of the second object. -/
theorem whereInt_second {s o : Obj F P R V J} (hs : Good s) (ho : Good o) (b : Bool) {i : Nat} (hi : i ∈ o.ints) :
    whereInt (cat b s o) (newKey o.ints s.ints i) = whereInt o i := by
  unfold whereInt cat
  dsimp only
  rw [List.filterMap_append, List.getLast?_append]
  have h1 : s.files.filterMap (fun f => (get f.2 (newKey o.ints s.ints i)).map (fun r => (f.1, r))) = [] := by
    rw [List.filterMap_eq_nil_iff]
    intro f hf
    rw [get_none, Option.map_none]
    intro q hq e
    have := newKey_gt (other := s.ints) hi q.1 (hs.file f hf q hq)
    omega
  have h2 : (o.files.map (fun p => (p.1, p.2.map (fun q => (newKey o.ints s.ints q.1, q.2))))).filterMap
      (fun f => (get f.2 (newKey o.ints s.ints i)).map (fun r => (f.1, r))) = o.files.filterMap (fun f => (get f.2 i).map (fun r => (f.1, r))) := by
    rw [List.filterMap_map]
    refine List.filterMap_congr (fun f hf => ?_)
    rw [Function.comp_apply]
    dsimp only
    have := get_map (d := f.2) (k := i) (g := newKey o.ints s.ints) (fun r => r) (fun p hp e => newKey_inj (ho.file f hf p hp) hi e)
    rw [this, Option.map_id']
  rw [h1, h2]
  simp

/-- C217: integrations and spectra have different keys afterwards, and spectra are of the integrations of which they were. -/
theorem keys_different {s o : Obj F P R V J} (hs : Good s) (ho : Good o) (b : Bool) :
    ((cat b s o).ints).Nodup ∧ ((cat b s o).spectra.map Prod.fst).Nodup ∧
    ∃ f g : Nat → Nat, (∀ x ∈ o.ints, ∀ y ∈ o.ints, f x = f y → x = y) ∧
      (cat b s o).ints = s.ints ++ o.ints.map f ∧ (cat b s o).spectra = s.spectra ++ o.spectra.map (fun p => (g p.1, f p.2)) := by
  refine ⟨?_, ?_, newKey o.ints s.ints, newKey (sphids o) (sphids s), fun x hx y hy e => newKey_inj hx hy e, rfl, rfl⟩
  · unfold cat
    dsimp only
    refine List.nodup_append.2 ⟨hs.ints, List.Nodup.map_on (fun x hx y hy e => newKey_inj hx hy e) ho.ints, ?_⟩
    intro a ha c hc e
    obtain ⟨k, hk, rfl⟩ := List.mem_map.1 hc
    have := newKey_gt (other := s.ints) hk a ha
    omega
  · unfold cat
    dsimp only
    rw [List.map_append, List.map_map]
    have : o.spectra.map (Prod.fst ∘ fun p => (newKey (sphids o) (sphids s) p.1, newKey o.ints s.ints p.2)) =
        (o.spectra.map Prod.fst).map (newKey (sphids o) (sphids s)) := by
      rw [List.map_map]
      rfl
    rw [this]
    refine List.nodup_append.2 ⟨hs.sps, List.Nodup.map_on (fun x hx y hy e => newKey_inj hx hy e) ho.sps, ?_⟩
    intro a ha c hc e
    obtain ⟨k, hk, rfl⟩ := List.mem_map.1 hc
    have := newKey_gt (own := sphids o) (other := sphids s) hk a ha
    omega

/-- C217: spectra are read from where they are, if no integration of the second object has a number that is one of the sum. -/
theorem places_partial {s o : Obj F P R V J} (hs : Good s) (ho : Good o) (b : Bool) (hc : ∀ i ∈ o.ints, i ∉ (cat b s o).ints) :
    (∀ p ∈ s.spectra, place (cat b s o) p = place s p) ∧
    ∃ f g : Nat → Nat, (cat b s o).spectra = s.spectra ++ o.spectra.map (fun p => (g p.1, f p.2)) ∧
      ∀ p ∈ o.spectra, place (cat b s o) (g p.1, f p.2) = place o p := by
  have hold : ∀ i, i ∈ (cat b s o).ints → get o.spDict i = none := fun i hi => get_none (fun p hp e => hc p.1 (ho.dict p hp).1 (e ▸ hi))
  constructor
  · rintro ⟨k, i⟩ hp
    have hi := hs.int _ hp
    unfold place
    dsimp only at hi ⊢
    rw [whereInt_first ho b hi]
    have : whereSp (cat b s o) (k, i) = whereSp s (k, i) := by
      unfold whereSp
      have e : (cat b s o).spDict = s.spDict ++ o.spDict.map (fun p => (newKey o.ints s.ints p.1, p.2.map (fun q => (newKey (sphids o) (sphids s) q.1, q.2)))) ++ o.spDict := rfl
      dsimp only
      rw [e, get_append, get_append, hold i (List.mem_append_left _ hi), Option.none_or, get_none, Option.none_or]
      intro q hq e
      obtain ⟨q', hq', rfl⟩ := List.mem_map.1 hq
      have := newKey_gt (other := s.ints) (ho.dict q' hq').1 i hi
      dsimp only at e
      omega
    rw [this]
  · refine ⟨newKey o.ints s.ints, newKey (sphids o) (sphids s), rfl, ?_⟩
    rintro ⟨k, i⟩ hp
    have hi := ho.int _ hp
    have hk : k ∈ sphids o := mem_sphids.2 ⟨i, hp⟩
    unfold place
    dsimp only at hi ⊢
    rw [whereInt_second hs ho b hi]
    have : whereSp (cat b s o) (newKey (sphids o) (sphids s) k, newKey o.ints s.ints i) = whereSp o (k, i) := by
      unfold whereSp
      have e : (cat b s o).spDict = s.spDict ++ o.spDict.map (fun p => (newKey o.ints s.ints p.1, p.2.map (fun q => (newKey (sphids o) (sphids s) q.1, q.2)))) ++ o.spDict := rfl
      dsimp only
      have h1 : get s.spDict (newKey o.ints s.ints i) = none := by
        refine get_none (fun q hq e => ?_)
        have := newKey_gt (other := s.ints) hi q.1 (hs.dict q hq).1
        omega
      rw [e, get_append, get_append, hold _ (List.mem_append_right _ (List.mem_map.2 ⟨i, hi, rfl⟩)), Option.none_or, h1, Option.or_none,
        get_map (fun d : List (Nat × P) => d.map (fun q => (newKey (sphids o) (sphids s) q.1, q.2))) (fun p hp e => newKey_inj (ho.dict p hp).1 hi e)]
      cases hd : get o.spDict i with
      | none => rfl
      | some d =>
        simp only [Option.map_some, Option.bind_some]
        have hm := get_some_mem hd
        have := get_map (d := d) (k := k) (g := newKey (sphids o) (sphids s)) (fun r => r)
          (fun p hp e => newKey_inj (mem_sphids.2 ((ho.dict _ hm).2 p hp)) hk e)
        rw [this, Option.map_id']
    rw [this]

/-- C217: data that are loaded are kept exactly if both objects have them and they are scaled in the same way, and then with their spectra. -/
theorem loaded_partial {s o : Obj F P R V J} (hs : Good s) (ho : Good o) :
    ((∃ n, (cat false s o).vis = some n) ↔ (∃ v, s.vis = some v) ∧ (∃ w, o.vis = some w) ∧ s.tsys = o.tsys ∧ s.jypk = o.jypk) ∧
    ∀ v w n, s.vis = some v → o.vis = some w → (cat false s o).vis = some n → (cat false s o).tsys = s.tsys ∧
      (∀ k, (∃ i, (k, i) ∈ s.spectra) → get n k = get v k) ∧
      ∃ f g : Nat → Nat, (cat false s o).spectra = s.spectra ++ o.spectra.map (fun p => (g p.1, f p.2)) ∧
        ∀ p ∈ o.spectra, get n (g p.1) = get w p.1 := by
  have e : (cat false s o).vis = sumVis s.jypk s o := rfl
  have et : (cat false s o).tsys = match sumVis s.jypk s o with | none => false | some _ => s.tsys := rfl
  rw [e]
  constructor
  · unfold sumVis
    cases hv : s.vis with
    | none => simp
    | some v =>
      cases hw : o.vis with
      | none => simp
      | some w =>
        dsimp only
        by_cases h : s.tsys ≠ o.tsys ∨ s.jypk ≠ o.jypk
        · rw [if_pos h]
          refine ⟨fun ⟨_, h⟩ => (by cases h), fun ⟨_, _, h1, h2⟩ => ?_⟩
          rcases h with h | h
          · exact absurd h1 h
          · exact absurd h2 h
        · rw [if_neg h]
          rw [not_or, not_not, not_not] at h
          exact ⟨fun _ => ⟨⟨v, rfl⟩, ⟨w, rfl⟩, h⟩, fun _ => ⟨_, rfl⟩⟩
  · intro v w n hv hw hn
    refine ⟨by rw [et, hn], ?_⟩
    unfold sumVis at hn
    rw [hv, hw] at hn
    dsimp only at hn
    split at hn
    · cases hn
    · obtain rfl := Option.some.inj hn
      have hall : ∀ q ∈ w, q.1 ∈ sphids o := fun q hq => mem_sphids.2 (ho.vis w hw q hq)
      have hr : renameVis (sphids o) (sphids s) w = w.map (fun p => (newKey (sphids o) (sphids s) p.1, p.2)) := by
        unfold renameVis
        rw [List.filter_eq_nil_iff.2 (fun p hp => by simpa using hall p hp), List.filter_eq_self.2 (fun p hp => decide_eq_true (hall p hp))]
        rfl
      rw [hr]
      refine ⟨?_, newKey o.ints s.ints, newKey (sphids o) (sphids s), rfl, ?_⟩
      · intro k hk
        rw [get_append, get_none, Option.none_or]
        intro q hq e
        obtain ⟨q', hq', rfl⟩ := List.mem_map.1 hq
        have := newKey_gt (other := sphids s) (hall q' hq') k (mem_sphids.2 hk)
        dsimp only at e
        omega
      · rintro ⟨k, i⟩ hp
        dsimp only
        have hk : k ∈ sphids o := mem_sphids.2 ⟨i, hp⟩
        have := get_map (d := w) (k := k) (g := newKey (sphids o) (sphids s)) (fun r => r) (fun p hp e => newKey_inj (hall p hp) hk e)
        rw [get_append, this, Option.map_id', get_none (d := v), Option.or_none]
        intro q hq e
        have := newKey_gt (own := sphids o) hk q.1 (mem_sphids.2 (hs.vis v hv q hq))
        omega

/-- C217: which sums are refused. -/
theorem refused_iff [DecidableEq F] (overwrite inplace : Bool) (s o : Obj F P R V J) :
    (∃ e, add overwrite inplace s o = .error e) ↔ (s.jypk ≠ o.jypk ∧ overwrite = false) ∨ ∃ f ∈ s.files, ∃ g ∈ o.files, f.1 = g.1 := by
  unfold add
  by_cases h : s.jypk ≠ o.jypk ∧ overwrite = false
  · rw [if_pos h]
    exact ⟨fun _ => Or.inl h, fun _ => ⟨_, rfl⟩⟩
  · rw [if_neg h]
    by_cases h2 : o.files.any (fun f => decide (f.1 ∈ s.files.map Prod.fst)) = true
    · rw [if_pos h2]
      rw [List.any_eq_true] at h2
      obtain ⟨g, hg, h2⟩ := h2
      obtain ⟨f, hf, e⟩ := List.mem_map.1 (of_decide_eq_true h2)
      refine ⟨fun _ => Or.inr ⟨f, hf, g, hg, e⟩, fun _ => ?_⟩
      split
      · exact ⟨_, rfl⟩
      · exact ⟨_, rfl⟩
    · rw [if_neg h2]
      refine ⟨fun ⟨_, h⟩ => (by cases h), ?_⟩
      rintro (h3 | ⟨f, hf, g, hg, e⟩)
      · exact absurd h3 h
      · exact absurd (List.any_eq_true.2 ⟨g, hg, decide_eq_true (List.mem_map.2 ⟨f, hf, e⟩)⟩) h2

end Verif.MirCat
