import Mathlib.Tactic.Linarith
import Mathlib.Tactic.Ring
import Verif.Miriad.Sel
import Verif.Miriad.RowModel

/-!
# Records of Miriad files: theorems
-/

namespace Verif.Miriad

theorem metPols_sub (l : List Int) : ∀ acc : List Int, (∀ p ∈ l, p ∈ acc) → l.foldl (fun acc p => if p ∈ acc then acc else acc ++ [p]) acc = acc := by
  induction l with
  | nil => intro acc _; rfl
  | cons p l ih =>
    intro acc h
    rw [List.foldl_cons, if_pos (h p (by simp))]
    exact ih acc (fun q hq => h q (by simp [hq]))

theorem metPols_new (l : List Int) : ∀ acc : List Int, (acc ++ l).Nodup → l.foldl (fun acc p => if p ∈ acc then acc else acc ++ [p]) acc = acc ++ l := by
  induction l with
  | nil => intro acc _; simp
  | cons p l ih =>
    intro acc h
    have hp : p ∉ acc := by
      rw [List.nodup_append] at h
      intro hc
      exact h.2.2 p hc p (by simp) rfl
    rw [List.foldl_cons, if_neg hp, ih (acc ++ [p]) (by simpa using h)]
    simp

/-- Polarizations that are written with every row are met in their order. -/
theorem metPols_rows (pols l : List Int) (hn : pols.Nodup) (h : ∀ p ∈ l, p ∈ pols) : metPols (pols ++ l) = pols := by
  unfold metPols
  rw [List.foldl_append, metPols_new pols [] (by simpa using hn)]
  simpa using metPols_sub l pols h

variable {α D U M : Type} [Field α] [LinearOrder α] [DecidableEq U] [DecidableEq M]

/-- What names a row of an object. -/
def rowKey (b : MRow α D U M) : Key α := ⟨b.time - b.int / 2, b.a1, b.a2, b.int⟩

/-- Rows that can be written: antennas in order and below 2047, a spectrum of all channels for every polarization. -/
structure RowOk (npol nchan : Nat) (b : MRow α D U M) : Prop where
  nonneg : 0 ≤ b.a1
  le : b.a1 ≤ b.a2
  lt : b.a2 < 2047
  specs : b.specs.length = npol
  chans : ∀ s ∈ b.specs, s.data.length = nchan

omit [LinearOrder α] [DecidableEq U] [DecidableEq M] in
theorem keyOf_write (perDay : α) (pols : List Int) (b : MRow α D U M) {npol nchan : Nat} (hb : RowOk npol nchan b) (r : MRec α D U M)
    (hr : r ∈ writeRow perDay pols b) : keyOf r = rowKey b := by
  unfold writeRow at hr
  rw [List.mem_map] at hr
  obtain ⟨x, _, rfl⟩ := hr
  have h1 := hb.nonneg
  have h2 := hb.le
  have h3 := hb.lt
  have := getIJ_mkbl b.a1.toNat b.a2.toNat (by omega) (by omega)
  unfold keyOf rowKey
  dsimp only
  rw [this]
  simp only [Key.mk.injEq, true_and, and_true]
  omega

omit [LinearOrder α] [DecidableEq U] [DecidableEq M] in
theorem filter_row [DecidableEq α] (perDay : α) (pols : List Int) (b : MRow α D U M) {npol nchan : Nat} (hb : RowOk npol nchan b) (p : Int) :
    (writeRow perDay pols b).filter (fun r => decide (keyOf r = rowKey b ∧ r.pol = p)) = (writeRow perDay pols b).filter (fun r => decide (r.pol = p)) := by
  apply List.filter_congr
  intro r hr
  rw [keyOf_write perDay pols b hb r hr]
  simp

omit [DecidableEq U] [DecidableEq M] in
/-- Records of a row are those of its name, if no other row has that name. -/
theorem filter_rows (perDay : α) (pols : List Int) {npol nchan : Nat} (rows : List (MRow α D U M)) (hok : ∀ b ∈ rows, RowOk npol nchan b)
    (hn : (rows.map rowKey).Nodup) (b : MRow α D U M) (hb : b ∈ rows) (p : Int) :
    (writeRows perDay pols rows).filter (fun r => decide (keyOf r = rowKey b ∧ r.pol = p)) =
      (writeRow perDay pols b).filter (fun r => decide (r.pol = p)) := by
  unfold writeRows
  induction rows with
  | nil => cases hb
  | cons c rows ih =>
    rw [List.flatMap_cons, List.filter_append]
    rw [List.map_cons, List.nodup_cons] at hn
    have hother : ∀ (c : MRow α D U M), RowOk npol nchan c → rowKey c ≠ rowKey b →
        (writeRow perDay pols c).filter (fun r => decide (keyOf r = rowKey b ∧ r.pol = p)) = [] := by
      intro c hc hne
      rw [List.filter_eq_nil_iff]
      intro r hr
      rw [keyOf_write perDay pols c hc r hr]
      simp [hne]
    rcases List.mem_cons.mp hb with rfl | hb'
    · have : (rows.flatMap (writeRow perDay pols)).filter (fun r => decide (keyOf r = rowKey b ∧ r.pol = p)) = [] := by
        rw [List.filter_eq_nil_iff]
        intro r hr
        rw [List.mem_flatMap] at hr
        obtain ⟨c, hc, hr⟩ := hr
        rw [keyOf_write perDay pols c (hok c (by simp [hc])) r hr]
        have : rowKey c ≠ rowKey b := fun e => hn.1 (e ▸ List.mem_map_of_mem hc)
        simp [this]
      rw [this, List.append_nil]
      exact filter_row perDay pols b (hok b (by simp)) p
    · have hne : rowKey c ≠ rowKey b := fun e => hn.1 (e ▸ List.mem_map_of_mem hb')
      rw [hother c (hok c (by simp)) hne, List.nil_append]
      exact ih (fun x hx => hok x (by simp [hx])) hn.2 hb'

/-- In a list of pairs with different first parts, a first part names one pair. -/
theorem filter_zip {β : Type} (pols : List Int) (hn : pols.Nodup) (l : List β) (hl : l.length = pols.length) (k : Nat) (hk : k < pols.length) :
    (pols.zip l).filter (fun x => decide (x.1 = pols[k])) = [(pols[k], l[k])] := by
  induction pols generalizing l k with
  | nil => simp at hk
  | cons p pols ih =>
    cases l with
    | nil => simp at hl
    | cons y l =>
      rw [List.nodup_cons] at hn
      cases k with
      | zero =>
        simp only [List.zip_cons_cons, List.getElem_cons_zero]
        rw [List.filter_cons_of_pos (by simp)]
        congr 1
        rw [List.filter_eq_nil_iff]
        intro x hx
        have := (List.of_mem_zip hx).1
        have hne : x.1 ≠ p := fun e => hn.1 (e ▸ this)
        simp [hne]
      | succ k =>
        simp only [List.zip_cons_cons, List.getElem_cons_succ]
        have hk' : k < pols.length := by simpa using hk
        have hne : p ≠ pols[k] := fun e => hn.1 (e ▸ List.getElem_mem hk')
        rw [List.filter_cons_of_neg (by simp [hne])]
        exact ih hn.2 l (by simpa using hl) k hk'

omit [DecidableEq U] [DecidableEq M] in
theorem slot_write (perDay : α) (pols : List Int) (hp : pols.Nodup) {nchan : Nat} (rows : List (MRow α D U M))
    (hok : ∀ b ∈ rows, RowOk pols.length nchan b) (hn : (rows.map rowKey).Nodup) (b : MRow α D U M) (hb : b ∈ rows) (k : Nat)
    (hk : k < pols.length) (hk' : k < b.specs.length) :
    slot (writeRows perDay pols rows) (rowKey b) pols[k] =
      some ⟨mkbl b.a1.toNat b.a2.toNat, b.time - b.int / 2, b.int, b.lst - perDay * b.int, pols[k], b.uvw, b.info, b.specs[k]⟩ := by
  unfold slot
  rw [filter_rows perDay pols rows hok hn b hb]
  unfold writeRow
  rw [List.filter_map]
  have : ((fun r : MRec α D U M => decide (r.pol = pols[k])) ∘ fun x : Int × Spec D => (⟨mkbl b.a1.toNat b.a2.toNat, b.time - b.int / 2,
      b.int, b.lst - perDay * b.int, x.1, b.uvw, b.info, x.2⟩ : MRec α D U M)) = fun x => decide (x.1 = pols[k]) := rfl
  rw [this, filter_zip pols hp b.specs (hok b hb).specs k hk]
  simp

/-- What is the same for all polarizations is kept. -/
theorem collapse_const {X : Type} [DecidableEq X] (x0 x : X) (l : List (Spec D)) (hl : l ≠ []) : collapse x0 (l.map (fun s => (some x, s))) = some x := by
  unfold collapse
  have hmem : ∀ y ∈ (l.map (fun s => (some x, s))).filter (fun y : Option X × Spec D => goodSpec y.2), y.1 = some x := by
    intro y hy
    rw [List.mem_filter, List.mem_map] at hy
    obtain ⟨⟨s, _, rfl⟩, _⟩ := hy
    rfl
  cases hf : (l.map (fun s => (some x, s))).filter (fun y : Option X × Spec D => goodSpec y.2) with
  | nil =>
    cases l with
    | nil => exact absurd rfl hl
    | cons s l => rfl
  | cons a r =>
    rw [hf] at hmem
    have ha := hmem a (by simp)
    cases r with
    | nil => simp [ha]
    | cons c r =>
      have hall : (c :: r).all (fun y => decide (y.1.getD x0 = a.1.getD x0)) = true := by
        rw [List.all_eq_true]
        intro y hy
        rw [hmem y (by simp only [List.mem_cons] at hy ⊢; tauto), ha]
        simp
      dsimp only
      rw [if_pos hall, ha]
      rfl

/-- A row is read as it was written. -/
theorem buildRow_write (zero one : D) (nchan : Nat) (z0 : U × M × α) (perDay : α) (pols : List Int) (hp : pols.Nodup) (hp0 : pols ≠ [])
    (rows : List (MRow α D U M)) (hok : ∀ b ∈ rows, RowOk pols.length nchan b) (hn : (rows.map rowKey).Nodup) (b : MRow α D U M)
    (hb : b ∈ rows) : buildRow zero one nchan z0 perDay pols (writeRows perDay pols rows) (rowKey b) = some b := by
  unfold buildRow
  have hlen := (hok b hb).specs
  have hcells : pols.map (fun p => ((slot (writeRows perDay pols rows) (rowKey b) p).map (fun r => (r.uvw, r.info, r.lst)),
      ((slot (writeRows perDay pols rows) (rowKey b) p).map MRec.spec).getD (emptySpec zero one nchan))) =
      b.specs.map (fun s => (some (b.uvw, b.info, b.lst - perDay * b.int), s)) := by
    apply List.ext_getElem
    · simp [hlen]
    · intro k h1 h2
      rw [List.getElem_map, List.getElem_map]
      have hk : k < pols.length := by simpa using h1
      have hk' : k < b.specs.length := by simpa using h2
      rw [slot_write perDay pols hp rows hok hn b hb k hk hk']
      simp
  dsimp only
  rw [hcells, collapse_const z0 (b.uvw, b.info, b.lst - perDay * b.int) b.specs (by
    intro e
    rw [e] at hlen
    apply hp0
    exact List.length_eq_zero_iff.mp hlen.symm)]
  simp only [Option.map_some, Option.some.injEq, rowKey, List.map_map]
  have : (Prod.snd ∘ fun s : Spec D => (some (b.uvw, b.info, b.lst - perDay * b.int), s)) = id := rfl
  rw [this, List.map_id]
  cases b
  simp

/-- **A written Miriad file is read as it was**: polarizations in the same order, rows sorted by time, antennas and length of
integrations, in each of them the uvw coordinates, data, flags, sample counts and all else that was written. Missing in general:
rows with the same time, antennas and length of integrations (counterexample below), antennas from 2047 on. -/
theorem readRows_write_partial (le : Key α → Key α → Prop) [DecidableRel le] [Std.Total le] [IsTrans (Key α) le] [Std.Antisymm le]
    (zero one : D) (nchan : Nat) (z0 : U × M × α) (perDay : α) (pols : List Int) (hp : pols.Nodup) (hp0 : pols ≠ [])
    (rows : List (MRow α D U M)) (hr0 : rows ≠ []) (hok : ∀ b ∈ rows, RowOk pols.length nchan b)
    (hn : (rows.map rowKey).Nodup) :
    readRows le zero one nchan z0 perDay (writeRows perDay pols rows) =
      some (pols, rows.insertionSort (fun a b => le (rowKey a) (rowKey b))) := by
  obtain ⟨b0, rest, rfl⟩ := List.exists_cons_of_ne_nil hr0
  have hz : ∀ b ∈ b0 :: rest, (writeRow perDay pols b).map MRec.pol = pols := by
    intro b hb
    unfold writeRow
    rw [List.map_map]
    have : (MRec.pol ∘ fun x : Int × Spec D => (⟨mkbl b.a1.toNat b.a2.toNat, b.time - b.int / 2,
      b.int, b.lst - perDay * b.int, x.1, b.uvw, b.info, x.2⟩ : MRec α D U M)) = Prod.fst := rfl
    rw [this, List.map_fst_zip (by rw [(hok b hb).specs])]
  have hpols : metPols ((writeRows perDay pols (b0 :: rest)).map MRec.pol) = pols := by
    unfold writeRows
    rw [List.flatMap_cons, List.map_append, hz b0 (by simp)]
    apply metPols_rows pols _ hp
    intro p hpm
    rw [List.mem_map] at hpm
    obtain ⟨r, hr, rfl⟩ := hpm
    rw [List.mem_flatMap] at hr
    obtain ⟨b, hb, hr⟩ := hr
    rw [← hz b (by simp [hb])]
    exact List.mem_map_of_mem hr
  have hne : writeRows perDay pols (b0 :: rest) ≠ [] := by
    intro e
    rw [e] at hpols
    exact hp0 hpols.symm
  have hlen : ¬ ((writeRows perDay pols (b0 :: rest)).any (fun r => decide (r.spec.data.length ≠ nchan)) = true) := by
    rw [List.any_eq_true]
    rintro ⟨r, hr, h⟩
    unfold writeRows at hr
    rw [List.mem_flatMap] at hr
    obtain ⟨b, hb, hr⟩ := hr
    unfold writeRow at hr
    rw [List.mem_map] at hr
    obtain ⟨x, hx, rfl⟩ := hr
    exact of_decide_eq_true h ((hok b hb).chans x.2 (List.of_mem_zip hx).2)
  unfold readRows
  rw [if_neg hne, if_neg hlen]
  dsimp only
  rw [hpols]
  -- keys
  have hkeys : ∀ k, k ∈ (writeRows perDay pols (b0 :: rest)).map keyOf ↔ k ∈ (b0 :: rest).map rowKey := by
    intro k
    rw [List.mem_map, List.mem_map]
    constructor
    · rintro ⟨r, hr, rfl⟩
      unfold writeRows at hr
      rw [List.mem_flatMap] at hr
      obtain ⟨b, hb, hr⟩ := hr
      exact ⟨b, hb, (keyOf_write perDay pols b (hok b hb) r hr).symm⟩
    · rintro ⟨b, hb, rfl⟩
      have hwr : writeRow perDay pols b ≠ [] := by
        intro e
        have := hz b hb
        rw [e] at this
        exact hp0 this.symm
      obtain ⟨r, l, e⟩ := List.exists_cons_of_ne_nil hwr
      refine ⟨r, ?_, keyOf_write perDay pols b (hok b hb) r (by rw [e]; simp)⟩
      unfold writeRows
      rw [List.mem_flatMap]
      exact ⟨b, hb, by rw [e]; simp⟩
  have hperm : ((writeRows perDay pols (b0 :: rest)).map keyOf).dedup.Perm ((b0 :: rest).map rowKey) := by
    rw [List.perm_ext_iff_of_nodup (List.nodup_dedup _) hn]
    intro k
    rw [List.mem_dedup, hkeys]
  -- sorted keys are keys of sorted rows
  have hsorted : ((writeRows perDay pols (b0 :: rest)).map keyOf).dedup.insertionSort le =
      ((b0 :: rest).insertionSort (fun a b => le (rowKey a) (rowKey b))).map rowKey := by
    apply List.Perm.eq_of_pairwise (le := le) (fun a b _ _ h1 h2 => Std.Antisymm.antisymm a b h1 h2) (List.pairwise_insertionSort le _)
    · rw [List.pairwise_map]
      have : Std.Total (fun a b : MRow α D U M => le (rowKey a) (rowKey b)) := ⟨fun a b => Std.Total.total (r := le) (rowKey a) (rowKey b)⟩
      have : IsTrans (MRow α D U M) (fun a b => le (rowKey a) (rowKey b)) := ⟨fun a b c h1 h2 => IsTrans.trans (r := le) _ _ _ h1 h2⟩
      exact List.pairwise_insertionSort _ _
    · exact (List.perm_insertionSort le _).trans (hperm.trans ((List.perm_insertionSort _ _).map rowKey).symm)
  rw [hsorted]
  set S := (b0 :: rest).insertionSort (fun a b => le (rowKey a) (rowKey b)) with hS
  have hmemS : ∀ b ∈ S, b ∈ b0 :: rest := fun b hb => (List.perm_insertionSort _ _).mem_iff.mp hb
  have hm : (S.map rowKey).mapM (buildRow zero one nchan z0 perDay pols (writeRows perDay pols (b0 :: rest))) = some S := by
    have key : ∀ T : List (MRow α D U M), (∀ b ∈ T, b ∈ b0 :: rest) →
        (T.map rowKey).mapM (buildRow zero one nchan z0 perDay pols (writeRows perDay pols (b0 :: rest))) = some T := by
      intro T
      induction T with
      | nil => intro _; rfl
      | cons b T ih =>
        intro h
        rw [List.map_cons, List.mapM_cons, buildRow_write zero one nchan z0 perDay pols hp hp0 (b0 :: rest) hok hn b (h b (by simp)),
          ih (fun c hc => h c (by simp [hc]))]
        rfl
    exact key S hmemS
  rw [hm]
  rfl

theorem mapM_length {β γ : Type} (f : β → Option γ) (l : List β) (m : List γ) (h : l.mapM f = some m) : l.length = m.length := by
  induction l generalizing m with
  | nil => simp only [List.mapM_nil] at h; injection h with h; subst h; rfl
  | cons x l ih =>
    rw [List.mapM_cons] at h
    cases hx : f x with
    | none => rw [hx] at h; cases h
    | some y =>
      cases hl : l.mapM f with
      | none => rw [hx, hl] at h; cases h
      | some m' =>
        rw [hx, hl] at h
        injection h with h
        subst h
        simp [ih m' hl]

theorem mapM_get {β γ : Type} (f : β → Option γ) (l : List β) (m : List γ) (h : l.mapM f = some m) : ∀ x ∈ l, ∃ y ∈ m, f x = some y := by
  induction l generalizing m with
  | nil => intro x hx; cases hx
  | cons x l ih =>
    rw [List.mapM_cons] at h
    cases hx : f x with
    | none => rw [hx] at h; cases h
    | some y =>
      cases hl : l.mapM f with
      | none => rw [hx, hl] at h; cases h
      | some m' =>
        rw [hx, hl] at h
        injection h with h
        subst h
        intro z hz
        rcases List.mem_cons.mp hz with rfl | hz
        · exact ⟨y, by simp, hx⟩
        · obtain ⟨w, hw, e⟩ := ih m' hl z hz
          exact ⟨w, by simp [hw], e⟩

/-- What `readRows` does if it succeeds. -/
theorem readRows_some (le : Key α → Key α → Prop) [DecidableRel le] (zero one : D) (nchan : Nat) (z0 : U × M × α) (perDay : α)
    (recs : List (MRec α D U M)) (pols : List Int) (rows : List (MRow α D U M)) (h : readRows le zero one nchan z0 perDay recs = some (pols, rows)) :
    pols = metPols (recs.map MRec.pol) ∧
      ((recs.map keyOf).dedup.insertionSort le).mapM (buildRow zero one nchan z0 perDay pols recs) = some rows := by
  unfold readRows at h
  by_cases h1 : recs = []
  · rw [if_pos h1] at h; cases h
  · rw [if_neg h1] at h
    by_cases h2 : recs.any (fun r => decide (r.spec.data.length ≠ nchan)) = true
    · rw [if_pos h2] at h; cases h
    · rw [if_neg h2] at h
      dsimp only at h
      rw [Option.map_eq_some_iff] at h
      obtain ⟨m, hm, e⟩ := h
      injection e with e1 e2
      subst e1
      subst e2
      exact ⟨rfl, hm⟩

/-- **Rows with the same time, antennas and length of the integration**: some of them are lost. -/
theorem sameRows_counterexample (le : Key α → Key α → Prop) [DecidableRel le] (zero one : D) (nchan : Nat) (z0 : U × M × α) (perDay : α)
    (pols p : List Int) (rows rs : List (MRow α D U M)) (hok : ∀ b ∈ rows, RowOk pols.length nchan b) (hdup : ¬ (rows.map rowKey).Nodup)
    (h : readRows le zero one nchan z0 perDay (writeRows perDay pols rows) = some (p, rs)) : rs.length < rows.length := by
  have h1 := (readRows_some le zero one nchan z0 perDay _ p rs h).2
  have h2 := mapM_length _ _ _ h1
  rw [← h2, List.length_insertionSort]
  have hsub : ((writeRows perDay pols rows).map keyOf).dedup ⊆ (rows.map rowKey).dedup := by
    intro k hk
    rw [List.mem_dedup, List.mem_map] at hk
    obtain ⟨r, hr, rfl⟩ := hk
    unfold writeRows at hr
    rw [List.mem_flatMap] at hr
    obtain ⟨b, hb, hr⟩ := hr
    rw [List.mem_dedup, keyOf_write perDay pols b (hok b hb) r hr]
    exact List.mem_map_of_mem hb
  have h3 : ((writeRows perDay pols rows).map keyOf).dedup.length ≤ (rows.map rowKey).dedup.length :=
    (List.subperm_of_subset (List.nodup_dedup _) hsub).length_le
  have h4 : (rows.map rowKey).dedup.length < (rows.map rowKey).length := by
    have hs := (List.dedup_sublist (rows.map rowKey))
    rcases Nat.lt_or_ge (rows.map rowKey).dedup.length (rows.map rowKey).length with h | h
    · exact h
    · exfalso
      apply hdup
      rw [← hs.eq_of_length_le h]
      exact List.nodup_dedup _
  rw [List.length_map] at h4
  omega

theorem mem_metPols_aux (l : List Int) : ∀ acc : List Int, ∀ p, p ∈ l.foldl (fun acc p => if p ∈ acc then acc else acc ++ [p]) acc ↔ p ∈ acc ∨ p ∈ l := by
  induction l with
  | nil => simp
  | cons q l ih =>
    intro acc p
    rw [List.foldl_cons, ih]
    by_cases hq : q ∈ acc
    · rw [if_pos hq]
      constructor
      · rintro (h | h)
        · exact Or.inl h
        · exact Or.inr (by simp [h])
      · rintro (h | h)
        · exact Or.inl h
        · rcases List.mem_cons.mp h with rfl | h
          · exact Or.inl hq
          · exact Or.inr h
    · rw [if_neg hq]
      simp only [List.mem_append, List.mem_cons, List.not_mem_nil, or_false]
      tauto

theorem mem_metPols (l : List Int) (p : Int) : p ∈ metPols l ↔ p ∈ l := by
  unfold metPols
  rw [mem_metPols_aux]
  simp

/-- **Any file**: every record that is the last one of its time, antennas, length of integration and polarization is found in a row
with the middle of its integration and its antennas, at the place of its polarization. -/
theorem readRows_complete (le : Key α → Key α → Prop) [DecidableRel le] (zero one : D) (nchan : Nat) (z0 : U × M × α) (perDay : α)
    (before after : List (MRec α D U M)) (r : MRec α D U M) (pols : List Int) (rows : List (MRow α D U M))
    (h : readRows le zero one nchan z0 perDay (before ++ r :: after) = some (pols, rows))
    (hlast : ∀ s ∈ after, ¬ (s.time = r.time ∧ getIJ s.bl = getIJ r.bl ∧ s.int = r.int ∧ s.pol = r.pol)) :
    ∃ b ∈ rows, b.time = r.time + r.int / 2 ∧ b.int = r.int ∧ (b.a1, b.a2) = getIJ r.bl ∧ ∃ k : Nat, pols[k]? = some r.pol ∧ b.specs[k]? = some r.spec := by
  obtain ⟨hp, hm⟩ := readRows_some le zero one nchan z0 perDay _ pols rows h
  have hk : keyOf r ∈ ((before ++ r :: after).map keyOf).dedup.insertionSort le := by
    rw [(List.perm_insertionSort le _).mem_iff, List.mem_dedup]
    exact List.mem_map_of_mem (by simp)
  obtain ⟨b, hb, e⟩ := mapM_get _ _ _ hm (keyOf r) hk
  have hslot : slot (before ++ r :: after) (keyOf r) r.pol = some r := by
    unfold slot
    rw [List.filter_append, List.filter_cons_of_pos (by simp)]
    have : after.filter (fun s => decide (keyOf s = keyOf r ∧ s.pol = r.pol)) = [] := by
      rw [List.filter_eq_nil_iff]
      intro s hs hc
      obtain ⟨h1, h2⟩ := of_decide_eq_true hc
      unfold keyOf at h1
      simp only [Key.mk.injEq] at h1
      exact hlast s hs ⟨h1.1, Prod.ext h1.2.1 h1.2.2.1, h1.2.2.2, h2⟩
    rw [this]
    simp
  have hpm : r.pol ∈ pols := by
    rw [hp, mem_metPols]
    exact List.mem_map_of_mem (by simp)
  obtain ⟨k, hk, hkp⟩ := List.getElem_of_mem hpm
  unfold buildRow at e
  dsimp only at e
  rw [Option.map_eq_some_iff] at e
  obtain ⟨c, _, rfl⟩ := e
  refine ⟨_, hb, rfl, rfl, rfl, k, ?_, ?_⟩
  · rw [List.getElem?_eq_getElem hk, hkp]
  · dsimp only
    rw [List.map_map, List.getElem?_map, List.getElem?_eq_getElem hk, hkp]
    simp [hslot]

/-- **Polarizations without a record in a row**: there the data are flagged zeros, and they count as one sample each. -/
theorem missing_counterexample (zero one : D) (nchan : Nat) (z0 : U × M × α) (perDay : α) (pols : List Int) (recs : List (MRec α D U M))
    (k : Key α) (b : MRow α D U M) (h : buildRow zero one nchan z0 perDay pols recs k = some b) (n : Nat) (p : Int) (hn : pols[n]? = some p)
    (hno : ∀ r ∈ recs, ¬ (keyOf r = k ∧ r.pol = p)) :
    b.specs[n]? = some ⟨List.replicate nchan zero, List.replicate nchan true, List.replicate nchan one⟩ := by
  have hslot : slot recs k p = none := by
    unfold slot
    have : recs.filter (fun r => decide (keyOf r = k ∧ r.pol = p)) = [] := by
      rw [List.filter_eq_nil_iff]
      intro r hr hc
      exact hno r hr (of_decide_eq_true hc)
    rw [this]
    rfl
  unfold buildRow at h
  dsimp only at h
  rw [Option.map_eq_some_iff] at h
  obtain ⟨c, _, rfl⟩ := h
  dsimp only
  rw [List.map_map, List.getElem?_map, hn]
  simp [hslot, emptySpec]

/-- **Rows of which all that there is is flagged, without the first polarization**: their coordinates are zeros, whatever the records
say. -/
theorem flaggedRow_counterexample (zero one : D) (nchan : Nat) (z0 : U × M × α) (perDay : α) (p : Int) (pols : List Int)
    (recs : List (MRec α D U M)) (k : Key α) (hno : ∀ r ∈ recs, ¬ (keyOf r = k ∧ r.pol = p))
    (hflag : ∀ r ∈ recs, keyOf r = k → ∀ f ∈ r.spec.flags, f = true) :
    ∃ b, buildRow zero one nchan z0 perDay (p :: pols) recs k = some b ∧ b.uvw = z0.1 ∧ b.info = z0.2.1 := by
  have hslot : slot recs k p = none := by
    unfold slot
    have : recs.filter (fun r => decide (keyOf r = k ∧ r.pol = p)) = [] := by
      rw [List.filter_eq_nil_iff]
      intro r hr hc
      exact hno r hr (of_decide_eq_true hc)
    rw [this]
    rfl
  have hmem : ∀ q r, slot recs k q = some r → r ∈ recs ∧ keyOf r = k := by
    intro q r h
    unfold slot at h
    have := List.mem_of_getLast? h
    rw [List.mem_filter] at this
    exact ⟨this.1, (of_decide_eq_true this.2).1⟩
  have hgood : ∀ q, goodSpec (((slot recs k q).map MRec.spec).getD (emptySpec zero one nchan)) = false := by
    intro q
    cases hq : slot recs k q with
    | none => simp [goodSpec, emptySpec]
    | some r =>
      obtain ⟨h1, h2⟩ := hmem q r hq
      have := hflag r h1 h2
      simp only [Option.map_some, Option.getD_some, goodSpec, Bool.not_eq_false', List.all_eq_true]
      exact this
  unfold buildRow
  dsimp only
  unfold collapse
  have hf : ((p :: pols).map (fun p => ((slot recs k p).map (fun r => (r.uvw, r.info, r.lst)),
      ((slot recs k p).map MRec.spec).getD (emptySpec zero one nchan)))).filter (fun x => goodSpec x.2) = [] := by
    rw [List.filter_eq_nil_iff]
    intro x hx
    rw [List.mem_map] at hx
    obtain ⟨q, _, rfl⟩ := hx
    rw [hgood q]
    simp
  rw [hf]
  dsimp only
  rw [List.map_cons]
  dsimp only
  rw [hslot]
  exact ⟨_, rfl, rfl, rfl⟩

end Verif.Miriad
