import Verif.Hdf5.Spec
import Verif.Slices.Lemmas

namespace Verif.Hdf5
open Verif.Np
open Verif.Slices (ap ap_sorted)

/-! ### Length of a slice -/

theorem sel_eq_ap {n : Nat} {s : Slc} (h : GoodSlice n s) :
    Slc.sel n s = some (ap (s.start.getD 0) (s.step.getD 1).toNat (sliceLen s n).toNat) ∧
      0 ≤ sliceLen s n := by
  obtain ⟨hk, hst, hse⟩ := h
  have hk' : s.step.getD 1 ≠ 0 := by omega
  obtain ⟨k, hkk⟩ : ∃ k : Nat, s.step.getD 1 = k := ⟨(s.step.getD 1).toNat, by omega⟩
  have hkpos : 0 < k := by omega
  have hlen : sliceLen s n = ((min (s.stop.getD n) n : Nat) - 1 - (s.start.getD 0 : Nat) : Int) / k + 1 := by
    unfold sliceLen
    simp only [hkk]
    cases h : s.stop with
    | none => simp
    | some e =>
      have : min (e : Int) n = ((min e n : Nat) : Int) := by omega
      simp [this]
  have hle : s.start.getD 0 ≤ min (s.stop.getD n) n := by
    cases h : s.stop with
    | none => simpa using hst
    | some e => have := hse e h; simp; omega
  generalize hA : s.start.getD 0 = a at *
  generalize hE : s.stop.getD n = E at *
  have hdiv : (-1 : Int) ≤ ((min E n : Nat) - 1 - (a : Nat) : Int) / k := by
    apply (Int.le_ediv_iff_mul_le (by omega)).2
    omega
  refine ⟨?_, by omega⟩
  unfold Slc.sel PSlice.sel
  rw [if_pos hk]
  simp only [hkk, hA, hE]
  rw [if_neg (by omega), if_pos (by omega)]
  congr 1
  have htn : ((k : Int)).toNat = k := by omega
  rw [htn]
  apply strictSorted_ext (range_filter_sorted _ _) (ap_sorted hkpos)
  intro x
  have key : ∀ j : Nat, j < (sliceLen s n).toNat ↔ a + j * k < min E n := by
    intro j
    have h1 : (j : Int) ≤ ((min E n : Nat) - 1 - (a : Nat) : Int) / k ↔
        (j : Int) * k ≤ ((min E n : Nat) - 1 - (a : Nat) : Int) :=
      Int.le_ediv_iff_mul_le (by omega)
    rw [hlen]
    constructor
    · intro hj
      have := h1.1 (by omega)
      have h2 : ((j * k : Nat) : Int) = (j : Int) * k := by push_cast; rfl
      omega
    · intro hj
      have h2 : ((j * k : Nat) : Int) = (j : Int) * k := by push_cast; rfl
      have := h1.2 (by omega)
      omega
  simp only [List.mem_filter, List.mem_range, Bool.and_eq_true, decide_eq_true_eq, beq_iff_eq,
    ap, List.mem_map]
  constructor
  · rintro ⟨hxn, ⟨hax, hxb⟩, hmod⟩
    obtain ⟨j, hj⟩ := Nat.dvd_of_mod_eq_zero hmod
    have e2 : k * j = j * k := Nat.mul_comm _ _
    refine ⟨j, (key j).2 (by omega), by omega⟩
  · rintro ⟨j, hj, rfl⟩
    have := (key j).1 hj
    refine ⟨by omega, ⟨by omega, by omega⟩, ?_⟩
    rw [Nat.add_sub_cancel_left]
    exact Nat.mul_mod_left _ _

theorem sliceLen_eq {n : Nat} {s : Slc} {ps : List Nat} (h : GoodSlice n s) (hs : s.sel n = some ps) :
    sliceLen s n = ps.length := by
  obtain ⟨h1, h2⟩ := sel_eq_ap h
  rw [h1] at hs
  simp only [Option.some.injEq] at hs
  subst hs
  simp [ap]; omega

/-! ### Products and zips -/

theorem mem_prod {β : Type} {ls : List (List β)} {c : List β} :
    c ∈ prod ls ↔ List.Forall₂ (fun x l => x ∈ l) c ls := by
  induction ls generalizing c with
  | nil => simp [prod]
  | cons l ls ih =>
    simp only [prod, List.mem_flatMap, List.mem_map, ih]
    constructor
    · rintro ⟨x, hx, r, hr, rfl⟩; exact .cons hx hr
    · intro h; cases h with
      | cons hx hr => exact ⟨_, hx, _, hr, rfl⟩

theorem swap12_swap12 {β : Type} (l : List β) : swap12 (swap12 l) = l := by
  match l with
  | [] => rfl
  | [_] => rfl
  | _ :: _ :: _ => rfl

theorem forall₂_swap12 {β γ : Type} {R : β → γ → Prop} {c : List β} {l : List γ}
    (h : List.Forall₂ R c l) : List.Forall₂ R (swap12 c) (swap12 l) := by
  match c, l, h with
  | [], [], _ => exact .nil
  | [_], [_], h => exact h
  | _ :: _ :: _, _ :: _ :: _, .cons h1 (.cons h2 h3) => exact .cons h2 (.cons h1 h3)

theorem mem_meshProd {β : Type} {ls : List (List β)} {c : List β} :
    c ∈ meshProd ls ↔ List.Forall₂ (fun x l => x ∈ l) c ls := by
  unfold meshProd
  simp only [List.mem_map, mem_prod]
  constructor
  · rintro ⟨r, hr, rfl⟩
    have := forall₂_swap12 hr
    rwa [swap12_swap12] at this
  · intro h
    exact ⟨swap12 c, forall₂_swap12 h, swap12_swap12 c⟩

theorem mem_all {β : Type} {ls : List (List (List β))} {c : List β} :
    c ∈ (meshProd ls).flatMap prod ↔ List.Forall₂ (fun x l => ∃ ch ∈ l, x ∈ ch) c ls := by
  simp only [List.mem_flatMap, mem_meshProd, mem_prod]
  constructor
  · rintro ⟨combo, h1, h2⟩
    induction h1 generalizing c with
    | nil => cases h2; exact .nil
    | cons ha _ ih =>
      cases h2 with
      | cons hb hr => exact .cons ⟨_, ha, hb⟩ (ih hr)
  · intro h
    induction h with
    | nil => exact ⟨[], .nil, .nil⟩
    | cons hx _ ih =>
      obtain ⟨combo, h1, h2⟩ := ih
      obtain ⟨ch, hch, hmem⟩ := hx
      exact ⟨ch :: combo, .cons hch h1, .cons hmem h2⟩

theorem mem_zip_range' {ps : List Nat} {s i p : Nat} :
    (i, p) ∈ (List.range' s ps.length).zip ps ↔ s ≤ i ∧ ps[i - s]? = some p := by
  induction ps generalizing s with
  | nil => simp
  | cons q qs ih =>
    simp only [List.length_cons, List.range'_succ, List.zip_cons_cons, List.mem_cons, Prod.mk.injEq, ih]
    constructor
    · rintro (⟨rfl, rfl⟩ | ⟨h1, h2⟩)
      · simp
      · refine ⟨by omega, ?_⟩
        have : i - s = (i - (s + 1)) + 1 := by omega
        rw [this]; simpa using h2
    · rintro ⟨h1, h2⟩
      by_cases he : i = s
      · subst he; simp at h2; exact Or.inl ⟨rfl, h2.symm⟩
      · refine Or.inr ⟨by omega, ?_⟩
        have : i - s = (i - (s + 1)) + 1 := by omega
        rw [this] at h2; simpa using h2

theorem mem_zip_range {ps : List Nat} {i p : Nat} :
    (i, p) ∈ (List.range ps.length).zip ps ↔ ps[i]? = some p := by
  have := mem_zip_range' (ps := ps) (s := 0) (i := i) (p := p)
  rw [List.range_eq_range']
  simpa using this

theorem zip_swap' (a b : List Nat) : (b.zip a).map Prod.swap = a.zip b := by
  induction a generalizing b with
  | nil => simp
  | cons x a ih => cases b <;> simp [ih]

theorem blockPairs_eq {d : Dir} {a b : List Nat} (h : a.length = b.length) :
    blockPairs d (a, b) = some (a.zip b) := by
  cases d with
  | read => simp [blockPairs, pairUp, h]
  | write => simp [blockPairs, pairUp, h, zip_swap']

theorem arrSlice_eq {m s l : Nat} (h : s + l ≤ m) : arrSlice m s l = List.range' s l := by
  apply strictSorted_ext (range_filter_sorted _ _) List.pairwise_lt_range'
  intro x
  simp only [List.mem_filter, List.mem_range, Bool.and_eq_true, decide_eq_true_eq, List.mem_range'_1]
  omega

/-- What the per-axis theorem needs: blocks whose pairs are exactly the graph of `ps`. -/
def AxisOK (d : Dir) (n m : Nat) (s : AxSel) (ps : List Nat) : Prop :=
  ∃ bs pr, axBlocks n m s = some bs ∧ bs.mapM (blockPairs d) = some pr ∧
    ∀ i p, (∃ ch ∈ pr, (i, p) ∈ ch) ↔ ps[i]? = some p

theorem axis_single {d : Dir} {n m : Nat} {s : AxSel} {ps : List Nat} (hm : m = ps.length)
    (hb : axBlocks n m s = some [(List.range m, ps)]) : AxisOK d n m s ps := by
  refine ⟨_, [(List.range m).zip ps], hb, ?_, ?_⟩
  · have : blockPairs d (List.range m, ps) = some ((List.range m).zip ps) :=
      blockPairs_eq (by simp [hm])
    simp [this]
  · intro i p
    subst hm
    simp [mem_zip_range]

/-- The blocks of a list of slices, starting at array offset `o`. -/
theorem slices_pairs (d : Dir) (m : Nat) (dss : List (List Nat)) : ∀ (o : Nat),
    o + (dss.map List.length).sum ≤ m →
    ∃ pr, ((List.zipWith (fun s l => arrSlice m s l)
        ((List.range dss.length).map (fun j => o + ((dss.map List.length).take j).sum))
        (dss.map List.length)).zip dss).mapM (blockPairs d) = some pr ∧
      ∀ i p, (∃ ch ∈ pr, (i, p) ∈ ch) ↔ o ≤ i ∧ dss.flatten[i - o]? = some p := by
  induction dss with
  | nil => intro o _; exact ⟨[], by simp, by simp⟩
  | cons q qs ih =>
    intro o ho
    simp only [List.map_cons, List.sum_cons] at ho
    obtain ⟨pr, h1, h2⟩ := ih (o + q.length) (by omega)
    refine ⟨(List.range' o q.length).zip q :: pr, ?_, ?_⟩
    · have hfun : (fun j => o + (((q :: qs).map List.length).take (j + 1)).sum) =
          (fun j => o + q.length + ((qs.map List.length).take j).sum) := by
        funext j; simp; omega
      have hrange : (List.range (q :: qs).length).map
          (fun j => o + (((q :: qs).map List.length).take j).sum) =
          o :: (List.range qs.length).map (fun j => o + q.length + ((qs.map List.length).take j).sum) := by
        rw [List.length_cons, List.range_succ_eq_map, List.map_cons, List.map_map]
        simp only [List.take_zero, List.sum_nil, Nat.add_zero]
        congr 1
        apply List.map_congr_left
        intro j _
        simp; omega
      rw [hrange]
      simp only [List.map_cons, List.zipWith_cons_cons, List.zip_cons_cons, List.mapM_cons]
      rw [arrSlice_eq (by omega), blockPairs_eq (by simp), h1]
      rfl
    · intro i p
      simp only [List.mem_cons, exists_eq_or_imp, mem_zip_range', h2, List.flatten_cons,
        List.getElem?_append]
      constructor
      · rintro (⟨h3, h4⟩ | ⟨h3, h4⟩)
        · have : i - o < q.length := by
            by_contra hge
            rw [List.getElem?_eq_none (by omega)] at h4; simp at h4
          refine ⟨h3, by rw [if_pos this]; exact h4⟩
        · refine ⟨by omega, ?_⟩
          rw [if_neg (by omega)]
          rw [← h4]; congr 1; omega
      · rintro ⟨h3, h4⟩
        split at h4
        · exact Or.inl ⟨h3, h4⟩
        · refine Or.inr ⟨by omega, ?_⟩
          rw [← h4]; congr 1; omega

theorem mapM_sel_lengths {n : Nat} {l : List Slc} {dss : List (List Nat)}
    (hg : ∀ s ∈ l, GoodSlice n s) (h : l.mapM (fun s : Slc => s.sel n) = some dss) :
    l.map (fun s => (sliceLen s n).toNat) = dss.map List.length ∧
      l.map (fun s => sliceLen s n) = dss.map (fun q => (q.length : Int)) ∧ ∀ s ∈ l, ¬ sliceLen s n < 0 := by
  induction l generalizing dss with
  | nil => simp at h; subst h; simp
  | cons s l ih =>
    simp only [List.mapM_cons] at h
    cases hs : s.sel n with
    | none => simp [hs] at h
    | some q =>
      cases hl : l.mapM (fun s : Slc => s.sel n) with
      | none => simp [hs, hl] at h
      | some qs =>
        simp [hs, hl] at h
        subst h
        have h1 := sliceLen_eq (hg s (by simp)) hs
        obtain ⟨h2, h3, h4⟩ := ih (fun s hs => hg s (by simp [hs])) hl
        refine ⟨by simp [h1, h2], by simp [h1, h3], ?_⟩
        intro t ht
        rcases List.mem_cons.1 ht with rfl | ht
        · omega
        · exact h4 t ht

theorem axis_ok {d : Dir} {n : Nat} {s : AxSel} {ps : List Nat}
    (hg : GoodSel n s ∨ (d = .write ∧ ∃ l, s = .array l ∧ l ≠ [])) (hp : positions n s = some ps) :
    AxisOK d n ps.length s ps := by
  cases s with
  | int i =>
    simp only [positions] at hp
    split at hp
    · rename_i hi
      simp only [Option.some.injEq] at hp
      subst hp
      exact axis_single rfl (by simp [axBlocks, hi])
    · simp at hp
  | slice s =>
    simp only [positions] at hp
    exact axis_single rfl (by simp [axBlocks, hp])
  | list l =>
    simp only [positions] at hp
    split at hp
    · rename_i hi
      simp only [Option.some.injEq] at hp
      subst hp
      have : l ≠ [] := by
        rcases hg with hg | ⟨_, _, h, _⟩
        · exact hg
        · cases h
      exact axis_single rfl (by simp only [axBlocks]; rw [if_pos ⟨this, hi⟩])
    · simp at hp
  | array l =>
    simp only [positions] at hp
    split at hp
    · rename_i hi
      simp only [Option.some.injEq] at hp
      subst hp
      have : l ≠ [] := by
        rcases hg with hg | ⟨_, _, h, h'⟩
        · exact hg.2
        · cases h; exact h'
      exact axis_single rfl (by simp only [axBlocks]; rw [if_pos ⟨this, hi⟩])
    · simp at hp
  | slices l =>
    have hg : GoodSel n (.slices l) := by
      rcases hg with hg | ⟨_, _, h, _⟩
      · exact hg
      · cases h
    simp only [positions] at hp
    cases hm : l.mapM (fun s : Slc => s.sel n) with
    | none => simp [hm] at hp
    | some dss =>
      simp [hm] at hp
      subst hp
      obtain ⟨h1, _, h3⟩ := mapM_sel_lengths hg.2 hm
      obtain ⟨pr, h4, h5⟩ := slices_pairs d dss.flatten.length dss 0 (by simp [List.length_flatten])
      refine ⟨_, pr, ?_, h4, ?_⟩
      · simp only [axBlocks]
        rw [if_neg]
        · rw [h1, hm]; simp
        · rintro (h | ⟨s, hs, hlt⟩)
          · exact hg.1 h
          · exact h3 s hs hlt
      · intro i p; simpa using h5 i p

theorem axShape_ok {n : Nat} {s : AxSel} {ps : List Nat} (hg : GoodSel n s)
    (hp : positions n s = some ps) : axShape n s = some (ps.length : Int) := by
  cases s with
  | int i =>
    simp only [positions] at hp
    split at hp <;> simp at hp
    subst hp; simp [axShape]
  | slice s => simp only [positions] at hp; simp [axShape, sliceLen_eq hg hp]
  | list l =>
    simp only [positions] at hp
    split at hp <;> simp at hp
    subst hp
    simp only [axShape]
    rw [if_neg hg]
  | array l =>
    simp only [positions] at hp
    split at hp <;> simp at hp
    subst hp; simp [axShape, hg.1]
  | slices l =>
    simp only [positions] at hp
    cases hm : l.mapM (fun s : Slc => s.sel n) with
    | none => simp [hm] at hp
    | some dss =>
      simp [hm] at hp
      subst hp
      have h2 := (mapM_sel_lengths hg.2 hm).2.1
      simp only [axShape]
      rw [if_neg hg.1, h2]
      simp only [List.length_flatten, Option.some.injEq]
      clear h2 hm
      induction dss with
      | nil => simp
      | cons q qs ih => simp [ih]

/-! ### All axes -/

theorem lookup_iff {pss : List (List Nat)} {c : List (Nat × Nat)} :
    List.Forall₂ (fun x ps => ps[x.1]? = some x.2) c pss ↔
      lookup pss (c.map Prod.fst) = some (c.map Prod.snd) := by
  induction pss generalizing c with
  | nil => cases c <;> simp [lookup]
  | cons ps pss ih =>
    cases c with
    | nil => simp [lookup]
    | cons x c =>
      simp only [List.forall₂_cons, ih, List.map_cons, lookup]
      constructor
      · rintro ⟨h1, h2⟩; simp [h1, h2]
      · intro h
        cases h1 : ps[x.1]? with
        | none => simp [h1] at h
        | some a =>
          cases h2 : lookup pss (c.map Prod.fst) with
          | none => simp [h1, h2] at h
          | some b => simp [h1, h2] at h; exact ⟨by rw [h.1], by rw [h.2]⟩

theorem lookup_length {pss : List (List Nat)} {ix r : List Nat} (h : lookup pss ix = some r) :
    ix.length = pss.length ∧ r.length = pss.length := by
  induction pss generalizing ix r with
  | nil => cases ix <;> simp [lookup] at h; subst h; simp
  | cons ps pss ih =>
    cases ix with
    | nil => simp [lookup] at h
    | cons i is =>
      simp only [lookup] at h
      cases h1 : ps[i]? with
      | none => simp [h1] at h
      | some a =>
        cases h2 : lookup pss is with
        | none => simp [h1, h2] at h
        | some b =>
          simp [h1, h2] at h
          subst h
          have := ih h2
          simp [this.1, this.2]

theorem lookup_pairs {pss : List (List Nat)} {ix r : List Nat} (h : lookup pss ix = some r) :
    (ix.zip r).map Prod.fst = ix ∧ (ix.zip r).map Prod.snd = r := by
  have := lookup_length h
  exact ⟨List.map_fst_zip (by omega), List.map_snd_zip (by omega)⟩

theorem Sels.lengths {d : Dir} {ns : List Nat} {ss : List AxSel} {pss : List (List Nat)}
    (h : Sels d ns ss pss) : ss.length = ns.length ∧ pss.length = ns.length := by
  induction h with
  | nil => simp
  | cons _ _ _ ih => simp [ih.1, ih.2]

theorem Sels.blocks {d : Dir} {ns : List Nat} {ss : List AxSel} {pss : List (List Nat)}
    (h : Sels d ns ss pss) :
    ∃ blocks pairs, (List.zipWith (fun nm s => axBlocks nm.1 nm.2 s) (ns.zip (pss.map List.length)) ss).mapM
        (fun o => o) = some blocks ∧
      blocks.mapM (fun bs => bs.mapM (blockPairs d)) = some pairs ∧
      ∀ c, List.Forall₂ (fun x l => ∃ ch ∈ l, x ∈ ch) c pairs ↔
        lookup pss (c.map Prod.fst) = some (c.map Prod.snd) := by
  induction h with
  | nil =>
    refine ⟨[], [], by simp, by simp, ?_⟩
    intro c
    cases c <;> simp [lookup]
  | cons hg hp _ ih =>
    obtain ⟨blocks, pairs, h1, h2, h3⟩ := ih
    obtain ⟨bs, pr, h4, h5, h6⟩ := axis_ok hg hp
    refine ⟨bs :: blocks, pr :: pairs, ?_, ?_, ?_⟩
    · simp [h4, h1]
    · simp [h5, h2]
    · intro c
      cases c with
      | nil => simp [lookup]
      | cons x c =>
        rw [← lookup_iff, List.forall₂_cons, List.forall₂_cons, lookup_iff, h3, h6 x.1 x.2]

theorem Sels.cells {d : Dir} {ns : List Nat} {ss : List AxSel} {pss : List (List Nat)}
    (h : Sels d ns ss pss) (hl : (ss.filter isListSel).length ≤ 1) :
    ∃ cells, cellPairs d ns (pss.map List.length) ss = some cells ∧
      ∀ c, c ∈ cells ↔ lookup pss (c.map Prod.fst) = some (c.map Prod.snd) := by
  obtain ⟨blocks, pairs, h1, h2, h3⟩ := h.blocks
  refine ⟨(meshProd pairs).flatMap prod, ?_, fun c => by rw [mem_all, h3]⟩
  unfold cellPairs
  rw [if_pos ⟨h.lengths.1, by simp [h.lengths.2], hl⟩, h1]
  simp [h2]

theorem Sels.shape {ns : List Nat} {ss : List AxSel} {pss : List (List Nat)}
    (h : Sels .read ns ss pss) : dsetShape ns ss = some (pss.map List.length) := by
  unfold dsetShape
  rw [if_pos h.lengths.1]
  induction h with
  | nil => simp
  | cons hg hp _ ih =>
    rcases hg with hg | ⟨hg, _⟩
    · simp [axShape_ok hg hp, ih]
    · cases hg

/-! ### Runs of assignments -/

theorem foldl_upd_notin {α β : Type} (k : β → List Nat) (v : β → α) (cs : List β) (f : List Nat → α)
    (ix : List Nat) (h : ∀ c ∈ cs, k c ≠ ix) : (cs.foldl (fun f c => upd f (k c) (v c)) f) ix = f ix := by
  induction cs generalizing f with
  | nil => rfl
  | cons c cs ih =>
    rw [List.foldl_cons, ih _ (fun c hc => h c (by simp [hc]))]
    have : ix ≠ k c := fun e => h c (by simp) e.symm
    simp [upd, this]

theorem foldl_upd_in {α β : Type} (k : β → List Nat) (v : β → α) (cs : List β) (f : List Nat → α)
    (ix : List Nat) (x : α) (hin : ∃ c ∈ cs, k c = ix) (h : ∀ c ∈ cs, k c = ix → v c = x) :
    (cs.foldl (fun f c => upd f (k c) (v c)) f) ix = x := by
  induction cs generalizing f with
  | nil => simp at hin
  | cons c cs ih =>
    rw [List.foldl_cons]
    by_cases hex : ∃ c ∈ cs, k c = ix
    · exact ih _ hex (fun c hc => h c (by simp [hc]))
    · rw [foldl_upd_notin _ _ _ _ _ (fun c hc e => hex ⟨c, hc, e⟩)]
      obtain ⟨c', hc', he⟩ := hin
      rcases List.mem_cons.1 hc' with rfl | hc'
      · simp [upd, he, h c' (by simp) he]
      · exact absurd ⟨c', hc', he⟩ hex

end Verif.Hdf5
