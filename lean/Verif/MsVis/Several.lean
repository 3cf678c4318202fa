import Verif.MsVis.Many

/-! # The round trip of objects of several windows -/

namespace Verif.MsVis
open Verif.Np Verif.Slices Verif.Pol

variable {T K U C E : Type} [LinearOrder T]

/-- What comes back for several windows. -/
def manyObj (w : Ops T K U C) (flip : Bool) (idx : List Nat) (o : Obj T K U C E) (flex : Bool) : Obj T K U C E where
  rows := (blts (fileOf w flip idx o) (descsOf o idx)).filterMap (fun k =>
    (labAt (fileOf w flip idx o) (descsOf o idx) k).map (rowOf w false (fileOf w flip idx o)))
  chans := chansFrom (descsOf o idx) w.none (winList (descsOf o idx))
  spws := unique ((descsOf o idx).map (fun d => d.id))
  pols := if flex then [0] else (polList (descsOf o idx)).map (fun c => (aipsOf c).getD 0)
  flexPol := if flex then some ((unique ((descsOf o idx).map (fun d => d.id))).map (fun i =>
    (((descsOf o idx).find? (fun d => decide (d.id = i))).bind (fun d => (d.corr.head?).bind aipsOf)).getD 0)) else none
  cats := catsOf (fileOf w flip idx o)
  unproj := false
  data := fun r c p => match (blts (fileOf w flip idx o) (descsOf o idx))[r]?, winPos (winList (descsOf o idx)) c with
    | some k, some (i, j) => match (descsOf o idx).find? (fun d => decide (d.id = i)) with
      | some d => visAt w false (fileOf w flip idx o) (if flex then [0] else polIdx (descsOf o idx) d) d k j p
      | none => w.empty
    | _, _ => w.empty

omit [LinearOrder T] in
theorem wins_nodup (o : Obj T K U C E) : ((unique o.spws).map (fun s => (s, (chansOf o s).length)) |>.map Prod.fst).Nodup := by
  rw [List.map_map]
  show ((unique o.spws).map (fun s => s)).Nodup
  rw [List.map_id']
  exact (unique_sorted _).imp (fun h => ne_of_lt h)

theorem many_read (w : Ops T K U C) (flip ign allow raise : Bool) {o : Obj T K U C E} {idx : List Nat} (hg : Good o)
    (hign : ign = false ∨ NoSingle o) (hn : o.spws.length ≠ 1) (ha : Apart o) (hc : raise = false ∨ ∀ l, w.close l l = true) :
    read w false ign allow raise (fileOf w flip idx o) =
      .ok (manyObj w flip idx o (makeFlex allow (descsOf o idx) (descsOf o idx))) := by
  have hpres := present_eq (w := w) (flip := flip) (idx := idx) hg hn hign
  have hd := descs_eq w flip ign (idx := idx) hg hign
  have hd : descs ign (fileOf w flip idx o) = descsOf o idx := hd
  have hlen : 2 ≤ (descsOf o idx).length := by
    unfold descsOf
    rw [List.length_map, List.length_zipIdx]
    have : o.spws.length ≠ 0 := fun h => hg.windows (List.eq_nil_of_length_eq_zero h)
    omega
  have hread : read w false ign allow raise (fileOf w flip idx o) =
      readSeveral w false allow raise (fileOf w flip idx o) (descsOf o idx) (descsOf o idx) := by
    unfold read
    rw [hpres, hd]
    match hl : descsOf o idx with
    | [] => rw [hl] at hlen; simp at hlen
    | [x] => rw [hl] at hlen; simp at hlen
    | x :: y :: t => rfl
  rw [hread]
  unfold readSeveral
  rw [if_neg, if_neg, if_neg]
  · rfl
  · simp only [Bool.not_eq_true', Bool.not_eq_false]
    unfold freqsFit
    rw [List.all_eq_true]
    intro d hdm
    obtain ⟨s, k, hk, rfl⟩ := mem_descs.1 hdm
    rw [winList_eq idx hg]
    have hmem : (s, (chansOf o s).length) ∈ (unique o.spws).map (fun s => (s, (chansOf o s).length)) :=
      List.mem_map.2 ⟨s, mem_unique.2 (List.mem_of_getElem? hk), rfl⟩
    have := count_wins (wins_nodup o) hmem
    rw [Bool.or_eq_true]
    left
    rw [decide_eq_true_iff]
    show (List.map _ _).length = List.count s _
    rw [this, List.length_map, chans_length]
  · rcases hc with hc | hc
    · simp [hc]
    · rw [varies_no hn ha hc _ _ (fun _ h => h) (by simp)]
      simp
  · rw [ids_eq]
    simp [hg.spws]

/-! ## Polarizations -/

omit [LinearOrder T] in
theorem corr_strict {o : Obj T K U C E} {idx : List Nat} (hg : Good o) (hp : PolsGood o idx) (k : Nat) :
    (corrAt o idx k).Pairwise (· < ·) := by
  unfold corrAt
  have hn := hp.names
  unfold polsOf at hn
  cases hf : o.flexPol with
  | none =>
    rw [hf] at hn
    exact corr_sorted hp.order hg.pols hn
  | some l => simp

omit [LinearOrder T] in
/-- The positions of the polarizations of a data description in the list of all. -/
theorem polIdx_map {o : Obj T K U C E} {idx : List Nat} (hg : Good o) (hp : PolsGood o idx) {s : Int} {k : Nat} (hk : o.spws[k]? = some s) :
    (polIdx (descsOf o idx) (descAt o idx (s, k))).map (fun i => (polList (descsOf o idx))[i]?) = (corrAt o idx k).map some := by
  unfold polIdx
  rw [where_filter]
  congr 1
  apply strictSorted_ext
  · exact (unique_sorted _).filter _
  · exact corr_strict hg hp k
  · intro i
    rw [List.mem_filter]
    unfold polList
    rw [mem_unique]
    simp only [decide_eq_true_iff]
    constructor
    · exact fun h => h.2
    · intro h
      exact ⟨List.mem_flatMap.2 ⟨_, mem_descs.2 ⟨s, k, hk, rfl⟩, h⟩, h⟩

omit [LinearOrder T] in
theorem polIdx_get {o : Obj T K U C E} {idx : List Nat} (hg : Good o) (hp : PolsGood o idx) {s : Int} {k : Nat} (hk : o.spws[k]? = some s)
    {p' : Nat} (h : p' ∈ polIdx (descsOf o idx) (descAt o idx (s, k))) :
    (polList (descsOf o idx))[p']? = (corrAt o idx k)[(polIdx (descsOf o idx) (descAt o idx (s, k))).idxOf p']? := by
  have h1 := congrArg (fun l => l[(polIdx (descsOf o idx) (descAt o idx (s, k))).idxOf p']?) (polIdx_map hg hp hk)
  simp only [List.getElem?_map] at h1
  rw [List.getElem?_idxOf h] at h1
  simp only [Option.map_some] at h1
  cases hc : (corrAt o idx k)[(polIdx (descsOf o idx) (descAt o idx (s, k))).idxOf p']? with
  | none => rw [hc] at h1; simp at h1
  | some c => rw [hc] at h1; simpa using h1

omit [LinearOrder T] in
theorem polIdx_pos {o : Obj T K U C E} {idx : List Nat} (hg : Good o) (hp : PolsGood o idx) {s : Int} {k : Nat} (hk : o.spws[k]? = some s)
    {j c : Nat} (h : (corrAt o idx k)[j]? = some c) :
    ∃ p' ∈ polIdx (descsOf o idx) (descAt o idx (s, k)), (polIdx (descsOf o idx) (descAt o idx (s, k))).idxOf p' = j ∧
      (polList (descsOf o idx))[p']? = some c := by
  have h1 := congrArg (fun l => l[j]?) (polIdx_map hg hp hk)
  simp only [List.getElem?_map, h, Option.map_some] at h1
  obtain ⟨p', hp', hc⟩ := Option.map_eq_some_iff.1 h1
  obtain ⟨hj, hj2⟩ := List.getElem?_eq_some_iff.1 hp'
  refine ⟨p', List.mem_of_getElem? hp', ?_, hc⟩
  have hnd : (polIdx (descsOf o idx) (descAt o idx (s, k))).Nodup := (whereIdx_sorted _ _).imp (fun h => ne_of_lt h)
  rw [← hj2]
  exact List.Nodup.idxOf_getElem hnd _ _

/-! ## The data -/

/-- Rows correspond if they have the same time and antennas. -/
def RowRel (w : Ops T K U C) (flip : Bool) (idx : List Nat) (o : Obj T K U C E) (r r' : Nat) : Prop :=
  ∃ row, o.rows[r]? = some row ∧ (blts (fileOf w flip idx o) (descsOf o idx))[r']? = some (rowKey row)

/-- Channels correspond if they are at the same place of the same window. -/
def ChanRel (idx : List Nat) (o : Obj T K U C E) (f f' : Nat) : Prop :=
  ∃ s j, winPos (winList (descsOf o idx)) f' = some (s, j) ∧ (chansOf o s)[j]? = some f

theorem many_match (w : Ops T K U C) (flip flex : Bool) {o : Obj T K U C E} {idx : List Nat} (hg : Good o)
    (hn : o.spws.length ≠ 1) (ha : Apart o) :
    Match w flip idx o (manyObj w flip idx o flex) (RowRel w flip idx o) (ChanRel idx o) := by
  have hne : descsOf o idx ≠ [] := by
    intro h
    have := congrArg List.length h
    unfold descsOf at this
    rw [List.length_map, List.length_zipIdx] at this
    exact hg.windows (List.eq_nil_of_length_eq_zero this)
  have hlab : ∀ row ∈ o.rows, (labAt (fileOf w flip idx o) (descsOf o idx) (rowKey row)).map (rowOf w false (fileOf w flip idx o)) =
      some (back w flip idx o row) := fun row hr => by
    rw [labAt_eq hn ha hne (fun _ h => h) hr]
    rfl
  have hrows : (blts (fileOf w flip idx o) (descsOf o idx)).map (fun k =>
      (labAt (fileOf w flip idx o) (descsOf o idx) k).map (rowOf w false (fileOf w flip idx o))) =
      (manyObj w flip idx o flex).rows.map some := by
    apply map_some
    intro k hk
    obtain ⟨row, hr, rfl⟩ := (mem_blts hn hg.windows).1 hk
    rw [hlab row hr]
    rfl
  have hget : ∀ (r' : Nat) (row : Row T K U), row ∈ o.rows →
      (blts (fileOf w flip idx o) (descsOf o idx))[r']? = some (rowKey row) →
      (manyObj w flip idx o flex).rows[r']? = some (back w flip idx o row) := by
    intro r' row hr hk
    have h1 := congrArg (fun l => l[r']?) hrows
    simp only [List.getElem?_map, hk, Option.map_some] at h1
    rw [hlab row hr] at h1
    cases hx : (manyObj w flip idx o flex).rows[r']? with
    | none => rw [hx] at h1; simp at h1
    | some x => rw [hx] at h1; simpa using h1.symm
  refine ⟨?_, ?_, ?_, ?_, rfl⟩
  · intro r row hr
    have hm := List.mem_of_getElem? hr
    obtain ⟨r', hr'⟩ := List.mem_iff_getElem?.1 ((mem_blts (w := w) (flip := flip) (idx := idx) hn hg.windows).2 ⟨row, hm, rfl⟩)
    exact ⟨r', ⟨row, hr, hr'⟩, hget r' row hm hr'⟩
  · intro r' row' hr'
    have h1 := congrArg (fun l => l[r']?) hrows
    simp only [List.getElem?_map, hr', Option.map_some] at h1
    obtain ⟨k, hk, _⟩ := Option.map_eq_some_iff.1 h1
    obtain ⟨row, hm, rfl⟩ := (mem_blts hn hg.windows).1 (List.mem_of_getElem? hk)
    obtain ⟨r, hr⟩ := List.mem_iff_getElem?.1 hm
    refine ⟨r, row, ⟨row, hr, hk⟩, hr, ?_⟩
    rw [hget r' row hm hk] at hr'
    exact (Option.some.inj hr').symm
  · intro f c hc
    have hs : c.spw ∈ o.spws := hg.chans c (List.mem_of_getElem? hc)
    obtain ⟨k, hk⟩ := List.mem_iff_getElem?.1 hs
    have hf : f ∈ chansOf o c.spw := mem_whereIdx.2 ⟨c, hc, by simp⟩
    obtain ⟨j, hj⟩ := List.mem_iff_getElem?.1 hf
    have hjl := (List.getElem?_eq_some_iff.1 hj).1
    obtain ⟨f', hf'⟩ := winPos_of (wins_nodup o) (List.mem_map.2 ⟨c.spw, mem_unique.2 hs, rfl⟩) hjl
    rw [← winList_eq idx hg] at hf'
    refine ⟨f', ⟨c.spw, j, hf', hj⟩, ?_⟩
    show (chansFrom (descsOf o idx) w.none (winList (descsOf o idx)))[f']? = _
    rw [chansFrom_get, hf', Option.map_some]
    rw [show freqAt (descsOf o idx) w.none c.spw j = (c.freq, c.width) from freq_get idx hg w.none hk hj hc]
  · intro f' c hc
    have hc : (chansFrom (descsOf o idx) w.none (winList (descsOf o idx)))[f']? = some c := hc
    rw [chansFrom_get] at hc
    obtain ⟨⟨s, j⟩, hf', hcc⟩ := Option.map_eq_some_iff.1 hc
    obtain ⟨n, hm, hj⟩ := winPos_some hf'
    rw [winList_eq idx hg] at hm
    obtain ⟨s', hs, he⟩ := List.mem_map.1 hm
    simp only [Prod.mk.injEq] at he
    obtain ⟨rfl, rfl⟩ := he
    have hs := mem_unique.1 hs
    obtain ⟨k, hk⟩ := List.mem_iff_getElem?.1 hs
    have hjf := List.getElem?_eq_getElem hj
    obtain ⟨c0, hc0, hcs⟩ := mem_whereIdx.1 (List.mem_of_getElem? hjf)
    refine ⟨_, ⟨s', j, hf', hjf⟩, ?_⟩
    rw [hc0, ← hcc]
    rw [show freqAt (descsOf o idx) w.none s' j = (c0.freq, c0.width) from freq_get idx hg w.none hk hjf hc0]
    have : c0.spw = s' := by simpa using hcs
    rw [← this]

/-- The visibility at corresponding places. -/
theorem many_data (w : Ops T K U C) (flip flex : Bool) {o : Obj T K U C E} {idx : List Nat} (hg : Good o)
    (hn : o.spws.length ≠ 1) (ha : Apart o) {r r' f f' p' : Nat} (hρ : RowRel w flip idx o r r')
    (hχ : ChanRel idx o f f') : ∃ (s : Int) (k : Nat), o.spws[k]? = some s ∧ (∀ c, o.chans[f]? = some c → c.spw = s) ∧
      (p' ∉ (if flex then [0] else polIdx (descsOf o idx) (descAt o idx (s, k))) → (manyObj w flip idx o flex).data r' f' p' = w.empty) ∧
      (p' ∈ (if flex then [0] else polIdx (descsOf o idx) (descAt o idx (s, k))) → ∀ p,
        idx[(if flex then [0] else polIdx (descsOf o idx) (descAt o idx (s, k))).idxOf p']? = some p →
        (manyObj w flip idx o flex).data r' f' p' = w.flipV flip (o.data r f p)) := by
  obtain ⟨row, hr, hr'⟩ := hρ
  obtain ⟨s, j, hf', hj⟩ := hχ
  obtain ⟨c0, hc0, hcs⟩ := mem_whereIdx.1 (List.mem_of_getElem? hj)
  have hcs : c0.spw = s := by simpa using hcs
  have hs : s ∈ o.spws := hcs ▸ hg.chans c0 (List.mem_of_getElem? hc0)
  obtain ⟨k, hk⟩ := List.mem_iff_getElem?.1 hs
  have hdata : (manyObj w flip idx o flex).data r' f' p' = visAt w false (fileOf w flip idx o)
      (if flex then [0] else polIdx (descsOf o idx) (descAt o idx (s, k))) (descAt o idx (s, k)) (rowKey row) j p' := by
    unfold manyObj
    dsimp only
    rw [hr', hf']
    dsimp only
    rw [find_desc idx hg hk]
  refine ⟨s, k, hk, ?_, ?_, ?_⟩
  · intro c hc
    rw [hc0] at hc
    cases hc
    exact hcs
  · intro h
    rw [hdata]
    unfold visAt
    rw [if_neg h]
  · intro h p hp
    rw [hdata]
    unfold visAt
    rw [if_pos h, recAt_eq hn ha hk hr]
    simp only [Option.bind_some, mkRec, cell, List.getElem?_map, hj, Option.map_some, hp]
    rfl

/-- Nothing is lost and nothing is put elsewhere: the polarizations that were not observed in a window are filled with flagged
zeros. -/
theorem many_plain (w : Ops T K U C) (flip : Bool) {o : Obj T K U C E} {idx : List Nat} (hg : Good o)
    (hp : PolsGood o idx) (hn : o.spws.length ≠ 1) (ha : Apart o) (L : Label T K U E) (v : Vis C K) :
    (Has o L v → Has (manyObj w flip idx o false) (flipL w flip L) (w.flipV flip v)) ∧
    (Has (manyObj w flip idx o false) L v →
      (∃ L0 v0, Has o L0 v0 ∧ L = flipL w flip L0 ∧ v = w.flipV flip v0) ∨
        (v = w.empty ∧ ∃ k k', k < o.spws.length ∧ k' < o.spws.length ∧ corrAt o idx k ≠ corrAt o idx k')) := by
  have hm := many_match w flip false (idx := idx) hg hn ha
  have hpolAt : ∀ (c : Chan K) (j : Nat), polAt (manyObj w flip idx o false) c j =
      ((polList (descsOf o idx))[j]?).map (fun c => (aipsOf c).getD 0) := by
    intro c j
    show ((polList (descsOf o idx)).map _)[j]? = _
    rw [List.getElem?_map]
  constructor
  · refine has_fwd hg hm ?_
    intro r r' row f f' c p q hρ hχ hr hc hq
    obtain ⟨j, hj⟩ := pol_pos hg hp hq
    obtain ⟨s, k, hk, hcs, -, -⟩ := many_data w flip false (p' := 0) hg hn ha hρ hχ
    have h1 := (corr_pols hg hp hk (hcs c hc) q j).2 ⟨p, hj, hq⟩
    obtain ⟨cc, hcc, hccq⟩ := Option.map_eq_some_iff.1 h1
    obtain ⟨p', hp', hidx, hpl⟩ := polIdx_pos hg hp hk hcc
    obtain ⟨s', k', hk', hcs', -, hd⟩ := many_data w flip false (p' := p') hg hn ha hρ hχ
    have hss : s' = s := (hcs' c hc).symm.trans (hcs c hc)
    subst hss
    have hkk : k' = k := by
      obtain ⟨a1, a2⟩ := List.getElem?_eq_some_iff.1 hk
      obtain ⟨b1, b2⟩ := List.getElem?_eq_some_iff.1 hk'
      exact (List.Nodup.getElem_inj_iff hg.spws).1 (b2.trans a2.symm)
    subst hkk
    refine ⟨p', ?_, ?_⟩
    · rw [hpolAt, hpl, Option.map_some, hccq]
    · exact hd hp' p (by rw [← hidx] at hj; exact hj)
  · refine has_bwd (fun v => v = w.empty ∧ ∃ k k', k < o.spws.length ∧ k' < o.spws.length ∧ corrAt o idx k ≠ corrAt o idx k') hg hm ?_
    intro r r' row f f' c p' q hρ hχ hr hc hq
    obtain ⟨s, k, hk, hcs, hd0, hd⟩ := many_data w flip false (p' := p') hg hn ha hρ hχ
    rw [hpolAt] at hq
    by_cases hin : p' ∈ polIdx (descsOf o idx) (descAt o idx (s, k))
    · left
      rw [polIdx_get hg hp hk hin, corr_pols hg hp hk (hcs c hc)] at hq
      obtain ⟨p, hj, hq⟩ := hq
      exact ⟨p, hq, hd hin p hj⟩
    · right
      refine ⟨hd0 hin, ?_⟩
      obtain ⟨cc, hcc, _⟩ := Option.map_eq_some_iff.1 hq
      have hmem := List.mem_of_getElem? hcc
      unfold polList at hmem
      rw [mem_unique] at hmem
      obtain ⟨d, hd, hcd⟩ := List.mem_flatMap.1 hmem
      obtain ⟨s', k', hk', rfl⟩ := mem_descs.1 hd
      refine ⟨k, k', (List.getElem?_eq_some_iff.1 hk).1, (List.getElem?_eq_some_iff.1 hk').1, ?_⟩
      intro he
      apply hin
      refine mem_whereIdx.2 ⟨cc, hcc, ?_⟩
      rw [decide_eq_true_iff]
      show cc ∈ corrAt o idx k
      rw [he]
      exact hcd

omit [LinearOrder T] in
/-- One polarization for each window is only made if there was. -/
theorem makeFlex_some {o : Obj T K U C E} {idx : List Nat} {allow : Bool} (hg : Good o) (hp : PolsGood o idx)
    (h : makeFlex allow (descsOf o idx) (descsOf o idx) = true) : ∃ l, o.flexPol = some l := by
  cases hf : o.flexPol with
  | some l => exact ⟨l, rfl⟩
  | none =>
    exfalso
    unfold makeFlex at h
    simp only [Bool.and_eq_true, decide_eq_true_iff, List.all_eq_true] at h
    obtain ⟨⟨⟨_, h1⟩, h2⟩, _⟩ := h
    obtain ⟨s, rest, hs⟩ := List.exists_cons_of_ne_nil hg.windows
    have hk : o.spws[0]? = some s := by rw [hs]; rfl
    have h3 := h1 _ (mem_descs.2 ⟨s, 0, hk, rfl⟩)
    have h4 := congrArg List.length (polIdx_map hg hp hk)
    rw [List.length_map, List.length_map, h3] at h4
    have hcorr : ∀ k, corrAt o idx k = corrAt o idx 0 := by
      intro k
      unfold corrAt
      rw [hf]
    have h5 : polList (descsOf o idx) = corrAt o idx 0 := by
      apply strictSorted_ext (unique_sorted _) (corr_strict hg hp 0)
      intro i
      rw [mem_unique]
      constructor
      · intro hi
        obtain ⟨d, hd, hc⟩ := List.mem_flatMap.1 hi
        obtain ⟨s', k', hk', rfl⟩ := mem_descs.1 hd
        rw [← hcorr k']
        exact hc
      · intro hi
        exact List.mem_flatMap.2 ⟨_, mem_descs.2 ⟨s, 0, hk, rfl⟩, hi⟩
    rw [h5] at h2
    omega

/-- One polarization for each window. -/
theorem many_flex (w : Ops T K U C) (flip : Bool) {o : Obj T K U C E} {idx : List Nat} (hg : Good o)
    (hp : PolsGood o idx) (hn : o.spws.length ≠ 1) (ha : Apart o) {l : List Int} (hl : o.flexPol = some l) (L : Label T K U E) (v : Vis C K) :
    Has (manyObj w flip idx o true) L v ↔ ∃ L0 v0, Has o L0 v0 ∧ L = flipL w flip L0 ∧ v = w.flipV flip v0 := by
  have hm := many_match w flip true (idx := idx) hg hn ha
  have hidx : idx = [0] := by
    have hperm := order_perm hp.order
    rw [(hg.flex l hl).2] at hperm
    exact List.perm_singleton.1 (by simpa using hperm)
  have hpolAt : ∀ (c : Chan K) (s : Int) (k j : Nat), c.spw = s → o.spws[k]? = some s → polAt (manyObj w flip idx o true) c j = polAt o c j := by
    intro c s k j hc hk
    obtain ⟨hk1, hk2⟩ := List.getElem?_eq_some_iff.1 hk
    have hkl : k < l.length := by rw [(hg.flex l hl).1]; exact hk1
    have h1 : polAt (manyObj w flip idx o true) c j = if j = 0 then ((unique ((descsOf o idx).map (fun d => d.id))).map (fun i =>
      (((descsOf o idx).find? (fun d => decide (d.id = i))).bind (fun d => (d.corr.head?).bind aipsOf)).getD 0))[
        (unique ((descsOf o idx).map (fun d => d.id))).idxOf c.spw]? else none := rfl
    have h2 : polAt o c j = if j = 0 then l[o.spws.idxOf c.spw]? else none := by
      unfold polAt
      rw [hl]
    rw [h1, h2]
    by_cases h0 : j = 0
    · rw [if_pos h0, if_pos h0, ids_eq, List.getElem?_map]
      have hmem : c.spw ∈ unique o.spws := by
        rw [mem_unique, hc]
        exact List.mem_of_getElem? hk
      rw [List.getElem?_idxOf hmem, Option.map_some, hc, find_desc idx hg hk]
      have hpos : o.spws.idxOf s = k := by
        rw [← hk2]
        exact List.Nodup.idxOf_getElem hg.spws _ _
      rw [hpos, List.getElem?_eq_getElem hkl]
      have hn := hp.names
      unfold polsOf at hn
      rw [hl] at hn
      have ha := aips_casa (hn _ (List.getElem_mem hkl))
      have hcorr : (descAt o idx (s, k)).corr = [(casaOf l[k]).getD 0] := by
        show corrAt o idx k = _
        unfold corrAt
        rw [hl]
        simp [List.getD, List.getElem?_eq_getElem hkl]
      simp only [Option.bind_some, hcorr, List.head?_cons, ha, Option.getD_some]
    · rw [if_neg h0, if_neg h0]
  have hzero : ∀ {c : Chan K} {p : Nat} {q : Int}, polAt o c p = some q → p = 0 := by
    intro c p q h
    unfold polAt at h
    rw [hl] at h
    dsimp only at h
    by_contra h0
    rw [if_neg h0] at h
    cases h
  constructor
  · intro hv
    refine (has_bwd (fun _ => False) hg hm ?_ hv).resolve_right id
    intro r r' row f f' c p' q hρ hχ hr hc hq
    obtain ⟨s, k, hk, hcs, -, hd⟩ := many_data w flip true (p' := p') hg hn ha hρ hχ
    rw [hpolAt c s k p' (hcs c hc) hk] at hq
    have hp0 := hzero hq
    subst hp0
    exact Or.inl ⟨0, hq, hd (by simp) 0 (by rw [hidx]; rfl)⟩
  · rintro ⟨L0, v0, hv, rfl, rfl⟩
    refine has_fwd hg hm ?_ hv
    intro r r' row f f' c p q hρ hχ hr hc hq
    have hp0 := hzero hq
    subst hp0
    obtain ⟨s, k, hk, hcs, -, hd⟩ := many_data w flip true (p' := 0) hg hn ha hρ hχ
    exact ⟨0, by rw [hpolAt c s k 0 (hcs c hc) hk]; exact hq, hd (by simp) 0 (by rw [hidx]; rfl)⟩

/-- Rows come back in the order of time, then of antennas, each once. -/
theorem many_rows (w : Ops T K U C) (flip flex : Bool) {o : Obj T K U C E} {idx : List Nat} (hg : Good o)
    (hn : o.spws.length ≠ 1) (ha : Apart o) :
    ((manyObj w flip idx o flex).rows.map rowKey).Pairwise (· < ·) := by
  have hne : descsOf o idx ≠ [] := by
    intro h
    have := congrArg List.length h
    unfold descsOf at this
    rw [List.length_map, List.length_zipIdx] at this
    exact hg.windows (List.eq_nil_of_length_eq_zero this)
  have : (manyObj w flip idx o flex).rows.map rowKey = blts (fileOf w flip idx o) (descsOf o idx) := by
    show (List.filterMap _ _).map rowKey = _
    rw [List.map_filterMap]
    conv_rhs => rw [← List.filterMap_some (l := blts (fileOf w flip idx o) (descsOf o idx))]
    apply List.filterMap_congr
    intro k hk
    obtain ⟨row, hr, rfl⟩ := (mem_blts hn hg.windows).1 hk
    rw [labAt_eq hn ha hne (fun _ h => h) hr]
    rfl
  rw [this]
  exact unique_sorted _

/-- **Visibilities survive the round trip, for several windows.** -/
theorem many_survives (w : Ops T K U C) (flip ign allow raise : Bool) {o : Obj T K U C E} {idx : List Nat} (hg : Good o)
    (hp : PolsGood o idx) (hign : ign = false ∨ NoSingle o) (hs : o.spws.length ≠ 1) (ha : Apart o)
    (hc : raise = false ∨ ∀ l, w.close l l = true) :
    ∃ file o', write w flip idx o = .ok file ∧ read w false ign allow raise file = .ok o' ∧
      (∀ L v, Has o L v → Has o' (flipL w flip L) (w.flipV flip v)) ∧
      (∀ L v, Has o' L v → (∃ L0 v0, Has o L0 v0 ∧ L = flipL w flip L0 ∧ v = w.flipV flip v0) ∨
        (v = w.empty ∧ allow = false ∧ ∃ l, o.flexPol = some l ∧ ∃ p ∈ l, ∃ q ∈ l, p ≠ q)) ∧
      (o'.rows.map (fun r => toLex (r.time, toLex (r.a1, r.a2)))).Pairwise (· < ·) := by
  refine ⟨_, _, write_ok w flip hg hp, many_read w flip ign allow raise hg hign hs ha hc, ?_, ?_, many_rows w flip _ hg hs ha⟩
  · intro L v hv
    cases hm : makeFlex allow (descsOf o idx) (descsOf o idx) with
    | false => exact (many_plain w flip hg hp hs ha L v).1 hv
    | true =>
      obtain ⟨l, hl⟩ := makeFlex_some hg hp hm
      exact (many_flex w flip hg hp hs ha hl _ _).2 ⟨L, v, hv, rfl, rfl⟩
  · intro L v hv
    cases hm : makeFlex allow (descsOf o idx) (descsOf o idx) with
    | false =>
      rw [hm] at hv
      rcases (many_plain w flip hg hp hs ha L v).2 hv with h | ⟨hv0, k, k', hk, hk', hne⟩
      · exact Or.inl h
      · right
        cases hf : o.flexPol with
        | none => exact absurd (by unfold corrAt; rw [hf]) hne
        | some l =>
          have hlen := (hg.flex l hf).1
          have hkl : k < l.length := by omega
          have hkl' : k' < l.length := by omega
          have hcorr : ∀ {i : Nat} (hi : i < l.length), corrAt o idx i = [(casaOf l[i]).getD 0] := by
            intro i hi
            unfold corrAt
            rw [hf]
            simp [List.getD, List.getElem?_eq_getElem hi]
          have hpq : l[k] ≠ l[k'] := by
            intro he
            apply hne
            rw [hcorr hkl, hcorr hkl', he]
          refine ⟨hv0, ?_, l, rfl, l[k], List.getElem_mem _, l[k'], List.getElem_mem _, hpq⟩
          by_contra hall
          have hall : allow = true := by simpa using hall
          have : makeFlex allow (descsOf o idx) (descsOf o idx) = true := by
            unfold makeFlex
            simp only [Bool.and_eq_true, decide_eq_true_iff, List.all_eq_true, hall, true_and, and_true]
            constructor
            · intro d hd
              obtain ⟨s, i, hi, rfl⟩ := mem_descs.1 hd
              have hil : i < l.length := by rw [hlen]; exact (List.getElem?_eq_some_iff.1 hi).1
              have := congrArg List.length (polIdx_map hg hp hi)
              rw [List.length_map, List.length_map, hcorr hil] at this
              exact this
            · by_contra hlt
              have hle : (polList (descsOf o idx)).length ≤ 1 := by omega
              have hin : ∀ {i : Nat} (hi : i < l.length), (casaOf l[i]).getD 0 ∈ polList (descsOf o idx) := by
                intro i hi
                unfold polList
                rw [mem_unique, List.mem_flatMap]
                have hks : i < o.spws.length := by omega
                exact ⟨_, mem_descs.2 ⟨_, i, List.getElem?_eq_getElem hks, rfl⟩, by show _ ∈ corrAt o idx i; rw [hcorr hi]; simp⟩
              have heq : (casaOf l[k]).getD 0 = (casaOf l[k']).getD 0 := by
                have a := hin hkl
                have b := hin hkl'
                match hpl : polList (descsOf o idx) with
                | [] => rw [hpl] at a; cases a
                | [x] => rw [hpl] at a b; rw [List.mem_singleton.1 a, List.mem_singleton.1 b]
                | x :: y :: t => rw [hpl] at hle; simp at hle
              have hn := hp.names
              unfold polsOf at hn
              rw [hf] at hn
              exact hpq (casa_inj (hn _ (List.getElem_mem _)) (hn _ (List.getElem_mem _)) heq)
          rw [hm] at this
          cases this
    | true =>
      rw [hm] at hv
      obtain ⟨l, hl⟩ := makeFlex_some hg hp hm
      exact Or.inl ((many_flex w flip hg hp hs ha hl _ _).1 hv)

end Verif.MsVis
