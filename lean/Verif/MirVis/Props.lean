import Mathlib.Tactic.Positivity
import Mathlib.Algebra.Order.Field.Basic
import Verif.MirVis.Lemmas

/-! Theorems about visibilities made of MIR records. -/

namespace Verif.MirVis
open Verif.Np

variable {V K : Type} [Field K] [LinearOrder K] [Zero V]

/-- Records of an integration and two antennas. -/
def SameRow {K : Type} (a b : Bl K) : Prop := a.int.inhid = b.int.inhid ∧ a.a1 = b.a1 ∧ a.a2 = b.a2

instance {K : Type} (a b : Bl K) : Decidable (SameRow a b) := inferInstanceAs (Decidable (_ ∧ _))

/-- The records belong together. -/
structure Good (d : Dat V K) : Prop where
  /-- windows are made in any order -/
  set : ∀ k, k ∈ d.order ↔ ∃ s ∈ d.sps, d.key s = k
  /-- each polarization has a number -/
  code : ∀ s ∈ d.sps, d.codes (d.pol s) ≠ none
  base : ∀ s ∈ d.sps, s.bl ∈ d.bls
  int : ∀ s ∈ d.sps, s.bl.int.inhid ∈ d.ins
  chunk : ∀ s ∈ d.sps, s.chunk < 255
  isb : ∀ s ∈ d.sps, s.bl.isb ≤ 1
  /-- spectra of a window (and of a polarization, if these are tuned to different frequencies) have the same channels -/
  tuned : ∀ s ∈ d.sps, ∀ t ∈ d.sps, s.chunk = t.chunk → s.bl.isb = t.bl.isb → (d.split = true → d.pol s = d.pol t) →
    s.fsky = t.fsky ∧ s.fres = t.fres ∧ s.nch = t.nch
  size : ∀ s ∈ d.sps, s.vis.length = s.nch
  /-- polarizations that are tuned to different frequencies: one has the code 1 -/
  one : d.split = true → (1 : Int) ∈ d.pols
  /-- one spectrum for each row, window and polarization -/
  once : ∀ s ∈ d.sps, ∀ t ∈ d.sps, SameRow s.bl t.bl → s.chunk = t.chunk → s.bl.isb = t.bl.isb → d.pol s = d.pol t → s = t
  /-- records of a row say the same -/
  same : ∀ a ∈ d.bls, ∀ b ∈ d.bls, SameRow a b → a.int = b.int ∧ a.u = b.u ∧ a.v = b.v ∧ a.w = b.w

omit [Field K] [LinearOrder K] in
theorem row_eq {a b : Bl K} : a.row = b.row ↔ SameRow a b := by
  unfold Bl.row SameRow
  rw [toLex_inj, Prod.mk.injEq, toLex_inj, Prod.mk.injEq]

omit [LinearOrder K] [Zero V] in
theorem info_eq {d : Dat V K} (h : ∀ a ∈ d.bls, ∀ b ∈ d.bls, SameRow a b → a.int = b.int ∧ a.u = b.u ∧ a.v = b.v ∧ a.w = b.w) :
    ∀ a ∈ d.bls, ∀ b ∈ d.bls, a.row = b.row → a.info = b.info := by
  intro a ha b hb e
  have e := row_eq.1 e
  obtain ⟨h1, h2, h3, h4⟩ := h a ha b hb e
  unfold Bl.info
  rw [h1, h2, h3, h4, e.2.1, e.2.2]

omit [Field K] [LinearOrder K] [Zero V] in
theorem mem_pols {d : Dat V K} {s : Sp V K} (hs : s ∈ d.sps) : d.pol s ∈ d.pols := mem_unique.2 (List.mem_map.2 ⟨s, hs, rfl⟩)

/-- C215: the numbers of windows are different for different windows, sidebands and, if these are tuned to different frequencies, polarizations. -/
theorem window_ids {a b : Key} (sp : Bool) (ha : a.chunk < 255) (hb : b.chunk < 255) (sa : a.isb ≤ 1) (sb : b.isb ≤ 1) :
    spwId sp a = spwId sp b ↔ a.chunk = b.chunk ∧ a.isb = b.isb ∧ (sp = true → (a.pol = 1 ↔ b.pol = 1)) := by
  obtain ⟨ca, ia, pa⟩ := a
  obtain ⟨cb, ib, pb⟩ := b
  dsimp only at ha hb sa sb
  have h1 : ∀ i : Nat, i ≤ 1 → ((-1 : Int)) ^ (1 + i) = if i = 0 then -1 else 1 := by
    intro i hi
    rcases i with _ | _ | i
    · rfl
    · rfl
    · omega
  unfold spwId
  simp only [h1 ia sa, h1 ib sb]
  cases sp
  · simp only [Bool.false_and, Bool.false_eq_true, if_false, false_implies, and_true]
    split <;> split <;> split <;> split <;> omega
  · simp only [Bool.true_and, decide_eq_true_eq, true_implies]
    by_cases p1 : pa = 1 <;> by_cases p2 : pb = 1 <;> simp only [p1, p2, if_true, if_false, iff_self, and_true, iff_true, iff_false, not_true, and_false,
      true_iff, false_iff] <;> split <;> split <;> split <;> split <;> omega

omit [Zero V] in
theorem same_window {d : Dat V K} (h : Good d) {s t : Sp V K} (hs : s ∈ d.sps) (ht : t ∈ d.sps) (e : d.id s = d.id t) :
    s.chunk = t.chunk ∧ s.bl.isb = t.bl.isb ∧ (d.split = true → d.pol s = d.pol t) := by
  obtain ⟨h1, h2, h3⟩ := (window_ids (a := d.key s) (b := d.key t) d.split (h.chunk s hs) (h.chunk t ht) (h.isb s hs) (h.isb t ht)).1 e
  refine ⟨h1, h2, fun hsp => ?_⟩
  have h2 : d.pols.length = 2 := by
    unfold Dat.split at hsp
    dsimp only at hsp
    simp only [Bool.and_eq_true, decide_eq_true_eq] at hsp
    exact hsp.1.1.1
  exact two_values h2 (unique_sorted _).nodup (h.one hsp) (mem_pols hs) (mem_pols ht) (h3 hsp)

omit [Zero V] in
theorem id_mem {d : Dat V K} (h : Good d) {s : Sp V K} (hs : s ∈ d.sps) : d.id s ∈ d.ids :=
  mem_unique.2 (List.mem_map.2 ⟨d.key s, (h.set _).2 ⟨s, hs, rfl⟩, rfl⟩)

omit [Zero V] in
/-- The key from which a window is made is that of a spectrum of the window. -/
theorem winKey_some {d : Dat V K} (h : Good d) {s : Sp V K} (hs : s ∈ d.sps) :
    ∃ t ∈ d.sps, d.winKey (d.id s) = some (d.key t) ∧ d.id t = d.id s := by
  have hm : d.key s ∈ d.order.filter (fun k => decide (spwId d.split k = d.id s)) :=
    List.mem_filter.2 ⟨(h.set _).2 ⟨s, hs, rfl⟩, decide_eq_true rfl⟩
  have hl := List.getLast_mem (List.ne_nil_of_mem hm)
  obtain ⟨h1, h2⟩ := List.mem_filter.1 hl
  obtain ⟨t, ht, e⟩ := (h.set _).1 h1
  refine ⟨t, ht, ?_, ?_⟩
  · unfold Dat.winKey
    rw [List.getLast?_eq_some_getLast (List.ne_nil_of_mem hm), e]
  · have := of_decide_eq_true h2
    rw [← e] at this
    exact this

omit [Zero V] in
theorem recs_tuned {d : Dat V K} (h : Good d) {s : Sp V K} (hs : s ∈ d.sps) :
    d.recs (d.id s) ≠ [] ∧ ∀ t ∈ d.recs (d.id s), t.fsky = s.fsky ∧ t.fres = s.fres ∧ t.nch = s.nch := by
  obtain ⟨t, ht, e1, e2⟩ := winKey_some h hs
  constructor
  · refine List.ne_nil_of_mem (a := t) (List.mem_filter.2 ⟨ht, ?_⟩)
    rw [e1]
    exact decide_eq_true rfl
  · intro x hx
    obtain ⟨hx1, hx2⟩ := List.mem_filter.1 hx
    have e3 := of_decide_eq_true hx2
    rw [e1] at e3
    have e4 : d.id x = d.id s := by
      rw [← e2]
      unfold Dat.id
      rw [Option.some.inj e3]
    obtain ⟨g1, g2, g3⟩ := same_window h hx1 hs e4
    exact h.tuned x hx1 s hs g1 g2 g3

omit [Zero V] in
theorem nchan_eq {d : Dat V K} (h : Good d) {s : Sp V K} (hs : s ∈ d.sps) : d.nchan (d.id s) = s.nch := by
  obtain ⟨h1, h2⟩ := recs_tuned h hs
  refine med_const (by simpa using h1) ?_ (by omega)
  rintro y hy
  obtain ⟨t, ht, rfl⟩ := List.mem_map.1 hy
  exact (h2 t ht).2.2

omit [Zero V] in
theorem fsky_eq [IsStrictOrderedRing K] {d : Dat V K} (h : Good d) {s : Sp V K} (hs : s ∈ d.sps) : d.fsky (d.id s) = s.fsky * 10 ^ 9 := by
  obtain ⟨h1, h2⟩ := recs_tuned h hs
  unfold Dat.fsky
  rw [med_const (x := s.fsky) (by simpa using h1) ?_ (by ring)]
  rintro y hy
  obtain ⟨t, ht, rfl⟩ := List.mem_map.1 hy
  exact (h2 t ht).1

omit [Zero V] in
theorem fres_eq [IsStrictOrderedRing K] {d : Dat V K} (h : Good d) {s : Sp V K} (hs : s ∈ d.sps) : d.fres (d.id s) = s.fres * 10 ^ 6 := by
  obtain ⟨h1, h2⟩ := recs_tuned h hs
  unfold Dat.fres
  rw [med_const (x := s.fres) (by simpa using h1) ?_ (by ring)]
  rintro y hy
  obtain ⟨t, ht, rfl⟩ := List.mem_map.1 hy
  exact (h2 t ht).2.1

/-- Records that belong together are read. -/
theorem read_ok {d : Dat V K} (h : Good d) : d.read = .ok d.obj := by
  unfold Dat.read
  rw [if_neg, if_neg]
  · simp only [List.any_eq_true, decide_eq_true_eq, not_exists, not_and]
    intro s hs h1
    exact absurd ((h.size s hs).trans (nchan_eq h hs).symm) h1
  · simp only [List.any_eq_true, decide_eq_true_eq, not_exists, not_and]
    intro p hp
    obtain ⟨s, hs, rfl⟩ := List.mem_map.1 (mem_unique.1 hp)
    exact h.code s hs

omit [Field K] [LinearOrder K] [Zero V] in
theorem mem_visited {d : Dat V K} {s : Sp V K} (hi : ∀ s ∈ d.sps, s.bl.int.inhid ∈ d.ins) : s ∈ d.visited ↔ s ∈ d.sps := by
  unfold Dat.visited
  split
  · rw [List.mem_flatMap]
    constructor
    · rintro ⟨b, _, hb⟩
      exact (List.mem_filter.1 hb).1
    · intro hs
      obtain ⟨b, hb, hx⟩ := mem_blocks (step := d.ins.length / 8 + 1) (by omega) (hi s hs)
      exact ⟨b, hb, List.mem_filter.2 ⟨hs, decide_eq_true hx⟩⟩
  · exact Iff.rfl

theorem data_eq (d : Dat V K) (r j c : Nat) : d.visited.foldl d.put (fun _ _ _ => ⟨0, true, 0⟩) r j c =
    match (d.visited.filter (fun s => d.hits s r j c)).getLast? with
    | some s => d.value s (c - d.start (d.id s))
    | none => ⟨0, true, 0⟩ := by
  have e : ∀ (l : List (Sp V K)) (a : Nat → Nat → Nat → Vis V K), l.foldl d.put a r j c =
      l.foldl (fun a s => fun (x : Nat × Nat × Nat) => if d.hits s x.1 x.2.1 x.2.2 then d.value s (x.2.2 - d.start (d.id s)) else a x)
        (fun x => a x.1 x.2.1 x.2.2) (r, j, c) := by
    intro l
    induction l with
    | nil => intro a; rfl
    | cons s t ih => intro a; rw [List.foldl_cons, List.foldl_cons, ih]; rfl
  rw [e, foldl_last (X := Nat × Nat × Nat) (p := fun s x => d.hits s x.1 x.2.1 x.2.2) (v := fun s x => d.value s (x.2.2 - d.start (d.id s)))]
  dsimp only
  cases (d.visited.filter (fun s => d.hits s r j c)).getLast? <;> rfl

omit [Zero V] in
/-- Different spectra have different places. -/
theorem hits_inj {d : Dat V K} (h : Good d) {s t : Sp V K} (hs : s ∈ d.sps) (ht : t ∈ d.sps) {r j c : Nat} (h1 : d.hits s r j c = true)
    (h2 : d.hits t r j c = true) : s = t := by
  obtain ⟨r1, j1, a1, b1⟩ := of_decide_eq_true h1
  obtain ⟨r2, j2, a2, b2⟩ := of_decide_eq_true h2
  have ei : d.id s = d.id t := slices_disjoint d.nchan (id_mem h hs) (id_mem h ht) a1 b1 a2 b2
  obtain ⟨g1, g2, g3⟩ := same_window h hs ht ei
  have hp : d.pol s = d.pol t := by
    cases hsp : d.split with
    | true => exact g3 hsp
    | false =>
      have e := j1.trans j2.symm
      unfold Dat.polIdx at e
      rw [hsp] at e
      simp only [Bool.false_and, Bool.false_eq_true, if_false] at e
      have l1 := List.idxOf_lt_length_of_mem (mem_pols hs)
      have l2 := List.idxOf_lt_length_of_mem (mem_pols ht)
      rw [← List.getElem_idxOf l1, ← List.getElem_idxOf l2]
      simp only [e]
  have mr : ∀ x ∈ d.sps, x.bl.row ∈ d.rowKeys := fun x hx => mem_unique.2 (List.mem_map.2 ⟨x.bl, h.base x hx, rfl⟩)
  have hr : s.bl.row = t.bl.row := by
    have l1 := List.idxOf_lt_length_of_mem (mr s hs)
    have l2 := List.idxOf_lt_length_of_mem (mr t ht)
    have e : d.rowKeys.idxOf s.bl.row = d.rowKeys.idxOf t.bl.row := r1.trans r2.symm
    rw [← List.getElem_idxOf l1, ← List.getElem_idxOf l2]
    simp only [e]
  exact h.once s hs t ht (row_eq.1 hr) g1 g2 hp

omit [LinearOrder K] [Zero V] in
/-- Rows have what their records say. -/
theorem rows_at {d : Dat V K} (hs : ∀ a ∈ d.bls, ∀ b ∈ d.bls, a.row = b.row → a.info = b.info) {b : Bl K} (hb : b ∈ d.bls) :
    d.rows[d.rowKeys.idxOf b.row]? = some b.info := by
  have key : ∀ l : List Row, (∀ r ∈ l, ∃ b ∈ d.bls, b.row = r) → b.row ∈ l →
      (l.filterMap (fun r => ((d.bls.filter (fun b => decide (b.row = r))).getLast?).map Bl.info))[l.idxOf b.row]? = some b.info := by
    intro l
    induction l with
    | nil => intro _ h; cases h
    | cons r t ih =>
      intro h hm
      obtain ⟨x, hx, e⟩ := h r List.mem_cons_self
      have hmem : x ∈ d.bls.filter (fun b => decide (b.row = r)) := List.mem_filter.2 ⟨hx, decide_eq_true e⟩
      have hl := List.getLast?_eq_some_getLast (List.ne_nil_of_mem hmem)
      have hy := List.getLast_mem (List.ne_nil_of_mem hmem)
      obtain ⟨y1, y2⟩ := List.mem_filter.1 hy
      rw [List.filterMap_cons_some (b := ((d.bls.filter (fun b => decide (b.row = r))).getLast (List.ne_nil_of_mem hmem)).info) (by rw [hl]; rfl)]
      by_cases hr : b.row = r
      · rw [List.idxOf_cons, hr]
        simp only [beq_self_eq_true, cond_true, List.getElem?_cons_zero]
        rw [hs _ y1 b hb ((of_decide_eq_true y2).trans hr.symm)]
      · rw [List.idxOf_cons_ne _ (fun e => hr e.symm), List.getElem?_cons_succ]
        exact ih (fun r hr => h r (List.mem_cons_of_mem _ hr)) ((List.mem_cons.1 hm).resolve_left hr)
  refine key d.rowKeys ?_ (mem_unique.2 (List.mem_map.2 ⟨b, hb, rfl⟩))
  intro r hr
  obtain ⟨b, hb, e⟩ := List.mem_map.1 (mem_unique.1 hr)
  exact ⟨b, hb, e⟩

/-- What a row says about the record of a baseline: coordinates are those of the second antenna minus the first one. -/
structure Says (m : Meta K) (b : Bl K) : Prop where
  ants : m.a1 = b.a1 ∧ m.a2 = b.a2
  time : m.mjd = b.int.mjd ∧ m.integ = b.int.rinteg
  source : m.source = b.int.isource ∧ m.ra = b.int.ara ∧ m.dec = b.int.adec
  uvw : m.u + b.u = 0 ∧ m.v + b.v = 0 ∧ m.w + b.w = 0

omit [LinearOrder K] in
theorem info_says (b : Bl K) : Says b.info b :=
  ⟨⟨rfl, rfl⟩, ⟨rfl, rfl⟩, ⟨rfl, rfl, rfl⟩, neg_add_cancel _, neg_add_cancel _, neg_add_cancel _⟩

/-- What the object says about the polarization at a place of the polarization axis and a channel. -/
def polAt (o : Obj V K) (j c : Nat) : Option Int :=
  match o.flexPol with
  | none => o.pols[j]?
  | some l => (o.chanSpw[c]?).bind (fun i => l[o.spws.idxOf i]?)

theorem pol_at {d : Dat V K} (h : Good d) {s : Sp V K} (hs : s ∈ d.sps) {k : Nat} (hk : k < d.nchan (d.id s)) :
    polAt d.obj (d.polIdx s) (d.start (d.id s) + k) = d.codes (d.pol s) := by
  have hid := id_mem h hs
  unfold polAt
  obtain ⟨t, ht, w1, w2⟩ := winKey_some h hs
  cases hsp : d.split with
  | true =>
    have e3 : d.obj.flexPol = some (d.ids.map (fun i => ((d.winKey i).bind (fun k => d.codes k.pol)).getD 0)) := by
      unfold Dat.obj; dsimp only; rw [if_pos hsp]
    have e5 : d.obj.chanSpw[d.start (d.id s) + k]? = some (d.id s) := by
      have := flatMap_id d.nchan (fun i => List.replicate (d.nchan i) i) (fun i _ => List.length_replicate) hid k hk
      rw [List.getElem?_replicate, if_pos hk] at this
      exact this
    rw [e3]
    dsimp only
    rw [e5, Option.bind_some, show d.obj.spws = d.ids from rfl, List.getElem?_map,
      List.getElem?_eq_getElem (List.idxOf_lt_length_of_mem hid), List.getElem_idxOf, Option.map_some, w1, Option.bind_some]
    have hp := (same_window h ht hs w2).2.2 hsp
    show some ((d.codes (d.pol t)).getD 0) = _
    rw [hp]
    cases hc : d.codes (d.pol s) with
    | none => exact absurd hc (h.code s hs)
    | some v => rfl
  | false =>
    have e3 : d.obj.flexPol = none := by unfold Dat.obj; dsimp only; rw [if_neg (by simp [hsp])]
    have e2 : d.obj.pols = d.pols.map (fun p => (d.codes p).getD 0) := by unfold Dat.obj; dsimp only; rw [if_neg (by simp [hsp])]
    rw [e3]
    dsimp only
    have : d.polIdx s = d.pols.idxOf (d.pol s) := by unfold Dat.polIdx; rw [hsp]; rfl
    rw [e2, this, List.getElem?_map, List.getElem?_eq_getElem (List.idxOf_lt_length_of_mem (mem_pols hs)), List.getElem_idxOf, Option.map_some]
    cases hc : d.codes (d.pol s) with
    | none => exact absurd hc (h.code s hs)
    | some v => rfl

omit [Zero V] in
theorem chanFreq_eq [IsStrictOrderedRing K] (off f r : K) (n k : Nat) : chanFreq off f (r * 10 ^ 6) n k =
    f - (if r < 0 then -off else if r = 0 then 0 else off) + r * 10 ^ 6 * ((k : K) - ((n : K) - 1) / 2) := by
  have h6 : (0 : K) < 10 ^ 6 := by positivity
  have e : sgn (r * 10 ^ 6) * off = if r < 0 then -off else if r = 0 then 0 else off := by
    unfold sgn
    by_cases h : r < 0
    · rw [if_pos h, if_pos (mul_neg_of_neg_of_pos h h6)]
      ring
    · rw [if_neg h, if_neg (not_lt.2 (mul_nonneg (not_lt.1 h) h6.le))]
      by_cases h0 : r = 0
      · rw [if_pos h0, if_pos (by rw [h0, zero_mul]), zero_mul]
      · rw [if_neg h0, if_neg (mul_ne_zero h0 h6.ne'), one_mul]
  unfold chanFreq
  rw [e]
  ring

/-- C215: each spectrum is found, conjugated, with its flags and weights, at its integration, antennas, frequencies and polarization. -/
theorem placed_partial [IsStrictOrderedRing K] {d : Dat V K} (h : Good d) : ∃ o, d.read = .ok o ∧ ∀ s ∈ d.sps, ∃ r j c,
    (∃ m, o.rows[r]? = some m ∧ Says m s.bl) ∧
    ∀ k x, s.vis[k]? = some x →
      o.data r j (c + k) = ⟨d.conj x.data, x.flag, x.weight⟩ ∧
      polAt o j (c + k) = d.codes (d.pol s) ∧
      o.freqs[c + k]? = some (s.fsky * 10 ^ 9 - (if s.fres < 0 then -d.off else if s.fres = 0 then 0 else d.off) +
        s.fres * 10 ^ 6 * ((k : K) - ((s.nch : K) - 1) / 2)) ∧
      o.widths[c + k]? = some |s.fres * 10 ^ 6| := by
  refine ⟨_, read_ok h, fun s hs => ⟨d.rowOf s, d.polIdx s, d.start (d.id s), ⟨_, rows_at (info_eq h.same) (h.base s hs), info_says _⟩, ?_⟩⟩
  intro k x hx
  have hk : k < s.nch := by
    rw [← h.size s hs]
    exact (List.getElem?_eq_some_iff.1 hx).1
  have hk' : k < d.nchan (d.id s) := by rw [nchan_eq h hs]; exact hk
  have hid := id_mem h hs
  refine ⟨?_, pol_at h hs hk', ?_, ?_⟩
  · have hh : d.hits s (d.rowOf s) (d.polIdx s) (d.start (d.id s) + k) = true := decide_eq_true ⟨rfl, rfl, by omega, by omega⟩
    show d.visited.foldl d.put (fun _ _ _ => ⟨0, true, 0⟩) _ _ _ = _
    rw [data_eq, getLast_all (s := s) (List.mem_filter.2 ⟨(mem_visited h.int).2 hs, hh⟩)]
    · dsimp only
      unfold Dat.value
      dsimp only
      rw [Nat.add_sub_cancel_left]
      have : s.vis.getD (if s.vis.length = 1 then 0 else k) ⟨0, true, 0⟩ = x := by
        have hk1 := (List.getElem?_eq_some_iff.1 hx).1
        have : (if s.vis.length = 1 then 0 else k) = k := by split <;> omega
        rw [this, List.getD_eq_getElem?_getD, hx]
        rfl
      rw [this]
    · intro t ht
      obtain ⟨t1, t2⟩ := List.mem_filter.1 ht
      exact hits_inj h ((mem_visited h.int).1 t1) hs t2 hh
  · have := flatMap_id d.nchan (fun i => (List.range (d.nchan i)).map (chanFreq d.off (d.fsky i) (d.fres i) (d.nchan i)))
      (fun i _ => by rw [List.length_map, List.length_range]) hid k hk'
    rw [List.getElem?_map, List.getElem?_range hk', fsky_eq h hs, fres_eq h hs, nchan_eq h hs, Option.map_some, chanFreq_eq] at this
    exact this
  · have := flatMap_id d.nchan (fun i => List.replicate (d.nchan i) (max (d.fres i) (-d.fres i))) (fun i _ => List.length_replicate) hid k hk'
    rw [List.getElem?_replicate, if_pos hk', fres_eq h hs] at this
    exact this

/-- C215: where there is no spectrum of the row and polarization, data are flagged and have no weight. -/
theorem unfilled_partial {d : Dat V K} (h : Good d) : ∃ o, d.read = .ok o ∧ ∀ r j c, o.data r j c ≠ ⟨0, true, 0⟩ →
    ∃ s ∈ d.sps, (∃ m, o.rows[r]? = some m ∧ Says m s.bl) ∧ polAt o j c = d.codes (d.pol s) := by
  refine ⟨_, read_ok h, fun r j c hne => ?_⟩
  have e : d.obj.data r j c = d.visited.foldl d.put (fun _ _ _ => ⟨0, true, 0⟩) r j c := rfl
  rw [e, data_eq] at hne
  cases hl : (d.visited.filter (fun s => d.hits s r j c)).getLast? with
  | none => rw [hl] at hne; exact absurd rfl hne
  | some s =>
    obtain ⟨h1, h2⟩ := List.mem_filter.1 (List.mem_of_getLast? hl)
    have hs := (mem_visited h.int).1 h1
    obtain ⟨rfl, rfl, a, b⟩ := of_decide_eq_true h2
    refine ⟨s, hs, ⟨_, rows_at (info_eq h.same) (h.base s hs), info_says _⟩, ?_⟩
    obtain ⟨k, rfl⟩ := Nat.exists_eq_add_of_le a
    exact pol_at h hs (by omega)

/-- C215: channels of a window are evenly spaced, and their middle is the frequency of the window but for the fixed offset. -/
theorem freq_even [IsStrictOrderedRing K] (off fsky fres : K) (n k : Nat) :
    chanFreq off fsky fres n (k + 1) - chanFreq off fsky fres n k = fres ∧
    chanFreq off fsky fres (2 * k + 1) k = fsky - sgn fres * off := by
  constructor
  · unfold chanFreq
    push_cast
    ring
  · unfold chanFreq
    push_cast
    ring

omit [Field K] [LinearOrder K] [Zero V] in
/-- C215: polarizations are those of the receivers if there is only one code for four polarizations, and those of the codes otherwise. -/
theorem pol_receivers (d : Dat V K) (s : Sp V K) :
    ((∃ p, ∀ q, q ∈ d.bls.map Bl.ipol ↔ q = p) ∧ d.ncodes = 4 →
      (d.pol s = 0 ↔ s.bl.rx1 = 0 ∧ s.bl.rx2 = 0) ∧ (d.pol s = 1 ↔ s.bl.rx1 ≠ 0 ∧ s.bl.rx2 ≠ 0) ∧
      (d.pol s = 2 ↔ s.bl.rx1 = 0 ∧ s.bl.rx2 ≠ 0) ∧ (d.pol s = 3 ↔ s.bl.rx1 ≠ 0 ∧ s.bl.rx2 = 0)) ∧
    (¬ ((∃ p, ∀ q, q ∈ d.bls.map Bl.ipol ↔ q = p) ∧ d.ncodes = 4) → d.pol s = s.bl.ipol) := by
  have key : (∃ p, ∀ q, q ∈ d.bls.map Bl.ipol ↔ q = p) ↔ (unique (d.bls.map Bl.ipol)).length = 1 := by
    constructor
    · rintro ⟨p, hp⟩
      have hs := unique_sorted (d.bls.map Bl.ipol)
      have hm : ∀ x, x ∈ unique (d.bls.map Bl.ipol) ↔ x = p := fun x => by rw [mem_unique, hp]
      revert hs hm
      generalize unique (d.bls.map Bl.ipol) = l
      intro hs hm
      match l, hs, hm with
      | [], _, hm => exact absurd ((hm p).2 rfl) (by simp)
      | [x], _, _ => rfl
      | x :: y :: t, hs, hm =>
        have h1 := (hm x).1 (by simp)
        have h2 := (hm y).1 (by simp)
        have := List.rel_of_pairwise_cons hs (a' := y) (by simp)
        omega
    · intro h
      obtain ⟨p, hp⟩ := List.length_eq_one_iff.1 h
      refine ⟨p, fun q => ?_⟩
      rw [← mem_unique, hp, List.mem_singleton]
  rw [key]
  constructor
  · intro h
    have : d.pol s = rxPol s.bl.rx1 s.bl.rx2 := by unfold Dat.pol; rw [if_pos (show d.single = true from decide_eq_true h)]
    rw [this]
    unfold rxPol
    by_cases h1 : s.bl.rx1 = 0 <;> by_cases h2 : s.bl.rx2 = 0 <;> simp [h1, h2]
  · intro h
    unfold Dat.pol
    rw [if_neg (by unfold Dat.single; simpa using h)]

omit [Field K] [Zero V] in
/-- C215: polarizations have their own channels if there are two, and each receiver has a window at a frequency that the other one
does not have. -/
theorem split_iff (d : Dat V K) : d.split = true ↔ d.pols.length = 2 ∧
    (∃ s ∈ d.sps, (s.bl.rx1 = 0 ∧ s.bl.rx2 = 0) ∧ ∀ t ∈ d.sps, t.bl.rx1 ≠ 0 ∧ t.bl.rx2 ≠ 0 → (t.fsky, t.chunk) ≠ (s.fsky, s.chunk)) ∧
    (∃ s ∈ d.sps, (s.bl.rx1 ≠ 0 ∧ s.bl.rx2 ≠ 0) ∧ ∀ t ∈ d.sps, t.bl.rx1 = 0 ∧ t.bl.rx2 = 0 → (t.fsky, t.chunk) ≠ (s.fsky, s.chunk)) := by
  have key : ∀ (l m : List (Sp V K)), ((l.map (fun s => (s.fsky, s.chunk))).all (fun x => decide (x ∈ m.map (fun s => (s.fsky, s.chunk))))) = false ↔
      ∃ s ∈ l, ∀ t ∈ m, (t.fsky, t.chunk) ≠ (s.fsky, s.chunk) := by
    intro l m
    rw [List.all_eq_false]
    constructor
    · rintro ⟨x, hx, h⟩
      obtain ⟨s, hs, rfl⟩ := List.mem_map.1 hx
      exact ⟨s, hs, fun t ht e => h (decide_eq_true (List.mem_map.2 ⟨t, ht, e⟩))⟩
    · rintro ⟨s, hs, h⟩
      refine ⟨_, List.mem_map.2 ⟨s, hs, rfl⟩, fun hd => ?_⟩
      obtain ⟨t, ht, e⟩ := List.mem_map.1 (of_decide_eq_true hd)
      exact h t ht e
  unfold Dat.split
  dsimp only
  simp only [Bool.and_eq_true, Bool.not_eq_true', Bool.or_eq_false_iff, decide_eq_true_eq]
  rw [key, key]
  simp only [List.mem_filter, decide_eq_true_eq, and_imp]
  constructor
  · rintro ⟨⟨⟨h1, -⟩, -⟩, ⟨s, ⟨hs, hs'⟩, h2⟩, ⟨t, ⟨ht, ht'⟩, h3⟩⟩
    exact ⟨h1, ⟨s, hs, hs', fun t ht a b => h2 t ht a b⟩, ⟨t, ht, ht', fun s hs a b => h3 s hs a b⟩⟩
  · rintro ⟨h1, ⟨s, hs, hs', h2⟩, ⟨t, ht, ht', h3⟩⟩
    refine ⟨⟨⟨h1, ?_⟩, ?_⟩, ⟨s, ⟨hs, hs'⟩, fun t ht a b => h2 t ht a b⟩, ⟨t, ⟨ht, ht'⟩, fun s hs a b => h3 s hs a b⟩⟩
    · rw [List.isEmpty_eq_false_iff]
      exact List.ne_nil_of_mem (a := s) (List.mem_filter.2 ⟨hs, decide_eq_true hs'⟩)
    · rw [List.isEmpty_eq_false_iff]
      exact List.ne_nil_of_mem (a := t) (List.mem_filter.2 ⟨ht, decide_eq_true ht'⟩)

/-- C215: windows are in the order of their numbers, each once. -/
theorem windows_sorted {d : Dat V K} {o : Obj V K} (h : d.read = .ok o) : o.spws.Pairwise (· < ·) := by
  unfold Dat.read at h
  split at h
  · cases h
  · split at h
    · cases h
    · cases h
      exact unique_sorted _

omit [Field K] [LinearOrder K] [Zero V] in
/-- C215: rows are in the order of integrations, then of antennas, each once. -/
theorem rows_sorted (d : Dat V K) : d.rowKeys.Pairwise (· < ·) ∧
    ∀ r, r ∈ d.rowKeys ↔ ∃ b ∈ d.bls, r = toLex (b.int.inhid, toLex (b.a1, b.a2)) := by
  refine ⟨unique_sorted _, fun r => ?_⟩
  unfold Dat.rowKeys
  rw [mem_unique, List.mem_map]
  exact ⟨fun ⟨b, hb, e⟩ => ⟨b, hb, e.symm⟩, fun ⟨b, hb, e⟩ => ⟨b, hb, e.symm⟩⟩

end Verif.MirVis
