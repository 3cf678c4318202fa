import Verif.Compass.Dict
import Mathlib.Data.Nat.Bitwise

/-!
# Calibrated spectra
-/

namespace Verif.Compass

section
variable {C K : Type} [Field C] [StarRing C] [DecidableEq C] [Field K] [LinearOrder K]

/-- A value that can be divided by. -/
def usable {α : Type} [Zero α] (x : Option α) : Prop := ∃ g, x = some g ∧ g ≠ 0

omit [Field C] [StarRing C] in
theorem mkGain_cal [Field C] (f : File C K) (i j k : Nat) :
    ((mkGain f i j).calFl k = false ↔ usable (f.gain i j k)) ∧ (∀ g, f.gain i j k = some g → g ≠ 0 → (mkGain f i j).cal k = g) := by
  unfold mkGain usable
  cases h : f.gain i j k with
  | none => simp [h]
  | some g => simp [h]; exact fun h1 h2 => absurd h2 h1

omit [StarRing C] in
theorem mkGain_sefd (f : File C K) (i j k : Nat) :
    ((mkGain f i j).sefdFl k = false ↔ usable (f.sefd i j k)) ∧ (∀ s, f.sefd i j k = some s → (mkGain f i j).sefd k = s ^ 2) := by
  unfold mkGain usable
  cases h : f.sefd i j k with
  | none => simp [h]
  | some g => simp [h]

/-- The solution of a baseline, from the positions of both antennas in the file. -/
theorem corr_get (ab : C → C) (f : File C K) (hf : Plain f) (recs : List Rec) (p : Pair) {i1 j1 i2 j2 : Nat}
    (h1 : Has f p.ant1 p.rx1 p.sb p.chunk i1 j1) (h2 : Has f p.ant2 p.rx2 p.sb p.chunk i2 j2)
    (hc : p.rx1 = p.rx2 ∨ ∀ r ∈ recs, r.pair.rx1 ≠ r.pair.rx2) :
    dget (corr ab f recs) p = some (combine ab ⟨p.ant1, p.rx1, p.sb, p.chunk⟩ ⟨p.ant2, p.rx2, p.sb, p.chunk⟩ (mkGain f i1 j1) (mkGain f i2 j2)) := by
  unfold corr bandpass
  rw [dget_pairs, if_pos, dget_ant f hf _ h1, dget_ant f hf _ h2]
  · rfl
  · rcases hc with hc | hc
    · exact Or.inr hc
    · left; simpa [hasCross] using hc

/-- Parallel hands, and data of cross hands only: each visibility is divided by the gain of the first antenna and the conjugate of the gain of the
second, each weight by the squares of both SEFDs.  Channels without gain or SEFD are flagged, and no others. -/
theorem calibrated_partial (ab : C → C) (hab : ∀ g, ab (g * g) = g * star g) (f : File C K) (hf : Plain f) (ints : List (Nat × K)) (recs : List Rec) (r : Rec)
    (v : Vis C K) {i1 j1 i2 j2 : Nat} (h1 : Has f r.pair.ant1 r.pair.rx1 r.pair.sb r.pair.chunk i1 j1)
    (h2 : Has f r.pair.ant2 r.pair.rx2 r.pair.sb r.pair.chunk i2 j2) (hc : r.pair.rx1 = r.pair.rx2 ∨ ∀ q ∈ recs, q.pair.rx1 ≠ q.pair.rx2) (k : Nat) :
    let out := calibrate ab f ints recs false true r v
    (out.fl k = true ↔ v.fl k = true ∨ ¬ (usable (f.gain i1 j1 k) ∧ usable (f.gain i2 j2 k) ∧ usable (f.sefd i1 j1 k) ∧ usable (f.sefd i2 j2 k))) ∧
      (∀ g1 g2, f.gain i1 j1 k = some g1 → f.gain i2 j2 k = some g2 → g1 ≠ 0 → g2 ≠ 0 → out.data k = v.data k / (g1 * star g2)) ∧
      (∀ s1 s2, f.sefd i1 j1 k = some s1 → f.sefd i2 j2 k = some s2 → s1 ≠ 0 → s2 ≠ 0 → out.w k = v.w k / (s1 ^ 2 * s2 ^ 2)) ∧
      (¬ (usable (f.gain i1 j1 k) ∧ usable (f.gain i2 j2 k)) → out.data k = 0) ∧
      (¬ (usable (f.sefd i1 j1 k) ∧ usable (f.sefd i2 j2 k)) → out.w k = 0) := by
  intro out
  have hout : out = applyBp (corr ab f recs) r.pair v := by simp [out, calibrate]
  rw [hout]
  unfold applyBp
  rw [corr_get ab f hf recs r.pair h1 h2 hc]
  obtain ⟨a1, a2⟩ := mkGain_cal f i1 j1 k
  obtain ⟨b1, b2⟩ := mkGain_cal f i2 j2 k
  obtain ⟨c1, c2⟩ := mkGain_sefd f i1 j1 k
  obtain ⟨d1, d2⟩ := mkGain_sefd f i2 j2 k
  dsimp only [combine]
  rw [← a1, ← b1, ← c1, ← d1]
  have same : (⟨r.pair.ant1, r.pair.rx1, r.pair.sb, r.pair.chunk⟩ : Key) = ⟨r.pair.ant2, r.pair.rx2, r.pair.sb, r.pair.chunk⟩ → i1 = i2 ∧ j1 = j2 := by
    intro he
    simp only [Key.mk.injEq, and_true] at he
    obtain ⟨he1, he2⟩ := he
    obtain ⟨p1, col, p2, p3, p4, p5⟩ := h1
    obtain ⟨q1, col', q2, q3, q4, q5⟩ := h2
    constructor
    · obtain ⟨l1, e1⟩ := List.getElem?_eq_some_iff.1 p1
      obtain ⟨l2, e2⟩ := List.getElem?_eq_some_iff.1 q1
      exact (List.Nodup.getElem_inj_iff hf.ants).1 (by rw [e1, e2, he1])
    · obtain ⟨l1, e1⟩ := List.getElem?_eq_some_iff.1 p2
      obtain ⟨l2, e2⟩ := List.getElem?_eq_some_iff.1 q2
      refine (List.Nodup.getElem_inj_iff hf.cols (hi := by simpa using l1) (hj := by simpa using l2)).1 ?_
      simp only [List.getElem_map, e1, e2, p3, p4, p5, q3, q4, q5, he2]
  refine ⟨?_, ?_, ?_, ?_, ?_⟩
  · cases (mkGain f i1 j1).calFl k <;> cases (mkGain f i2 j2).calFl k <;> cases (mkGain f i1 j1).sefdFl k <;> cases (mkGain f i2 j2).sefdFl k <;> simp
  · intro g1 g2 e1 e2 n1 n2
    have u1 : (mkGain f i1 j1).calFl k = false := a1.2 ⟨g1, e1, n1⟩
    have u2 : (mkGain f i2 j2).calFl k = false := b1.2 ⟨g2, e2, n2⟩
    rw [u1, u2, a2 g1 e1 n1, b2 g2 e2 n2]
    simp only [Bool.or_self, Bool.false_eq_true, if_false]
    split
    · rename_i hk
      obtain ⟨rfl, rfl⟩ := same hk
      rw [e1] at e2
      simp only [Option.some.injEq] at e2
      subst e2
      rw [hab, div_eq_mul_inv]
    · rw [div_eq_mul_inv]
  · intro s1 s2 e1 e2 n1 n2
    have u1 : (mkGain f i1 j1).sefdFl k = false := c1.2 ⟨s1, e1, n1⟩
    have u2 : (mkGain f i2 j2).sefdFl k = false := d1.2 ⟨s2, e2, n2⟩
    rw [u1, u2, c2 s1 e1, d2 s2 e2]
    simp only [Bool.or_self, Bool.false_eq_true, if_false]
    rw [div_eq_mul_inv]
  · intro h
    revert h
    cases (mkGain f i1 j1).calFl k <;> cases (mkGain f i2 j2).calFl k <;> simp
  · intro h
    revert h
    cases (mkGain f i1 j1).sefdFl k <;> cases (mkGain f i2 j2).sefdFl k <;> simp

/-- A record whose antenna, receiver, sideband or window is not in the file keeps its data, is flagged everywhere and has no weight. -/
theorem unknown_flagged (ab : C → C) (f : File C K) (ints : List (Nat × K)) (recs : List Rec) (r : Rec) (v : Vis C K)
    (h : (∀ i j, ¬ Has f r.pair.ant1 r.pair.rx1 r.pair.sb r.pair.chunk i j) ∨ ∀ i j, ¬ Has f r.pair.ant2 r.pair.rx2 r.pair.sb r.pair.chunk i j) (k : Nat) :
    (calibrate ab f ints recs false true r v).fl k = true ∧ (calibrate ab f ints recs false true r v).w k = 0 ∧
      (calibrate ab f ints recs false true r v).data k = v.data k := by
  have : dget (corr ab f recs) r.pair = none := by
    unfold corr bandpass
    rw [dget_pairs]
    split
    · rcases h with h | h
      · rw [dget_no_ant f _ h]; rfl
      · rw [dget_no_ant f _ h]
        cases dget (fromEntries (antEntries f (mkGain f))) ⟨r.pair.ant1, r.pair.rx1, r.pair.sb, r.pair.chunk⟩ <;> rfl
    · rfl
  simp [calibrate, applyBp, this]

/-- As soon as one record is of a parallel hand, all records of cross hands are flagged everywhere and lose their weight, whatever gains the file has. -/
theorem mixed_counterexample (ab : C → C) (f : File C K) (ints : List (Nat × K)) (recs : List Rec) (r q : Rec) (v : Vis C K)
    (hq : q ∈ recs) (hp : q.pair.rx1 = q.pair.rx2) (hr : r.pair.rx1 ≠ r.pair.rx2) (k : Nat) :
    (calibrate ab f ints recs false true r v).fl k = true ∧ (calibrate ab f ints recs false true r v).w k = 0 ∧
      (calibrate ab f ints recs false true r v).data k = v.data k := by
  have : dget (corr ab f recs) r.pair = none := by
    unfold corr bandpass
    rw [dget_pairs, if_neg]
    rintro (h | h)
    · simp only [hasCross, List.all_eq_true, bne_iff_ne] at h
      exact h q hq hp
    · exact hr h
  simp [calibrate, applyBp, this]

end

section
variable {C K : Type} [Field C] [Star C] [DecidableEq C] [Field K] [LinearOrder K]

/-- With both, the bandpass is applied first and the flags then; with neither nothing changes. -/
theorem calibrate_both (ab : C → C) (f : File C K) (ints : List (Nat × K)) (recs : List Rec) (r : Rec) (v : Vis C K) :
    calibrate ab f ints recs true true r v = calibrate ab f ints recs true false r (calibrate ab f ints recs false true r v) ∧
      calibrate ab f ints recs false false r v = v := by
  simp [calibrate]

/-- The bit of a channel: eight channels to a byte, the first in the highest bit. -/
def bitAt (b : Nat → Nat) (k : Nat) : Bool := (b (k / 8) / 2 ^ (7 - k % 8)) % 2 = 1

theorem unpack_bit (b : Nat → Nat) (k : Nat) : unpack b k = bitAt b k := by
  unfold unpack bitAt
  rw [Nat.testBit_eq_decide_div_mod_eq]

/-- Where the file has flags of a record: the time is within half a second of its integration, and the baseline and window are its own. -/
def FlagAt (f : File C K) (ints : List (Nat × K)) (r : Rec) (t b c : Nat) : Prop :=
  (∃ x, f.mjd[t]? = some x ∧ integration ints x = some r.inhid) ∧ f.bls[b]? = some (r.pair.ant1, r.pair.ant2) ∧
    f.cols[c]? = some ⟨r.pair.rx1, r.pair.rx2, r.pair.sb, r.pair.chunk⟩

/-- Records differ in their number, and in what they see. -/
structure Records (recs : List Rec) : Prop where
  sphid : ∀ r ∈ recs, ∀ q ∈ recs, r.sphid = q.sphid → r = q
  seen : ∀ r ∈ recs, ∀ q ∈ recs, r.inhid = q.inhid → r.pair = q.pair → r = q

omit [Field C] [Star C] [DecidableEq C] in
theorem sphid_entries (f : File C K) (ints : List (Nat × K)) (recs : List Rec) (hr : Records recs) (r : Rec) (hm : r ∈ recs) (b : Nat → Nat) :
    ((r.sphid, b) ∈ (f.mjd.zipIdx.flatMap fun t => match integration ints t.1 with
      | none => []
      | some inhid => f.bls.zipIdx.flatMap fun b => f.cols.zipIdx.filterMap fun c =>
        (dget (sphidDict recs) (inhid, ⟨b.1.1, c.1.rx1, b.1.2, c.1.rx2, c.1.sb, c.1.chunk⟩)).map fun s => (s, f.flagArr t.2 b.2 c.2)))
      ↔ ∃ t x c, FlagAt f ints r t x c ∧ b = f.flagArr t x c := by
  have hdict : ∀ (inhid : Nat) (p : Pair), dget (sphidDict recs) (inhid, p) = some r.sphid ↔ inhid = r.inhid ∧ p = r.pair := by
    intro inhid p
    constructor
    · intro h
      have := dget_mem _ _ _ h
      simp only [List.mem_map, Prod.mk.injEq] at this
      obtain ⟨q, hq, ⟨h1, h2⟩, h3⟩ := this
      have := hr.sphid q hq r hm h3
      subst this
      exact ⟨h1.symm, h2.symm⟩
    · rintro ⟨rfl, rfl⟩
      apply dget_eq
      · exact List.mem_map.2 ⟨r, hm, rfl⟩
      · rintro ⟨k, s⟩ he hk
        simp only [List.mem_map, Prod.mk.injEq] at he
        obtain ⟨q, hq, h1, h2⟩ := he
        simp only at hk
        rw [← h1] at hk
        simp only [Prod.mk.injEq] at hk
        have := hr.seen q hq r hm hk.1 hk.2
        subst this
        exact h2.symm
  simp only [List.mem_flatMap]
  constructor
  · rintro ⟨⟨x, t⟩, ht, h⟩
    rw [List.mem_zipIdx_iff_getElem?] at ht
    cases hi : integration ints x with
    | none => simp [hi] at h
    | some inhid =>
      simp only [hi, List.mem_flatMap, List.mem_filterMap, Option.map_eq_some_iff, Prod.mk.injEq] at h
      obtain ⟨⟨⟨b1, b2⟩, bi⟩, hb, ⟨col, ci⟩, hc, s, hd, rfl, hv⟩ := h
      rw [List.mem_zipIdx_iff_getElem?] at hb hc
      obtain ⟨rfl, hp⟩ := (hdict _ _).1 hd
      refine ⟨t, bi, ci, ⟨⟨x, ht, hi⟩, ?_, ?_⟩, hv.symm⟩
      · rw [← hp]; exact hb
      · rw [← hp]; exact hc
  · rintro ⟨t, bi, ci, ⟨⟨x, ht, hi⟩, hb, hc⟩, rfl⟩
    refine ⟨(x, t), by rw [List.mem_zipIdx_iff_getElem?]; exact ht, ?_⟩
    simp only [hi, List.mem_flatMap, List.mem_filterMap, Option.map_eq_some_iff, Prod.mk.injEq]
    exact ⟨((r.pair.ant1, r.pair.ant2), bi), by rw [List.mem_zipIdx_iff_getElem?]; exact hb, (_, ci), by rw [List.mem_zipIdx_iff_getElem?]; exact hc,
      r.sphid, (hdict _ _).2 ⟨rfl, rfl⟩, rfl, rfl⟩

/-- A record for which the file has flags gets these, by its own time, baseline and window, added to its own. -/
theorem record_flags (ab : C → C) (f : File C K) (ints : List (Nat × K)) (recs : List Rec) (hr : Records recs) (r : Rec) (hm : r ∈ recs) (v : Vis C K)
    (t b c : Nat) (h : FlagAt f ints r t b c) (hu : ∀ t' b' c', FlagAt f ints r t' b' c' → t' = t ∧ b' = b ∧ c' = c) (k : Nat) :
    (calibrate ab f ints recs true false r v).fl k = (v.fl k || bitAt (f.flagArr t b c) k) ∧
      (calibrate ab f ints recs true false r v).data = v.data ∧ (calibrate ab f ints recs true false r v).w = v.w := by
  have hd : dget (sphidFlags f ints recs) r.sphid = some (f.flagArr t b c) := by
    apply dget_eq
    · exact (sphid_entries f ints recs hr r hm _).2 ⟨t, b, c, h, rfl⟩
    · rintro ⟨s, w⟩ he hs
      simp only at hs
      subst hs
      obtain ⟨t', b', c', h', rfl⟩ := (sphid_entries f ints recs hr r hm _).1 he
      obtain ⟨rfl, rfl, rfl⟩ := hu t' b' c' h'
      rfl
  simp [calibrate, applyFlags, hd, unpack_bit]

/-- A record without flags of its own gets those that both antennas have for all times, if receivers agree or all data are of cross hands. -/
theorem static_flags_partial (ab : C → C) (f : File C K) (hf : Plain f) (ints : List (Nat × K)) (recs : List Rec) (hr : Records recs) (r : Rec) (hm : r ∈ recs)
    (v : Vis C K) (h : ∀ t b c, ¬ FlagAt f ints r t b c) {i1 j1 i2 j2 : Nat} (h1 : Has f r.pair.ant1 r.pair.rx1 r.pair.sb r.pair.chunk i1 j1)
    (h2 : Has f r.pair.ant2 r.pair.rx2 r.pair.sb r.pair.chunk i2 j2) (hc : r.pair.rx1 = r.pair.rx2 ∨ ∀ q ∈ recs, q.pair.rx1 ≠ q.pair.rx2) (k : Nat) :
    (calibrate ab f ints recs true false r v).fl k = (v.fl k || bitAt (f.sflag i1 j1) k || bitAt (f.sflag i2 j2) k) := by
  have hd : dget (sphidFlags f ints recs) r.sphid = none := by
    unfold sphidFlags
    rw [dget_none]
    rintro ⟨s, w⟩ he hs
    simp only at hs
    subst hs
    obtain ⟨t', b', c', h', rfl⟩ := (sphid_entries f ints recs hr r hm _).1 he
    exact h _ _ _ h'
  have hs : dget (static f recs) r.pair = some fun k => f.sflag i1 j1 k ||| f.sflag i2 j2 k := by
    unfold static
    rw [dget_pairs, if_pos, dget_ant f hf _ h1, dget_ant f hf _ h2]
    · rfl
    · rcases hc with hc | hc
      · exact Or.inr hc
      · left; simpa [hasCross] using hc
  simp only [calibrate, applyFlags, hd, hs, if_true, Bool.false_eq_true, if_false]
  rw [← unpack_bit, ← unpack_bit, Bool.or_assoc]
  congr 1
  simp [unpack, Nat.testBit_or]

/-- Cross hands beside parallel hands do not get the flags of their antennas, whatever these are. -/
theorem static_flags_counterexample (ab : C → C) (f : File C K) (ints : List (Nat × K)) (recs : List Rec) (hr : Records recs) (r q : Rec) (hm : r ∈ recs)
    (v : Vis C K) (h : ∀ t b c, ¬ FlagAt f ints r t b c) (hq : q ∈ recs) (hp : q.pair.rx1 = q.pair.rx2) (hx : r.pair.rx1 ≠ r.pair.rx2) :
    (calibrate ab f ints recs true false r v).fl = v.fl := by
  have hd : dget (sphidFlags f ints recs) r.sphid = none := by
    unfold sphidFlags
    rw [dget_none]
    rintro ⟨s, w⟩ he hs
    simp only at hs
    subst hs
    obtain ⟨t', b', c', h', rfl⟩ := (sphid_entries f ints recs hr r hm _).1 he
    exact h _ _ _ h'
  have hs : dget (static f recs) r.pair = none := by
    unfold static
    rw [dget_pairs, if_neg]
    rintro (h | h)
    · simp only [hasCross, List.all_eq_true, bne_iff_ne] at h
      exact h q hq hp
    · exact hx h
  simp [calibrate, applyFlags, hd, hs]

omit [LinearOrder K] in
theorem find_first {α : Type} (p : α → Bool) : ∀ (l : List α) (x : α), l.find? p = some x ↔
    ∃ i : Nat, l[i]? = some x ∧ p x = true ∧ ∀ j < i, ∀ y, l[j]? = some y → p y = false
  | [], x => by simp
  | a :: l, x => by
    rw [List.find?_cons]
    split
    · rename_i h
      constructor
      · rintro h1; cases h1; exact ⟨0, rfl, h, by simp⟩
      · rintro ⟨i, h1, h2, h3⟩
        cases i with
        | zero => simpa using h1
        | succ i =>
          have := h3 0 (by omega) a rfl
          rw [h] at this; cases this
    · rename_i h
      rw [find_first p l x]
      constructor
      · rintro ⟨i, h1, h2, h3⟩
        refine ⟨i + 1, by simpa using h1, h2, ?_⟩
        intro j hj y hy
        cases j with
        | zero => simp only [List.getElem?_cons_zero, Option.some.injEq] at hy; subst hy; simpa using h
        | succ j => exact h3 j (by omega) y (by simpa using hy)
      · rintro ⟨i, h1, h2, h3⟩
        cases i with
        | zero =>
          simp only [List.getElem?_cons_zero, Option.some.injEq] at h1
          subst h1
          rw [h2] at h; cases h
        | succ i =>
          refine ⟨i, by simpa using h1, h2, fun j hj y hy => h3 (j + 1) (by omega) y (by simpa using hy)⟩

/-- The integration of a time is one within half a second, the first in the order of the data; it is missing only if there is none. -/
theorem integration_near [IsStrictOrderedRing K] (ints : List (Nat × K)) (x : K) :
    (∀ n, integration ints x = some n ↔ ∃ (i : Nat) (y : K), ints[i]? = some (n, y) ∧ |x - y| * 86400 ≤ 1 / 2 ∧
      ∀ j < i, ∀ e, ints[j]? = some e → 1 / 2 < |x - e.2| * 86400) ∧
    (integration ints x = none ↔ ∀ e ∈ ints, 1 / 2 < |x - e.2| * 86400) := by
  have hle : ∀ y : K, |x - y| ≤ 1 / 2 / 86400 ↔ |x - y| * 86400 ≤ 1 / 2 := fun y => le_div_iff₀ (by norm_num)
  constructor
  · intro n
    unfold integration
    rw [Option.map_eq_some_iff]
    constructor
    · rintro ⟨⟨m, y⟩, h, rfl⟩
      obtain ⟨i, h1, h2, h3⟩ := (find_first _ _ _).1 h
      refine ⟨i, y, h1, (hle y).1 (by simpa using h2), fun j hj e he => ?_⟩
      have := h3 j hj e he
      simp only [decide_eq_false_iff_not, hle] at this
      exact not_le.1 this
    · rintro ⟨i, y, h1, h2, h3⟩
      refine ⟨(n, y), (find_first _ _ _).2 ⟨i, h1, by simp only [decide_eq_true_eq, hle]; exact h2, fun j hj e he => ?_⟩, rfl⟩
      have := h3 j hj e he
      simp only [decide_eq_false_iff_not, hle]
      exact not_le.2 this
  · unfold integration
    simp only [Option.map_eq_none_iff, List.find?_eq_none, decide_eq_true_eq, hle, not_le]

end

end Verif.Compass
