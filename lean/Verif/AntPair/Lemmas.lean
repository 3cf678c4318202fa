import Verif.AntPair.Spec
import Verif.Baseline.Props
import Verif.Slices.Props
import Verif.BltAxis.RectLemmas

namespace Verif.AntPair
open Verif.Np Verif.Baseline
open Verif.Slices (SlicifyOut slicify)

theorem flatMap_replicate_get (B : List Nat) (n : Nat) (hn : 0 < n) (i : Nat) :
    (B.flatMap (fun b => List.replicate n b))[i]? = B[i / n]? := by
  induction B generalizing i with
  | nil => simp
  | cons b B ih =>
    simp only [List.flatMap_cons]
    by_cases h : i < n
    · rw [List.getElem?_append_left (by simpa using h), Nat.div_eq_of_lt h]
      simp [List.getElem?_replicate, h]
    · rw [List.getElem?_append_right (by simpa using h), List.length_replicate, ih]
      have : i / n = (i - n) / n + 1 := by
        conv_lhs => rw [show i = (i - n) + n by omega]
        exact Nat.add_div_right _ hn
      rw [this]; simp

theorem flatten_replicate_get (B : List Nat) (n i : Nat) (hB : 0 < B.length) (hi : i < n * B.length) :
    ((List.replicate n B).flatten)[i]? = B[i % B.length]? := by
  induction n generalizing i with
  | zero => simp at hi
  | succ n ih =>
    rw [List.replicate_succ, List.flatten_cons]
    by_cases h : i < B.length
    · rw [List.getElem?_append_left h, Nat.mod_eq_of_lt h]
    · rw [List.getElem?_append_right (by omega), ih _ (by rw [Nat.succ_mul] at hi; omega)]
      have : i % B.length = (i - B.length) % B.length := Nat.mod_eq_sub_mod (by omega)
      rw [this]

theorem flatMap_replicate_length (B : List Nat) (n : Nat) :
    (B.flatMap (fun b => List.replicate n b)).length = B.length * n := by
  induction B with
  | nil => simp
  | cons b B ih => simp only [List.flatMap_cons, List.length_append, ih, List.length_cons, Nat.succ_mul,
      List.length_replicate]; omega

theorem flatten_replicate_length (B : List Nat) (n : Nat) :
    ((List.replicate n B).flatten).length = n * B.length := by
  induction n with
  | zero => simp
  | succ n ih => rw [List.replicate_succ, List.flatten_cons, List.length_append, ih, Nat.succ_mul]; omega

/-- Decoding: one function `g` decodes every list of numbers taken from the baseline array. -/
theorem decode_sub {o : Obj} (h : Numbered o) : ∃ g : Nat → Nat × Nat,
    o.ant1.length = o.bl.length ∧ o.ant2.length = o.bl.length ∧ 0 < o.bl.length ∧
    (∀ (i b : Nat), o.bl[i]? = some b → o.ant1[i]? = some (g b).1 ∧ o.ant2[i]? = some (g b).2) ∧
    (∀ b ∈ o.bl, ∀ c ∈ o.bl, g b = g c → b = c) ∧
    (∀ L : List Nat, L ≠ [] → (∀ b ∈ L, b ∈ o.bl) →
      baselineToAntnums o.nants (L.map (fun b : Nat => (b : Int))) =
        .ok ((L.map g).map (fun p => (p.1 : Int)), (L.map g).map (fun p => (p.2 : Int)))) := by
  obtain ⟨att, h⟩ := h
  have hN : o.nants ≤ 2147483648 := ((encode_accepts_iff (some o.nants) att _ _).1 ⟨_, h⟩).1 _ rfl
  obtain ⟨⟨hne, hlen, _⟩, c, hb, hok⟩ := encode_ok h
  rw [natCast_toNat_map, natCast_toNat_map] at hb hok
  rw [zipWith_eq_map_zip] at hb
  have hlen' : o.ant1.length = o.ant2.length := by simpa using hlen
  have hl1 : o.ant1.length = o.bl.length := by rw [hb]; simp [hlen']
  have hdec : ∀ p ∈ o.ant1.zip o.ant2, decOne c (encOne c p.1 p.2) = p := by
    intro p hp; exact decOne_enc c p.1 p.2 (hok p hp)
  refine ⟨decOne c, hl1, by omega, ?_, ?_, ?_, ?_⟩
  · rw [← hl1]
    have : o.ant1 ≠ [] := by simpa using hne
    exact List.length_pos_iff.2 this
  · intro i b hi
    rw [hb, List.getElem?_map] at hi
    cases hz : (o.ant1.zip o.ant2)[i]? with
    | none => simp [hz] at hi
    | some p =>
      simp [hz] at hi
      have hd := hdec p (List.mem_of_getElem? hz)
      rw [hi] at hd
      rw [hd]
      have := List.getElem?_zip_eq_some.1 hz
      exact this
  · intro b hbm b' hbm' e
    rw [hb, List.mem_map] at hbm hbm'
    obtain ⟨p, hp, rfl⟩ := hbm
    obtain ⟨q, hq, rfl⟩ := hbm'
    rw [hdec p hp, hdec q hq] at e
    rw [e]
  · intro L hL hsub
    have hLp : ∀ b ∈ L, ∃ p ∈ o.ant1.zip o.ant2, encOne c p.1 p.2 = b := by
      intro b hbm
      have := hsub b hbm
      rw [hb, List.mem_map] at this
      exact this
    have hLq : L = (L.map (decOne c)).map (fun p => encOne c p.1 p.2) := by
      rw [List.map_map]
      conv_lhs => rw [← List.map_id L]
      apply List.map_congr_left
      intro b hbm
      obtain ⟨p, hp, rfl⟩ := hLp b hbm
      simp only [Function.comp, id, hdec p hp]
    have hok' : ∀ p ∈ L.map (decOne c), c.ok p.1 p.2 := by
      intro p hp
      obtain ⟨b, hbm, rfl⟩ := List.mem_map.1 hp
      obtain ⟨q, hq, rfl⟩ := hLp b hbm
      rw [hdec q hq]; exact hok q hq
    have hle : ∀ b ∈ L, b ≤ 4611686018498691072 := by
      intro b hbm
      obtain ⟨q, hq, rfl⟩ := hLp b hbm
      exact encOne_le c _ _ (hok q hq)
    unfold baselineToAntnums
    rw [if_neg (by omega), if_neg (by simp), if_neg]
    · rw [natCast_toNat_map, hLq, decArray_enc c _ (by simpa using hL) hok', ← hLq]
    · simp only [List.any_eq_true, List.mem_map, decide_eq_true_eq, not_exists, not_and]
      rintro x ⟨b, hbm, rfl⟩
      have := hle b hbm
      omega

theorem zip_of_maps (ps : List (Nat × Nat)) :
    ((ps.map (fun p => (p.1 : Int))).map Int.toNat).zip ((ps.map (fun p => (p.2 : Int))).map Int.toNat) = ps := by
  rw [List.map_map, List.map_map, List.zip_map']
  conv_rhs => rw [← List.map_id ps]
  apply List.map_congr_left
  intro p _
  simp

/-- The baseline numbers listed are the distinct ones; in the rectangular cases the layout list `B`. -/
theorem baseline_nums {o : Obj} (hl : LaidOut o) (hpos : 0 < o.bl.length) :
    (getBaselineNums o).Nodup ∧ (∀ b, b ∈ getBaselineNums o ↔ b ∈ o.bl) ∧
    (o.rect = true → getBaselineNums o ≠ [] ∧ (getBaselineNums o).length = o.nbls ∧ 0 < o.ntimes ∧ 0 < o.nbls ∧
      o.bl.length = o.nbls * o.ntimes ∧
      ∀ i, i < o.bl.length → o.bl[i]? = (getBaselineNums o)[if o.timeFaster then i / o.ntimes else i % o.nbls]?) := by
  cases hr : o.rect with
  | false =>
    simp only [getBaselineNums, hr, Bool.false_eq_true, if_false]
    refine ⟨(unique_sorted _).imp (fun h => Nat.ne_of_lt h), fun b => mem_unique, by simp⟩
  | true =>
    obtain ⟨ht, hn, B, hB, hBl, hbl⟩ := hl hr
    cases hf : o.timeFaster with
    | true =>
      rw [hf] at hbl
      simp only [if_true] at hbl
      have hlen : o.bl.length = o.nbls * o.ntimes := by rw [hbl, flatMap_replicate_length, hBl]
      have hget : ∀ i, o.bl[i]? = B[i / o.ntimes]? := by
        intro i; rw [hbl]; exact flatMap_replicate_get B o.ntimes ht i
      have hG : getBaselineNums o = B := by
        simp only [getBaselineNums, hr, hf, if_true, strided]
        have h1 : (List.range o.bl.length).filter (fun i => i % o.ntimes == 0) =
            (List.range B.length).map (fun k => k * o.ntimes) := by
          apply strictSorted_ext (range_filter_sorted _ _)
          · rw [List.pairwise_map]
            exact List.pairwise_lt_range.imp (fun h => Nat.mul_lt_mul_of_pos_right h ht)
          · intro x
            simp only [List.mem_filter, List.mem_range, beq_iff_eq, List.mem_map, hlen, hBl]
            constructor
            · rintro ⟨hx, hm⟩
              exact ⟨x / o.ntimes, (Nat.div_lt_iff_lt_mul ht).2 hx, Nat.div_mul_cancel (Nat.dvd_of_mod_eq_zero hm)⟩
            · rintro ⟨k, hk, rfl⟩
              exact ⟨Nat.mul_lt_mul_of_pos_right hk ht, Nat.mul_mod_left _ _⟩
        rw [h1]
        rw [List.filterMap_map]
        have : ((fun i => o.bl[i]?) ∘ fun k => k * o.ntimes) = fun k => B[k]? := by
          funext k
          simp only [Function.comp, hget, Nat.mul_div_cancel _ ht]
        rw [this]
        apply List.ext_getElem?
        intro k
        have hfm : ∀ (C : List Nat), (List.range C.length).filterMap (fun k => C[k]?) = C := by
          intro C
          induction C using List.reverseRecOn with
          | nil => rfl
          | append_singleton C c ihC =>
            rw [List.length_append, List.length_singleton, List.range_succ, List.filterMap_append]
            congr 1
            · conv_rhs => rw [← ihC]
              apply List.filterMap_congr
              intro x hx
              rw [List.getElem?_append_left (List.mem_range.1 hx)]
            · simp
        rw [hfm]
      rw [hG]
      refine ⟨hB, ?_, fun _ => ⟨?_, hBl, ht, hn, hlen, ?_⟩⟩
      · intro b
        rw [hbl]
        simp only [List.mem_flatMap, List.mem_replicate]
        constructor
        · intro hb; exact ⟨b, hb, by omega, rfl⟩
        · rintro ⟨b', hb', _, rfl⟩; exact hb'
      · intro h; rw [h] at hBl; simp at hBl; omega
      · intro i _; simp [hget]
    | false =>
      rw [hf] at hbl
      simp only [Bool.false_eq_true, if_false] at hbl
      have hlen : o.bl.length = o.nbls * o.ntimes := by rw [hbl, flatten_replicate_length, hBl, Nat.mul_comm]
      have hG : getBaselineNums o = B := by
        simp only [getBaselineNums, hr, hf, if_true, Bool.false_eq_true, if_false]
        obtain ⟨m, hm⟩ : ∃ m, o.ntimes = m + 1 := ⟨o.ntimes - 1, by omega⟩
        rw [hbl, hm, List.replicate_succ, List.flatten_cons, ← hBl, List.take_left']
        rfl
      rw [hG]
      refine ⟨hB, ?_, fun _ => ⟨?_, hBl, ht, hn, hlen, ?_⟩⟩
      · intro b
        rw [hbl]
        simp only [List.mem_flatten, List.mem_replicate]
        constructor
        · intro hb; exact ⟨B, ⟨by omega, rfl⟩, hb⟩
        · rintro ⟨l, ⟨_, rfl⟩, hb'⟩; exact hb'
      · intro h; rw [h] at hBl; simp at hBl; omega
      · intro i hi
        simp only [Bool.false_eq_true, if_false]
        rw [hbl, ← hBl]
        exact flatten_replicate_get B o.ntimes i (by omega) (by rw [hlen] at hi; rw [Nat.mul_comm, hBl]; exact hi)

/-- `rowsWhere` is the list of rows of the pair. -/
theorem rowsWhere_spec (o : Obj) (hl : o.ant1.length = o.ant2.length) (a b : Nat) :
    IsRowsOf o a b (rowsWhere o a b) := by
  refine ⟨whereIdx_sorted _ _, ?_⟩
  intro i
  unfold rowsWhere
  rw [mem_whereIdx]
  constructor
  · rintro ⟨p, hp, hpp⟩
    rw [List.getElem?_zip_eq_some] at hp
    simp at hpp
    rw [hp.1, hp.2, hpp.1, hpp.2]
    exact ⟨rfl, rfl⟩
  · rintro ⟨h1, h2⟩
    exact ⟨(a, b), List.getElem?_zip_eq_some.2 ⟨h1, h2⟩, by simp⟩

theorem rows_unique {o : Obj} {a b : Nat} {l k : List Nat} (h : IsRowsOf o a b l) (h' : IsRowsOf o a b k) : l = k :=
  strictSorted_ext h.1 h'.1 (fun x => by rw [h.2, h'.2])

end Verif.AntPair
