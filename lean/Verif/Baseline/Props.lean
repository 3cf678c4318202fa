import Verif.Baseline.Lemmas
import Verif.Baseline.Spec
import Mathlib.Data.Finset.Card
import Mathlib.Data.Finset.Image

namespace Verif.Baseline
open Spec

/-! Facts shared by the property theorems. -/

theorem encode_ok {nants : Option Nat} {att : Bool} {a1 a2 : List Int} {bls : List Nat}
    (h : antnumsToBaseline nants att false a1 a2 = .ok bls) :
    ValidAnts a1 a2 ∧ ∃ c : Conv,
      bls = List.zipWith (encOne c) (a1.map Int.toNat) (a2.map Int.toNat) ∧
      ∀ p ∈ (a1.map Int.toNat).zip (a2.map Int.toNat), c.ok p.1 p.2 := by
  unfold antnumsToBaseline at h
  split at h; · simp at h
  split at h; · simp at h
  split at h; · simp at h
  rename_i h1 h2 h3
  simp only [List.any_eq_true, decide_eq_true_eq, not_exists, not_and, ge_iff_le, Int.not_le,
    Int.not_lt] at h2 h3
  match a1, a2 with
  | [], _ => simp [encArrays] at h
  | _ :: _, [] => simp [encArrays] at h
  | a :: as, b :: bs =>
    simp only [encArrays, List.map_cons, List.length_map] at h
    split at h
    · rename_i hlen
      simp only [Except.ok.injEq] at h
      refine ⟨⟨by simp, by simp [hlen], fun x hx => ⟨h3 x hx, h2 x hx⟩⟩, _, h.symm, ?_⟩
      intro p hp
      have hp' : p.1 ∈ a.toNat :: as.map Int.toNat ∧ p.2 ∈ b.toNat :: bs.map Int.toNat :=
        List.of_mem_zip (a := p.1) (b := p.2) hp
      apply pickEnc_ok
      · have := arrayMax_ge a.toNat (as.map Int.toNat)
        have h1 : p.1 ≤ arrayMax a.toNat (as.map Int.toNat) := by
          rcases List.mem_cons.1 hp'.1 with h | h
          · rw [h]; exact this.1
          · exact this.2 _ h
        unfold max2; split <;> omega
      · have := arrayMax_ge b.toNat (bs.map Int.toNat)
        have h1 : p.2 ≤ arrayMax b.toNat (bs.map Int.toNat) := by
          rcases List.mem_cons.1 hp'.2 with h | h
          · rw [h]; exact this.1
          · exact this.2 _ h
        unfold max2; split <;> omega
      · have e1 := arrayMax_mem a.toNat (as.map Int.toNat)
        have e2 := arrayMax_mem b.toNat (bs.map Int.toNat)
        have lt1 : arrayMax a.toNat (as.map Int.toNat) < 2147483648 := by
          rw [← List.map_cons, List.mem_map] at e1
          obtain ⟨x, hx, hx'⟩ := e1
          have := h2 x (by simp at hx ⊢; tauto)
          omega
        have lt2 : arrayMax b.toNat (bs.map Int.toNat) < 2147483648 := by
          rw [← List.map_cons, List.mem_map] at e2
          obtain ⟨x, hx, hx'⟩ := e2
          have := h2 x (by simp at hx ⊢; tauto)
          omega
        unfold max2; split <;> omega
    · simp at h

theorem decArray_enc (c : Conv) (ps : List (Nat × Nat)) (hne : ps ≠ []) (hok : ∀ p ∈ ps, c.ok p.1 p.2) :
    decArray (ps.map (fun p => encOne c p.1 p.2)) = .ok ps := by
  match ps with
  | [] => simp at hne
  | p :: ps =>
    simp only [List.map_cons, decArray]
    have hm := arrayMin_mem (encOne c p.1 p.2) (ps.map (fun p => encOne c p.1 p.2))
    rw [← List.map_cons (f := fun p : Nat × Nat => encOne c p.1 p.2), List.mem_map] at hm
    obtain ⟨q, hq, hq'⟩ := hm
    rw [← hq', pickDec_enc c q.1 q.2 (hok q hq)]
    congr 1
    rw [decOne_enc c p.1 p.2 (hok p (by simp)), List.map_map]
    congr 1
    conv_rhs => rw [← List.map_id ps]
    apply List.map_congr_left
    intro r hr
    simp [decOne_enc c r.1 r.2 (hok r (by simp [hr]))]

theorem toNat_map (xs : List Int) (h : ∀ x ∈ xs, 0 ≤ x) :
    (xs.map Int.toNat).map (fun n : Nat => (n : Int)) = xs := by
  rw [List.map_map]
  conv_rhs => rw [← List.map_id xs]
  apply List.map_congr_left
  intro x hx
  have := h x hx
  simp; omega

theorem zipWith_eq_map_zip {α β γ : Type} (f : α → β → γ) (xs : List α) (ys : List β) :
    List.zipWith f xs ys = (xs.zip ys).map (fun p => f p.1 p.2) := by
  induction xs generalizing ys with
  | nil => simp
  | cons x xs ih => cases ys <;> simp_all

theorem natCast_toNat_map (xs : List Nat) : (xs.map (fun n : Nat => (n : Int))).map Int.toNat = xs := by
  rw [List.map_map]; conv_rhs => rw [← List.map_id xs]
  apply List.map_congr_left; intro x _; simp

/-! ## Property theorems -/

/-- The encoder accepts exactly the documented inputs (with one antenna pair at least). -/
theorem encode_accepts_iff (nants : Option Nat) (att : Bool) (a1 a2 : List Int) :
    (∃ bls, antnumsToBaseline nants att false a1 a2 = .ok bls) ↔
      (∀ n, nants = some n → n ≤ 2147483648) ∧ ValidAnts a1 a2 := by
  constructor
  · rintro ⟨bls, h⟩
    refine ⟨?_, (encode_ok h).1⟩
    intro n hn
    subst hn
    unfold antnumsToBaseline at h
    split at h
    · simp at h
    · rename_i h1; simp at h1; omega
  · rintro ⟨hn, hne, hlen, hr⟩
    unfold antnumsToBaseline
    rw [if_neg, if_neg, if_neg]
    · match a1, a2 with
      | [], _ => simp at hne
      | _ :: _, [] => simp at hlen
      | a :: as, b :: bs =>
        simp at hlen
        simp [encArrays, hlen]
    · simp only [List.any_eq_true, decide_eq_true_eq, not_exists, not_and, Int.not_lt]
      exact fun x hx => (hr x hx).1
    · simp only [List.any_eq_true, decide_eq_true_eq, not_exists, not_and, ge_iff_le, Int.not_le]
      exact fun x hx => (hr x hx).2
    · cases nants with
      | none => simp
      | some n => have := hn n rfl; simp; omega

/-- **C01** Decoding the numbers produced by one encoder call returns the antenna arrays. -/
theorem baseline_roundtrip (nants : Option Nat) (att : Bool) (a1 a2 : List Int) (bls : List Nat)
    (N : Nat) (hN : N ≤ 2147483648)
    (h : antnumsToBaseline nants att false a1 a2 = .ok bls) :
    baselineToAntnums N (bls.map (fun b : Nat => (b : Int))) = .ok (a1, a2) := by
  obtain ⟨⟨hne, hlen, hr⟩, c, hb, hok⟩ := encode_ok h
  unfold baselineToAntnums
  rw [if_neg (by omega), if_neg, if_neg]
  · rw [natCast_toNat_map, hb, zipWith_eq_map_zip, decArray_enc c _ _ hok]
    · have hz := zip_map_fst (a1.map Int.toNat) (a2.map Int.toNat) (by simp [hlen])
      have e1 := toNat_map a1 (fun x hx => (hr x (by simp [hx])).1)
      have e2 := toNat_map a2 (fun x hx => (hr x (by simp [hx])).1)
      simp only [Except.ok.injEq, Prod.mk.injEq]
      constructor
      · conv_rhs => rw [← e1, ← hz.1, List.map_map]
        rfl
      · conv_rhs => rw [← e2, ← hz.2, List.map_map]
        rfl
    · match a1, a2 with
      | [], _ => simp at hne
      | _ :: _, [] => simp at hlen
      | a :: as, b :: bs => simp
  · simp only [List.any_map, List.any_eq_true, not_exists, not_and, Function.comp_apply,
      decide_eq_true_eq]
    intro x hx
    rw [hb, zipWith_eq_map_zip, List.mem_map] at hx
    obtain ⟨p, hp, rfl⟩ := hx
    have := encOne_le c p.1 p.2 (hok p hp)
    omega
  · simp

example : antnumsToBaseline (some 5000) false false [3, 2147483647, 0] [7, 2100, 2147483647]
    = .ok [6446710791, 4611686016284166196, 2151743487] := by decide +kernel
example : antnumsToBaseline (some 50) true false [3, 255] [7, 0] = .ok [775, 65280] := by decide +kernel

theorem encode_val {nants : Option Nat} {att : Bool} {a1 a2 : List Int} {bls : List Nat}
    (h : antnumsToBaseline nants att false a1 a2 = .ok bls) :
    ∃ s ∈ schemes, (∀ p ∈ a1.zip a2, 0 ≤ p.1 ∧ 0 ≤ p.2 ∧ p.1 < s.1 ∧ p.2 < s.1) ∧
      bls.map (fun b : Nat => (b : Int)) = (a1.zip a2).map (fun p => s.1 * p.1 + p.2 + s.2) := by
  obtain ⟨⟨hne, hlen, hr⟩, c, hb, hok⟩ := encode_ok h
  have hz : (a1.map Int.toNat).zip (a2.map Int.toNat) = (a1.zip a2).map (fun p => (p.1.toNat, p.2.toNat)) := by
    rw [List.zip_map]; rfl
  rw [zipWith_eq_map_zip, hz, List.map_map] at hb
  have hpos : ∀ p ∈ a1.zip a2, 0 ≤ p.1 ∧ 0 ≤ p.2 := by
    intro p hp
    have := List.of_mem_zip (a := p.1) (b := p.2) hp
    exact ⟨(hr _ (by simp [this.1])).1, (hr _ (by simp [this.2])).1⟩
  have hok' : ∀ p ∈ a1.zip a2, c.ok p.1.toNat p.2.toNat := by
    intro p hp
    have := hok (p.1.toNat, p.2.toNat) (by rw [hz]; exact List.mem_map.2 ⟨p, hp, rfl⟩)
    exact this
  have key : ∀ s : Int × Int, s ∈ schemes →
      (∀ p ∈ a1.zip a2, (encOne c p.1.toNat p.2.toNat : Int) = s.1 * p.1 + p.2 + s.2 ∧
        p.1 < s.1 ∧ p.2 < s.1) →
      ∃ s ∈ schemes, (∀ p ∈ a1.zip a2, 0 ≤ p.1 ∧ 0 ≤ p.2 ∧ p.1 < s.1 ∧ p.2 < s.1) ∧
      bls.map (fun b : Nat => (b : Int)) = (a1.zip a2).map (fun p => s.1 * p.1 + p.2 + s.2) := by
    intro s hs hp
    refine ⟨s, hs, fun p hp' => ⟨(hpos p hp').1, (hpos p hp').2, (hp p hp').2⟩, ?_⟩
    rw [hb, List.map_map]
    apply List.map_congr_left
    intro p hp'
    exact (hp p hp').1
  have hzne : a1.zip a2 ≠ [] := by
    intro h0
    rw [List.zip_eq_nil_iff] at h0
    rcases h0 with h0 | h0
    · exact hne h0
    · rw [h0] at hlen; exact hne (List.length_eq_zero_iff.1 hlen)
  cases c with
  | c256 =>
    refine key (256, 0) (by simp [schemes]) (fun p hp => ?_)
    have h1 := hok' p hp; have h2 := encOne_val _ _ _ h1; have := hpos p hp
    simp only [Conv.ok] at h1 h2 ⊢; omega
  | c2048 =>
    refine key (2048, 65536) (by simp [schemes]) (fun p hp => ?_)
    have h1 := hok' p hp; have h2 := encOne_val _ _ _ h1; have := hpos p hp
    simp only [Conv.ok] at h1 h2 ⊢; omega
  | large =>
    refine key (2147483648, 4259840) (by simp [schemes]) (fun p hp => ?_)
    have h1 := hok' p hp; have h2 := encOne_val _ _ _ h1; have := hpos p hp
    simp only [Conv.ok] at h1 h2 ⊢; omega
  | miriad =>
    obtain ⟨p, hp⟩ := List.exists_mem_of_ne_nil _ hzne
    exact (hok' p hp).elim

/-- **C02** Within one call, baseline numbers are equal, or ordered, exactly as the antenna pairs are. -/
theorem baseline_order_embedding (nants : Option Nat) (att : Bool) (a1 a2 : List Int) (bls : List Nat)
    (h : antnumsToBaseline nants att false a1 a2 = .ok bls)
    (i j : Nat) (x y x' y' : Int) (b b' : Nat)
    (hx : a1[i]? = some x) (hy : a2[i]? = some y) (hb : bls[i]? = some b)
    (hx' : a1[j]? = some x') (hy' : a2[j]? = some y') (hb' : bls[j]? = some b') :
    (b = b' ↔ (x, y) = (x', y')) ∧ (b < b' ↔ pairLt (x, y) (x', y')) := by
  obtain ⟨s, hs, hp, hv⟩ := encode_val h
  have get : ∀ (i : Nat) (x y : Int) (b : Nat), a1[i]? = some x → a2[i]? = some y → bls[i]? = some b →
      (b : Int) = s.1 * x + y + s.2 ∧ 0 ≤ x ∧ 0 ≤ y ∧ x < s.1 ∧ y < s.1 := by
    intro i x y b hx hy hb
    have hz : (a1.zip a2)[i]? = some (x, y) := by
      rw [List.getElem?_zip_eq_some]; exact ⟨hx, hy⟩
    have e := congrArg (fun l => l[i]?) hv
    simp only [List.getElem?_map, hz, hb, Option.map_some, Option.some.injEq] at e
    exact ⟨e, hp _ (List.mem_of_getElem? hz)⟩
  have g1 := get i x y b hx hy hb
  have g2 := get j x' y' b' hx' hy' hb'
  simp only [schemes, List.mem_cons, List.not_mem_nil, or_false] at hs
  simp only [Prod.mk.injEq, pairLt]
  rcases hs with rfl | rfl | rfl <;> simp only at g1 g2 <;> omega

/-- **C02** Counting distinct baseline numbers counts distinct antenna pairs (how `Nbls` is computed). -/
theorem baseline_count_distinct (nants : Option Nat) (att : Bool) (a1 a2 : List Int) (bls : List Nat)
    (h : antnumsToBaseline nants att false a1 a2 = .ok bls) :
    bls.toFinset.card = (a1.zip a2).toFinset.card := by
  obtain ⟨s, hs, hp, hv⟩ := encode_val h
  have tm : ∀ {α : Type} [DecidableEq α] (f : α → Int) (l : List α),
      (l.map f).toFinset = l.toFinset.image f := by
    intro α _ f l; ext x; simp
  have hc : (bls.map (fun b : Nat => (b : Int))).toFinset.card = bls.toFinset.card := by
    rw [tm]
    exact Finset.card_image_of_injective _ (fun a b h => Int.ofNat_inj.1 h)
  rw [← hc, hv, tm]
  apply Finset.card_image_of_injOn
  intro p hp1 q hq1 heq
  simp only [List.coe_toFinset, Set.mem_ofPred_eq] at hp1 hq1
  have h1 := hp p hp1
  have h2 := hp q hq1
  simp only [schemes, List.mem_cons, List.not_mem_nil, or_false] at hs
  rcases hs with rfl | rfl | rfl <;> simp only at heq h1 h2 <;>
    (apply Prod.ext <;> omega)

/-- **C03** The result is the unbounded value of one documented formula, below 2^63, and the decoder
accepts it. -/
theorem baseline_no_overflow (nants : Option Nat) (att : Bool) (a1 a2 : List Int) (bls : List Nat)
    (h : antnumsToBaseline nants att false a1 a2 = .ok bls) :
    NumbersPairs a1 a2 bls ∧ (∀ b ∈ bls, b < 2 ^ 63) ∧
      (∀ N ≤ 2147483648, ∃ r, baselineToAntnums N (bls.map (fun b : Nat => (b : Int))) = .ok r) := by
  refine ⟨?_, ?_, fun N hN => ⟨_, baseline_roundtrip nants att a1 a2 bls N hN h⟩⟩
  · obtain ⟨s, hs, _, hv⟩ := encode_val h
    exact ⟨s, hs, by rw [hv, zipWith_eq_map_zip]⟩
  · obtain ⟨s, hs, hp, hv⟩ := encode_val h
    intro b hb
    have hb' : (b : Int) ∈ bls.map (fun b : Nat => (b : Int)) := List.mem_map.2 ⟨b, hb, rfl⟩
    rw [hv, List.mem_map] at hb'
    obtain ⟨p, hpm, hpe⟩ := hb'
    have := hp p hpm
    simp only [schemes, List.mem_cons, List.not_mem_nil, or_false] at hs
    rcases hs with rfl | rfl | rfl <;> simp only at hpe this <;> omega

/-- **C04** A successful flip decodes to the swapped pairs. -/
theorem flip_decodes_swapped (N : Nat) (bls : List Int) (f : List Nat)
    (h : baselineIndexFlip N bls = .ok f) :
    ∃ a1 a2, baselineToAntnums N bls = .ok (a1, a2) ∧
      baselineToAntnums N (f.map (fun b : Nat => (b : Int))) = .ok (a2, a1) := by
  unfold baselineIndexFlip at h
  split at h
  · simp at h
  · rename_i a1 a2 heq
    refine ⟨a1, a2, heq, ?_⟩
    have hN : N ≤ 2147483648 := by
      unfold baselineToAntnums at heq
      split at heq
      · simp at heq
      · omega
    exact baseline_roundtrip _ _ _ _ _ N hN h

/-- **C04** Flipping twice denotes the original pairs, and gives back the very same numbers when they are
the numbers the encoder assigns. -/
theorem flip_flip (N : Nat) (bls : List Int) (f g : List Nat)
    (h : baselineIndexFlip N bls = .ok f)
    (h2 : baselineIndexFlip N (f.map (fun b : Nat => (b : Int))) = .ok g) :
    baselineToAntnums N (g.map (fun b : Nat => (b : Int))) = baselineToAntnums N bls ∧
    ∀ a1 a2 bl0, antnumsToBaseline (some N) false false a1 a2 = .ok bl0 →
      bls = bl0.map (fun b : Nat => (b : Int)) → g = bl0 := by
  obtain ⟨a1, a2, e1, e2⟩ := flip_decodes_swapped N bls f h
  obtain ⟨b1, b2, e3, e4⟩ := flip_decodes_swapped N _ g h2
  rw [e2] at e3
  simp only [Except.ok.injEq, Prod.mk.injEq] at e3
  obtain ⟨rfl, rfl⟩ := e3
  refine ⟨by rw [e4, e1], ?_⟩
  intro c1 c2 bl0 hc hb
  subst hb
  have hN : N ≤ 2147483648 := by
    unfold baselineToAntnums at e1
    split at e1
    · simp at e1
    · omega
  have := baseline_roundtrip _ _ _ _ _ N hN hc
  rw [e1] at this
  simp only [Except.ok.injEq, Prod.mk.injEq] at this
  obtain ⟨rfl, rfl⟩ := this
  unfold baselineIndexFlip at h2
  rw [e2] at h2
  simp only at h2
  rw [hc] at h2
  simpa using h2.symm

/-- **C04** A flip succeeds whenever the numbers decode to antenna numbers below 2^31. -/
theorem flip_succeeds (N : Nat) (bls : List Int) (a1 a2 : List Int)
    (h : baselineToAntnums N bls = .ok (a1, a2)) (hv : ValidAnts a1 a2) :
    ∃ f, baselineIndexFlip N bls = .ok f := by
  unfold baselineIndexFlip
  rw [h]
  have hN : N ≤ 2147483648 := by
    unfold baselineToAntnums at h
    split at h
    · simp at h
    · omega
  refine (encode_accepts_iff (some N) false a2 a1).2 ⟨fun n hn => by simp at hn; omega, ?_, hv.2.1.symm, ?_⟩
  · intro h0; subst h0; have h1 := hv.2.1; have := hv.1; simp at h1; exact this h1
  · intro a ha; exact hv.2.2 a (by simp at ha ⊢; tauto)

example : baselineIndexFlip 10 [67589, 65536] = .ok [75777, 65536] := by decide +kernel

/-- **C05** The Miriad convention does not identify antenna pairs: two accepted pairs share one number, and
an accepted pair decodes to another pair. -/
theorem miriad_counterexample :
    antnumsToBaseline (some 300) false true [265] [1] = antnumsToBaseline (some 300) false true [1] [257]
      ∧ antnumsToBaseline (some 300) false true [256] [1] = .ok [65537]
      ∧ baselineToAntnums 300 [65537] = .ok ([0], [1]) := by decide +kernel

/-- **C05 (partial)** Full statement: every accepted pair is recovered from its Miriad-convention number.
What holds: a single pair is recovered exactly when both antennas are at most 255, or the second is above
255 and both are below 2048. -/
theorem miriad_roundtrip_partial (N : Nat) (hN : N ≤ 2147483648) (a b : Int)
    (ha : 0 ≤ a ∧ a < 2147483648) (hb : 0 ≤ b ∧ b < 2147483648) :
    ∃ bl, antnumsToBaseline (some N) false true [a] [b] = .ok [bl] ∧
      (baselineToAntnums N [(bl : Int)] = .ok ([a], [b]) ↔
        (a ≤ 255 ∧ b ≤ 255) ∨ (255 < b ∧ b < 2048 ∧ a < 2048)) := by
  have henc : antnumsToBaseline (some N) false true [a] [b] = .ok [encOne .miriad a.toNat b.toNat] := by
    unfold antnumsToBaseline
    rw [if_neg (by simp; omega), if_neg (by simp; omega), if_neg (by simp; omega)]
    simp [encArrays, pickEnc]
  refine ⟨_, henc, ?_⟩
  have hv : encOne .miriad a.toNat b.toNat = if b > 255 then 2048 * a.toNat + b.toNat + 65536
      else 256 * a.toNat + b.toNat := by
    simp only [encOne, u64]
    split <;> split <;> omega
  rw [hv]
  unfold baselineToAntnums
  rw [if_neg (by omega), if_neg (by simp), if_neg (by simp; split <;> omega)]
  simp only [List.map_cons, List.map_nil, Int.toNat_natCast, decArray, arrayMin, List.foldl_nil,
    Except.ok.injEq, Prod.mk.injEq, List.cons.injEq, and_true]
  generalize hn : (if b > 255 then 2048 * a.toNat + b.toNat + 65536 else 256 * a.toNat + b.toNat) = n
  have hn' : (b > 255 ∧ 2048 * a.toNat + b.toNat + 65536 = n) ∨
      (b ≤ 255 ∧ 256 * a.toNat + b.toNat = n) := by split at hn <;> omega
  clear hv henc
  unfold pickDec
  split
  · rw [decOne_large n (by omega) (by omega)]; simp only; omega
  · split
    · rw [decOne_2048 n (by omega) (by omega)]; simp only; omega
    · rw [decOne_256 n (by omega)]; simp only; omega

/-- **C06** Mixed arrays are decoded wrongly: each number alone is fine, together they are not. -/
theorem decode_mixed_counterexample :
    baselineToAntnums 300 [258] = .ok ([1], [2]) ∧ baselineToAntnums 300 [67884] = .ok ([1], [300]) ∧
      baselineToAntnums 300 [258, 67884] = .ok ([1, 265], [2, 44]) := by decide +kernel

theorem decOne_ne (m b : Nat) (hb : b ≤ 4611686018498691072) (hm : m ≤ b)
    (h : decOne (pickDec m) b = decOne (pickDec b) b) : band (m : Int) = band (b : Int) := by
  have e1 : m < 65536 ∨ (65536 ≤ m ∧ m < 4259840) ∨ 4259840 ≤ m := by omega
  have e2 : b < 65536 ∨ (65536 ≤ b ∧ b < 4259840) ∨ 4259840 ≤ b := by omega
  have p1 : ∀ n : Nat, n < 65536 → pickDec n = .c256 := by
    intro n hn; unfold pickDec; rw [if_neg (by omega), if_neg (by omega)]
  have p2 : ∀ n : Nat, 65536 ≤ n ∧ n < 4259840 → pickDec n = .c2048 := by
    intro n hn; unfold pickDec; rw [if_neg (by omega), if_pos (by omega)]
  have p3 : ∀ n : Nat, 4259840 ≤ n → pickDec n = .large := by
    intro n hn; unfold pickDec; rw [if_pos (by omega)]
  rcases e1 with e1 | e1 | e1 <;> rcases e2 with e2 | e2 | e2
  · unfold band; rw [if_pos (by omega), if_pos (by omega)]
  · rw [p1 m e1, p2 b e2, decOne_256 b (by omega), decOne_2048 b (by omega) (by omega)] at h
    simp only [Prod.mk.injEq] at h; omega
  · rw [p1 m e1, p3 b e2, decOne_256 b (by omega), decOne_large b (by omega) (by omega)] at h
    simp only [Prod.mk.injEq] at h; omega
  · omega
  · unfold band; rw [if_neg (by omega), if_pos (by omega), if_neg (by omega), if_pos (by omega)]
  · rw [p2 m e1, p3 b e2, decOne_2048 b (by omega) (by omega), decOne_large b (by omega) (by omega)] at h
    simp only [Prod.mk.injEq] at h; omega
  · omega
  · omega
  · unfold band; rw [if_neg (by omega), if_neg (by omega), if_neg (by omega), if_neg (by omega)]

theorem pickDec_band (m b : Nat) (h : band (m : Int) = band (b : Int)) : pickDec m = pickDec b := by
  unfold band at h
  unfold pickDec
  (repeat' split at h) <;> (repeat' split) <;> first | rfl | omega

/-- **C06 (partial)** Full statement: the array result agrees with the one-by-one results.  What holds: it
does exactly when all numbers lie in one scheme's band. -/
theorem decode_elementwise_partial (N : Nat) (hN : N ≤ 2147483648) (bls : List Int) (hne : bls ≠ [])
    (hr : ∀ b ∈ bls, 0 ≤ b ∧ b ≤ 4611686018498691072) :
    ∃ A B, baselineToAntnums N bls = .ok (A, B) ∧
    ((∀ (i : Nat) (b : Int), bls[i]? = some b → ∃ x y, baselineToAntnums N [b] = .ok ([x], [y]) ∧
        A[i]? = some x ∧ B[i]? = some y) ↔
      (∀ b ∈ bls, ∀ b' ∈ bls, band b = band b')) := by
  match bls, hne with
  | c :: cs, _ =>
    have hdec : ∀ b : Int, 0 ≤ b ∧ b ≤ 4611686018498691072 → baselineToAntnums N [b] =
        .ok ([((decOne (pickDec b.toNat) b.toNat).1 : Int)], [((decOne (pickDec b.toNat) b.toNat).2 : Int)]) := by
      intro b hb
      unfold baselineToAntnums
      rw [if_neg (by omega), if_neg (by simp; omega), if_neg (by simp; omega)]
      simp [decArray, arrayMin]
    have hall : baselineToAntnums N (c :: cs) = .ok
        ((c :: cs).map (fun b => ((decOne (pickDec (arrayMin c.toNat (cs.map Int.toNat))) b.toNat).1 : Int)),
         (c :: cs).map (fun b => ((decOne (pickDec (arrayMin c.toNat (cs.map Int.toNat))) b.toNat).2 : Int))) := by
      unfold baselineToAntnums
      rw [if_neg (by omega), if_neg, if_neg]
      · simp only [List.map_cons, decArray, List.map_map]; rfl
      · simp only [List.any_eq_true, decide_eq_true_eq, not_exists, not_and]
        intro x hx; have := hr x hx; omega
      · simp only [List.any_eq_true, decide_eq_true_eq, not_exists, not_and]
        intro x hx; have := hr x hx; omega
    refine ⟨_, _, hall, ?_⟩
    generalize hM : arrayMin c.toNat (cs.map Int.toNat) = M
    have hMmem : ∃ b ∈ c :: cs, b.toNat = M := by
      have := arrayMin_mem c.toNat (cs.map Int.toNat)
      rw [hM, ← List.map_cons, List.mem_map] at this
      exact this
    have hMle : ∀ b ∈ c :: cs, M ≤ b.toNat := by
      have := arrayMin_le c.toNat (cs.map Int.toNat)
      rw [hM] at this
      intro b hb
      rcases List.mem_cons.1 hb with h | h
      · rw [h]; exact this.1
      · exact this.2 _ (List.mem_map.2 ⟨b, h, rfl⟩)
    constructor
    · intro h
      have hb : ∀ b ∈ c :: cs, band b = band (M : Int) := by
        intro b hb
        obtain ⟨i, hi⟩ := List.mem_iff_getElem?.1 hb
        obtain ⟨x, y, e, e1, e2⟩ := h i b hi
        rw [hdec b (hr b hb)] at e
        simp only [List.getElem?_map, hi, Option.map_some, Option.some.injEq] at e1 e2
        simp only [Except.ok.injEq, Prod.mk.injEq, List.cons.injEq, and_true] at e
        have hb2 := hr b hb
        have := decOne_ne M b.toNat (by omega) (hMle b hb) (by apply Prod.ext <;> omega)
        have hcast : b = ((b.toNat : Nat) : Int) := by omega
        rw [this, ← hcast]
      intro b hb1 b' hb2
      rw [hb b hb1, hb b' hb2]
    · intro h i b hi
      have hbm := List.mem_of_getElem? hi
      refine ⟨_, _, hdec b (hr b hbm), ?_⟩
      obtain ⟨m, hm, hmM⟩ := hMmem
      have e : pickDec M = pickDec b.toNat := by
        apply pickDec_band
        have h1 := h m hm b hbm
        have h2 := hr m hm
        have h3 := hr b hbm
        rw [← hmM]
        rw [show ((m.toNat : Nat) : Int) = m by omega, show ((b.toNat : Nat) : Int) = b by omega]
        exact h1
      simp only [List.getElem?_map, hi, Option.map_some, e, and_self]

example : ∃ A B, baselineToAntnums 300 [67589, 65900] = .ok (A, B) ∧ A = [1, 0] ∧ B = [5, 364] := by
  refine ⟨_, _, rfl, ?_, ?_⟩ <;> decide +kernel

end Verif.Baseline
