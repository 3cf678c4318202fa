import Mathlib.Algebra.CharZero.Defs
import Mathlib.Tactic.FieldSimp
import Mathlib.Data.List.Perm.Basic
import Verif.MsCal.Round

/-! # Calibrations are kept in tables of CASA -/

namespace Verif.MsCal

variable {K α : Type} [Field K] [LinearOrder K] [IsStrictOrderedRing K] [Field α] [CharZero α]

omit [Field K] [LinearOrder K] [IsStrictOrderedRing K] [Field α] [CharZero α] in
/-- Each channel of an object is in the list of channels of all spectral windows once, those of the first window first. -/
theorem channels_perm {c : Cal K α} (hw : c.wide = false) (hn : c.spws.Nodup) (hm : ∀ s ∈ c.chanSpw, s ∈ c.spws) :
    (c.spws.flatMap c.chans).Perm (List.range c.chanSpw.length) := by
  rw [List.perm_ext_iff_of_nodup ?_ List.nodup_range]
  · intro i
    simp only [List.mem_flatMap, Cal.chans, hw, List.mem_filter, List.mem_range, Bool.false_eq_true, if_false, decide_eq_true_eq]
    constructor
    · rintro ⟨s, _, h, _⟩; exact h
    · intro h
      exact ⟨c.chanSpw[i], hm _ (List.getElem_mem h), h, List.getElem?_eq_getElem h⟩
  · rw [List.nodup_flatMap]
    refine ⟨fun s _ => List.nodup_range.filter _, hn.imp ?_⟩
    intro s s' hne i h1 h2
    simp only [Cal.chans, List.mem_filter, decide_eq_true_eq] at h1 h2
    exact hne (Option.some.inj (h1.2.symm.trans h2.2))

omit [Field K] [LinearOrder K] [IsStrictOrderedRing K] [Field α] [CharZero α] in
theorem channels_id {c : Cal K α} (hw : c.wide = false) {x ch : Nat} (h : (c.spws.flatMap c.chans)[x]? = some ch) :
    (c.spws.flatMap fun s => (c.chans s).map fun _ => s)[x]? = c.chanSpw[ch]? := by
  obtain ⟨p, s, k, h1, h2, h3⟩ := flatMap_get _ _ _ _ h
  have := get_flatMap (fun s => (c.chans s).map fun _ => s) c.spws p s k s h1 (by rw [List.getElem?_map, h2]; rfl)
  simp only [List.length_map] at this
  rw [h3, this]
  have hmem := List.mem_of_getElem? h2
  simp only [Cal.chans, hw, List.mem_filter, Bool.false_eq_true, if_false, decide_eq_true_eq] at hmem
  exact hmem.2.symm

theorem idxOf?_mem {l : List Int} {a : Int} (h : a ∈ l) : l.idxOf? a = some (l.idxOf a) := by
  rw [List.idxOf?_eq_some_iff]
  refine ⟨List.idxOf_lt_length_iff.2 h, List.getElem_idxOf _, fun j hj e => ?_⟩
  have := List.not_of_lt_findIdx hj
  simp [e] at this

theorem idxOf?_nodup {l : List Nat} (h : l.Nodup) {i : Nat} (hi : i < l.length) : l.idxOf? l[i] = some i := by
  rw [List.idxOf?_eq_some_iff]
  refine ⟨hi, rfl, fun j hj e => ?_⟩
  have := (List.Nodup.getElem_inj_iff h).1 e
  omega

section place

variable {β : Type} {c : Cal K α} {ord chs : List Nat} {d pad : β} {x : Nat → Nat → Nat → Nat → β} {n t k j : Nat}

omit [Field K] [LinearOrder K] [IsStrictOrderedRing K] [Field α] [CharZero α] in
theorem place_some {a ch i : Nat} (ha : c.ants.idxOf? n = some a) (hk : chs[k]? = some ch) (hj : ord[j]? = some i) (hl : j < c.jones.length) :
    c.place ord chs d pad x n t k j = x a ch t i := by
  unfold Cal.place
  rw [if_neg (by omega), ha, hk, hj]

omit [Field K] [LinearOrder K] [IsStrictOrderedRing K] [Field α] [CharZero α] in
theorem place_absent (ha : n ∉ c.ants) : c.place ord chs d d x n t k j = d := by
  unfold Cal.place
  rw [List.idxOf?_eq_none_iff.2 ha]
  split <;> rfl

end place

/-- **C197.** Solutions that are written and read. The antennas of the result are the antennas of the file, and its channels those of the first spectral
window, then those of the second one, and so on, each with its frequency. At an antenna of the object, solutions, flags and qualities are those of the
object, with Jones terms in the order of CASA; qualities are one if the object has none. All others are zero and flagged. -/
theorem round_trip {tol off : K} {c : Cal K α} (g : Good tol off c) {ord : List Nat} (ho : polOrder c.jones = some ord) (hq : c.totalQual = none)
    {tel : List Nat} (hd : tel.Nodup) (hm : ∀ n, n ∈ tel ↔ n ∈ c.tel) {names : List String} {sky : Bool} :
    ∃ f o, write off c = .ok f ∧ read tol off sky tel names f = .ok o ∧ o.ants = tel ∧ o.nT = c.nT ∧ o.spws = c.spws ∧ o.jones = some c.jones ∧
      o.njones = c.jones.length ∧ o.freqs = (c.spws.flatMap c.chans).map (fun i => (c.freq i, c.width i)) ∧
      (∀ x ch : Nat, (c.spws.flatMap c.chans)[x]? = some ch → (c.wide = false → o.chanSpw[x]? = c.chanSpw[ch]?) ∧
        ∀ i n : Nat, tel.idxOf? n = some i → ∀ t < c.nT,
          (∀ a : Nat, c.ants.idxOf? n = some a → ∀ j k : Nat, ord[j]? = some k → o.soln (i, x, t, j) = c.soln a ch t k ∧ o.flag (i, x, t, j) = c.flag a ch t k ∧
            o.qual (i, x, t, j) = (match c.qual with | some q => q a ch t k | none => 1)) ∧
          (n ∉ c.ants → ∀ j < c.jones.length, o.soln (i, x, t, j) = 0 ∧ o.flag (i, x, t, j) = true ∧ o.qual (i, x, t, j) = 0)) := by
  obtain ⟨nA, hA, h0, hlt⟩ := nA_some g.tel_ne
  obtain ⟨hjl, hol⟩ := polOrder_length ho
  obtain ⟨o, hr, e1, e2, e3, e4, e5, e6, e7, e8, e9, e10, _⟩ := read_ok (ord := ord) g hA (tel := tel) (names := names) (sky := sky)
  have hnj : (c.file off nA ord).njones = 2 := by
    show (if c.jones.length = 1 then 2 else c.jones.length) = 2
    rcases hjl with h | h <;> rw [h] <;> rfl
  have hten : ((10 ^ 9 : Nat) : α) ≠ 0 := Nat.cast_ne_zero.2 (by norm_num)
  have hcell : ∀ {β : Type} (cell : Row K α → Nat → Nat → β) (init : Nat × Nat × Nat × Nat → β) (x ch i n t j : Nat),
      (c.spws.flatMap c.chans)[x]? = some ch → tel.idxOf? n = some i → t < c.nT → j < 2 →
      ∃ p s k, c.spws[p]? = some s ∧ (c.chans s)[k]? = some ch ∧
        fill (cellHit tel (c.file off nA ord) cell) init (c.zrows off nA ord) (i, x, t, j) = cell (c.rowOf off ord p t n) k j := by
    intro β cell init x ch i n t j hx hi ht hj
    obtain ⟨p, s, k, h1, h2, h3⟩ := flatMap_get _ _ _ _ hx
    have hmem : n ∈ tel := by
      rw [← List.isSome_idxOf?, hi]; rfl
    exact ⟨p, s, k, h1, h2, cell_fill g.times h0 hi (hlt n ((hm n).1 hmem)) h1 h2 h3 ht (by omega)⟩
  refine ⟨_, o, write_ok g ho hA hq, hr, e1, e2, e3, e6, ?_, e5, ?_⟩
  · rw [e7, hnj]
    unfold dropPad
    rcases hjl with h | h
    · rw [if_pos, h]
      refine ⟨rfl, by rw [Option.map_some, h], ?_⟩
      simp only [List.all_eq_true, List.mem_range]
      intro i hi x hx t ht
      obtain ⟨p, s, k, hs, _, hf⟩ := hcell Row.flag (fun _ => true) x _ i tel[i] t 1 (List.getElem?_eq_getElem hx)
        (idxOf?_nodup hd hi) ht (by omega)
      rw [e8, hf]
      unfold Cal.rowOf Cal.place
      simp only [h, true_and, if_true]
    · rw [if_neg, h]
      rintro ⟨_, h2, _⟩
      rw [Option.map_some, h] at h2
      cases h2
  · intro x ch hx
    refine ⟨fun hw => ?_, fun i n hi t ht => ⟨fun a ha j k hj => ?_, fun ha j hj => ?_⟩⟩
    · rw [e4, hw]
      exact channels_id hw hx
    · have hjl' : j < c.jones.length := by rw [← hol]; exact (List.getElem?_eq_some_iff.1 hj).1
      refine ⟨?_, ?_, ?_⟩
      · obtain ⟨p, s, k', hs, hk, hf⟩ := hcell Row.soln (fun _ => 0) x ch i n t j hx hi ht (by omega)
        rw [e10]
        simp only [hf]
        unfold Cal.rowOf
        simp only [hs, place_some ha hk hj hjl']
        split
        · rw [mul_assoc, mul_inv_cancel₀ hten, mul_one]
        · rfl
      · obtain ⟨p, s, k', hs, hk, hf⟩ := hcell Row.flag (fun _ => true) x ch i n t j hx hi ht (by omega)
        rw [e8, hf]
        unfold Cal.rowOf
        simp only [hs, place_some ha hk hj hjl']
      · obtain ⟨p, s, k', hs, hk, hf⟩ := hcell Row.err (fun _ => 0) x ch i n t j hx hi ht (by omega)
        rw [e9, hf]
        unfold Cal.rowOf
        simp only [hs, place_some ha hk hj hjl']
        rfl
    · refine ⟨?_, ?_, ?_⟩
      · obtain ⟨p, s, k', hs, hk, hf⟩ := hcell Row.soln (fun _ => 0) x ch i n t j hx hi ht (by omega)
        rw [e10]
        simp only [hf]
        unfold Cal.rowOf
        simp only [place_absent ha, zero_mul, ite_self]
      · obtain ⟨p, s, k', hs, hk, hf⟩ := hcell Row.flag (fun _ => true) x ch i n t j hx hi ht (by omega)
        rw [e8, hf]
        unfold Cal.rowOf
        simp only [place_absent ha]
      · obtain ⟨p, s, k', hs, hk, hf⟩ := hcell Row.err (fun _ => 0) x ch i n t j hx hi ht (by omega)
        rw [e9, hf]
        unfold Cal.rowOf
        simp only [place_absent ha]

/-- **C197.** With one Jones term, or with two in the order of CASA, Jones terms stay where they are: labels and solutions agree. -/
theorem labels_agree {l : List Int} (hk : ∀ a ∈ l, a ∈ Verif.Pol.casaOrder) (hl : l.length = 1 ∨ l.length = 2)
    (hs : l.Pairwise fun a b => Verif.Pol.casaOrder.idxOf a ≤ Verif.Pol.casaOrder.idxOf b) :
    ∃ ord, polOrder l = some ord ∧ ord = List.range l.length := by
  have hidx : ∀ a ∈ l, Verif.Pol.casaOrder.idxOf? a = some (Verif.Pol.casaOrder.idxOf a) := fun a ha => idxOf?_mem (hk a ha)
  match l, hl with
  | [a], _ => exact ⟨[0], by simp only [polOrder, hidx a (by simp), Option.map_some], rfl⟩
  | [a, b], _ =>
    refine ⟨[0, 1], ?_, rfl⟩
    simp only [polOrder]
    rw [hidx a (by simp), hidx b (by simp), Option.bind_some, Option.map_some, if_pos]
    simpa using hs
  | [], h => simp at h
  | _ :: _ :: _ :: _, h => simp at h

/-- **C197.** Two Jones terms that are not in the order of CASA, as `Jyy, Jxx`, exchange their solutions: labels of the result are those of the object, but
solutions of its first term are those of the second term of the object. -/
theorem jones_counterexample {tol off : K} {c : Cal K α} (g : Good tol off c) {p q : Int} (hj : c.jones = [p, q]) (hp : p ∈ Verif.Pol.casaOrder)
    (hq : q ∈ Verif.Pol.casaOrder) (hlt : Verif.Pol.casaOrder.idxOf q < Verif.Pol.casaOrder.idxOf p) (hn : c.totalQual = none)
    {tel : List Nat} (hd : tel.Nodup) (hm : ∀ n, n ∈ tel ↔ n ∈ c.tel) {names : List String} {sky : Bool} :
    ∃ f o, write off c = .ok f ∧ read tol off sky tel names f = .ok o ∧ o.jones = some [p, q] ∧
      ∀ x ch : Nat, (c.spws.flatMap c.chans)[x]? = some ch → ∀ i n a : Nat, tel.idxOf? n = some i → c.ants.idxOf? n = some a → ∀ t < c.nT,
        o.soln (i, x, t, 0) = c.soln a ch t 1 ∧ o.soln (i, x, t, 1) = c.soln a ch t 0 ∧
        o.flag (i, x, t, 0) = c.flag a ch t 1 ∧ o.flag (i, x, t, 1) = c.flag a ch t 0 := by
  have ho : polOrder c.jones = some [1, 0] := by
    rw [hj]; simp only [polOrder]
    rw [idxOf?_mem hp, idxOf?_mem hq, Option.bind_some, Option.map_some, if_neg (by omega)]
  obtain ⟨f, o, h1, h2, _, _, _, h3, _, _, h4⟩ := round_trip g ho hn hd hm (names := names) (sky := sky)
  refine ⟨f, o, h1, h2, by rw [h3, hj], fun x ch hx i n a hi ha t ht => ?_⟩
  have := ((h4 x ch hx).2 i n hi t ht).1 a ha
  exact ⟨(this 0 1 rfl).1, (this 1 0 rfl).1, (this 0 1 rfl).2.1, (this 1 0 rfl).2.1⟩

omit [CharZero α] in
/-- **C198.** Values of times that are written and read: the time or the range of times, the integration time and the scan of each time. -/
theorem times_back {tol off : K} {c : Cal K α} (g : Good tol off c) {ord : List Nat} (ho : polOrder c.jones = some ord) (hq : c.totalQual = none)
    {tel : List Nat} (hm : ∀ n, n ∈ tel ↔ n ∈ c.tel) {names : List String} {sky : Bool} :
    ∃ f o, write off c = .ok f ∧ read tol off sky tel names f = .ok o ∧ o.nT = c.nT ∧
      (∀ x, c.times = .point x → ∃ x', o.times = .point x' ∧ ∀ t < c.nT, x' t = x t) ∧
      (∀ a b, c.times = .range a b → (∃ t < c.nT, a t ≠ b t) → ∃ a' b', o.times = .range a' b' ∧ ∀ t < c.nT, a' t = a t ∧ b' t = b t) ∧
      (∀ t < c.nT, o.expo t = c.expo t) ∧ ∀ s, c.scan = some s → ∀ t < c.nT, o.scan t = s t := by
  obtain ⟨nA, hA, h0, hlt⟩ := nA_some g.tel_ne
  obtain ⟨o, hr, _, e2, _, _, _, _, _, _, _, _, e11, e12, e13, _⟩ := read_ok (ord := ord) g hA (tel := tel) (names := names) (sky := sky)
  have hS : 0 < c.spws.length := List.length_pos_of_ne_nil g.spws_ne
  obtain ⟨n, hn⟩ : ∃ n, n ∈ c.tel := List.exists_mem_of_ne_nil _ g.tel_ne
  have hf : ∀ {β : Type} (cell : Row K α → β) (init : Nat → β) (t : Nat) (v : β), t < c.nT → (∀ p n, cell (c.rowOf off ord p t n) = v) →
      fill (timeHit tel (c.file off nA ord) cell) init (c.zrows off nA ord) t = v := fun cell init t v ht hv =>
    time_fill g.times h0 hS ((hm n).2 hn) (hlt n hn) ht hv
  have hmid : ∀ t < c.nT, fill (timeHit tel (c.file off nA ord) Row.time) (fun _ => 0) (c.zrows off nA ord) t = c.mid off t := fun t ht =>
    hf _ _ t _ ht (fun _ _ => rfl)
  have hint : ∀ t < c.nT, fill (timeHit tel (c.file off nA ord) Row.interval) (fun _ => 0) (c.zrows off nA ord) t = c.interval t := fun t ht =>
    hf _ _ t _ ht (fun _ _ => rfl)
  have h8 : (86400 : K) ≠ 0 := by norm_num
  refine ⟨_, o, write_ok g ho hA hq, hr, e2, ?_, ?_, ?_, ?_⟩
  · intro x hx
    rw [e11]
    unfold timesOf
    rw [if_pos ?_]
    · refine ⟨_, rfl, fun t ht => ?_⟩
      rw [hmid t ht]
      unfold Cal.mid
      simp only [hx]
      field_simp
      ring
    · rw [List.all_eq_true]
      intro t ht
      rw [List.mem_range] at ht
      rw [hint t ht]
      unfold Cal.interval
      simp only [hx, decide_true]
  · intro a b hx hne
    rw [e11]
    unfold timesOf
    rw [if_neg ?_]
    · refine ⟨_, _, rfl, fun t ht => ?_⟩
      rw [hmid t ht, hint t ht]
      unfold Cal.mid Cal.interval
      simp only [hx]
      constructor <;> field_simp <;> ring
    · rw [List.all_eq_true]
      intro h
      obtain ⟨t, ht, hab⟩ := hne
      have := of_decide_eq_true (h t (List.mem_range.2 ht))
      rw [hint t ht] at this
      unfold Cal.interval at this
      simp only [hx, mul_eq_zero, h8, or_false] at this
      exact hab (sub_eq_zero.1 this).symm
  · intro t ht
    rw [e12]
    exact hf _ _ t _ ht (fun _ _ => rfl)
  · intro s hs t ht
    rw [e13]
    refine hf _ _ t _ ht (fun _ _ => ?_)
    unfold Cal.rowOf
    simp only [hs, Option.getD_some]

omit [CharZero α] in
/-- **C198.** The reference antenna: a single one is found by its name again, and if it is different at different times, the numbers are kept. -/
theorem ref_back {tol off : K} {c : Cal K α} (g : Good tol off c) {ord : List Nat} (ho : polOrder c.jones = some ord) (hq : c.totalQual = none)
    {tel : List Nat} (hm : ∀ n, n ∈ tel ↔ n ∈ c.tel) {names : List String} (hd : tel.Nodup)
    (hpair : ∀ (i : Nat) (n : Nat) (s : String), c.tel[i]? = some n → c.names[i]? = some s → ∃ k : Nat, tel[k]? = some n ∧ names[k]? = some s)
    (hlen : c.names.length = c.tel.length) {sky : Bool} :
    ∃ f o, write off c = .ok f ∧ read tol off sky tel names f = .ok o ∧
      (c.refArr = none → c.refName ∈ c.names → o.refName = some c.refName ∧ o.refArr = none) ∧
      (c.refArr = none → c.refName ∉ c.names → o.refName = (if sky then some "unknown reference antenna" else none) ∧ o.refArr = none) ∧
      (∀ x, c.refArr = some x → (∃ t < c.nT, ∃ t' < c.nT, x t ≠ x t') →
        o.refName = some "various" ∧ ∃ x', o.refArr = some x' ∧ ∀ t < c.nT, x' t = x t) := by
  obtain ⟨nA, hA, h0, hlt⟩ := nA_some g.tel_ne
  obtain ⟨o, hr, _, e2, _, _, _, _, _, _, _, _, _, _, _, e14, _⟩ := read_ok (ord := ord) g hA (tel := tel) (names := names) (sky := sky)
  have hS : 0 < c.spws.length := List.length_pos_of_ne_nil g.spws_ne
  obtain ⟨n, hn⟩ : ∃ n, n ∈ c.tel := List.exists_mem_of_ne_nil _ g.tel_ne
  have hf : ∀ t < c.nT, fill (timeHit tel (c.file off nA ord) Row.ref) (fun _ => 0) (c.zrows off nA ord) t = c.ref t := fun t ht =>
    time_fill g.times h0 hS ((hm n).2 hn) (hlt n hn) ht (fun _ _ => rfl)
  generalize fill (timeHit tel (c.file off nA ord) Row.ref) (fun _ => 0) (c.zrows off nA ord) = ref at hf e14
  have hmap : (List.range c.nT).map ref = (List.range c.nT).map c.ref := List.map_congr_left fun t ht => hf t (List.mem_range.1 ht)
  have hconst : ∀ v, (∀ t, c.ref t = v) → ¬ 1 < ((List.range c.nT).map ref).dedup.length := by
    intro v hv
    rw [hmap, show c.ref = fun _ => v from funext hv, List.map_const', List.length_range]
    have : ∀ k, ((List.replicate k v).dedup).length ≤ 1 := by
      intro k
      cases k with
      | zero => simp
      | succ k => rw [List.replicate_dedup (by omega)]; simp
    have := this c.nT
    omega
  have hfst : o.refName = (refOf tel names sky c.nT ref).1 := congrArg Prod.fst e14
  have hsnd : o.refArr = (refOf tel names sky c.nT ref).2 := congrArg Prod.snd e14
  refine ⟨_, o, write_ok g ho hA hq, hr, ?_, ?_, ?_⟩
  · intro hnone hmem
    obtain ⟨i, hi⟩ : ∃ i, c.names.idxOf? c.refName = some i := Option.isSome_iff_exists.1 (List.isSome_idxOf?.2 hmem)
    obtain ⟨hil, hie, _⟩ := List.idxOf?_eq_some_iff.1 hi
    have hti : c.tel[i]? = some (c.tel[i]'(by omega)) := List.getElem?_eq_getElem _
    generalize c.tel[i]'(by omega) = m at hti
    obtain ⟨k, hk1, hk2⟩ := hpair i m c.refName hti (List.getElem?_eq_some_iff.2 ⟨hil, hie⟩)
    have hv : ∀ t, c.ref t = (m : Int) := by
      intro t; unfold Cal.ref
      simp only [hnone, hi, Option.bind_some, hti]
    have hfind : tel.findIdx? (fun (n : Nat) => decide ((n : Int) = ref 0)) = some k := by
      rw [List.findIdx?_eq_some_iff_getElem]
      obtain ⟨hkl, hke⟩ := List.getElem?_eq_some_iff.1 hk1
      refine ⟨hkl, ?_, fun j hj => ?_⟩
      · rw [hf 0 g.times, hv, hke]; simp
      · rw [hf 0 g.times, hv]
        simp only [decide_eq_true_eq, Nat.cast_inj]
        intro e
        have := (List.Nodup.getElem_inj_iff hd).1 (e.trans hke.symm)
        omega
    have : refOf tel names sky c.nT ref = (some c.refName, none) := by
      unfold refOf
      rw [if_neg (hconst _ hv), hfind, Option.bind_some, hk2]
    rw [hfst, hsnd, this]
    exact ⟨rfl, rfl⟩
  · intro hnone hmem
    have hv : ∀ t, c.ref t = -1 := by
      intro t; unfold Cal.ref
      simp only [hnone, List.idxOf?_eq_none_iff.2 hmem, Option.bind_none]
    have hfind : tel.findIdx? (fun (n : Nat) => decide ((n : Int) = ref 0)) = none := by
      rw [List.findIdx?_eq_none_iff]
      intro x _
      rw [hf 0 g.times, hv]
      simp only [decide_eq_false_iff_not]
      omega
    have : refOf tel names sky c.nT ref = (if sky then some "unknown reference antenna" else none, none) := by
      unfold refOf
      rw [if_neg (hconst _ hv), hfind, Option.bind_none]
    rw [hfst, hsnd, this]
    exact ⟨rfl, rfl⟩
  · rintro x hx ⟨t, ht, t', ht', hne⟩
    have hv : ∀ t, c.ref t = x t := by
      intro t; unfold Cal.ref; simp only [hx]
    have h2 : 1 < ((List.range c.nT).map ref).dedup.length := by
      rw [hmap, show c.ref = x from funext hv]
      have m1 : x t ∈ ((List.range c.nT).map x).dedup := List.mem_dedup.2 (List.mem_map.2 ⟨t, List.mem_range.2 ht, rfl⟩)
      have m2 : x t' ∈ ((List.range c.nT).map x).dedup := List.mem_dedup.2 (List.mem_map.2 ⟨t', List.mem_range.2 ht', rfl⟩)
      match h : ((List.range c.nT).map x).dedup, m1, m2 with
      | [], m1, _ => cases m1
      | [y], m1, m2 =>
        rw [List.mem_singleton] at m1 m2
        exact absurd (m1.trans m2.symm) hne
      | _ :: _ :: _, _, _ => simp
    have : refOf tel names sky c.nT ref = (some "various", some ref) := by
      unfold refOf
      rw [if_pos h2]
    rw [hfst, hsnd, this]
    exact ⟨rfl, ref, rfl, fun t ht => by rw [hf t ht, hv]⟩

omit [CharZero α] in
/-- **C199.** Objects with a total quality are never written: an array of two axes is given three indices. -/
theorem total_quality_counterexample {off : K} {c : Cal K α} {ord : List Nat} (ho : polOrder c.jones = some ord) (hs : c.spws ≠ [])
    (ht : c.tel ≠ []) (hd : c.divide = true) (hq : c.totalQual.isSome) : write off c = .error .index := by
  obtain ⟨nA, hA, _⟩ := nA_some ht
  have := polOrder_length ho
  unfold write
  rw [if_neg (by omega), if_neg (by rw [hd]; decide), hA, ho]
  simp only [hq, true_and, ne_eq, hs, not_false_eq_true, if_true]

omit [CharZero α] [LinearOrder K] [IsStrictOrderedRing K] in
/-- **C199.** More than two Jones terms and gains that are multiplied are refused. -/
theorem refused {off : K} {c : Cal K α} (h : 2 < c.jones.length ∨ c.divide = false) : write off c = .error .value := by
  unfold write
  by_cases h2 : 2 < c.jones.length
  · rw [if_pos h2]
  · rw [if_neg h2, if_pos (h.resolve_left h2)]

omit [CharZero α] in
/-- **C199.** Extra keywords are written, but only the two that are known to CASA are read again. -/
theorem extra_counterexample {tol off : K} {c : Cal K α} (g : Good tol off c) {ord : List Nat} (ho : polOrder c.jones = some ord)
    (hq : c.totalQual = none) {tel : List Nat} {names : List String} {sky : Bool} :
    ∃ f o, write off c = .ok f ∧ read tol off sky tel names f = .ok o ∧
      (∀ k ∈ c.extra, k ∈ f.casaKeys ∨ k ∈ f.extra) ∧ ∀ k, k ∈ o.extra ↔ k ∈ c.extra ∧ (k.1 = "CASA_Version" ∨ k.1 = "MSName") := by
  obtain ⟨nA, hA, h0, hlt⟩ := nA_some g.tel_ne
  obtain ⟨o, hr, _, _, _, _, _, _, _, _, _, _, _, _, _, _, e15⟩ := read_ok (ord := ord) g hA (tel := tel) (names := names) (sky := sky)
  refine ⟨_, o, write_ok g ho hA hq, hr, ?_, ?_⟩
  · intro k hk
    simp only [Cal.file, List.mem_filter, hk, true_and, Bool.or_eq_true, decide_eq_true_eq, Bool.not_eq_true', Bool.or_eq_false_iff,
      decide_eq_false_iff_not]
    tauto
  · intro k
    rw [e15]
    simp only [Cal.file, List.mem_filter, Bool.or_eq_true, decide_eq_true_eq]

end Verif.MsCal
