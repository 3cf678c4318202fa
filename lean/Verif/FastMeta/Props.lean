import Verif.FastMeta.Lemmas

/-!
The times and antenna pairs read on demand are those of the file (C136), the sidereal times belong to the times (C137),
keys are found (C138), the number of baselines is right (C139).
-/

namespace Verif.FastMeta

open Verif.BltAxis

variable {τ L : Type} [LinearOrder τ]

/-! ### Times and antenna pairs -/

theorem lay_times {o : Opts} {h : Hdr τ L} (ok : FileOK h) (hn : nbls o h = nBl h) {b : Bool} (hl : Lay h b) :
    Lists (if b then (h.rows.map Row.t).take h.ntimes else stride (nbls o h) (h.rows.map Row.t)) Row.t h.rows := by
  obtain ⟨p1, p2⟩ := positive ok
  cases b with
  | true =>
    obtain ⟨B, T, _, hT, hBl, hTl, ht, _⟩ := hl
    have e : (h.rows.map Row.t).take h.ntimes = T := by rw [ht, ← hTl]; exact take_first (by omega)
    simp only [if_true]
    rw [e]
    refine ⟨hT, fun x => ?_⟩
    have : (∃ r ∈ h.rows, r.t = x) ↔ x ∈ h.rows.map Row.t := by rw [List.mem_map]
    rw [this, ht, mem_flatMap_const (List.ne_nil_of_length_pos (by omega))]
  | false =>
    obtain ⟨B, T, _, hT, hBl, hTl, ht, _⟩ := hl
    have e : stride (nbls o h) (h.rows.map Row.t) = T := by
      rw [ht, hn, ← hBl]; exact stride_blocks T B (by omega)
    simp only [Bool.false_eq_true, if_false]
    rw [e]
    refine ⟨hT, fun x => ?_⟩
    have : (∃ r ∈ h.rows, r.t = x) ↔ x ∈ h.rows.map Row.t := by rw [List.mem_map]
    rw [this, ht, mem_flatMap_spread (List.ne_nil_of_length_pos (by omega))]

/-- C136, times: each time of the data once, whatever the header or the caller says about the layout, if it is right. -/
theorem times_exact {o : Opts} {h : Hdr τ L} (ok : FileOK h) (oo : OptsOK o h) (hn : nbls o h = nBl h)
    {ts : List τ} (e : times o h = .ok ts) : Lists ts Row.t h.rows := by
  unfold times at e
  split at e
  · simp at e
  · simp at e
  · rename_i f h1 h2
    simp only [Except.ok.injEq] at e
    subst e
    have := lay_times ok hn (faster_right ok oo hn h1 h2)
    simpa using this
  · rename_i f h1 h2
    simp only [Except.ok.injEq] at e
    subst e
    have := lay_times ok hn (faster_right ok oo hn h1 h2)
    simpa using this
  · simp only [Except.ok.injEq] at e
    subst e
    refine ⟨uniq_nodup _, fun x => ?_⟩
    rw [mem_uniq, List.mem_map]

theorem pairs_of {h : Hdr τ L} (ok : FileOK h) {S : List (Row τ)} {B : List Nat} (hS : ∀ r ∈ S, r ∈ h.rows)
    (hB : B.Nodup) (e : S.map Row.bl = B) (hr : ∀ r ∈ h.rows, r.bl ∈ B) : Lists (S.map pair) pair h.rows := by
  constructor
  · subst e
    rw [List.nodup_iff_pairwise_ne, List.pairwise_map] at hB ⊢
    refine hB.imp_of_mem ?_
    intro r s h1 h2 hne he
    simp only [pair, Prod.mk.injEq] at he
    exact hne ((ok.bl r (hS r h1) s (hS s h2)).2 he)
  · intro x
    rw [List.mem_map]
    constructor
    · rintro ⟨r, h1, h2⟩
      exact ⟨r, hS r h1, h2⟩
    · rintro ⟨r, h1, h2⟩
      have := hr r h1
      rw [← e, List.mem_map] at this
      obtain ⟨s, h3, h4⟩ := this
      have h5 := (ok.bl s (hS s h3) r h1).1 h4
      refine ⟨s, h3, ?_⟩
      rw [← h2]
      simp only [pair, h5.1, h5.2]

omit [LinearOrder τ] in
theorem zip_pair (S : List (Row τ)) : (S.map Row.a).zip (S.map Row.b) = S.map pair := by
  induction S with
  | nil => rfl
  | cons r S ih => simp only [List.map_cons, List.zip_cons_cons, ih]; rfl

/-- C136, antenna pairs: each pair of the data once, in the order of antennas that it has there. -/
theorem antpairs_exact {o : Opts} {h : Hdr τ L} (ok : FileOK h) (oo : OptsOK o h) (hn : nbls o h = nBl h)
    {ps : List (Nat × Nat)} (e : antpairs o h = .ok ps) : Lists ps pair h.rows := by
  obtain ⟨p1, p2⟩ := positive ok
  unfold antpairs at e
  split at e
  · simp at e
  · simp at e
  · rename_i f h1 h2
    simp only [Except.ok.injEq] at e
    rw [stride_map, stride_map, zip_pair] at e
    subst e
    obtain ⟨B, T, hB, _, hBl, hTl, _, hb⟩ := faster_right ok oo hn h1 h2
    refine pairs_of ok (fun r hr => stride_sub hr) hB ?_ ?_
    · rw [← stride_map, hb, ← hTl]
      exact stride_blocks B T (by omega)
    · intro r hr
      have : r.bl ∈ h.rows.map Row.bl := List.mem_map_of_mem hr
      rw [hb, mem_flatMap_spread (List.ne_nil_of_length_pos (by omega))] at this
      exact this
  · rename_i f h1 h2
    simp only [Except.ok.injEq] at e
    rw [← List.map_take, ← List.map_take, zip_pair] at e
    subst e
    obtain ⟨B, T, hB, _, hBl, hTl, _, hb⟩ := faster_right ok oo hn h1 h2
    refine pairs_of ok (fun r hr => List.mem_of_mem_take hr) hB ?_ ?_
    · rw [List.map_take, hb, hn, ← hBl]
      exact take_first (by omega)
    · intro r hr
      have : r.bl ∈ h.rows.map Row.bl := List.mem_map_of_mem hr
      rw [hb, mem_flatMap_const (List.ne_nil_of_length_pos (by omega))] at this
      exact this
  · simp only [Except.ok.injEq] at e
    subst e
    refine ⟨List.nodup_dedup _, fun x => ?_⟩
    rw [List.mem_dedup, List.mem_map]

/-- C136, antennas: those that have data, in increasing order. -/
theorem ants_exact {o : Opts} {h : Hdr τ L} (ok : FileOK h) (oo : OptsOK o h) (hn : nbls o h = nBl h)
    {l : List Nat} (e : uniqueAnts o h = .ok l) :
    l.Pairwise (· < ·) ∧ ∀ x, x ∈ l ↔ ∃ r ∈ h.rows, r.a = x ∨ r.b = x := by
  unfold uniqueAnts at e
  split at e
  · simp at e
  · rename_i ps hp
    simp only [Except.ok.injEq] at e
    subst e
    have hx := (antpairs_exact ok oo hn hp).2
    refine ⟨uniq_sorted _, fun x => ?_⟩
    rw [mem_uniq, List.mem_append, List.mem_map, List.mem_map]
    constructor
    · rintro (⟨p, h1, h2⟩ | ⟨p, h1, h2⟩)
      · obtain ⟨r, h3, h4⟩ := (hx p).1 h1
        exact ⟨r, h3, .inl (by rw [← h2, ← h4]; rfl)⟩
      · obtain ⟨r, h3, h4⟩ := (hx p).1 h1
        exact ⟨r, h3, .inr (by rw [← h2, ← h4]; rfl)⟩
    · rintro ⟨r, h1, h2 | h2⟩
      · exact .inl ⟨pair r, (hx _).2 ⟨r, h1, rfl⟩, h2⟩
      · exact .inr ⟨pair r, (hx _).2 ⟨r, h1, rfl⟩, h2⟩

/-- Nothing fails unless the order has to be determined. -/
theorem no_error (o : Opts) (h : Hdr τ L) (ho : o.order ≠ .determine ∨ h.order ≠ none) :
    (∃ ts, times o h = .ok ts) ∧ (∃ ps, antpairs o h = .ok ps) ∧ ∃ l, uniqueAnts o h = .ok l := by
  have h1 : ∃ x, bltOrder o h = .ok x := by
    unfold bltOrder
    split
    · exact ⟨_, rfl⟩
    · rename_i hd
      split
      · exact ⟨_, rfl⟩
      · rename_i hn
        rcases ho with ho | ho
        · exact absurd hd ho
        · exact absurd hn ho
    · exact ⟨_, rfl⟩
  have h2 : ∃ x, rectangular o h = .ok x := by
    obtain ⟨x, hx⟩ := h1
    unfold rectangular
    rw [hx]
    split
    · exact ⟨_, rfl⟩
    · split
      · exact ⟨_, rfl⟩
      · split
        · simp only
          split
          · exact ⟨_, rfl⟩
          · exact ⟨_, rfl⟩
        · exact ⟨_, rfl⟩
  have h3 : ∃ x, timeFaster o h = .ok x := by
    obtain ⟨⟨x, f⟩, hx⟩ := h2
    unfold timeFaster
    rw [hx]
    cases x with
    | false => exact ⟨_, rfl⟩
    | true =>
      cases f with
      | some b => exact ⟨_, rfl⟩
      | none =>
        simp only
        split
        · exact ⟨_, rfl⟩
        · split
          · exact ⟨_, rfl⟩
          · split <;> exact ⟨_, rfl⟩
  obtain ⟨⟨x, f⟩, hx⟩ := h2
  obtain ⟨y, hy⟩ := h3
  have h4 : ∃ ps, antpairs o h = .ok ps := by
    unfold antpairs
    rw [hx, hy]
    cases x <;> cases y <;> exact ⟨_, rfl⟩
  refine ⟨?_, h4, ?_⟩
  · unfold times
    rw [hx, hy]
    cases x <;> cases y <;> exact ⟨_, rfl⟩
  · obtain ⟨ps, hp⟩ := h4
    unfold uniqueAnts
    rw [hp]
    exact ⟨_, rfl⟩

/-! ### Sidereal times -/

/-- C137, the part that holds: for a grid in a file with sidereal times, entry by entry those of the times. -/
theorem lsts_partial [LinearOrder L] (lstOf : τ → L) {o : Opts} {h : Hdr τ L} (hl : h.lsts = some (h.rows.map (fun r => lstOf r.t)))
    {f : Option Bool} (hr : rectangular o h = .ok (true, f)) {ts : List τ} (e : times o h = .ok ts) :
    lsts lstOf o h = .ok (ts.map lstOf) := by
  have e1 : h.rows.map (fun r => lstOf r.t) = (h.rows.map Row.t).map lstOf := by simp [Function.comp_def]
  unfold times at e
  unfold lsts
  rw [hl, e1]
  rw [hr] at e ⊢
  generalize timeFaster o h = b at *
  match b with
  | .error e' => simp at e
  | .ok true =>
    simp only [Except.ok.injEq] at e ⊢
    rw [← e, List.map_take]
  | .ok false =>
    simp only [Except.ok.injEq] at e ⊢
    rw [← e, stride_map]

/-- In all other cases they are sorted, and belong to the times only if they increase with the times. -/
theorem lsts_sorted [LinearOrder L] (lstOf : τ → L) {o : Opts} {h : Hdr τ L}
    (hl : h.lsts = none ∨ (h.lsts = some (h.rows.map (fun r => lstOf r.t)) ∧ ∃ f, rectangular o h = .ok (false, f)))
    {ls : List L} (e : lsts lstOf o h = .ok ls) :
    ls.Pairwise (· < ·) ∧ ∀ x, x ∈ ls ↔ ∃ r ∈ h.rows, lstOf r.t = x := by
  have fin : .ok (uniq (h.rows.map (fun r => lstOf r.t))) = (.ok ls : Except Err (List L)) →
      ls.Pairwise (· < ·) ∧ ∀ x, x ∈ ls ↔ ∃ r ∈ h.rows, lstOf r.t = x := by
    intro e
    simp only [Except.ok.injEq] at e
    subst e
    refine ⟨uniq_sorted _, fun x => ?_⟩
    rw [mem_uniq, List.mem_map]
  unfold lsts at e
  rcases hl with hl | ⟨hl, f, hr⟩
  · rw [hl] at e
    exact fin e
  · rw [hl, hr] at e
    simp only at e
    split at e <;> simp_all

/-! ### Keys -/

/-- The data have a visibility under a key: the pair with the polarization, or the pair in the other direction with the
conjugate polarization. -/
def Has (conj : List Char → List Char) (h : Hdr τ L) (k : Key3) : Prop :=
  (∃ r ∈ h.rows, r.a = k.a ∧ r.b = k.b ∧ ∀ p, k.pol = some p → p ∈ h.pols) ∨
    (∃ r ∈ h.rows, r.a = k.b ∧ r.b = k.a ∧ ∀ p, k.pol = some p → conj p ∈ h.pols)

omit [LinearOrder τ] in
theorem mem_pairs {h : Hdr τ L} {ps : List (Nat × Nat)} (hp : Lists ps pair h.rows) (a b : Nat) :
    ps.contains (a, b) = true ↔ ∃ r ∈ h.rows, r.a = a ∧ r.b = b := by
  rw [List.contains_iff_mem, hp.2]
  simp only [pair, Prod.mk.injEq]

/-- C138, two antennas: the key is found exactly if the data have the pair in one of the directions. -/
theorem key_pair {o : Opts} {h : Hdr τ L} (ok : FileOK h) (oo : OptsOK o h) (hn : nbls o h = nBl h)
    (conj : List Char → List Char) (k : Key3) (hk : k.pol = none) {b : Bool} (e : hasKey o h k = .ok b) :
    b = true ↔ Has conj h k := by
  unfold hasKey at e
  split at e
  · simp at e
  · rename_i ps hp
    have hm := mem_pairs (antpairs_exact ok oo hn hp)
    simp only [hk, Option.isNone_none, Bool.true_and, Bool.or_false, Except.ok.injEq] at e
    subst e
    rw [Bool.or_eq_true, hm, hm]
    simp [Has, hk]

/-- C138, the part that holds with a polarization: a key that the data have is always found. -/
theorem key_found {o : Opts} {h : Hdr τ L} (ok : FileOK h) (oo : OptsOK o h) (hn : nbls o h = nBl h)
    (conj : List Char → List Char) (k : Key3) {b : Bool} (e : hasKey o h k = .ok b) (hh : Has conj h k) : b = true := by
  unfold hasKey at e
  split at e
  · simp at e
  · rename_i ps hp
    have hm := mem_pairs (antpairs_exact ok oo hn hp)
    simp only [Except.ok.injEq] at e
    subst e
    rcases hh with ⟨r, h1, h2, h3, h4⟩ | ⟨r, h1, h2, h3, h4⟩
    · have c := (hm k.a k.b).2 ⟨r, h1, h2, h3⟩
      rw [c]
      cases hp : k.pol with
      | none => simp
      | some p =>
        have := h4 p hp
        simp [this]
    · have c := (hm k.b k.a).2 ⟨r, h1, h2, h3⟩
      rw [c]
      simp

/-- C138, the part that holds with a polarization: if the data do not have the pair in the other direction, a key is
found only if the data have it. -/
theorem key_partial {o : Opts} {h : Hdr τ L} (ok : FileOK h) (oo : OptsOK o h) (hn : nbls o h = nBl h)
    (conj : List Char → List Char) (k : Key3) (hr : ¬ ∃ r ∈ h.rows, r.a = k.b ∧ r.b = k.a)
    (e : hasKey o h k = .ok true) : Has conj h k := by
  unfold hasKey at e
  split at e
  · simp at e
  · rename_i ps hp
    have hm := mem_pairs (antpairs_exact ok oo hn hp)
    have c : ps.contains (k.b, k.a) = false := by
      rw [Bool.eq_false_iff]; intro h; exact hr ((hm _ _).1 h)
    simp only [Except.ok.injEq, c, Bool.or_false, Bool.false_and] at e
    left
    cases hk : k.pol with
    | none =>
      rw [hk] at e
      simp only [Option.isNone_none, Bool.true_and, Bool.or_false] at e
      obtain ⟨r, h1, h2, h3⟩ := (hm _ _).1 e
      exact ⟨r, h1, h2, h3, by simp⟩
    | some p =>
      rw [hk] at e
      simp only [Option.isNone_some, Bool.false_and, Bool.false_or, Bool.and_eq_true] at e
      obtain ⟨r, h1, h2, h3⟩ := (hm _ _).1 e.1
      refine ⟨r, h1, h2, h3, ?_⟩
      intro p' hp'
      simp only [Option.some.injEq] at hp'
      subst hp'
      simpa using e.2

/-- The fault in general: if the data have the pair in the other direction, every polarization is found. -/
theorem key_any {o : Opts} {h : Hdr τ L} (ok : FileOK h) (oo : OptsOK o h) (hn : nbls o h = nBl h) (k : Key3)
    (hr : ∃ r ∈ h.rows, r.a = k.b ∧ r.b = k.a) {b : Bool} (e : hasKey o h k = .ok b) : b = true := by
  unfold hasKey at e
  split at e
  · simp at e
  · rename_i ps hp
    have c := (mem_pairs (antpairs_exact ok oo hn hp) _ _).2 hr
    simp only [Except.ok.injEq, c] at e
    rw [← e]; simp

/-! ### The number of baselines -/

/-- C139: the number is that of the data if it is asked to be computed; if the header is right and not of HERA or not the
number of rows; and for old files of HERA whose rows are a grid. -/
theorem nbls_partial {o : Opts} {h : Hdr τ L} (ok : FileOK h) (oo : OptsOK o h)
    (hh : o.recompute = some true ∨ (h.nbls = nBl h ∧ (o.recompute = some false ∨ h.hera = false ∨ h.nbls ≠ h.nblts)) ∨
      (h.hera = true ∧ o.recompute = none ∧ h.nbls = h.nblts ∧ Grid h)) : nbls o h = nBl h := by
  have gl : Grid h → h.nblts / h.ntimes = nBl h := by
    intro g
    rw [ok.nblts, grid_length g]
    exact Nat.mul_div_cancel _ (positive ok).2
  rcases hh with hh | ⟨h1, hh⟩ | ⟨h1, h2, h3, g⟩
  · unfold nbls
    rw [hh]
    simp only
    split
    · exact gl (oo.rect ‹_›)
    · rfl
  · unfold nbls
    rcases hh with hh | hh | hh
    · rw [hh]; exact h1
    · split
      · split
        · exact gl (oo.rect ‹_›)
        · rfl
      · rw [if_neg (by simp [hh])]; exact h1
      · exact h1
    · split
      · split
        · exact gl (oo.rect ‹_›)
        · rfl
      · rw [if_neg (by simp [hh])]; exact h1
      · exact h1
  · unfold nbls
    rw [h2]
    simp only
    rw [if_pos]
    · exact gl g
    · refine ⟨h1, h3, .inr ?_⟩
      rw [ok.nblts, grid_length g]
      exact Nat.mul_mod_left _ _

end Verif.FastMeta
