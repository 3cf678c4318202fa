import Verif.FastMeta.Spec

/-! Every n-th entry of a list, and the layout of the rows. -/

namespace Verif.FastMeta

open Verif.BltAxis

theorem pick_all {β : Type} (T : List β) : (List.range T.length).filterMap (fun i => T[i]?) = T := by
  induction T with
  | nil => rfl
  | cons t T ih =>
    rw [List.length_cons, List.range_succ_eq_map, List.filterMap_cons]
    simp only [List.getElem?_cons_zero, List.filterMap_map, Function.comp_def]
    congr 1

theorem ceil_mul (k n : Nat) (hn : 0 < n) : (k * n + n - 1) / n = k := by
  rw [Nat.div_eq_iff hn]
  have : k * n + n - 1 = k * n + (n - 1) := by omega
  constructor <;> omega

/-- The first entry of every block. -/
theorem block_get {β γ : Type} (T : List β) (B : List γ) (hB : 0 < B.length) (i : Nat) :
    (T.flatMap (fun t => B.map (fun _ => t)))[i * B.length]? = T[i]? := by
  induction T generalizing i with
  | nil => simp
  | cons t T ih =>
    rw [List.flatMap_cons]
    cases i with
    | zero =>
      rw [Nat.zero_mul, List.getElem?_append_left (by simpa using hB)]
      obtain ⟨b, B', rfl⟩ := one_of (l := B) hB
      simp
    | succ i =>
      rw [List.getElem?_append_right (by simp [Nat.succ_mul])]
      have : (i + 1) * B.length - (B.map (fun _ => t)).length = i * B.length := by
        rw [List.length_map, Nat.succ_mul]; omega
      rw [this, ih, List.getElem?_cons_succ]

theorem stride_blocks {β γ : Type} (T : List β) (B : List γ) (hB : 0 < B.length) :
    stride B.length (T.flatMap (fun t => B.map (fun _ => t))) = T := by
  unfold stride
  rw [flatMap_spread_length, ceil_mul _ _ hB]
  have e : (fun i => (T.flatMap (fun t => B.map (fun _ => t)))[i * B.length]?) = fun i => T[i]? := by
    funext i; exact block_get T B hB i
  rw [e, pick_all]

theorem stride_map {β γ : Type} (f : β → γ) (n : Nat) (l : List β) : stride n (l.map f) = (stride n l).map f := by
  unfold stride
  rw [List.length_map, List.map_filterMap]
  simp only [List.getElem?_map]

theorem stride_sub {β : Type} {n : Nat} {l : List β} {x : β} (h : x ∈ stride n l) : x ∈ l := by
  obtain ⟨i, _, hi⟩ := List.mem_filterMap.1 h
  exact List.mem_of_getElem? hi

theorem take_first {β γ : Type} {T : List β} {B : List γ} (hB : 0 < B.length) :
    (B.flatMap (fun _ => T)).take T.length = T := by
  obtain ⟨b, B', rfl⟩ := one_of (l := B) hB
  simp

theorem mem_uniq {β : Type} [LinearOrder β] {l : List β} {x : β} : x ∈ uniq l ↔ x ∈ l := by
  rw [uniq, (List.perm_insertionSort _ _).mem_iff, List.mem_dedup]

theorem uniq_nodup {β : Type} [LinearOrder β] (l : List β) : (uniq l).Nodup :=
  (List.perm_insertionSort _ _).nodup_iff.2 (List.nodup_dedup _)

theorem uniq_sorted {β : Type} [LinearOrder β] (l : List β) : (uniq l).Pairwise (· < ·) := by
  have h1 : (uniq l).Pairwise (· ≤ ·) := List.pairwise_insertionSort _ _
  exact (h1.and (uniq_nodup l)).imp (fun h => lt_of_le_of_ne h.1 h.2)

variable {τ L : Type} [LinearOrder τ]

theorem counts {h : Hdr τ L} (ok : FileOK h) : CountsOK h.rows (nBl h) h.ntimes := ⟨rfl, ok.ntimes⟩

theorem positive {h : Hdr τ L} (ok : FileOK h) : 0 < nBl h ∧ 0 < h.ntimes := len_nbls (counts ok) ok.some_rows

omit [LinearOrder τ] in
theorem grid_length {h : Hdr τ L} (g : Grid h) : h.rows.length = nBl h * h.ntimes := by
  obtain ⟨b, hb⟩ := g
  cases b with
  | true => simpa using baselineMajor_length hb
  | false => simpa using timeMajor_length hb

theorem one_time {h : Hdr τ L} (ok : FileOK h) (g : Grid h) (h1 : h.ntimes = 1) : Lay h false :=
  major_one_time (counts ok) (grid_length g) h1

theorem one_bl {h : Hdr τ L} (ok : FileOK h) (g : Grid h) (h1 : nBl h = 1) : Lay h true :=
  major_one_bl (counts ok) (grid_length g) h1

/-- Whatever order is used is the order of the rows. -/
theorem order_right {o : Opts} {h : Hdr τ L} (ok : FileOK h) (oo : OptsOK o h) (hn : nbls o h = nBl h)
    {ks : List Key} (e : bltOrder o h = .ok (some ks)) : SortedBy ks h.rows := by
  unfold bltOrder at e
  split at e
  · rename_i ks' ho
    simp only [Except.ok.injEq, Option.some.injEq] at e
    subst e; exact oo.order _ ho
  · split at e
    · rename_i ks' ho
      simp only [Except.ok.injEq, Option.some.injEq] at e
      subst e; exact ok.order _ ho
    · rw [hn] at e
      exact blt_order_sound h.rows _ _ _ (counts ok) e
  · simp only [Except.ok.injEq] at e
    exact ok.order _ e

theorem fromRows_grid {o : Opts} {h : Hdr τ L} (ok : FileOK h) (hn : nbls o h = nBl h) {f : Option Bool}
    (e : fromRows o h = .ok (true, f)) : ∃ b, f = some b ∧ Lay h b := by
  unfold fromRows at e
  simp only [Except.ok.injEq, Prod.mk.injEq, hn] at e
  obtain ⟨e1, e2⟩ := e
  have s := rect_sound h.rows (nBl h) h.ntimes none ok.some_rows (counts ok) ⟨by simp, by simp⟩
  generalize hd : determineRectangularity (h.rows.map Row.t) (h.rows.map Row.bl) (nBl h) h.ntimes none = d at *
  obtain ⟨d1, d2⟩ := d
  simp only at e1 e2
  subst e1
  refine ⟨d2, e2.symm, ?_⟩
  cases d2 with
  | true => exact s.1 rfl
  | false => exact s.2.1 rfl

/-- If the rows are said to be a grid they are one, and a known direction is right. -/
theorem rect_right {o : Opts} {h : Hdr τ L} (ok : FileOK h) (oo : OptsOK o h) (hn : nbls o h = nBl h)
    {f : Option Bool} (e : rectangular o h = .ok (true, f)) : Grid h ∧ ∀ b, f = some b → Lay h b := by
  have fin : ∀ g : Grid h, f = o.timeFirst → Grid h ∧ ∀ b, f = some b → Lay h b := by
    intro g hf
    subst hf
    exact ⟨g, fun b hb => oo.first b hb g⟩
  have rows : fromRows o h = .ok (true, f) → Grid h ∧ ∀ b, f = some b → Lay h b := by
    intro e
    obtain ⟨b, rfl, hb⟩ := fromRows_grid ok hn e
    refine ⟨⟨b, hb⟩, fun b' h' => ?_⟩
    simp only [Option.some.injEq] at h'
    subst h'; exact hb
  unfold rectangular at e
  split at e
  · rename_i b ho
    simp only [Except.ok.injEq, Prod.mk.injEq] at e
    obtain ⟨rfl, rfl⟩ := e
    exact fin (oo.rect ho) rfl
  · split at e
    · rename_i b ho
      simp only [Except.ok.injEq, Prod.mk.injEq] at e
      obtain ⟨rfl, rfl⟩ := e
      exact fin (ok.rect ho) rfl
    · split at e
      · rename_i hl
        split at e
        · simp at e
        · rename_i ord ho
          split at e
          · rename_i hg
            simp only [Except.ok.injEq, Prod.mk.injEq, true_and] at e
            have hl' : h.rows.length = nBl h * h.ntimes := by rw [← ok.nblts, hl, hn, Nat.mul_comm]
            refine fin ?_ e.symm
            simp only [isGrid, Bool.or_eq_true, decide_eq_true_eq] at hg
            rcases hg with rfl | rfl
            · exact ⟨false, hint_tb (counts ok) hl' (order_right ok oo hn ho) ok.once⟩
            · exact ⟨true, hint_bt (counts ok) hl' (order_right ok oo hn ho) ok.once⟩
          · exact rows e
      · exact rows e

/-- The first two times tell the direction. -/
theorem first_two {h : Hdr τ L} (ok : FileOK h) (g : Grid h) (h1 : h.ntimes ≠ 1) (h2 : h.ntimes ≠ h.nblts) :
    Lay h (!decide ((h.rows.map Row.t)[1]? = (h.rows.map Row.t)[0]?)) := by
  obtain ⟨p1, p2⟩ := positive ok
  have hl := grid_length g
  rw [← ok.nblts] at hl
  obtain ⟨b, hb⟩ := g
  have hb1 : nBl h ≠ 1 := by
    intro e; rw [e, Nat.one_mul] at hl; exact h2 hl.symm
  cases b with
  | true =>
    have hb' := hb
    obtain ⟨B, T, _, hT, hBl, hTl, ht, _⟩ := hb
    obtain ⟨t0, t1, T', rfl⟩ := two_of (l := T) (by omega)
    obtain ⟨b0, B', rfl⟩ := one_of (l := B) (by omega)
    have hne : t1 ≠ t0 := by intro e; subst e; simp at hT
    have : (!decide ((h.rows.map Row.t)[1]? = (h.rows.map Row.t)[0]?)) = true := by
      rw [ht]; simp [hne]
    rw [this]; exact hb'
  | false =>
    have hb' := hb
    obtain ⟨B, T, hB, _, hBl, hTl, ht, _⟩ := hb
    obtain ⟨b0, b1, B', rfl⟩ := two_of (l := B) (by omega)
    obtain ⟨t0, T', rfl⟩ := one_of (l := T) (by omega)
    have : (!decide ((h.rows.map Row.t)[1]? = (h.rows.map Row.t)[0]?)) = false := by
      rw [ht]; simp
    rw [this]; exact hb'

/-- The direction that is used is the one of the rows. -/
theorem faster_right {o : Opts} {h : Hdr τ L} (ok : FileOK h) (oo : OptsOK o h) (hn : nbls o h = nBl h)
    {f : Option Bool} (e : rectangular o h = .ok (true, f)) {b : Bool} (eb : timeFaster o h = .ok b) : Lay h b := by
  obtain ⟨g, hf⟩ := rect_right ok oo hn e
  unfold timeFaster at eb
  rw [e] at eb
  cases f with
  | some b' =>
    simp only [Except.ok.injEq] at eb
    subst eb; exact hf _ rfl
  | none =>
    simp only at eb
    cases ht : h.timeFirst with
    | some b' =>
      rw [ht] at eb
      simp only [Except.ok.injEq] at eb
      subst eb; exact ok.first _ ht g
    | none =>
      rw [ht] at eb
      simp only at eb
      by_cases h1 : h.ntimes = 1
      · rw [if_pos h1] at eb
        simp only [Except.ok.injEq] at eb
        subst eb; exact one_time ok g h1
      · rw [if_neg h1] at eb
        by_cases h2 : h.ntimes = h.nblts
        · rw [if_pos h2] at eb
          simp only [Except.ok.injEq] at eb
          subst eb
          refine one_bl ok g ?_
          have := grid_length g
          rw [← ok.nblts, ← h2] at this
          have p := (positive ok).2
          exact (Nat.eq_of_mul_eq_mul_right p (by rw [Nat.one_mul]; exact this)).symm
        · rw [if_neg h2] at eb
          simp only [Except.ok.injEq] at eb
          rw [← eb]; exact first_two ok g h1 h2

end Verif.FastMeta
