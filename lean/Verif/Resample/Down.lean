import Verif.Resample.Windows
import Mathlib.Tactic.LinearCombination
import Mathlib.Algebra.Order.BigOperators.Group.List

/-! # Downsampling: what is made of each window, and the whole object -/
set_option linter.unusedSectionVars false

namespace Verif.Resample

variable {K V ι : Type} [Field K] [LinearOrder K] [IsStrictOrderedRing K]

/-! ### Specification -/

/-- The rows of a window that count for a cell: those that are not flagged, or all of them if all are flagged. -/
def used (w : List (Row K V ι)) (c : ι) : List (Row K V ι) :=
  if ∀ r ∈ w, r.flag c = true then w else w.filter (fun r => r.flag c = false)

/-- The sum of a quantity over rows. -/
def over {α β : Type} [AddCommMonoid β] (l : List α) (f : α → β) : β := (l.map f).sum

/-- Row `r` is what a window is to be replaced by: its time is the mean weighted by integration time, a visibility is the mean
weighted by integration time and number of samples. -/
structure Averages [AddCommGroup V] [Module K V] (summing : Bool) (b : Int) (w : List (Row K V ι)) (r : Row K V ι) : Prop where
  bl : r.bl = b
  pc : ∀ x, w.head? = some x → r.pc = x.pc
  integ : r.integ = over w Row.integ
  time : over w Row.integ * r.time = over w (fun x => x.integ * x.time)
  flag : ∀ c, r.flag c = true ↔ ∀ x ∈ w, x.flag c = true
  nsample : ∀ c, over w Row.integ * r.nsample c = over (used w c) (fun x => x.nsample c * x.integ)
  data_sum : summing = true → ∀ c, r.data c = over (used w c) (fun x => x.data c)
  data_mean : summing = false → ∀ c, over (used w c) (fun x => x.nsample c * x.integ) ≠ 0 →
    over (used w c) (fun x => x.nsample c * x.integ) • r.data c = over (used w c) (fun x => (x.nsample c * x.integ) • x.data c)

/-- Rows with different phase centers in one list. -/
def Mixed (w : List (Row K V ι)) : Prop := ∃ x ∈ w, ∃ y ∈ w, x.pc ≠ y.pc

/-- The rows of a baseline. -/
def ofBl (b : Int) (rows : List (Row K V ι)) : List (Row K V ι) := rows.filter (fun r => decide (r.bl = b))

/-! ### Proofs -/

theorem used_eq (w : List (Row K V ι)) (c : ι) : w.filter (fun r => !masked w c r) = used w c := by
  unfold used masked
  by_cases h : ∀ r ∈ w, r.flag c = true
  · have h' : (w.all fun r => r.flag c) = true := by simpa using h
    rw [if_pos h, h']
    simp
  · have h' : (w.all fun r => r.flag c) = false := by
      rw [Bool.eq_false_iff]
      intro hx
      exact h (by simpa using hx)
    rw [if_neg h, h']
    apply List.filter_congr
    intro r _
    cases r.flag c <;> simp

theorem msum_eq {α : Type} [AddCommMonoid α] (w : List (Row K V ι)) (c : ι) (f : Row K V ι → α) : msum w c f = over (used w c) f := by
  unfold msum over
  rw [used_eq]

theorem over_pos {α : Type} (l : List α) (f : α → K) (hne : l ≠ []) (h : ∀ x ∈ l, 0 < f x) : 0 < over l f := by
  unfold over
  apply List.sum_pos
  · simpa using h
  · simpa using hne

section
variable [FloorRing K] [AddCommGroup V] [Module K V]

theorem average_spec (summing : Bool) (b : Int) {w : List (Row K V ι)} {running : K} (hr : running = total Row.integ w) (hne : w ≠ [])
    (hp : ∀ x ∈ w, 0 < x.integ) : Averages summing b w (average summing b w running) := by
  have hpos := over_pos w Row.integ hne hp
  have htot : (w.map Row.integ).sum = over w Row.integ := rfl
  refine ⟨rfl, ?_, hr, ?_, ?_, ?_, ?_, ?_⟩
  · intro x hx
    simp [average, hx]
  · simp only [average, htot]
    rw [mul_div_cancel₀ _ hpos.ne']
    unfold over
    congr 1
    apply List.map_congr_left
    intro x _
    ring
  · intro c
    simp [average]
  · intro c
    simp only [average, htot, msum_eq]
    rw [mul_div_cancel₀ _ hpos.ne']
  · rintro rfl c
    simp [average, msum_eq]
  · rintro rfl c h0
    simp only [average, msum_eq, wmean, if_neg h0, Bool.false_eq_true, if_false]
    rw [smul_smul, mul_inv_cancel₀ h0, one_smul]

/-- If the rows of a window tile an interval, the new row covers the same interval. -/
theorem averages_interval {summing : Bool} {b : Int} {w : List (Row K V ι)} {r : Row K V ι} (h : Averages summing b w r) {s e : K}
    (ht : Tiles s e w) (hp : ∀ x ∈ w, 0 < x.integ) (hne : w ≠ []) :
    r.time * 86400 - r.integ / 2 = s ∧ r.time * 86400 + r.integ / 2 = e := by
  have hpos := over_pos w Row.integ hne hp
  have hi : over w Row.integ = e - s := ht.integ
  have key : ∀ (w : List (Row K V ι)) (s e : K), Tiles s e w → over w (fun x => x.integ * x.time) * 86400 = (e ^ 2 - s ^ 2) / 2 := by
    intro w
    induction w with
    | nil => intro s e ht; simp only [Tiles] at ht; subst ht; simp [over]
    | cons a w ih =>
      intro s e ht
      have h1 := ih _ _ ht.2
      have h2 := ht.1
      simp only [over, List.map_cons, List.sum_cons] at h1 ⊢
      rw [add_mul, h1, ← h2]
      ring
  have h1 := key w s e ht
  rw [← h.time, hi] at h1
  have hne' : e - s ≠ 0 := by rw [← hi]; exact hpos.ne'
  have h2 : r.time * 86400 = (e + s) / 2 := by
    apply mul_left_cancel₀ hne'
    linear_combination h1
  rw [h2, h.integ, hi]
  constructor <;> ring

/-- The part of a sum that a cut row adds up to. -/
theorem over_const_mul {α : Type} (x : K) (g : α → K) (l : List α) : over l (fun p => x * g p) = x * over l g := sum_mul_left x g l

theorem over_congr {α β : Type} [AddCommMonoid β] {l : List α} {f g : α → β} (h : ∀ x ∈ l, f x = g x) : over l f = over l g := by
  unfold over
  rw [List.map_congr_left h]

theorem used_same {w : List (Row K V ι)} {c : ι} {f : Bool} (h : ∀ x ∈ w, x.flag c = f) : used w c = w := by
  unfold used
  cases f with
  | true => rw [if_pos h]
  | false =>
    split
    · rfl
    · rw [List.filter_eq_self]
      intro x hx
      simp [h x hx]

theorem over_smul {α : Type} (l : List α) (f : α → K) (v : V) : over l (fun x => f x • v) = over l f • v := by
  unfold over
  induction l with
  | nil => simp
  | cons a l ih => simp only [List.map_cons, List.sum_cons, ih, add_smul]

/-- **C58.** Averaging the pieces a row has been cut into gives the row back. -/
theorem average_cut {summing : Bool} {r : Row K V ι} {l : List (Row K V ι)} (hc : Cut summing r l) (hp : ∀ x ∈ l, 0 < x.integ)
    {q : Row K V ι} (h : Averages summing r.bl l q) :
    q.bl = r.bl ∧ q.pc = r.pc ∧ q.time = r.time ∧ q.integ = r.integ ∧ q.flag = r.flag ∧ q.nsample = r.nsample ∧
      ∀ c, (summing = true ∨ r.nsample c ≠ 0) → q.data c = r.data c := by
  have hpos := over_pos l Row.integ hc.nonempty hp
  have hi : over l Row.integ = r.integ := by
    have := hc.tiles.integ
    unfold over
    rw [this]; ring
  have ht := averages_interval h hc.tiles hp hc.nonempty
  have hflag : ∀ c, ∀ x ∈ l, x.flag c = r.flag c := fun c x hx => by rw [(hc.labels x hx).2.2.1]
  have hused : ∀ c, used l c = l := fun c => used_same (hflag c)
  have hns : ∀ c, over l (fun x => x.nsample c * x.integ) = r.nsample c * r.integ := by
    intro c
    rw [over_congr (g := fun x => r.nsample c * x.integ) (fun x hx => by rw [(hc.labels x hx).2.2.2]), over_const_mul, hi]
  refine ⟨h.bl, ?_, ?_, by rw [h.integ, hi], ?_, ?_, ?_⟩
  · obtain ⟨a, m, rfl⟩ := List.exists_cons_of_ne_nil hc.nonempty
    rw [h.pc a (by simp), (hc.labels a (by simp)).2.1]
  · have h1 := ht.1
    have h2 := ht.2
    have : q.time * 86400 = r.time * 86400 := by linarith
    exact mul_right_cancel₀ (by norm_num) this
  · funext c
    obtain ⟨a, m, rfl⟩ := List.exists_cons_of_ne_nil hc.nonempty
    cases hr : r.flag c with
    | true => exact (h.flag c).2 (fun x hx => by rw [hflag c x hx, hr])
    | false =>
      rw [Bool.eq_false_iff]
      intro hx
      have := (h.flag c).1 hx a (by simp)
      rw [hflag c a (by simp), hr] at this
      simp at this
  · funext c
    have h1 := h.nsample c
    rw [hused c, hns c, hi, mul_comm] at h1
    exact mul_right_cancel₀ (by rw [← hi]; exact hpos.ne') h1
  · intro c hcond
    cases hs : summing with
    | true =>
      rw [h.data_sum hs c, hused c]
      exact (hc.data_sum hs).1 c
    | false =>
      have hn0 : r.nsample c ≠ 0 := by simpa [hs] using hcond
      have hne : r.nsample c * r.integ ≠ 0 := mul_ne_zero hn0 (by rw [← hi]; exact hpos.ne')
      have h1 := h.data_mean hs c (by rw [hused c, hns c]; exact hne)
      rw [hused c, hns c] at h1
      have h2 : over l (fun x => (x.nsample c * x.integ) • x.data c) = (r.nsample c * r.integ) • r.data c := by
        rw [← hns c]
        rw [over_congr (g := fun x => (x.nsample c * x.integ) • r.data c) (fun x hx => by rw [hc.data_mean hs x hx])]
        exact over_smul _ _ _
      rw [h2] at h1
      have h3 := congrArg (fun v => (r.nsample c * r.integ)⁻¹ • v) h1
      simp only [smul_smul, inv_mul_cancel₀ hne, one_smul] at h3
      exact h3

/-! ### The number of windows for a number of times -/

theorem floor_quot (N : Nat) {n : Nat} (hn : 0 < n) : ⌊(N : K) / n⌋ = ((N / n : Nat) : Int) := by
  have hnK : (0 : K) < n := by exact_mod_cast hn
  rw [Int.floor_eq_iff]
  constructor
  · rw [le_div_iff₀ hnK, Int.cast_natCast]
    have : N / n * n ≤ N := Nat.div_mul_le_self N n
    exact_mod_cast this
  · rw [div_lt_iff₀ hnK]
    have : N < (N / n + 1) * n := by
      have := Nat.lt_div_mul_add hn (a := N)
      rw [Nat.add_mul]; omega
    have h2 : (N : K) < ((N / n + 1 : Nat) : K) * n := by exact_mod_cast this
    rw [Int.cast_natCast]
    push_cast at h2
    exact h2

theorem ceil_quot (N : Nat) {n : Nat} (hn : 0 < n) : ⌈(N : K) / n⌉ = (((N + n - 1) / n : Nat) : Int) := by
  have hnK : (0 : K) < n := by exact_mod_cast hn
  rw [Int.ceil_eq_iff]
  have h1 := Nat.div_mul_le_self (N + n - 1) n
  have h2 := Nat.lt_div_mul_add hn (a := N + n - 1)
  constructor
  · rw [lt_div_iff₀ hnK]
    have h3 : (N + n - 1) / n * n < N + n := by omega
    have h4 : ((((N + n - 1) / n : Nat) : K)) * n < N + n := by exact_mod_cast h3
    rw [Int.cast_natCast, sub_mul]
    linarith
  · rw [div_le_iff₀ hnK]
    have h3 : N ≤ (N + n - 1) / n * n := by omega
    rw [Int.cast_natCast]
    exact_mod_cast h3

theorem count_n {t : Tols K} (hr : 0 ≤ t.r) (ha : 0 ≤ t.a) {n : Nat} (hn : 0 < n) (keep : Bool) (ints : List K)
    (hsmall : keep = true → (ints.length : K) * t.r + n * t.a < 1) :
    count t (.nTimes n) keep ints = if keep then (ints.length + n - 1) / n else ints.length / n := by
  have hnK : (0 : K) < n := by exact_mod_cast hn
  unfold count
  simp only
  cases keep with
  | false => simp only [Bool.false_and, Bool.false_eq_true, if_false, floor_quot ints.length hn, Int.toNat_natCast]
  | true =>
    simp only [Bool.true_and, if_true]
    split
    · rw [ceil_quot ints.length hn, Int.toNat_natCast]
    · rename_i hc
      simp only [Bool.not_eq_true, Bool.not_eq_false', isclose, decide_eq_true_eq] at hc
      rw [floor_quot ints.length hn] at hc ⊢
      simp only [Int.toNat_natCast]
      have hs := hsmall rfl
      have hfl : ((ints.length / n : Nat) : K) * n ≤ ints.length := by exact_mod_cast Nat.div_mul_le_self ints.length n
      have hc2 := (abs_le.1 hc).2
      have hcast : (((ints.length / n : Nat) : Int) : K) = ((ints.length / n : Nat) : K) := Int.cast_natCast _
      rw [hcast, abs_of_nonneg (Nat.cast_nonneg _)] at hc2
      have h1 : (ints.length : K) - ((ints.length / n : Nat) : K) * n ≤ (t.a + t.r * ((ints.length / n : Nat) : K)) * n := by
        have := mul_le_mul_of_nonneg_right hc2 hnK.le
        rw [sub_mul, div_mul_cancel₀ _ hnK.ne'] at this
        exact this
      have h2 : (ints.length : K) - ((ints.length / n : Nat) : K) * n < 1 := by
        have : t.r * (((ints.length / n : Nat) : K) * n) ≤ t.r * ints.length := mul_le_mul_of_nonneg_left hfl hr
        nlinarith
      have h3 : ints.length < ints.length / n * n + 1 := by
        have : (ints.length : K) < ((ints.length / n * n + 1 : Nat) : K) := by push_cast; linarith
        exact_mod_cast this
      have h4 : ints.length = ints.length / n * n := by
        have := Nat.div_mul_le_self ints.length n
        omega
      have h5 : (ints.length + n - 1) / n = (n - 1 + ints.length / n * n) / n := by
        congr 1; omega
      rw [h5, Nat.add_mul_div_right _ _ hn, Nat.div_eq_of_lt (Nat.sub_lt hn Nat.one_pos), Nat.zero_add]

/-! ### The whole object -/

theorem mapM_ok {α β ε : Type} {f : α → Except ε β} {l : List α} {r : List β} (h : l.mapM f = .ok r) :
    List.Forall₂ (fun a b => f a = .ok b) l r := by
  induction l generalizing r with
  | nil =>
    simp only [List.mapM_nil, pure, Except.pure, Except.ok.injEq] at h
    subst h; exact .nil
  | cons a l ih =>
    rw [List.mapM_cons] at h
    simp only [bind, Except.bind, pure, Except.pure] at h
    cases hf : f a with
    | error e => simp [hf] at h
    | ok b =>
      rw [hf] at h
      cases hl : l.mapM f with
      | error e => simp [hl] at h
      | ok bs =>
        simp only [hl, Except.ok.injEq] at h
        subst h
        exact .cons hf (ih hl)

theorem mapM_error {α β ε : Type} {f : α → Except ε β} {l : List α} {e : ε} (h : l.mapM f = .error e) : ∃ a ∈ l, f a = .error e := by
  induction l with
  | nil => simp [pure, Except.pure] at h
  | cons a l ih =>
    rw [List.mapM_cons] at h
    simp only [bind, Except.bind, pure, Except.pure] at h
    cases hf : f a with
    | error e' =>
      simp only [hf, Except.error.injEq] at h
      subst h
      exact ⟨a, by simp, hf⟩
    | ok b =>
      rw [hf] at h
      cases hl : l.mapM f with
      | error e' =>
        simp only [hl, Except.error.injEq] at h
        subst h
        obtain ⟨x, hx, hx'⟩ := ih hl
        exact ⟨x, List.mem_cons_of_mem _ hx, hx'⟩
      | ok bs => simp [hl] at h

theorem dedup_two {β : Type} [DecidableEq β] (l : List β) : 1 < l.dedup.length ↔ ∃ x ∈ l, ∃ y ∈ l, x ≠ y := by
  constructor
  · intro h
    have h0 := List.nodup_dedup l
    match hd : l.dedup with
    | [] => rw [hd] at h; simp at h
    | [a] => rw [hd] at h; simp at h
    | a :: b :: m =>
      rw [hd] at h0
      refine ⟨a, List.mem_dedup.1 (by rw [hd]; simp), b, List.mem_dedup.1 (by rw [hd]; simp), ?_⟩
      intro e
      subst e
      simp at h0
  · rintro ⟨x, hx, y, hy, hne⟩
    by_contra hlt
    rw [← List.mem_dedup] at hx hy
    match hd : l.dedup with
    | [] => rw [hd] at hx; simp at hx
    | [a] =>
      rw [hd] at hx hy
      simp only [List.mem_singleton] at hx hy
      exact hne (hx.trans hy.symm)
    | a :: b :: m => rw [hd] at hlt; simp at hlt

/-- What a baseline becomes. -/
def newRows (t : Tols K) (mode : Mode K) (keep summing : Bool) (rows : List (Row K V ι)) (b : Int) : List (Row K V ι) :=
  (fill (enough t mode) keep Row.integ (ofBl b rows)).map (fun w => average summing b w.1 w.2)

/-- A window of the baseline mixes phase centers. -/
def MixedBl (t : Tols K) (mode : Mode K) (keep : Bool) (rows : List (Row K V ι)) (b : Int) : Prop :=
  ∃ ws tail, Windows (enough t mode) keep Row.integ (ofBl b rows) ws tail ∧ ∃ w ∈ ws, Mixed w

theorem downBaseline_eq (t : Tols K) (mode : Mode K) (keep summing : Bool) (nphase : Nat) (rows : List (Row K V ι)) (b : Int) :
    (1 < nphase ∧ MixedBl t mode keep rows b ∧ downBaseline t mode keep summing nphase rows b = .error .phaseCenters) ∨
    (¬ (1 < nphase ∧ MixedBl t mode keep rows b) ∧
      downBaseline t mode keep summing nphase rows b = .ok (newRows t mode keep summing rows b)) := by
  obtain ⟨tail, hw, _⟩ := fill_windows (enough t mode) keep Row.integ (ofBl b rows)
  unfold downBaseline
  simp only
  have hany : ((fill (enough t mode) keep Row.integ (rows.filter (fun r => decide (r.bl = b)))).any
      (fun w => decide (1 < nphase) && decide (1 < (w.1.map Row.pc).dedup.length))) = true ↔
        (1 < nphase ∧ MixedBl t mode keep rows b) := by
    rw [List.any_eq_true]
    constructor
    · rintro ⟨w, hwm, h⟩
      simp only [Bool.and_eq_true, decide_eq_true_eq] at h
      refine ⟨h.1, _, tail, hw, w.1, List.mem_map.2 ⟨w, hwm, rfl⟩, ?_⟩
      obtain ⟨x, hx, y, hy, hne⟩ := (dedup_two _).1 h.2
      obtain ⟨x', hx', rfl⟩ := List.mem_map.1 hx
      obtain ⟨y', hy', rfl⟩ := List.mem_map.1 hy
      exact ⟨x', hx', y', hy', hne⟩
    · rintro ⟨hn, ws, tail', hw', v, hv, x, hx, y, hy, hne⟩
      rw [(windows_unique hw' hw).1] at hv
      obtain ⟨w, hwm, rfl⟩ := List.mem_map.1 hv
      refine ⟨w, hwm, ?_⟩
      simp only [Bool.and_eq_true, decide_eq_true_eq]
      exact ⟨hn, (dedup_two _).2 ⟨_, List.mem_map_of_mem hx, _, List.mem_map_of_mem hy, hne⟩⟩
  split
  · rename_i h
    exact Or.inl ⟨(hany.1 h).1, (hany.1 h).2, rfl⟩
  · rename_i h
    exact Or.inr ⟨fun hx => h (hany.2 hx), rfl⟩

/-- The number of times averaged is small enough for the whole part of a quotient to be told from it. -/
def Countable (t : Tols K) (mode : Mode K) (keep : Bool) (rows : List (Row K V ι)) : Prop :=
  match mode with
  | .minInt _ => True
  | .nTimes n => 0 < n ∧ (keep = true → ∀ b, ((ofBl b rows).length : K) * t.r + n * t.a < 1)

theorem count_eq {t : Tols K} (hr : 0 ≤ t.r) (ha : 0 ≤ t.a) {mode : Mode K} {keep : Bool} (summing : Bool) {rows : List (Row K V ι)}
    (hc : Countable t mode keep rows) (b : Int) :
    count t mode keep ((ofBl b rows).map Row.integ) = (newRows t mode keep summing rows b).length := by
  unfold newRows
  rw [List.length_map]
  cases mode with
  | minInt m => exact count_min t m keep Row.integ (ofBl b rows)
  | nTimes n =>
    obtain ⟨tail, hw, _⟩ := fill_windows (enough t (.nTimes n)) keep Row.integ (ofBl b rows)
    have h1 := windows_count hc.1 hw
    rw [List.length_map] at h1
    rw [count_n hr ha hc.1 keep _ (fun hk => by rw [List.length_map]; exact hc.2 hk b), List.length_map]
    cases keep with
    | true => simpa using (h1.2 rfl).symm
    | false => simpa using (h1.1 rfl).symm

theorem ofBl_flatMap (g : Int → List (Row K V ι)) (hg : ∀ b, ∀ x ∈ g b, x.bl = b) {bls : List Int} (hn : bls.Nodup) (b : Int) :
    ofBl b (bls.flatMap g) = if b ∈ bls then g b else [] := by
  unfold ofBl
  induction bls with
  | nil => rfl
  | cons a bls ih =>
    rw [List.flatMap_cons, List.filter_append, ih (List.nodup_cons.1 hn).2]
    have ha := (List.nodup_cons.1 hn).1
    by_cases hab : a = b
    · subst hab
      rw [filter_of_all _ true (g a) (fun x hx => by simp [hg a x hx])]
      simp [ha]
    · rw [filter_of_all _ false (g a) (fun x hx => by simp [hg a x hx, hab])]
      have : (b ∈ a :: bls) ↔ b ∈ bls := by
        simp [List.mem_cons, Ne.symm hab]
      simp [this]

theorem newRows_bl (t : Tols K) (mode : Mode K) (keep summing : Bool) (rows : List (Row K V ι)) (b : Int) :
    ∀ x ∈ newRows t mode keep summing rows b, x.bl = b := by
  intro x hx
  obtain ⟨w, _, rfl⟩ := List.mem_map.1 hx
  rfl

theorem toDown_nodup (t : Tols K) (mode : Mode K) (rows : List (Row K V ι)) : (toDown t mode rows).Nodup := by
  unfold toDown
  cases mode <;> exact List.nodup_dedup _

theorem toDown_mem (t : Tols K) (mode : Mode K) (rows : List (Row K V ι)) (b : Int) :
    b ∈ toDown t mode rows ↔ ∃ r ∈ rows, r.bl = b ∧ ∀ m, mode = .minInt m → tooShort t m r = true := by
  unfold toDown
  cases mode with
  | minInt m =>
    simp only [List.mem_dedup, List.mem_map, List.mem_filter, Mode.minInt.injEq, forall_eq']
    constructor
    · rintro ⟨r, ⟨h1, h2⟩, h3⟩; exact ⟨r, h1, h3, h2⟩
    · rintro ⟨r, h1, h3, h2⟩; exact ⟨r, ⟨h1, h2⟩, h3⟩
  | nTimes n =>
    simp only [List.mem_dedup, List.mem_map, reduceCtorEq, false_implies, implies_true, and_true]

theorem toDown_mem_perm {t : Tols K} {mode : Mode K} {rows rows' : List (Row K V ι)} (h : rows'.Perm rows) (b : Int) :
    b ∈ toDown t mode rows' ↔ b ∈ toDown t mode rows := by
  rw [toDown_mem, toDown_mem]
  constructor
  · rintro ⟨r, h1, h2⟩; exact ⟨r, h.mem_iff.1 h1, h2⟩
  · rintro ⟨r, h1, h2⟩; exact ⟨r, h.mem_iff.2 h1, h2⟩

/-- What `downsampleSorted` does. -/
theorem downsampleSorted_eq {t : Tols K} (hr : 0 ≤ t.r) (ha : 0 ≤ t.a) {mode : Mode K} {keep summing : Bool} {nphase : Nat}
    {rows : List (Row K V ι)} (hc : Countable t mode keep rows) :
    ((1 < nphase ∧ ∃ b ∈ toDown t mode rows, MixedBl t mode keep rows b) ∧
      downsampleSorted t mode keep summing nphase rows = .error .phaseCenters) ∨
    (¬ (1 < nphase ∧ ∃ b ∈ toDown t mode rows, MixedBl t mode keep rows b) ∧
      downsampleSorted t mode keep summing nphase rows = .ok
        (((rows.map Row.bl).dedup.filter (fun b => !(toDown t mode rows).contains b)).flatMap (fun b => ofBl b rows) ++
          (toDown t mode rows).flatMap (newRows t mode keep summing rows))) := by
  unfold downsampleSorted
  simp only
  cases hm : (toDown t mode rows).mapM (downBaseline t mode keep summing nphase rows) with
  | error e =>
    left
    obtain ⟨b, hb, h⟩ := mapM_error hm
    rcases downBaseline_eq t mode keep summing nphase rows b with ⟨h1, h2, h3⟩ | ⟨_, h3⟩
    · rw [h3] at h
      simp only [Except.error.injEq] at h
      subst h
      exact ⟨⟨h1, b, hb, h2⟩, rfl⟩
    · rw [h3] at h; simp at h
  | ok new =>
    right
    have hf := mapM_ok hm
    have hnew : new = (toDown t mode rows).map (newRows t mode keep summing rows) := by
      clear hm
      generalize toDown t mode rows = bls at hf
      induction hf with
      | nil => rfl
      | cons h _ ih =>
        rename_i a _ _ _ _
        rcases downBaseline_eq t mode keep summing nphase rows a with ⟨_, _, h3⟩ | ⟨_, h3⟩
        · rw [h3] at h; simp at h
        · rw [h3] at h
          simp only [Except.ok.injEq] at h
          rw [List.map_cons, h, ih]
    constructor
    · rintro ⟨h1, b, hb, h2⟩
      clear hnew hm
      generalize toDown t mode rows = bls at hf hb
      induction hf with
      | nil => simp at hb
      | cons h _ ih =>
        rename_i a l bls' new'
        rcases List.mem_cons.1 hb with rfl | hb
        · rcases downBaseline_eq t mode keep summing nphase rows b with ⟨_, _, h3⟩ | ⟨h3, _⟩
          · rw [h3] at h; simp at h
          · exact h3 ⟨h1, h2⟩
        · exact ih hb
    · have hlen : new.flatten.length = ((toDown t mode rows).map
          (fun b => count t mode keep ((rows.filter (fun r => decide (r.bl = b))).map Row.integ))).sum := by
        rw [hnew, List.length_flatten, List.map_map]
        congr 1
        apply List.map_congr_left
        intro b _
        exact (count_eq hr ha summing hc b).symm
      simp only [hlen, ne_eq, not_true_eq_false, if_false]
      rw [hnew, ← List.flatMap_def]
      rfl

theorem ofBl_result {t : Tols K} {mode : Mode K} {keep summing : Bool} (rows : List (Row K V ι)) (b : Int) :
    ofBl b (((rows.map Row.bl).dedup.filter (fun b => !(toDown t mode rows).contains b)).flatMap (fun b => ofBl b rows) ++
      (toDown t mode rows).flatMap (newRows t mode keep summing rows)) =
      if b ∈ toDown t mode rows then newRows t mode keep summing rows b else ofBl b rows := by
  have happ : ∀ l m : List (Row K V ι), ofBl b (l ++ m) = ofBl b l ++ ofBl b m := fun l m => List.filter_append ..
  rw [happ, ofBl_flatMap (fun b => ofBl b rows) (fun b x hx => of_decide_eq_true (List.mem_filter.1 hx).2)
    ((List.nodup_dedup _).filter _), ofBl_flatMap _ (newRows_bl t mode keep summing rows) (toDown_nodup t mode rows)]
  by_cases hb : b ∈ toDown t mode rows
  · have : b ∉ (rows.map Row.bl).dedup.filter (fun b => !(toDown t mode rows).contains b) := by
      simp [hb]
    rw [if_neg this, if_pos hb, if_pos hb, List.nil_append]
  · rw [if_neg hb, if_neg hb, List.append_nil]
    by_cases hm : b ∈ rows.map Row.bl
    · rw [if_pos]
      simp only [List.mem_filter, List.mem_dedup]
      exact ⟨hm, by simpa using hb⟩
    · rw [if_neg (by simp only [List.mem_filter, List.mem_dedup]; exact fun h => hm h.1)]
      symm
      unfold ofBl
      rw [List.filter_eq_nil_iff]
      intro x hx hxb
      exact hm (List.mem_map.2 ⟨x, hx, of_decide_eq_true hxb⟩)

theorem newRows_spec {t : Tols K} {mode : Mode K} {keep summing : Bool} {rows : List (Row K V ι)} (b : Int)
    (hp : ∀ x ∈ rows, 0 < x.integ) :
    ∃ ws tail, Windows (enough t mode) keep Row.integ (ofBl b rows) ws tail ∧
      List.Forall₂ (Averages summing b) ws (newRows t mode keep summing rows b) := by
  obtain ⟨tail, hw, hrun⟩ := fill_windows (enough t mode) keep Row.integ (ofBl b rows)
  refine ⟨_, tail, hw, ?_⟩
  unfold newRows
  rw [List.forall₂_map_left_iff, List.forall₂_map_right_iff, List.forall₂_same]
  intro w hwm
  apply average_spec summing b (hrun w hwm) (hw.nonempty w.1 (List.mem_map.2 ⟨w, hwm, rfl⟩))
  intro x hx
  apply hp
  have : x ∈ ofBl b rows := by
    rw [← hw.cover]
    exact List.mem_append_left _ (List.mem_flatten.2 ⟨w.1, List.mem_map.2 ⟨w, hwm, rfl⟩, hx⟩)
  exact (List.mem_filter.1 this).1

/-- The rows are sorted for the work, so `Countable` may be asked of the rows as given. -/
theorem countable_perm {t : Tols K} {mode : Mode K} {keep : Bool} {rows rows' : List (Row K V ι)} (h : rows'.Perm rows)
    (hc : Countable t mode keep rows) : Countable t mode keep rows' := by
  cases mode with
  | minInt m => trivial
  | nTimes n =>
    refine ⟨hc.1, fun hk b => ?_⟩
    have := hc.2 hk b
    have e : (ofBl b rows').length = (ofBl b rows).length := (h.filter _).length_eq
    rw [e]
    exact this

/-- **C38.** A baseline with a row that is too short, or every baseline if a number of times is given, is replaced by the averages
of its windows; the other baselines stay as they are. -/
theorem downsample_rows {t : Tols K} (hr : 0 ≤ t.r) (ha : 0 ≤ t.a) {mode : Mode K} {keep summing : Bool} {nphase : Nat}
    {sort : List (Row K V ι) → List (Row K V ι)} (hs : ∀ l, (sort l).Perm l) {rows out : List (Row K V ι)}
    (hc : Countable t mode keep rows) (hp : ∀ x ∈ rows, 0 < x.integ)
    (hwork : ∃ r ∈ rows, ∀ m, mode = .minInt m → tooShort t m r = true)
    (h : downsample t mode keep summing nphase sort rows = .ok out) (b : Int) :
    ((∃ r ∈ rows, r.bl = b ∧ ∀ m, mode = .minInt m → tooShort t m r = true) →
      ∃ ws tail, Windows (enough t mode) keep Row.integ (ofBl b (sort rows)) ws tail ∧
        List.Forall₂ (Averages summing b) ws (ofBl b out)) ∧
    ((¬ ∃ r ∈ rows, r.bl = b ∧ ∀ m, mode = .minInt m → tooShort t m r = true) → ofBl b out = ofBl b (sort rows)) := by
  unfold downsample at h
  split at h
  · simp at h
  · split at h
    · rename_i he
      rw [List.isEmpty_iff] at he
      obtain ⟨r, hr', hr''⟩ := hwork
      have : r.bl ∈ toDown t mode rows := (toDown_mem t mode rows r.bl).2 ⟨r, hr', rfl, hr''⟩
      rw [he] at this
      simp at this
    · rcases downsampleSorted_eq hr ha (summing := summing) (nphase := nphase) (countable_perm (hs rows) hc) with ⟨_, h2⟩ | ⟨_, h2⟩
      · rw [h2] at h; simp at h
      · rw [h2] at h
        simp only [Except.ok.injEq] at h
        subst h
        rw [ofBl_result, ← toDown_mem, ← toDown_mem_perm (hs rows)]
        constructor
        · intro hb
          rw [if_pos hb]
          exact newRows_spec b (fun x hx => hp x ((hs rows).mem_iff.1 hx))
        · intro hb
          rw [if_neg hb]

theorem downsample_nothing {t : Tols K} {mode : Mode K} {keep summing : Bool} {nphase : Nat}
    {sort : List (Row K V ι) → List (Row K V ι)} {rows out : List (Row K V ι)}
    (hwork : ¬ ∃ r ∈ rows, ∀ m, mode = .minInt m → tooShort t m r = true)
    (h : downsample t mode keep summing nphase sort rows = .ok out) : out = rows := by
  unfold downsample at h
  split at h
  · simp at h
  · split at h
    · simpa using h.symm
    · rename_i he
      exfalso
      apply he
      rw [List.isEmpty_iff, List.eq_nil_iff_forall_not_mem]
      intro b hb
      obtain ⟨r, h1, _, h2⟩ := (toDown_mem t mode rows b).1 hb
      exact hwork ⟨r, h1, h2⟩

theorem extremum_max_iff (x : K) (l : List K) (y : K) : extremum max (y :: l) < x ↔ ∀ z ∈ y :: l, z < x := by
  unfold extremum
  simp only
  induction l generalizing y with
  | nil => simp
  | cons a l ih =>
    rw [List.foldl_cons, ih]
    simp only [List.mem_cons, forall_eq_or_imp, max_lt_iff]
    tauto

/-- **C38.** The outcome is decided by the rows alone: refused if the minimum is over a hundred times any integration, or if a
window would mix phase centers; otherwise it succeeds. -/
theorem downsample_outcome {t : Tols K} (hr : 0 ≤ t.r) (ha : 0 ≤ t.a) {mode : Mode K} {keep summing : Bool} {nphase : Nat}
    {sort : List (Row K V ι) → List (Row K V ι)} (hs : ∀ l, (sort l).Perm l) {rows : List (Row K V ι)} (hne : rows ≠ [])
    (hc : Countable t mode keep rows) :
    (downsample t mode keep summing nphase sort rows = .error .notSensible ↔
      ∃ m, mode = .minInt m ∧ ∀ r ∈ rows, 100 * r.integ < m) ∧
    (downsample t mode keep summing nphase sort rows = .error .phaseCenters ↔
      (¬ ∃ m, mode = .minInt m ∧ ∀ r ∈ rows, 100 * r.integ < m) ∧ 1 < nphase ∧
        ∃ r ∈ rows, (∀ m, mode = .minInt m → tooShort t m r = true) ∧ MixedBl t mode keep (sort rows) r.bl) ∧
    downsample t mode keep summing nphase sort rows ≠ .error .wrongNumber := by
  have hsens : (sensible mode rows = false) ↔ ∃ m, mode = .minInt m ∧ ∀ r ∈ rows, 100 * r.integ < m := by
    cases mode with
    | nTimes n => simp [sensible]
    | minInt m =>
      simp only [sensible, Bool.not_eq_false', decide_eq_true_eq, Mode.minInt.injEq, exists_eq_left']
      have h1 : 100 * extremum max (rows.map Row.integ) < m ↔ extremum max (rows.map Row.integ) < m / 100 := by
        constructor <;> intro h <;> linarith
      rw [h1]
      cases rows with
      | nil => exact absurd rfl hne
      | cons r rows =>
        rw [List.map_cons, extremum_max_iff]
        simp only [List.mem_cons, forall_eq_or_imp, List.mem_map, forall_exists_index, and_imp, forall_apply_eq_imp_iff₂]
        constructor
        · rintro ⟨h1, h2⟩
          exact ⟨by linarith, fun a ha => by have := h2 a ha; linarith⟩
        · rintro ⟨h1, h2⟩
          exact ⟨by linarith, fun a ha => by have := h2 a ha; linarith⟩
  have hmix : (1 < nphase ∧ ∃ b ∈ toDown t mode (sort rows), MixedBl t mode keep (sort rows) b) ↔ (1 < nphase ∧
      ∃ r ∈ rows, (∀ m, mode = .minInt m → tooShort t m r = true) ∧ MixedBl t mode keep (sort rows) r.bl) := by
    constructor
    · rintro ⟨h1, b, hb, h2⟩
      rw [toDown_mem_perm (hs rows), toDown_mem] at hb
      obtain ⟨r, h3, rfl, h4⟩ := hb
      exact ⟨h1, r, h3, h4, h2⟩
    · rintro ⟨h1, r, h3, h4, h2⟩
      exact ⟨h1, r.bl, by rw [toDown_mem_perm (hs rows), toDown_mem]; exact ⟨r, h3, rfl, h4⟩, h2⟩
  rw [← hsens, ← hmix]
  unfold downsample
  cases hse : sensible mode rows with
  | false => simp
  | true =>
    simp only [Bool.not_true, Bool.false_eq_true, if_false]
    by_cases he : (toDown t mode rows).isEmpty = true
    · have hno : ∀ b, b ∉ toDown t mode (sort rows) := by
        intro b hb
        rw [toDown_mem_perm (hs rows), List.isEmpty_iff.1 he] at hb
        simp at hb
      simp only [he, if_true]
      refine ⟨by simp, ?_, by simp⟩
      constructor
      · simp
      · rintro ⟨_, _, b, hb, _⟩
        exact absurd hb (hno b)
    · simp only [he, if_false, Bool.false_eq_true]
      rcases downsampleSorted_eq hr ha (summing := summing) (nphase := nphase) (countable_perm (hs rows) hc) with ⟨h1, h2⟩ | ⟨h1, h2⟩
      · rw [h2]
        exact ⟨by simp, ⟨fun _ => ⟨by simp, h1⟩, fun _ => rfl⟩, by simp⟩
      · rw [h2]
        exact ⟨by simp, ⟨by simp, fun h => absurd h.2 h1⟩, by simp⟩

/-! ### Consequences -/

theorem over_append {α β : Type} [AddCommMonoid β] (l m : List α) (f : α → β) : over (l ++ m) f = over l f + over m f := by
  simp [over]

theorem over_flatten {α : Type} (ws : List (List α)) (f : α → K) : over ws.flatten f = (ws.map (fun w => over w f)).sum := by
  induction ws with
  | nil => rfl
  | cons w ws ih => rw [List.flatten_cons, over_append, ih]; simp

/-- **C38.** With ragged ends kept, no integration time is lost on any baseline. -/
theorem downsample_conserves {t : Tols K} (hr : 0 ≤ t.r) (ha : 0 ≤ t.a) {mode : Mode K} {summing : Bool} {nphase : Nat}
    {sort : List (Row K V ι) → List (Row K V ι)} (hs : ∀ l, (sort l).Perm l) {rows out : List (Row K V ι)}
    (hc : Countable t mode true rows) (hp : ∀ x ∈ rows, 0 < x.integ)
    (h : downsample t mode true summing nphase sort rows = .ok out) (b : Int) :
    over (ofBl b out) Row.integ = over (ofBl b rows) Row.integ := by
  by_cases hwork : ∃ r ∈ rows, ∀ m, mode = .minInt m → tooShort t m r = true
  · have hperm : over (ofBl b (sort rows)) Row.integ = over (ofBl b rows) Row.integ := (((hs rows).filter _).map _).sum_eq
    have key := downsample_rows hr ha hs hc hp hwork h b
    by_cases hb : ∃ r ∈ rows, r.bl = b ∧ ∀ m, mode = .minInt m → tooShort t m r = true
    · obtain ⟨ws, tail, hw, hf⟩ := key.1 hb
      rw [← hperm, ← hw.cover, hw.dropped rfl, List.append_nil, over_flatten]
      clear hw key
      generalize ofBl b out = o at hf
      induction hf with
      | nil => rfl
      | cons h1 _ ih =>
        simp only [over, List.map_cons, List.sum_cons] at ih ⊢
        rw [ih, h1.integ]
        rfl
    · rw [key.2 hb, hperm]
  · rw [downsample_nothing hwork h]

end

end Verif.Resample
