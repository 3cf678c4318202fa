import Mathlib.Data.List.Induction
import Verif.MsCal.Fill

/-! # What is written and read -/

namespace Verif.MsCal

variable {K α : Type} [Field K] [LinearOrder K] [IsStrictOrderedRing K] [Field α]

/-- Objects that are considered: there are times, spectral windows and antennas, antennas with data are known to the telescope, times are further
apart than the tolerance. -/
structure Good (tol off : K) (c : Cal K α) : Prop where
  tel_ne : c.tel ≠ []
  ants_sub : ∀ n ∈ c.ants, n ∈ c.tel
  spws_ne : c.spws ≠ []
  times : 0 < c.nT
  tol_nonneg : 0 ≤ tol
  far : ∀ i j, i < j → j < c.nT → tol < |c.mid off i - c.mid off j|
  divide : c.divide = true

/-- The row of a spectral window, time and antenna number. -/
def Cal.rowOf (c : Cal K α) (off : K) (ord : List Nat) (p t n : Nat) : Row K α :=
  let chs := match c.spws[p]? with
    | some s => c.chans s
    | none => []
  { time := c.mid off t, spw := p, ant := n, ref := c.ref t, interval := c.interval t, expo := c.expo t, scan := c.scan.getD (fun _ => 0) t
    nchan := chs.length
    soln := fun ch j => c.place ord chs 0 0 (fun a i t k => if c.delay then c.soln a i t k * ((10 ^ 9 : Nat) : α) else c.soln a i t k) n t ch j
    err := fun ch j => c.place ord chs 0 0 c.quality n t ch j
    flag := fun ch j => c.place ord chs true true c.flag n t ch j }

section arith

omit [LinearOrder K] [IsStrictOrderedRing K] in
theorem row_eq (c : Cal K α) (off : K) (nA : Nat) (ord : List Nat) (r : Nat) :
    c.row off nA ord r = c.rowOf off ord (r / (c.nT * nA)) (r % (c.nT * nA) / nA) (r % nA) := by
  unfold Cal.row Cal.rowOf tile rep
  simp only [Nat.mul_comm nA c.nT, Nat.mod_mod_of_dvd r (Nat.dvd_mul_left nA c.nT), id]
  rfl

theorem idx_div {nT nA p t n : Nat} (ht : t < nT) (hn : n < nA) : ((p * nT + t) * nA + n) / (nT * nA) = p := by
  have h0 : 0 < nA := by omega
  rw [Nat.mul_comm nT nA, ← Nat.div_div_eq_div_mul, Nat.mul_comm (p * nT + t) nA, Nat.mul_add_div h0, Nat.div_eq_of_lt hn, Nat.add_zero,
    Nat.mul_comm p nT, Nat.mul_add_div (by omega), Nat.div_eq_of_lt ht, Nat.add_zero]

theorem idx_mod {nT nA p t n : Nat} (ht : t < nT) (hn : n < nA) : ((p * nT + t) * nA + n) % (nT * nA) / nA = t := by
  have h0 : 0 < nA := by omega
  have h1 : t * nA + n < nT * nA := by
    calc t * nA + n < t * nA + nA := by omega
      _ = (t + 1) * nA := by ring
      _ ≤ nT * nA := Nat.mul_le_mul_right _ ht
  rw [show (p * nT + t) * nA + n = p * (nT * nA) + (t * nA + n) by ring, Nat.mul_add_mod', Nat.mod_eq_of_lt h1, Nat.mul_comm t nA,
    Nat.mul_add_div h0, Nat.div_eq_of_lt hn, Nat.add_zero]

theorem idx_ant {nT nA p t n : Nat} (hn : n < nA) : ((p * nT + t) * nA + n) % nA = n := by
  rw [Nat.mul_add_mod', Nat.mod_eq_of_lt hn]

theorem idx_lt {nS nT nA p t n : Nat} (hp : p < nS) (ht : t < nT) (hn : n < nA) : (p * nT + t) * nA + n < nT * nS * nA := by
  have h1 : p * nT + t < nT * nS := by
    calc p * nT + t < p * nT + nT := by omega
      _ = nT * (p + 1) := by ring
      _ ≤ nT * nS := Nat.mul_le_mul_left _ hp
  calc (p * nT + t) * nA + n < (p * nT + t) * nA + nA := by omega
    _ = (p * nT + t + 1) * nA := by ring
    _ ≤ nT * nS * nA := Nat.mul_le_mul_right _ h1

theorem growth_rows {nS nT nA : Nat} (hS : 0 < nS) (hA : 0 < nA) :
    Growth 0 ((List.range (nT * nS * nA)).map fun r => r % (nT * nA) / nA) nT := by
  obtain ⟨e, he, h⟩ := growth_of (τ := fun r => r % (nT * nA) / nA) (by
    intro r t ht
    by_cases h0 : nT * nA = 0
    · have : nT = 0 := by
        rcases Nat.mul_eq_zero.1 h0 with h | h
        · exact h
        · omega
      subst this
      refine ⟨t * nA, ?_, ?_⟩
      · have h1 := Nat.div_mul_le_self (r % (0 * nA)) nA
        have h2 := Nat.mod_le r (0 * nA)
        have h3 : (t + 1) * nA ≤ r % (0 * nA) / nA * nA := Nat.mul_le_mul_right _ ht
        have h4 : (t + 1) * nA = t * nA + nA := by ring
        omega
      · simp only [Nat.zero_mul, Nat.mod_zero]
        exact Nat.mul_div_cancel _ hA
    · have hq : r % (nT * nA) < nT * nA := Nat.mod_lt _ (by omega)
      have hd : r % (nT * nA) / nA < nT := Nat.div_lt_of_lt_mul (by rw [Nat.mul_comm nA nT]; exact hq)
      refine ⟨(r / (nT * nA) * nT + t) * nA + 0, ?_, idx_mod (by omega) hA⟩
      have h1 : r = r / (nT * nA) * (nT * nA) + r % (nT * nA) := (Nat.div_add_mod' _ _).symm
      have h2 := Nat.div_mul_le_self (r % (nT * nA)) nA
      have h3 : (t + 1) * nA ≤ r % (nT * nA) / nA * nA := Nat.mul_le_mul_right _ ht
      have h4 : (t + 1) * nA = t * nA + nA := by ring
      calc (r / (nT * nA) * nT + t) * nA + 0 = r / (nT * nA) * (nT * nA) + t * nA := by ring
        _ < r / (nT * nA) * (nT * nA) + r % (nT * nA) := by omega
        _ = r := h1.symm) (nT * nS * nA) 0 0 (by simp)
  rw [← List.range_eq_range'] at he
  have : e = nT := by
    have h1 : ∀ t, t < e ↔ t < nT := by
      intro t
      rw [h t]
      constructor
      · rintro ⟨r', h1, rfl⟩
        have hpos : 0 < nT * nS * nA := by omega
        have hT : 0 < nT := by
          rcases Nat.eq_zero_or_pos nT with rfl | h
          · simp at hpos
          · exact h
        exact Nat.div_lt_of_lt_mul (by rw [Nat.mul_comm nA nT]; exact Nat.mod_lt _ (Nat.mul_pos hT hA))
      · intro ht
        refine ⟨(0 * nT + t) * nA + 0, ?_, idx_mod ht hA⟩
        rw [Nat.zero_add]
        exact idx_lt hS ht hA
    have := h1 e; have := h1 nT
    omega
  rw [this] at he
  exact he

end arith

/-- The table that is written. -/
def Cal.file (c : Cal K α) (off : K) (nA : Nat) (ord : List Nat) : File K α where
  rows := (List.range (c.nT * c.spws.length * nA)).map (c.row off nA ord)
  spw := c.spws.map fun s => ⟨s, (c.chans s).map fun i => (c.freq i, c.width i)⟩
  njones := if c.jones.length = 1 then 2 else c.jones.length
  wide := c.wide
  delay := c.delay
  jones := some c.jones
  casaKeys := c.extra.filter fun k => decide (k.1 = "CASA_Version") || decide (k.1 = "MSName")
  extra := c.extra.filter fun k => !(decide (k.1 = "CASA_Version") || decide (k.1 = "MSName"))

theorem polOrder_length {l : List Int} {ord : List Nat} (h : polOrder l = some ord) : (l.length = 1 ∨ l.length = 2) ∧ ord.length = l.length := by
  unfold polOrder at h
  split at h
  · obtain ⟨_, _, rfl⟩ := Option.map_eq_some_iff.1 h; exact ⟨Or.inl rfl, rfl⟩
  · obtain ⟨_, _, h2⟩ := Option.bind_eq_some_iff.1 h
    obtain ⟨_, _, rfl⟩ := Option.map_eq_some_iff.1 h2
    refine ⟨Or.inr rfl, ?_⟩
    split <;> rfl
  · cases h

theorem nA_some {c : Cal K α} (h : c.tel ≠ []) : ∃ nA, c.nA = some nA ∧ 0 < nA ∧ ∀ n ∈ c.tel, n < nA := by
  unfold Cal.nA
  cases hm : c.tel.max? with
  | none => exact absurd (List.max?_eq_none_iff.1 hm) h
  | some m =>
    refine ⟨m + 1, rfl, by omega, fun n hn => ?_⟩
    have := (List.max?_eq_some_iff.1 hm).2 n hn
    omega

theorem write_ok {tol off : K} {c : Cal K α} (g : Good tol off c) {ord : List Nat} (ho : polOrder c.jones = some ord) {nA : Nat} (hA : c.nA = some nA)
    (hq : c.totalQual = none) : write off c = .ok (c.file off nA ord) := by
  have := polOrder_length ho
  unfold write
  rw [if_neg (by omega), if_neg (by rw [g.divide]; decide), hA, ho]
  simp only [hq, Option.isSome_none, Bool.false_eq_true, false_and, if_false]
  rfl

/-- Rows of the file with their time indices. -/
theorem rows_idx {tol off : K} {c : Cal K α} (g : Good tol off c) {ord : List Nat} {nA : Nat} (hA : c.nA = some nA) :
    timeIdx tol ([], 0) ((c.file off nA ord).rows.map Row.time) =
      ((List.range (c.nT * c.spws.length * nA)).map (fun r => r % (c.nT * nA) / nA), c.nT) := by
  obtain ⟨nA', hA', h0, _⟩ := nA_some g.tel_ne
  rw [hA] at hA'; cases hA'
  have hS : 0 < c.spws.length := List.length_pos_of_ne_nil g.spws_ne
  have := timeIdx_growth g.tol_nonneg (g := c.mid off) (growth_rows hS h0) g.far
  rw [List.range_zero, List.map_nil, List.map_map] at this
  rw [← this]
  congr 1
  show List.map _ (List.map _ _) = _
  rw [List.map_map]
  apply List.map_congr_left
  intro r _
  simp only [Function.comp_apply, row_eq]
  rfl

theorem mem_rows {off : K} {c : Cal K α} (hT : 0 < c.nT) {ord : List Nat} {nA : Nat} (h0 : 0 < nA) {x : Row K α × Nat} :
    x ∈ (c.file off nA ord).rows.zip ((List.range (c.nT * c.spws.length * nA)).map (fun r => r % (c.nT * nA) / nA)) ↔
      ∃ p t n, p < c.spws.length ∧ t < c.nT ∧ n < nA ∧ x = (c.rowOf off ord p t n, t) := by
  show x ∈ ((List.range _).map _).zip _ ↔ _
  rw [List.zip_map', List.mem_map]
  constructor
  · rintro ⟨r, hr, rfl⟩
    rw [List.mem_range] at hr
    refine ⟨r / (c.nT * nA), r % (c.nT * nA) / nA, r % nA, ?_, ?_, Nat.mod_lt _ h0, ?_⟩
    · apply Nat.div_lt_of_lt_mul
      calc r < c.nT * c.spws.length * nA := hr
        _ = c.nT * nA * c.spws.length := by ring
    · exact Nat.div_lt_of_lt_mul (by rw [Nat.mul_comm nA c.nT]; exact Nat.mod_lt _ (Nat.mul_pos hT h0))
    · rw [row_eq]
  · rintro ⟨p, t, n, hp, ht, hn, rfl⟩
    refine ⟨(p * c.nT + t) * nA + n, List.mem_range.2 (idx_lt hp ht hn), ?_⟩
    rw [row_eq, idx_div ht hn, idx_mod ht hn, idx_ant hn]

omit [LinearOrder K] [IsStrictOrderedRing K] in
theorem slice_file {c : Cal K α} {off : K} {nA : Nat} {ord : List Nat} {p : Nat} {s : Int} (h : c.spws[p]? = some s) :
    slice (c.file off nA ord) p = some (((c.spws.take p).map fun b => (c.chans b).length).sum, (c.chans s).length) := by
  unfold slice Cal.file
  simp only [List.getElem?_map, h, Option.map_some, List.length_map, List.map_take, List.map_map, Function.comp_def]

omit [LinearOrder K] [IsStrictOrderedRing K] in
theorem target_file {c : Cal K α} {off : K} {nA : Nat} {ord : List Nat} {tel : List Nat} {p t n : Nat} {s : Int} (h : c.spws[p]? = some s) :
    target tel (c.file off nA ord) (c.rowOf off ord p t n) =
      (tel.idxOf? n).map fun a => (a, ((c.spws.take p).map fun b => (c.chans b).length).sum, (c.chans s).length) := by
  unfold target
  rw [show (c.rowOf off ord p t n).ant = n from rfl, show (c.rowOf off ord p t n).spw = p from rfl, slice_file h]
  cases tel.idxOf? n <;> rfl

/-- The reading of the file does not fail. -/
theorem no_err {off : K} {c : Cal K α} (hT : 0 < c.nT) {ord : List Nat} {nA : Nat} (h0 : 0 < nA) {tel : List Nat} :
    ((c.file off nA ord).rows.zip ((List.range (c.nT * c.spws.length * nA)).map (fun r => r % (c.nT * nA) / nA))).findSome?
      (rowErr tel (c.file off nA ord) c.nT) = none := by
  rw [List.findSome?_eq_none_iff]
  intro x hx
  obtain ⟨p, t, n, hp, ht, hn, rfl⟩ := (mem_rows hT h0).1 hx
  obtain ⟨s, hs⟩ : ∃ s, c.spws[p]? = some s := ⟨_, List.getElem?_eq_getElem hp⟩
  unfold rowErr
  rw [target_file hs]
  cases tel.idxOf? n with
  | none => rfl
  | some a =>
    simp only [Option.map_some]
    rw [if_neg (by omega), if_neg ?_]
    rintro ⟨_, h2⟩
    apply h2
    unfold Cal.rowOf
    simp only [hs]

theorem idxOf?_inj {l : List Nat} {i n m : Nat} (h : l.idxOf? n = some i) (h' : l.idxOf? m = some i) : n = m := by
  rw [List.idxOf?_eq_some_iff] at h h'
  obtain ⟨_, e1, _⟩ := h
  obtain ⟨_, e2, _⟩ := h'
  exact e1.symm.trans e2

/-- Rows with time indices. -/
def Cal.zrows (c : Cal K α) (off : K) (nA : Nat) (ord : List Nat) : List (Row K α × Nat) :=
  (c.file off nA ord).rows.zip ((List.range (c.nT * c.spws.length * nA)).map (fun r => r % (c.nT * nA) / nA))

/-- Values of cells are put where they belong. -/
theorem cell_fill {β : Type} {off : K} {c : Cal K α} (hT : 0 < c.nT) {ord : List Nat} {nA : Nat} (h0 : 0 < nA) {tel : List Nat}
    {cell : Row K α → Nat → Nat → β} {init : Nat × Nat × Nat × Nat → β} {i n p k ch t j x : Nat} {s : Int} (hi : tel.idxOf? n = some i)
    (hn : n < nA) (hs : c.spws[p]? = some s) (hk : (c.chans s)[k]? = some ch)
    (hx : x = ((c.spws.take p).map fun b => (c.chans b).length).sum + k) (ht : t < c.nT) (hj : j < (c.file off nA ord).njones) :
    fill (cellHit tel (c.file off nA ord) cell) init (c.zrows off nA ord) (i, x, t, j) = cell (c.rowOf off ord p t n) k j := by
  have hp : p < c.spws.length := (List.getElem?_eq_some_iff.1 hs).1
  have hkl : k < (c.chans s).length := (List.getElem?_eq_some_iff.1 hk).1
  have hlen : ∀ (q : Nat) (s' : Int), c.spws[q]? = some s' → (c.rowOf off ord q t n).nchan = (c.chans s').length := by
    intro q s' h; unfold Cal.rowOf; simp only [h]
  have key : ∀ p' t' n' w, p' < c.spws.length → cellHit tel (c.file off nA ord) cell (c.rowOf off ord p' t' n', t') (i, x, t, j) = some w →
      p' = p ∧ t' = t ∧ n' = n := by
    intro p' t' n' w hp' h
    obtain ⟨s', hs'⟩ : ∃ s', c.spws[p']? = some s' := ⟨_, List.getElem?_eq_getElem hp'⟩
    unfold cellHit at h
    rw [target_file hs'] at h
    cases ha : tel.idxOf? n' with
    | none => rw [ha] at h; cases h
    | some a =>
      rw [ha] at h
      simp only [Option.map_some] at h
      split at h
      · next hc =>
        obtain ⟨h1, h2, h3, h4, _⟩ := hc
        rw [← h1] at ha
        refine ⟨?_, h4.symm, idxOf?_inj ha hi⟩
        have e1 : (c.spws.map fun b => (c.chans b).length)[p']? = some (c.chans s').length := by rw [List.getElem?_map, hs']; rfl
        have e2 : (c.spws.map fun b => (c.chans b).length)[p]? = some (c.chans s).length := by rw [List.getElem?_map, hs]; rfl
        refine start_unique e1 e2 (x := x) ?_ ?_ ?_ ?_ <;> rw [← List.map_take] <;> omega
      · cases h
  have hval : cellHit tel (c.file off nA ord) cell (c.rowOf off ord p t n, t) (i, x, t, j) = some (cell (c.rowOf off ord p t n) k j) := by
    unfold cellHit
    rw [target_file hs, hi]
    simp only [Option.map_some]
    rw [if_pos (by refine ⟨?_, ?_, ?_, ?_, hj⟩ <;> first | trivial | omega), hlen p s hs]
    congr 2
    split
    · omega
    · omega
  apply fill_some
  · exact ⟨_, (mem_rows hT h0).2 ⟨p, t, n, hp, ht, hn, rfl⟩, hval⟩
  · intro r hr w hw
    obtain ⟨p', t', n', hp', _, _, rfl⟩ := (mem_rows hT h0).1 hr
    obtain ⟨rfl, rfl, rfl⟩ := key p' t' n' w hp' hw
    rw [hval] at hw
    exact (Option.some.inj hw).symm

/-- Values of times are put where they belong. -/
theorem time_fill {β : Type} {off : K} {c : Cal K α} (hT : 0 < c.nT) {ord : List Nat} {nA : Nat} (h0 : 0 < nA) {tel : List Nat}
    {cell : Row K α → β} {init : Nat → β} {t n : Nat} {v : β} (hS : 0 < c.spws.length) (hi : n ∈ tel) (hn : n < nA) (ht : t < c.nT)
    (hv : ∀ p n, cell (c.rowOf off ord p t n) = v) :
    fill (timeHit tel (c.file off nA ord) cell) init (c.zrows off nA ord) t = v := by
  apply fill_some
  · refine ⟨_, (mem_rows hT h0).2 ⟨0, t, n, hS, ht, hn, rfl⟩, ?_⟩
    unfold timeHit
    obtain ⟨s, hs⟩ : ∃ s, c.spws[0]? = some s := ⟨_, List.getElem?_eq_getElem hS⟩
    rw [target_file hs, Option.isSome_map, if_pos ⟨by simpa using hi, rfl⟩, hv]
  · intro r hr w hw
    obtain ⟨p', t', n', hp', _, _, rfl⟩ := (mem_rows hT h0).1 hr
    unfold timeHit at hw
    split at hw
    · next hc =>
      obtain ⟨_, rfl⟩ := hc
      rw [hv] at hw
      exact (Option.some.inj hw).symm
    · cases hw

/-- What is read from a table that was written. -/
theorem read_ok {tol off : K} {c : Cal K α} (g : Good tol off c) {ord : List Nat} {nA : Nat} (hA : c.nA = some nA) {tel : List Nat} {names : List String}
    {sky : Bool} : ∃ o, read tol off sky tel names (c.file off nA ord) = .ok o ∧ o.ants = tel ∧ o.nT = c.nT ∧ o.spws = c.spws ∧
      o.chanSpw = (if c.wide then c.spws else c.spws.flatMap fun s => (c.chans s).map fun _ => s) ∧
      o.freqs = (c.spws.flatMap c.chans).map (fun i => (c.freq i, c.width i)) ∧ o.jones = some c.jones ∧
      o.njones = dropPad (c.file off nA ord).njones (some c.jones) ((List.range tel.length).all fun a =>
        (List.range (c.spws.flatMap c.chans).length).all fun ch => (List.range c.nT).all fun t => o.flag (a, ch, t, 1)) ∧
      o.flag = fill (cellHit tel (c.file off nA ord) Row.flag) (fun _ => true) (c.zrows off nA ord) ∧
      o.qual = fill (cellHit tel (c.file off nA ord) Row.err) (fun _ => 0) (c.zrows off nA ord) ∧
      (o.soln = fun x => if c.delay then fill (cellHit tel (c.file off nA ord) Row.soln) (fun _ => 0) (c.zrows off nA ord) x * ((10 ^ 9 : Nat) : α)⁻¹
        else fill (cellHit tel (c.file off nA ord) Row.soln) (fun _ => 0) (c.zrows off nA ord) x) ∧
      o.times = timesOf off c.nT (fill (timeHit tel (c.file off nA ord) Row.time) (fun _ => 0) (c.zrows off nA ord))
        (fill (timeHit tel (c.file off nA ord) Row.interval) (fun _ => 0) (c.zrows off nA ord)) ∧
      o.expo = fill (timeHit tel (c.file off nA ord) Row.expo) (fun _ => 0) (c.zrows off nA ord) ∧
      o.scan = fill (timeHit tel (c.file off nA ord) Row.scan) (fun _ => 0) (c.zrows off nA ord) ∧
      (o.refName, o.refArr) = refOf tel names sky c.nT (fill (timeHit tel (c.file off nA ord) Row.ref) (fun _ => 0) (c.zrows off nA ord)) ∧
      o.extra = (c.file off nA ord).casaKeys := by
  obtain ⟨nA', hA', h0, _⟩ := nA_some g.tel_ne
  rw [hA] at hA'; cases hA'
  have hS : 0 < c.spws.length := List.length_pos_of_ne_nil g.spws_ne
  have hne : ¬ (c.file off nA ord).rows = [] := by
    intro h
    have : (c.file off nA ord).rows.length = c.nT * c.spws.length * nA := by
      show ((List.range _).map _).length = _
      rw [List.length_map, List.length_range]
    rw [h, List.length_nil] at this
    have := Nat.mul_pos (Nat.mul_pos g.times hS) h0
    omega
  have hlen : ((c.file off nA ord).spw.map fun w => w.chans.length).sum = (c.spws.flatMap c.chans).length := by
    show ((c.spws.map _).map _).sum = _
    rw [List.map_map, List.length_flatMap]
    congr 1
    apply List.map_congr_left
    intro s _
    simp
  unfold read
  simp only [rows_idx g hA, hlen]
  rw [if_neg hne, no_err g.times h0]
  refine ⟨_, rfl, rfl, rfl, ?_, ?_, ?_, rfl, rfl, rfl, rfl, rfl, rfl, rfl, rfl, rfl, rfl⟩
  · show (c.spws.map _).map _ = _
    rw [List.map_map]
    exact List.map_id'' (fun _ => rfl) _
  · show (if c.wide then (c.spws.map _).map _ else (c.spws.map _).flatMap _) = _
    rw [List.map_map, List.flatMap_map, show (Spw.id ∘ fun s => (⟨s, (c.chans s).map fun i => (c.freq i, c.width i)⟩ : Spw K)) = id from rfl,
      List.map_id]
    simp only [List.map_map]
    rfl
  · show (c.spws.map _).flatMap _ = _
    rw [List.flatMap_map, List.map_flatMap]

end Verif.MsCal
