import Mathlib.Algebra.BigOperators.Ring.List
import Mathlib.Tactic.Ring
import Mathlib.Tactic.Linarith
import Verif.MwaBeam.Model

/-!
# The field of a tile

The field of a tile is the sum, over its dipoles, of the excitation voltage times the field of the dipole alone,
and the field of a dipole is the sum over its spherical waves.
-/

namespace Verif.MwaBeam

/-! ## What a file should hold -/

/-- Orders and degrees up to degree `N` in the order of FEKO: for each degree from 1 upwards all orders from `-n` to `n`. -/
def feko (N : Nat) : List (Int × Nat) :=
  (List.range' 1 N).flatMap fun n => (List.range (2 * n + 1)).map fun (k : Nat) => ((k : Int) - (n : Int), n)

/-- The table of modes up to degree `N`: each order and degree twice, for both types of wave. -/
def modeTable (N : Nat) : List Mode := (feko N).flatMap fun x => [⟨1, x.1, x.2⟩, ⟨2, x.1, x.2⟩]

section
variable {K C : Type} [Field K] [CommRing C]

/-- Rows of a table that holds, for each order and degree, the coefficient of the first type and then the second. -/
def tableOf (rows : List ((K × K) × (K × K))) : List (K × K) := rows.flatMap fun r => [r.1, r.2]

/-! ## What the field is -/

/-- Slope of the Legendre polynomial at the zenith, estimated by a difference. -/
def zenithSlope (E : Env K C) (n : Nat) : K := (E.leg 0 n 1 - E.leg 0 n (1 - 1 / 10 ^ 6)) / (1 / 10 ^ 6)

/-- Legendre function over the sine of the zenith angle. -/
def overSin [DecidableEq K] (E : Env K C) (θ : K) (m : Int) (n : Nat) : K :=
  if θ = 0 then if m.natAbs = 1 then -zenithSlope E n else 0 else E.leg m.natAbs n (E.cos θ) / E.sin θ

/-- Legendre function of the next order, which is zero when there is none. -/
def nextLeg (E : Env K C) (θ : K) (m : Int) (n : Nat) : K := if m.natAbs = n then 0 else E.leg (m.natAbs + 1) n (E.cos θ)

/-- Norm of a wave with the sign of Condon and Shortley for positive orders. -/
def norm (E : Env K C) (m : Int) (n : Nat) : K :=
  E.sqrt ((2 * n + 1) / 2 * ((n - m.natAbs).factorial : K) / ((n + m.natAbs).factorial : K)) *
    (if m ≤ 0 then 1 else (-1) ^ m.toNat) / E.sqrt ((n : K) * ((n : K) + 1))

/-- Field of one wave along the zenith angle. -/
def waveT [DecidableEq K] (E : Env K C) (φ θ : K) (x : Int × Nat) (q1 q2 : C) : C :=
  E.cis (φ * (x.1 : K)) * (E.im ^ x.2 *
    (E.emb (overSin E θ x.1 x.2) * (E.emb (E.cos θ * (x.1.natAbs : K)) * q2 - (x.1 : C) * q1) +
      q2 * E.emb (nextLeg E θ x.1 x.2)) * E.emb (norm E x.1 x.2))

/-- Field of one wave along azimuth. -/
def waveP [DecidableEq K] (E : Env K C) (φ θ : K) (x : Int × Nat) (q1 q2 : C) : C :=
  E.cis (φ * (x.1 : K)) * (E.im ^ (x.2 + 1) *
    (E.emb (overSin E θ x.1 x.2) * ((x.1 : C) * q2 - q1 * E.emb (E.cos θ * (x.1.natAbs : K))) -
      q1 * E.emb (nextLeg E θ x.1 x.2)) * E.emb (norm E x.1 x.2))

/-- A coefficient given by absolute value and phase in degrees. -/
def coef (E : Env K C) (q : K × K) : C := E.emb q.1 * E.cis (q.2 * (E.pi / 180))

theorem polar_eq (E : Env K C) (q : K × K) : polar E q = coef E q := by
  unfold polar coef rad; rw [mul_div_assoc]

/-- Field of a dipole of degree `N` driven with unit voltage: both components. -/
def dipoleT [DecidableEq K] (E : Env K C) (φ θ : K) (N : Nat) (rows : List ((K × K) × (K × K))) : C :=
  (((feko N).zip rows).map fun x => waveT E φ θ x.1 (coef E x.2.1) (coef E x.2.2)).sum

def dipoleP [DecidableEq K] (E : Env K C) (φ θ : K) (N : Nat) (rows : List ((K × K) × (K × K))) : C :=
  (((feko N).zip rows).map fun x => waveP E φ θ x.1 (coef E x.2.1) (coef E x.2.2)).sum

end

/-! ## Lists of modes -/

theorem feko_zero : feko 0 = [] := rfl

theorem feko_succ (N : Nat) : feko (N + 1) =
    feko N ++ (List.range (2 * (N + 1) + 1)).map fun (k : Nat) => ((k : Int) - ((N + 1 : Nat) : Int), N + 1) := by
  unfold feko
  rw [List.range'_concat, List.flatMap_append]
  simp [Nat.add_comm 1 N]

theorem feko_length (N : Nat) : (feko N).length = N ^ 2 + 2 * N := by
  induction N with
  | zero => rfl
  | succ N ih => rw [feko_succ, List.length_append, ih]; simp; ring

theorem feko_prefix {N M : Nat} (h : N ≤ M) : feko N <+: feko M := by
  induction M, h using Nat.le_induction with
  | base => exact List.prefix_rfl
  | succ M _ ih => rw [feko_succ]; exact ih.trans (List.prefix_append _ _)

theorem mem_feko {N : Nat} {x : Int × Nat} : x ∈ feko N ↔ 1 ≤ x.2 ∧ x.2 ≤ N ∧ x.1.natAbs ≤ x.2 := by
  obtain ⟨m, n⟩ := x
  simp only [feko, List.mem_flatMap, List.mem_range'_1, List.mem_map, List.mem_range, Prod.mk.injEq]
  constructor
  · rintro ⟨n', h, k, hk, rfl, rfl⟩; omega
  · rintro ⟨h1, h2, h3⟩
    exact ⟨n, by omega, (m + n).toNat, by omega, by omega, rfl⟩

theorem maxN_append (a b : List (Int × Nat)) : maxN (a ++ b) = max (maxN a) (maxN b) := by
  induction a with
  | nil => simp [maxN]
  | cons x a ih => simp only [maxN, List.cons_append, List.map_cons, List.foldr_cons] at *; rw [ih]; omega

theorem le_maxN {l : List (Int × Nat)} {x : Int × Nat} (h : x ∈ l) : x.2 ≤ maxN l := by
  induction l with
  | nil => simp at h
  | cons y l ih =>
    simp only [maxN, List.map_cons, List.foldr_cons] at *
    rcases List.mem_cons.1 h with rfl | h
    · omega
    · have := ih h; omega

theorem maxN_le {l : List (Int × Nat)} {n : Nat} (h : ∀ x ∈ l, x.2 ≤ n) : maxN l ≤ n := by
  induction l with
  | nil => simp [maxN]
  | cons y l ih =>
    simp only [maxN, List.map_cons, List.foldr_cons] at *
    have := ih (fun x hx => h x (List.mem_cons_of_mem _ hx))
    have := h y List.mem_cons_self
    omega

theorem maxN_feko (N : Nat) : maxN (feko N) = N := by
  refine le_antisymm (maxN_le fun x hx => (mem_feko.1 hx).2.1) ?_
  rcases Nat.eq_zero_or_pos N with rfl | h
  · exact Nat.zero_le _
  · exact le_maxN (x := (0, N)) (mem_feko.2 ⟨h, le_refl _, by simp⟩)

/-! ## Legendre values by place -/

theorem block_range {α : Type} (n : Nat) (g : Nat → α) :
    block ((List.range (n + 1)).map g) = (List.range (2 * n + 1)).map fun (k : Nat) => g ((k : Int) - (n : Int)).natAbs := by
  apply List.ext_getElem
  · simp [block]; omega
  · intro i h1 h2
    simp only [List.length_map, List.length_range] at h2
    simp only [block, List.getElem_append, List.getElem_map, List.getElem_range, List.getElem_reverse, List.getElem_drop,
      List.length_reverse, List.length_drop, List.length_map, List.length_range]
    split <;> congr 1 <;> omega

theorem blocks_feko {α : Type} (N : Nat) (g : Nat → Nat → α) (f : Nat → List α) (h : ∀ n, f n = (List.range (n + 1)).map (g n)) :
    ((List.range' 1 N).flatMap fun n => block (f n)) = (feko N).map fun x => g x.2 x.1.natAbs := by
  unfold feko
  rw [List.map_flatMap]
  congr 1
  funext n
  rw [h, block_range, List.map_map]
  rfl

section
variable {K C : Type} [Field K] [CommRing C]

/-- **C187.** The values of `P1sin_array` stand in the order of FEKO: the value of order `m` and degree `n` is the Legendre
function of order `|m|` over the sine, at the zenith the slope of the Legendre polynomial. -/
theorem psinArray_place [DecidableEq K] (E : Env K C) (N : Nat) (θ : K) (hπ : θ ≠ E.pi) (h0 : E.cos 0 = 1) :
    psinArray E N θ = (feko N).map fun x => overSin E θ x.1 x.2 := by
  unfold psinArray
  rw [if_neg hπ]
  by_cases h : θ = 0
  · rw [if_pos h]
    unfold p1sin
    rw [blocks_feko N (fun n m => if m = 1 then -zenithSlope E n else 0)]
    · simp [overSin, h]
    · intro n
      simp only [pmSin, h0, if_true, zenithSlope, deltaCos, neg_div]
  · rw [if_neg h, blocks_feko N (fun n m => E.leg m n (E.cos θ) / E.sin θ)]
    · simp [overSin, h]
    · intro n
      simp [legRow]

/-- **C187.** The second values are the Legendre functions of order `|m| + 1`. -/
theorem p1Array_place (E : Env K C) (N : Nat) (θ : K) :
    p1Array E N θ = (feko N).map fun x => nextLeg E θ x.1 x.2 := by
  unfold p1Array
  rw [blocks_feko N (fun n m => if m = n then 0 else E.leg (m + 1) n (E.cos θ))]
  · rfl
  · intro n
    apply List.ext_getElem
    · simp [legRow]
    · intro i h1 h2
      simp only [List.length_map, List.length_range] at h2
      simp only [legRow, List.getElem_append, List.getElem_map, List.getElem_range, List.getElem_drop, List.length_drop,
        List.length_map, List.length_range, List.getElem_singleton]
      split
      · rw [if_neg (by omega), Nat.add_comm]
      · rw [if_pos (by omega)]

/-! ## Sums -/

theorem sum_orders_aux (N : Nat) (m : Int) (hm : m.natAbs ≤ N) (g : Int → C) :
    ((List.range (2 * N + 1)).map fun (k : Nat) => if m = (k : Int) - (N : Int) then g ((k : Int) - (N : Int)) else 0).sum = g m := by
  have h : ∀ n, ((List.range n).map fun (k : Nat) => if m = (k : Int) - (N : Int) then g ((k : Int) - (N : Int)) else 0).sum =
      if m + N < n then g m else 0 := by
    intro n
    induction n with
    | zero => simp; intro h; omega
    | succ n ih =>
      rw [List.range_succ, List.map_append, List.sum_append, ih]
      simp only [List.map_cons, List.map_nil, List.sum_cons, List.sum_nil, add_zero]
      by_cases h1 : m + N < n
      · rw [if_pos h1, if_neg (by omega), if_pos (by omega), add_zero]
      · rw [if_neg h1]
        by_cases h2 : m = (n : Int) - (N : Int)
        · rw [if_pos h2, if_pos (by omega), ← h2, zero_add]
        · rw [if_neg h2, if_neg (by omega), zero_add]
  rw [h, if_pos (by omega)]

theorem sum_filter {α : Type} (l : List α) (p : α → Prop) [DecidablePred p] (g : α → C) :
    ((l.filter fun x => decide (p x)).map g).sum = (l.map fun x => if p x then g x else 0).sum := by
  induction l with
  | nil => rfl
  | cons x l ih =>
    by_cases h : p x
    · simp [h, ih]
    · simp [h, ih]

theorem sum_comm {α β : Type} (l : List α) (r : List β) (g : α → β → C) :
    (l.map fun x => (r.map fun y => g x y).sum).sum = (r.map fun y => (l.map fun x => g x y).sum).sum := by
  induction l with
  | nil => simp
  | cons x l ih => simp only [List.map_cons, List.sum_cons, ih, List.sum_map_add]

/-- **C187.** Summing the waves order by order gives the sum over all waves. -/
theorem sumOrders_eq (E : Env K C) (φ : K) (N : Nat) (mn : List (Int × Nat)) (h : ∀ x ∈ mn, x.1.natAbs ≤ N)
    (e : Int → Nat → Nat → C) :
    sumOrders E φ N mn e = (mn.zipIdx.map fun x => E.cis (φ * (x.1.1 : K)) * e x.1.1 x.1.2 x.2).sum := by
  unfold sumOrders
  simp only [sum_filter, ← List.sum_map_mul_left]
  rw [sum_comm]
  congr 1
  apply List.map_congr_left
  intro x hx
  have hm : x.1 ∈ mn := by
    have := List.mem_zipIdx hx
    simp only [Nat.sub_zero] at this
    rw [this.2.2]; exact List.getElem_mem _
  rw [← sum_orders_aux N x.1.1 (h _ hm) (fun m => E.cis (φ * (m : K)) * e x.1.1 x.1.2 x.2)]
  congr 1
  apply List.map_congr_left
  intro k _
  split
  · rename_i h; rw [h]
  · simp

theorem mabs_eq (m : Int) : (mabs m : K) = if m ≤ 0 then 1 else (-1) ^ m.toNat := by
  unfold mabs
  by_cases h : m ≤ 0
  · rw [if_pos h, if_neg (by omega)]
  · rw [if_neg h]
    by_cases h2 : m % 2 = 0
    · rw [if_neg (by omega), Even.neg_one_pow (Nat.even_iff.2 (by omega))]
    · rw [if_pos (by omega), Odd.neg_one_pow (Nat.odd_iff.2 (by omega))]

theorem phiConst_eq (E : Env K C) (m : Int) (n : Nat) : phiConst E m n = norm E m n := by
  unfold phiConst norm cmn
  rw [mabs_eq]
  congr 3
  ring_nf

/-- Sum over all places of a value times an array filled by a list. -/
theorem sum_arr {α : Type} (l : List α) (q : List C) (F : α → C) :
    ∀ k, (l.zipIdx k |>.map fun x => F x.1 * arr q x.2).sum = ((l.zip (q.drop k)).map fun x => F x.1 * x.2).sum := by
  induction l with
  | nil => intro k; simp
  | cons a l ih =>
    intro k
    rw [List.zipIdx_cons, List.map_cons, List.sum_cons, ih (k + 1)]
    rcases Nat.lt_or_ge k q.length with h | h
    · rw [List.drop_eq_getElem_cons h, List.zip_cons_cons, List.map_cons, List.sum_cons]
      simp [arr, h]
    · rw [List.drop_eq_nil_of_le h, List.drop_eq_nil_of_le (by omega)]
      simp [arr, List.getElem?_eq_none h]

theorem zip_prefix {α β : Type} {l l' : List α} (h : l <+: l') {q : List β} (hq : q.length = l.length) : l'.zip q = l.zip q := by
  obtain ⟨t, rfl⟩ := h
  rw [← List.append_nil q, List.zip_append (by simpa using hq.symm)]
  simp

/-- A dipole with its excitation voltage, its degree and its coefficients. -/
abbrev Driven (K C : Type) := C × Nat × List ((K × K) × (K × K))

variable [DecidableEq K]

omit [DecidableEq K] in
theorem sum_driven (E : Env K C) (ds : List (Driven K C)) (N : Nat) (hN : ∀ d ∈ ds, d.2.1 ≤ N)
    (hl : ∀ d ∈ ds, d.2.2.length = (feko d.2.1).length) (A B : Int × Nat → C) :
    ((feko N).zipIdx.map fun x =>
        A x.1 * (ds.map fun d => arr (d.2.2.map fun r => polar E r.1) x.2 * d.1).sum +
        B x.1 * (ds.map fun d => arr (d.2.2.map fun r => polar E r.2) x.2 * d.1).sum).sum =
      (ds.map fun d => d.1 * (((feko d.2.1).zip d.2.2).map fun y => A y.1 * polar E y.2.1 + B y.1 * polar E y.2.2).sum).sum := by
  have key : ∀ (F : Int × Nat → C) (pr : (K × K) × (K × K) → K × K), ∀ d ∈ ds,
      ((feko N).zipIdx.map fun x => F x.1 * (arr (d.2.2.map fun r => polar E (pr r)) x.2 * d.1)).sum =
      d.1 * (((feko d.2.1).zip d.2.2).map fun y => F y.1 * polar E (pr y.2)).sum := by
    intro F pr d hd
    have := sum_arr (feko N) (d.2.2.map fun r => polar E (pr r)) F 0
    rw [List.drop_zero, zip_prefix (feko_prefix (hN d hd)) (by rw [List.length_map]; exact hl d hd)] at this
    rw [List.zip_map_right, List.map_map] at this
    have h2 : ((feko N).zipIdx.map fun x => F x.1 * (arr (d.2.2.map fun r => polar E (pr r)) x.2 * d.1)).sum =
        ((feko N).zipIdx.map fun x => d.1 * (F x.1 * arr (d.2.2.map fun r => polar E (pr r)) x.2)).sum := by
      congr 1; apply List.map_congr_left; intro x _; ring
    rw [h2, List.sum_map_mul_left, this]
    rfl
  have part : ∀ (F : Int × Nat → C) (pr : (K × K) × (K × K) → K × K),
      ((feko N).zipIdx.map fun x => F x.1 * (ds.map fun d => arr (d.2.2.map fun r => polar E (pr r)) x.2 * d.1).sum).sum =
      (ds.map fun d => d.1 * (((feko d.2.1).zip d.2.2).map fun y => F y.1 * polar E (pr y.2)).sum).sum := by
    intro F pr
    have : (fun x : (Int × Nat) × Nat => F x.1 * (ds.map fun d => arr (d.2.2.map fun r => polar E (pr r)) x.2 * d.1).sum) =
        fun x => (ds.map fun d => F x.1 * (arr (d.2.2.map fun r => polar E (pr r)) x.2 * d.1)).sum := by
      funext x; rw [List.sum_map_mul_left]
    rw [this, sum_comm]
    congr 1
    exact List.map_congr_left fun d hd => key F pr d hd
  rw [List.sum_map_add, part A Prod.fst, part B Prod.snd, ← List.sum_map_add]
  congr 1
  apply List.map_congr_left
  intro d _
  rw [List.sum_map_add, mul_add]

/-- **C187.** The field of a tile is the sum over dipoles of voltage times the field of the dipole. -/
theorem response_sum (E : Env K C) (ds : List (Driven K C)) (N : Nat) (hN : ∀ d ∈ ds, d.2.1 ≤ N)
    (hl : ∀ d ∈ ds, d.2.2.length = (feko d.2.1).length) (a : Acc C) (hmn : a.mn = feko N)
    (h1 : ∀ j, a.q1 j = (ds.map fun d => arr (d.2.2.map fun r => polar E r.1) j * d.1).sum)
    (h2 : ∀ j, a.q2 j = (ds.map fun d => arr (d.2.2.map fun r => polar E r.2) j * d.1).sum)
    (φ θ : K) (hπ : θ ≠ E.pi) (h0 : E.cos 0 = 1) :
    response E a φ θ = ((ds.map fun d => d.1 * dipoleT E φ θ d.2.1 d.2.2).sum,
      -(ds.map fun d => d.1 * dipoleP E φ θ d.2.1 d.2.2).sum) := by
  unfold response
  simp only [hmn, maxN_feko]
  have hm : ∀ x ∈ feko N, x.1.natAbs ≤ N := fun x hx => le_trans (mem_feko.1 hx).2.2 (mem_feko.1 hx).2.1
  rw [sumOrders_eq E φ N _ hm, sumOrders_eq E φ N _ hm, psinArray_place E N θ hπ h0, p1Array_place]
  have hget : ∀ (g : Int × Nat → K), ∀ x ∈ (feko N).zipIdx, (((feko N).map g)[x.2]?).getD 0 = g x.1 := by
    intro g x hx
    have := List.mem_zipIdx_iff_getElem?.1 hx
    rw [List.getElem?_map, this]; rfl
  refine Prod.ext ?_ ?_
  · have hw : ∀ x q1 q2, waveT E φ θ x q1 q2 = waveT E φ θ x 1 0 * q1 + waveT E φ θ x 0 1 * q2 := by
      intro x q1 q2; unfold waveT; ring
    have := sum_driven E ds N hN hl (fun x => waveT E φ θ x 1 0) (fun x => waveT E φ θ x 0 1)
    simp only [← hw, ← h1, ← h2] at this
    dsimp only
    unfold dipoleT
    simp only [← polar_eq]
    rw [← this]
    congr 1
    apply List.map_congr_left
    intro x hx
    rw [hget _ x hx, hget _ x hx]
    unfold emnT waveT
    rw [phiConst_eq]
  · have hw : ∀ x q1 q2, waveP E φ θ x q1 q2 = waveP E φ θ x 1 0 * q1 + waveP E φ θ x 0 1 * q2 := by
      intro x q1 q2; unfold waveP; ring
    have := sum_driven E ds N hN hl (fun x => waveP E φ θ x 1 0) (fun x => waveP E φ θ x 0 1)
    simp only [← hw, ← h1, ← h2] at this
    dsimp only
    unfold dipoleP
    simp only [← polar_eq]
    rw [← this]
    congr 2
    apply List.map_congr_left
    intro x hx
    rw [hget _ x hx, hget _ x hx]
    unfold emnP waveP
    rw [phiConst_eq]

/-! ## Tables -/

omit [Field K] [DecidableEq K] in
theorem zip_tables (l : List (Int × Nat)) (rows : List ((K × K) × (K × K))) (h : rows.length = l.length) :
    ((l.flatMap fun x => ([⟨1, x.1, x.2⟩, ⟨2, x.1, x.2⟩] : List Mode)).zip (tableOf rows)).filter (fun x => decide (x.1.s ≤ 1)) =
        (l.zip rows).map (fun y => (⟨1, y.1.1, y.1.2⟩, y.2.1)) ∧
      ((l.flatMap fun x => ([⟨1, x.1, x.2⟩, ⟨2, x.1, x.2⟩] : List Mode)).zip (tableOf rows)).filter (fun x => decide (1 < x.1.s)) =
        (l.zip rows).map (fun y => (⟨2, y.1.1, y.1.2⟩, y.2.2)) := by
  induction l generalizing rows with
  | nil => simp
  | cons a l ih =>
    match rows, h with
    | r :: rows, h =>
      have := ih rows (by simpa using h)
      simp only [tableOf, List.flatMap_cons, List.cons_append, List.nil_append, List.zip_cons_cons] at this ⊢
      constructor
      · rw [List.filter_cons_of_pos (by simp), List.filter_cons_of_neg (by simp), this.1]; rfl
      · rw [List.filter_cons_of_neg (by simp), List.filter_cons_of_pos (by simp), this.2]; rfl

omit [Field K] [DecidableEq K] in
theorem tableOf_length (rows : List ((K × K) × (K × K))) : (tableOf rows).length = 2 * rows.length := by
  induction rows with
  | nil => rfl
  | cons r rows ih => simp only [tableOf, List.flatMap_cons, List.length_append, List.length_cons, List.length_nil] at *; omega

omit [DecidableEq K] in
theorem inter_length (l : List (Int × Nat)) :
    (l.flatMap fun x => ([⟨1, x.1, x.2⟩, ⟨2, x.1, x.2⟩] : List Mode)).length = 2 * l.length := by
  induction l with
  | nil => rfl
  | cons r rows ih => simp only [List.flatMap_cons, List.length_append, List.length_cons, List.length_nil] at *; omega

omit [DecidableEq K] in
theorem modeTable_take {N M : Nat} (h : N ≤ M) : (modeTable M).take (2 * (feko N).length) = modeTable N := by
  obtain ⟨t, ht⟩ := feko_prefix h
  unfold modeTable
  rw [← ht, List.flatMap_append, List.take_append_of_le_length (by rw [inter_length]), List.take_of_length_le (by rw [inter_length])]

omit [DecidableEq K] in
/-- **C187.** A dipole's table is read mode by mode, whatever the degree of the table of modes. -/
theorem dipole_read (E : Env K C) (N M : Nat) (h : N ≤ M) (h1 : 1 ≤ N) (rows : List ((K × K) × (K × K)))
    (hl : rows.length = (feko N).length) :
    dipole E (modeTable M) (tableOf rows) =
      some (feko N, arr (rows.map fun r => polar E r.1), arr (rows.map fun r => polar E r.2)) := by
  have hz := zip_tables (feko N) rows hl
  unfold dipole
  dsimp only
  rw [tableOf_length, hl, modeTable_take h]
  rw [show modeTable N = (feko N).flatMap fun x => ([⟨1, x.1, x.2⟩, ⟨2, x.1, x.2⟩] : List Mode) from rfl]
  rw [hz.1, hz.2, if_pos]
  · simp only [List.map_map]
    congr 2
    · rw [show ((fun x : Mode × K × K => (x.1.m, x.1.n)) ∘ fun y : (Int × Nat) × ((K × K) × (K × K)) =>
          ((⟨1, y.1.1, y.1.2⟩ : Mode), y.2.1)) = Prod.fst from rfl]
      exact List.map_fst_zip (by omega)
    · congr 1
      · have : rows = ((feko N).zip rows).map Prod.snd := (List.map_snd_zip (by omega)).symm
        conv_rhs => rw [this]
        rw [List.map_map]; rfl
      · have : rows = ((feko N).zip rows).map Prod.snd := (List.map_snd_zip (by omega)).symm
        conv_rhs => rw [this]
        rw [List.map_map]; rfl
  · rw [inter_length]
    simp only [List.length_map, List.length_zip, hl, Nat.min_self]
    refine ⟨trivial, by omega, by omega, ?_⟩
    intro h
    have := congrArg List.length h
    simp only [List.length_map, List.length_zip, hl, Nat.min_self, feko_length, List.length_nil] at this
    omega

end

end Verif.MwaBeam
