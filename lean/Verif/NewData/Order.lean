import Verif.NewData.Gaps
import Verif.Pol.Props

/-!
C123: the order of rows that a new object reports. C124: polarizations given by name. Concrete cases and counterexamples for C121 to C124.
-/
namespace Verif.NewData
open Verif.Np Verif.BltAxis
open Verif.Pol (Str polstr2num polnum2str)

variable {K : Type} [Field K] [LinearOrder K]

/-- Row `i` of the new object. -/
def New.rowAt (n : New K) (i : Nat) : Row K := ⟨n.times[i]?.getD 0, n.ant1[i]?.getD 0, n.ant2[i]?.getD 0, n.bl[i]?.getD 0⟩

/-- All rows. -/
def New.axis (n : New K) : List (Row K) := (List.range n.times.length).map n.rowAt

theorem axis_sorted {n : New K} {ks : List Key} (h : ∀ i j : Nat, i < j → j < n.times.length → lexLe ks (n.rowAt i) (n.rowAt j)) : SortedBy ks n.axis := by
  unfold SortedBy New.axis
  rw [List.pairwise_map]
  refine List.Pairwise.imp_of_mem ?_ List.pairwise_lt_range
  intro a b _ hb hab
  exact h a b hab (List.mem_range.1 hb)

theorem pairsOf_mem {l : List Nat} {p : Nat × Nat} (h : p ∈ pairsOf l) : p.1 ∈ l ∧ p.2 ∈ l := by
  induction l with
  | nil => simp [pairsOf] at h
  | cons a l ih =>
    simp only [pairsOf, List.mem_append, List.mem_map] at h
    rcases h with ⟨b, hb, rfl⟩ | h
    · exact ⟨by simp, hb⟩
    · exact ⟨List.mem_cons_of_mem _ (ih h).1, List.mem_cons_of_mem _ (ih h).2⟩

theorem pairsOf_sorted {l : List Nat} (h : l.Pairwise (· ≤ ·)) : (pairsOf l).Pairwise (fun p q => p.1 ≤ q.1) := by
  induction l with
  | nil => simp [pairsOf]
  | cons a l ih =>
    rw [List.pairwise_cons] at h
    simp only [pairsOf]
    rw [List.pairwise_append]
    refine ⟨?_, ih h.2, ?_⟩
    · rw [List.pairwise_map]
      exact List.pairwise_of_forall (fun _ _ => le_refl _)
    · intro p hp q hq
      simp only [List.mem_map] at hp
      obtain ⟨b, _, rfl⟩ := hp
      exact h.1 _ (pairsOf_mem hq).1

theorem row_of {n : New K} {i : Nat} {t : K} {p : Nat × Nat} (h : n.rows[i]? = some (t, p)) : (n.rowAt i).t = t ∧ (n.rowAt i).a = p.1 ∧ (n.rowAt i).b = p.2 := by
  unfold New.rows at h
  rw [List.getElem?_zip_eq_some] at h
  obtain ⟨h1, h2⟩ := h
  obtain ⟨a, b⟩ := p
  rw [List.getElem?_zip_eq_some] at h2
  simp [New.rowAt, h1, h2.1, h2.2]

/-- C123: which order is reported. -/
theorem order_reported {lst : K → K} {nants : List Nat} {times : List K} {ap : Option (List (Nat × Nat))} {intg : Num K} {outer rect tf : Option Bool}
    {n : New K} (h : newRows lst nants times ap intg outer rect tf = .ok n) :
    n.order = if ap.isNone then (if tf = some true then some [.ant1, .ant2] else some [.time, .ant1]) else none := by
  obtain ⟨i, r, h1, h2, -, -, -, -, -, -, -, -, -, h10⟩ := newRows_inv h
  rw [h10]
  cases ap with
  | some p => simp
  | none =>
    obtain ⟨-, -, -, -, hr⟩ := configure_outer h2 (Or.inl (by simp))
    subst hr
    rcases tf with _ | (_ | _) <;> simp

/-- C123: the reported order is the actual one if the times are the faster axis, or if times and antennas were given in rising order. -/
theorem order_right_partial {lst : K → K} {nants : List Nat} {times : List K} {intg : Num K} {outer rect tf : Option Bool}
    {n : New K} (h : newRows lst nants times none intg outer rect tf = .ok n)
    (hs : tf = some true ∨ (times.Pairwise (· < ·) ∧ nants.Pairwise (· ≤ ·))) : ∃ ks, n.order = some ks ∧ SortedBy ks n.axis := by
  have hw : WantsOuter times (none : Option (List (Nat × Nat))) outer := Or.inl rfl
  have ho := order_reported h
  obtain ⟨hO, -, -, r1, r2⟩ := outer_rows h hw
  obtain ⟨hlen, -, -, -⟩ := outer_sources h hw
  simp only [Option.getD_none, Option.isNone_none, if_true] at ho r1 r2 hlen
  by_cases c : tf = some true
  · rw [if_pos c] at ho
    refine ⟨_, ho, axis_sorted ?_⟩
    intro i j hij hj
    rw [hlen] at hj
    obtain ⟨t, p, -, g2, g3⟩ := r2 c i (by omega)
    obtain ⟨s, q, -, k2, k3⟩ := r2 c j hj
    obtain ⟨-, a1, a2⟩ := row_of g3
    obtain ⟨-, b1, b2⟩ := row_of k3
    have hpq : p.1 < q.1 ∨ (p.1 = q.1 ∧ p.2 ≤ q.2) := by
      rcases Nat.lt_or_eq_of_le (Nat.div_le_div_right (c := times.length) hij.le) with hlt | heq
      · have hsorted := unique_sorted ((pairsOf nants).map toLex)
        unfold uniquePairs at g2 k2
        rw [List.getElem?_map, Option.map_eq_some_iff] at g2 k2
        obtain ⟨x, hx, rfl⟩ := g2
        obtain ⟨y, hy, rfl⟩ := k2
        obtain ⟨l1, rfl⟩ := List.getElem?_eq_some_iff.1 hx
        obtain ⟨l2, rfl⟩ := List.getElem?_eq_some_iff.1 hy
        have := List.pairwise_iff_getElem.1 hsorted _ _ l1 l2 hlt
        rw [Prod.Lex.lt_iff] at this
        rcases this with h | ⟨h1, h2⟩
        · exact Or.inl h
        · exact Or.inr ⟨h1, h2.le⟩
      · rw [heq, k2] at g2
        injection g2 with g2
        subst g2
        exact Or.inr ⟨rfl, le_refl _⟩
    simp only [lexLe, keyLt, keyLe, a1, a2, b1, b2, and_true]
    rcases hpq with h | ⟨h1, h2⟩
    · exact Or.inl ⟨h.le, by omega⟩
    · right
      refine ⟨h1.le, ?_⟩
      rcases Nat.lt_or_eq_of_le h2 with h | h
      · exact Or.inl ⟨h.le, by omega⟩
      · exact Or.inr h.le
  · obtain ⟨st, sa⟩ := hs.resolve_left c
    rw [if_neg c] at ho
    refine ⟨_, ho, axis_sorted ?_⟩
    intro i j hij hj
    rw [hlen] at hj
    obtain ⟨t, p, g1, g2, g3⟩ := r1 c i (by omega)
    obtain ⟨s, q, k1, k2, k3⟩ := r1 c j hj
    obtain ⟨a0, a1, -⟩ := row_of g3
    obtain ⟨b0, b1, -⟩ := row_of k3
    have hp0 : 0 < (pairsOf nants).length := Nat.pos_of_ne_zero (by intro e; simp [e] at hj)
    simp only [lexLe, keyLt, keyLe, a0, a1, b0, b1, and_true]
    rcases Nat.lt_or_eq_of_le (Nat.div_le_div_right (c := (pairsOf nants).length) hij.le) with hlt | heq
    · have := (sorted_get st g1 k1).1 hlt
      exact Or.inl ⟨this.le, not_le.2 this⟩
    · right
      have hts : t = s := by
        rw [heq, k1] at g1
        exact (Option.some.inj g1).symm
      refine ⟨hts.le, ?_⟩
      have hmod : i % (pairsOf nants).length < j % (pairsOf nants).length := by
        have e1 := Nat.div_add_mod i (pairsOf nants).length
        have e2 := Nat.div_add_mod j (pairsOf nants).length
        rw [heq] at e1
        omega
      have := pairsOf_sorted sa
      obtain ⟨l1, rfl⟩ := List.getElem?_eq_some_iff.1 g2
      obtain ⟨l2, rfl⟩ := List.getElem?_eq_some_iff.1 k2
      have := List.pairwise_iff_getElem.1 this _ _ l1 l2 hmod
      rcases Nat.lt_or_eq_of_le this with h | h
      · exact Or.inl ⟨h.le, by omega⟩
      · exact Or.inr h.le

/-! ### Polarizations -/

theorem mapM_get {β γ : Type} {f : β → Option γ} {l : List β} {m : List γ} (h : l.mapM f = some m) (k : Nat) (x : β) (hx : l[k]? = some x) : m[k]? = f x := by
  induction l generalizing m k with
  | nil => simp at hx
  | cons y l ih =>
    rw [List.mapM_cons] at h
    cases hy : f y with
    | none => simp [hy] at h
    | some z =>
      cases hm : l.mapM f with
      | none => simp [hy, hm] at h
      | some ms =>
        simp [hy, hm] at h
        subst h
        cases k with
        | zero => simp at hx; subst hx; simp [hy]
        | succ k => simpa using ih hm k (by simpa using hx)

/-- C124: polarizations given by name are reported under the same name, in its standard form, if the orientation that is given as an argument is that of
the telescope. -/
theorem names_kept_partial {xo tel : Option Str} {names : List Str} {l : List Int} (h : newPols xo names = .ok l) (hx : xo = tel) (k : Nat) (s : Str)
    (hs : names[k]? = some s) : ∃ p, l[k]? = some p ∧ polnum2str tel p = Pol.parsePolstr tel s := by
  unfold newPols at h
  split at h
  · cases h
  · rename_i m hm
    injection h with h
    subst h hx
    have hg := mapM_get hm k s hs
    have hlen : k < m.length := by
      have : m.length = names.length := by
        clear hg hs
        induction names generalizing m with
        | nil => simp at hm; subst hm; rfl
        | cons y l ih =>
          rw [List.mapM_cons] at hm
          cases hy : polstr2num xo y with
          | none => simp [hy] at hm
          | some z =>
            cases hm' : l.mapM (polstr2num xo) with
            | none => simp [hy, hm'] at hm
            | some ms =>
              simp [hy, hm'] at hm
              subst hm
              simpa using ih _ hm'
      rw [this]
      exact (List.getElem?_eq_some_iff.1 hs).1
    rw [List.getElem?_eq_getElem hlen] at hg ⊢
    refine ⟨_, rfl, ?_⟩
    unfold Pol.parsePolstr
    rw [← hg]
    rfl

/-! ### Concrete cases -/

/-- Sidereal times for the examples. -/
def lstDemo (t : Rat) : Rat := 10 * t

def get (r : Except Err (New Rat)) : List Rat × List Rat × List Rat × List Nat × List Nat := match r with
  | .ok n => (n.times, n.lst, n.intg, n.ant1, n.ant2)
  | .error _ => ([], [], [], [], [])

def made (r : Except Err (New Rat)) : Bool := match r with
  | .ok _ => true
  | .error _ => false

theorem made_ok {r : Except Err (New Rat)} (h : made r = true) : ∃ n, r = .ok n := by
  cases r with
  | error e => cases h
  | ok n => exact ⟨n, rfl⟩

/-- Three times and two pairs: accepted, and what the theorems need. -/
example : (∃ n, newRows lstDemo [0, 1, 2] [1, 2, 4] (some [(2, 0), (0, 1)]) .none none none none = .ok n) ∧
    WantsOuter ([1, 2, 4] : List Rat) (some [(2, 0), (0, 1)]) none ∧ ([1, 2, 4] : List Rat).Pairwise (· < ·) :=
  ⟨made_ok (by decide +kernel), Or.inr (Or.inr ⟨rfl, _, rfl, by decide⟩), by decide +kernel⟩

example : get (newRows lstDemo [0, 1, 2] [1, 2, 4] (some [(2, 0), (0, 1)]) .none none none none) =
    ([1, 1, 2, 2, 4, 4], [10, 10, 20, 20, 40, 40], [86400, 86400, 172800, 172800, 172800, 172800], [2, 0, 2, 0, 2, 0], [0, 1, 0, 1, 0, 1]) := by
  decide +kernel

/-- Rows as given. -/
example : (∃ n, newRows lstDemo [0, 1, 2] [1, 1, 4] (some [(2, 0), (0, 1), (2, 0)]) (.one 5) none none none = .ok n) ∧
    ¬ WantsOuter ([1, 1, 4] : List Rat) (some [(2, 0), (0, 1), (2, 0)]) none :=
  ⟨made_ok (by decide +kernel), by
    rintro (h | h | ⟨_, p, hp, hne⟩)
    · cases h
    · cases h
    · injection hp with hp
      subst hp
      exact hne rfl⟩

/-- All pairs. -/
example : ∃ n, newRows lstDemo [0, 1] [1, 2] none (.all [3, 4]) none none none = .ok n := made_ok (by decide +kernel)

example : ∃ n, newRows lstDemo [0, 1] [1, 2] none (.all [3, 4]) none none (some true) = .ok n ∧ pairsOf [0, 1] ≠ [] :=
  (made_ok (by decide +kernel)).imp (fun _ h => ⟨h, by decide⟩)

/-- C121, the fault: the times 2, 1 with the times as the faster axis: the times are sorted, their sidereal and integration times are not. -/
theorem faster_counterexample :
    get (newRows lstDemo [0, 1] [2, 1] (some [(0, 1)]) (.all [5, 7]) none none (some true)) = ([1, 2], [20, 10], [5, 7], [0, 0], [1, 1]) := by
  decide +kernel

/-- C122, the fault: the times 4, 1, 2 in this order, all with one pair: the integration times are those of the sorted times. -/
theorem unsorted_gaps_counterexample :
    get (newRows lstDemo [0, 1] [4, 1, 2] (some [(0, 1)]) .none none none none) = ([4, 1, 2], [40, 10, 20], [86400, 172800, 172800], [0, 0, 0], [1, 1, 1]) ∧
      ¬ Inferred ([4, 1, 2] : List Rat) 4 86400 := by
  refine ⟨by decide +kernel, ?_⟩
  rintro (⟨s, hs, h1, -⟩ | ⟨-, s, hs, h1, h2, h3⟩ | ⟨h, -⟩)
  · simp only [List.mem_cons, List.not_mem_nil, or_false] at hs
    rcases hs with rfl | rfl | rfl <;> revert h1 <;> decide +kernel
  · simp only [List.mem_cons, List.not_mem_nil, or_false] at hs
    rcases hs with rfl | rfl | rfl
    · revert h1; decide +kernel
    · have := h2 2 (by simp) (by decide +kernel)
      revert this; decide +kernel
    · revert h3; decide +kernel
  · have := h 1 (by simp)
    revert this; decide +kernel

example : ∃ w, freqParams ([3, 2, 0] : List Rat) .none = .ok w ∧ w = [-1, -2, -2] := ⟨_, rfl, by decide +kernel⟩

def orderOf (r : Except Err (New Rat)) : Option (List Key) × List (Rat × Nat) := match r with
  | .ok n => (n.order, n.axis.map (fun r => (r.t, r.a)))
  | .error _ => (none, [])

/-- C123, the fault: times or antennas that do not rise are reported as sorted by time and first antenna. -/
theorem order_counterexample :
    orderOf (newRows lstDemo [0] [2, 1] none (.one 5) none none none) = (some [.time, .ant1], [(2, 0), (1, 0)]) ∧
    orderOf (newRows lstDemo [1, 0] [1] none (.one 5) none none none) = (some [.time, .ant1], [(1, 1), (1, 1), (1, 0)]) := by
  constructor <;> decide +kernel

example : newPols (some ['e', 'a', 's', 't']) [['E', 'e'], ['n', 'n']] = .ok [-5, -6] := by decide +kernel

/-- C124, the fault: the orientation of a telescope object is not used. Without the argument names by orientation are refused; with another
orientation in the argument the object has the other polarization. -/
theorem names_counterexample :
    newPols none [['e', 'e']] = .error .pol ∧ polstr2num (some ['e', 'a', 's', 't']) ['e', 'e'] = some (-5) ∧
    newPols (some ['n', 'o', 'r', 't', 'h']) [['e', 'e']] = .ok [-6] ∧ polnum2str (some ['e', 'a', 's', 't']) (-6) = some ['n', 'n'] := by
  refine ⟨by decide +kernel, by decide +kernel, by decide +kernel, by decide +kernel⟩

end Verif.NewData
