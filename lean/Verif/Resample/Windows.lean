import Verif.Resample.Up

/-! # Downsampling: the windows of one baseline -/
set_option linter.unusedSectionVars false

namespace Verif.Resample

variable {K : Type} [Field K] [LinearOrder K] [IsStrictOrderedRing K] {α : Type}

/-! ### Specification -/

/-- The total of a quantity over a list of rows. -/
def total (int : α → K) (l : List α) : K := (l.map int).sum

/-- `ws` cuts the rows, in order, into windows that end as soon as enough has been added up. What is left over at the end is
`tail`, unless it is kept as a shorter window. -/
structure Windows (over : K → Nat → Bool) (keep : Bool) (int : α → K) (rows : List α) (ws : List (List α)) (tail : List α) : Prop where
  cover : ws.flatten ++ tail = rows
  nonempty : ∀ w ∈ ws, w ≠ []
  early : ∀ w ∈ ws, ∀ p, p <+: w → p ≠ [] → p ≠ w → over (total int p) p.length = false
  full : ∀ w ∈ ws.dropLast, over (total int w) w.length = true
  last : keep = false → ∀ w ∈ ws, over (total int w) w.length = true
  rest : ∀ p, p <+: tail → p ≠ [] → over (total int p) p.length = false
  dropped : keep = true → tail = []

/-! ### Proofs -/

/-- Induction along `enumerate`. -/
theorem foldl_zipIdx_inv {β σ : Type} (f : σ → β × Nat → σ) (P : Nat → σ → Prop) (l : List β) (s : σ) (h0 : P 0 s)
    (step : ∀ k x s, l[k]? = some x → P k s → P (k + 1) (f s (x, k))) : P l.length (l.zipIdx.foldl f s) := by
  have key : ∀ (m : List β) (j : Nat) (s : σ), (∀ i x, m[i]? = some x → l[j + i]? = some x) → P j s →
      P (j + m.length) ((m.zipIdx j).foldl f s) := by
    intro m
    induction m with
    | nil => intro j s _ h; simpa using h
    | cons a m ih =>
      intro j s hm h
      rw [List.zipIdx_cons, List.foldl_cons]
      have h1 := step j a s (by simpa using hm 0 a (by simp)) h
      have := ih (j + 1) (f s (a, j)) (fun i x hi => by
        have := hm (i + 1) x (by simpa using hi)
        rwa [show j + (i + 1) = j + 1 + i from by omega] at this) h1
      rwa [show j + (a :: m).length = j + 1 + m.length from by simp; omega]
  simpa using key l 0 s (by simp) h0

structure Inv (over : K → Nat → Bool) (keep : Bool) (int : α → K) (rows : List α) (k : Nat) (st : FillSt α K) (cur : List α) :
    Prop where
  cover : (st.out.map Prod.fst).flatten ++ cur = rows.take k
  summing : st.summing = (st.out.map Prod.fst).flatten.length
  nSum : st.nSum = cur.length
  running : st.running = total int cur
  runs : ∀ w ∈ st.out, w.2 = total int w.1
  nonempty : ∀ w ∈ st.out, w.1 ≠ []
  early : ∀ w ∈ st.out, ∀ p, p <+: w.1 → p ≠ [] → p ≠ w.1 → over (total int p) p.length = false
  full : k < rows.length ∨ keep = false → ∀ w ∈ st.out, over (total int w.1) w.1.length = true
  end_ : ∀ w ∈ st.out.dropLast, over (total int w.1) w.1.length = true
  rest : ∀ p, p <+: cur → p ≠ [] → over (total int p) p.length = false
  dropped : keep = true → k = rows.length → cur = []

theorem prefix_snoc {l p : List α} {x : α} (h : p <+: l ++ [x]) (hne : p ≠ l ++ [x]) : p <+: l := by
  rcases List.prefix_concat_iff.1 h with h | h
  · exact absurd h (by simpa using hne)
  · exact h

theorem inv_step {over : K → Nat → Bool} {keep : Bool} {int : α → K} {rows : List α} {k : Nat} {st : FillSt α K} {cur : List α}
    {x : α} (hx : rows[k]? = some x) (h : Inv over keep int rows k st cur) :
    ∃ cur', Inv over keep int rows (k + 1) (fillStep over keep rows st (int x, k)) cur' := by
  have hk : k < rows.length := (List.getElem?_eq_some_iff.1 hx).1
  have htake : rows.take (k + 1) = rows.take k ++ [x] := by
    rw [List.take_add_one, hx]; rfl
  have hwin : (rows.drop st.summing).take (cur ++ [x]).length = cur ++ [x] := by
    have h1 : rows = (st.out.map Prod.fst).flatten ++ ((cur ++ [x]) ++ rows.drop (k + 1)) := by
      conv_lhs => rw [← List.take_append_drop (k + 1) rows, htake, ← h.cover]
      simp
    rw [h.summing]
    conv_lhs => rw [h1]
    rw [List.drop_left, List.take_left]
  have htot : st.running + int x = total int (cur ++ [x]) := by
    rw [h.running]; simp [total]
  have hlen : st.nSum + 1 = (cur ++ [x]).length := by rw [h.nSum]; simp
  have hfull : ∀ w ∈ st.out, over (total int w.1) w.1.length = true := h.full (Or.inl hk)
  have hearly : ∀ p, p <+: cur ++ [x] → p ≠ [] → p ≠ cur ++ [x] → over (total int p) p.length = false :=
    fun p hp h1 h2 => h.rest p (prefix_snoc hp h2) h1
  have hcov : (st.out.map Prod.fst).flatten ++ (cur ++ [x]) = rows.take (k + 1) := by
    rw [htake, ← h.cover]; simp
  unfold fillStep
  simp only
  rw [htot, hlen, hwin]
  by_cases hov : over (total int (cur ++ [x])) (cur ++ [x]).length = true
  · simp only [hov, Bool.true_or, if_true, Bool.not_true, Bool.and_false, if_false, Bool.false_eq_true]
    refine ⟨[], ?_, ?_, rfl, by simp [total], ?_, ?_, ?_, ?_, ?_, ?_, fun _ _ => rfl⟩
    · simpa using hcov
    · simp [h.summing]
    · intro w hw
      rcases List.mem_append.1 hw with hw | hw
      · exact h.runs w hw
      · simp only [List.mem_singleton] at hw; subst hw; rfl
    · intro w hw
      rcases List.mem_append.1 hw with hw | hw
      · exact h.nonempty w hw
      · simp only [List.mem_singleton] at hw; subst hw; simp
    · intro w hw
      rcases List.mem_append.1 hw with hw | hw
      · exact h.early w hw
      · simp only [List.mem_singleton] at hw; subst hw; exact hearly
    · intro _ w hw
      rcases List.mem_append.1 hw with hw | hw
      · exact hfull w hw
      · simp only [List.mem_singleton] at hw; subst hw; exact hov
    · simpa using hfull
    · intro p hp hne
      exact absurd (List.prefix_nil.1 hp) hne
  · simp only [Bool.not_eq_true] at hov
    have hrest : ∀ p, p <+: cur ++ [x] → p ≠ [] → over (total int p) p.length = false := by
      intro p hp h1
      by_cases h2 : p = cur ++ [x]
      · rw [h2]; exact hov
      · exact hearly p hp h1 h2
    by_cases hlast : k + 1 = rows.length
    · cases keep with
      | false =>
        simp only [hov, hlast, decide_true, Bool.or_true, if_true, Bool.or_false, Bool.not_false, Bool.and_true]
        refine ⟨cur ++ [x], ?_, h.summing, rfl, rfl, h.runs, h.nonempty, h.early, fun _ => hfull, h.end_, hrest, by simp⟩
        rw [← hlast]; exact hcov
      | true =>
        simp only [hov, hlast, decide_true, Bool.or_true, if_true, Bool.not_true, Bool.and_false, if_false,
          Bool.false_eq_true]
        refine ⟨[], ?_, ?_, rfl, by simp [total], ?_, ?_, ?_, ?_, ?_, ?_, fun _ _ => rfl⟩
        · rw [← hlast]; simpa using hcov
        · simp [h.summing]
        · intro w hw
          rcases List.mem_append.1 hw with hw | hw
          · exact h.runs w hw
          · simp only [List.mem_singleton] at hw; subst hw; rfl
        · intro w hw
          rcases List.mem_append.1 hw with hw | hw
          · exact h.nonempty w hw
          · simp only [List.mem_singleton] at hw; subst hw; simp
        · intro w hw
          rcases List.mem_append.1 hw with hw | hw
          · exact h.early w hw
          · simp only [List.mem_singleton] at hw; subst hw; exact hearly
        · simp
        · simpa using hfull
        · intro p hp hne
          exact absurd (List.prefix_nil.1 hp) hne
    · simp only [hov, hlast, decide_false, Bool.or_false, if_false, Bool.false_eq_true]
      exact ⟨cur ++ [x], hcov, h.summing, rfl, rfl, h.runs, h.nonempty, h.early, fun _ => hfull, h.end_, hrest,
        fun _ h2 => absurd h2 hlast⟩

/-- The windows made by the loop. -/
theorem fill_windows (over : K → Nat → Bool) (keep : Bool) (int : α → K) (rows : List α) :
    ∃ tail, Windows over keep int rows ((fill over keep int rows).map Prod.fst) tail ∧
      ∀ w ∈ fill over keep int rows, w.2 = total int w.1 := by
  have h := foldl_zipIdx_inv (fillStep over keep rows) (fun k st => ∃ cur, Inv over keep int rows k st cur) (rows.map int)
    ⟨0, 0, 0, []⟩ ⟨[], by simp, rfl, rfl, by simp [total], by simp, by simp, by simp, by simp, by simp, fun p hp hne => absurd (List.prefix_nil.1 hp) hne,
      fun _ _ => rfl⟩ (by
    rintro k y st hy ⟨cur, hc⟩
    rw [List.getElem?_map] at hy
    cases hr : rows[k]? with
    | none => simp [hr] at hy
    | some x =>
      rw [hr] at hy
      simp only [Option.map_some, Option.some.injEq] at hy
      subst hy
      exact inv_step hr hc)
  obtain ⟨tail, h⟩ := h
  rw [List.length_map] at h
  refine ⟨tail, ⟨?_, ?_, ?_, ?_, ?_, h.rest, fun hk => h.dropped hk rfl⟩, h.runs⟩
  · have := h.cover
    rwa [List.take_length] at this
  · intro w hw
    obtain ⟨v, hv, rfl⟩ := List.mem_map.1 hw
    exact h.nonempty v hv
  · intro w hw
    obtain ⟨v, hv, rfl⟩ := List.mem_map.1 hw
    exact h.early v hv
  · intro w hw
    rw [← List.map_dropLast] at hw
    obtain ⟨v, hv, rfl⟩ := List.mem_map.1 hw
    exact h.end_ v hv
  · intro hk w hw
    obtain ⟨v, hv, rfl⟩ := List.mem_map.1 hw
    exact h.full (Or.inr hk) v hv

theorem Windows.tail_windows {over : K → Nat → Bool} {keep : Bool} {int : α → K} {rows w tail : List α} {ws : List (List α)}
    (h : Windows over keep int rows (w :: ws) tail) : Windows over keep int (ws.flatten ++ tail) ws tail := by
  refine ⟨rfl, fun v hv => h.nonempty v (List.mem_cons_of_mem _ hv), fun v hv => h.early v (List.mem_cons_of_mem _ hv), ?_,
    fun hk v hv => h.last hk v (List.mem_cons_of_mem _ hv), h.rest, h.dropped⟩
  intro v hv
  apply h.full
  cases ws with
  | nil => simp at hv
  | cons a b => exact List.mem_cons_of_mem _ hv

/-- The first window is full, unless it is all there is. -/
theorem Windows.first {over : K → Nat → Bool} {keep : Bool} {int : α → K} {rows w tail : List α} {ws : List (List α)}
    (h : Windows over keep int rows (w :: ws) tail) : over (total int w) w.length = true ∨ (keep = true ∧ w = rows) := by
  cases hk : keep with
  | false => exact Or.inl (h.last hk w (by simp))
  | true =>
    cases ws with
    | nil =>
      have h1 := h.cover
      rw [h.dropped hk] at h1
      exact Or.inr ⟨rfl, by simpa using h1⟩
    | cons a b => exact Or.inl (h.full w (by simp))

theorem Windows.first_prefix {over : K → Nat → Bool} {keep : Bool} {int : α → K} {rows w tail : List α} {ws : List (List α)}
    (h : Windows over keep int rows (w :: ws) tail) : w <+: rows := by
  rw [← h.cover]; simp [List.append_assoc]

theorem Windows.first_eq {over : K → Nat → Bool} {keep : Bool} {int : α → K} {rows w w' tail tail' : List α} {ws ws' : List (List α)}
    (h : Windows over keep int rows (w :: ws) tail) (h' : Windows over keep int rows (w' :: ws') tail') (hp : w <+: w') : w = w' := by
  by_contra hne
  have h2 := h'.early w' (by simp) w hp (h.nonempty w (by simp)) hne
  rcases h.first with h3 | ⟨_, h3⟩
  · rw [h2] at h3; simp at h3
  · have := h'.first_prefix.length_le
    rw [← h3] at this
    exact hne (hp.eq_of_length (by have := hp.length_le; omega))

theorem windows_nil_cons {over : K → Nat → Bool} {keep : Bool} {int : α → K} {rows w' tail tail' : List α} {ws' : List (List α)}
    (h : Windows over keep int rows [] tail) (h' : Windows over keep int rows (w' :: ws') tail') : False := by
  have hw := h'.nonempty w' (by simp)
  have h1 := h.cover
  simp only [List.flatten_nil, List.nil_append] at h1
  subst h1
  have h2 := h.rest w' h'.first_prefix hw
  rcases h'.first with h3 | ⟨h3, h4⟩
  · rw [h2] at h3; simp at h3
  · rw [h4] at hw
    exact hw (h.dropped h3)

/-- There is only one way to cut rows into windows, so the specification says all there is to say. -/
theorem windows_unique {over : K → Nat → Bool} {keep : Bool} {int : α → K} {rows : List α} {ws ws' : List (List α)} {tail tail' : List α}
    (h : Windows over keep int rows ws tail) (h' : Windows over keep int rows ws' tail') : ws = ws' ∧ tail = tail' := by
  induction ws generalizing rows ws' with
  | nil =>
    cases ws' with
    | nil =>
      have h1 := h.cover
      have h2 := h'.cover
      simp only [List.flatten_nil, List.nil_append] at h1 h2
      exact ⟨rfl, by rw [h1, h2]⟩
    | cons w' ws' => exact (windows_nil_cons h h').elim
  | cons w ws ih =>
    cases ws' with
    | nil => exact (windows_nil_cons h' h).elim
    | cons w' ws' =>
      have hw : w = w' := by
        rcases List.prefix_or_prefix_of_prefix h.first_prefix h'.first_prefix with hq | hq
        · exact h.first_eq h' hq
        · exact (h'.first_eq h hq).symm
      subst hw
      have e : ws.flatten ++ tail = ws'.flatten ++ tail' := by
        have := h.cover.trans h'.cover.symm
        simpa [List.append_assoc] using this
      have := ih h.tail_windows (e ▸ h'.tail_windows)
      exact ⟨by rw [this.1], this.2⟩

/-! ### The number of windows -/

/-- The loop that counts and the loop that fills agree for a minimum integration time. -/
theorem count_min (t : Tols K) (m : K) (keep : Bool) (int : α → K) (rows : List α) :
    (((rows.map int).zipIdx).foldl (countStep t m keep (rows.map int).length) (0, 0)).2 =
      (fill (enough t (.minInt m)) keep int rows).length := by
  unfold fill
  have key : ∀ (l : List (K × Nat)) (a : K × Nat) (st : FillSt α K), a = (st.running, st.out.length) →
      l.foldl (countStep t m keep (rows.map int).length) a =
        ((l.foldl (fillStep (enough t (.minInt m)) keep rows) st).running, (l.foldl (fillStep (enough t (.minInt m)) keep rows) st).out.length) := by
    intro l
    induction l with
    | nil => intro a st h; simpa using h
    | cons p l ih =>
      intro a st h
      rw [List.foldl_cons, List.foldl_cons]
      apply ih
      subst h
      simp only [countStep, fillStep, enough, List.length_map]
      by_cases h1 : m < st.running + p.1 <;> by_cases h2 : isclose t.rInt t.aInt (st.running + p.1) m = true <;>
        by_cases h3 : p.2 + 1 = rows.length <;> cases keep <;> simp [h1, h2, h3]
  rw [key _ (0, 0) ⟨0, 0, 0, []⟩ rfl]

/-- In windows of `n` rows, the number of windows is the quotient, one more if a shorter one is kept. -/
theorem windows_count {n : Nat} (hn : 0 < n) {keep : Bool} {int : α → K} {rows : List α} {ws : List (List α)} {tail : List α}
    (h : Windows (fun _ k => decide (n ≤ k)) keep int rows ws tail) :
    (keep = false → ws.length = rows.length / n) ∧ (keep = true → ws.length = (rows.length + n - 1) / n) := by
  induction ws generalizing rows with
  | nil =>
    have h1 := h.cover
    simp only [List.flatten_nil, List.nil_append] at h1
    subst h1
    constructor
    · intro _
      have : tail.length < n := by
        cases tail with
        | nil => simpa using hn
        | cons a b =>
          have := h.rest (a :: b) (List.prefix_refl _) (by simp)
          simpa using this
      simp [Nat.div_eq_of_lt this]
    · intro hk
      rw [h.dropped hk]
      simp [Nat.div_eq_of_lt (by omega : n - 1 < n)]
  | cons w ws ih =>
    have ih := ih h.tail_windows
    have hw := h.nonempty w (by simp)
    have hwpos : 0 < w.length := List.length_pos_iff.2 hw
    have hlen : w.length + (ws.flatten ++ tail).length = rows.length := by
      rw [← h.cover]; simp [Nat.add_assoc]
    have hle : w.length ≤ n := by
      by_contra hgt
      push Not at hgt
      have := h.early w (by simp) (w.take n) (List.take_prefix _ _) (by simp [hw]; omega) (by
        intro e
        have := congrArg List.length e
        rw [List.length_take] at this
        omega)
      simp [List.length_take] at this
      omega
    constructor
    · intro hk
      have hf : w.length = n := by
        rcases h.first with h3 | ⟨h3, _⟩
        · have := of_decide_eq_true h3; omega
        · rw [hk] at h3; simp at h3
      rw [List.length_cons, ih.1 hk, ← hlen, hf, Nat.add_comm n, Nat.add_div_right _ hn]
    · intro hk
      rw [List.length_cons, ih.2 hk, ← hlen]
      rcases h.first with h3 | ⟨_, h4⟩
      · have hf : w.length = n := by have := of_decide_eq_true h3; omega
        rw [hf, show n + (ws.flatten ++ tail).length + n - 1 = ((ws.flatten ++ tail).length + n - 1) + n by omega,
          Nat.add_div_right _ hn]
      · have h0 : (ws.flatten ++ tail).length = 0 := by rw [← h4] at hlen; omega
        rw [h0]
        have e1 : (0 + n - 1) / n = 0 := Nat.div_eq_of_lt (by omega)
        have e2 : (w.length + 0 + n - 1) / n = 1 := by
          rw [show w.length + 0 + n - 1 = (w.length - 1) + n by omega, Nat.add_div_right _ hn,
            Nat.div_eq_of_lt (by omega)]
        rw [e1, e2]

end Verif.Resample
