import Verif.Phase.Lemmas

/-!
# What `_apply_w_proj` does
-/

namespace Verif.Phase

open Verif.Coord (V3)
open Verif.Phasing (pick)

/-- The value for row `i` of `n` rows. -/
noncomputable def W.at (n : Nat) (w : W) (i : Nat) : Option ℝ :=
  match w with
  | .scalar x => if i < n then some x else none
  | .array l => if l.length = 1 then (if i < n then l[0]? else none) else l[i]?

theorem W.at_array {n i : Nat} {l : List ℝ} {x : ℝ} (h : l.length = n) (hx : l[i]? = some x) :
    (W.array l).at n i = some x := by
  have hi := (List.getElem?_eq_some_iff.1 hx).1
  unfold W.at
  simp only
  split_ifs with h1 h2
  · have : i = 0 := by omega
    rw [← this]; exact hx
  · omega
  · exact hx

theorem W.toList_ne_nil {n : Nat} {w : W} (h : w.Ok n) (hn : 0 < n) : w.toList ≠ [] := by
  cases w with
  | scalar x => simp [W.toList]
  | array l =>
    simp only [W.toList]
    rintro rfl
    simp only [W.Ok, List.length_nil] at h
    omega

theorem W.toList_at {n i : Nat} {w : W} {x : ℝ} (h : w.at n i = some x) :
    i < n ∧ w.toList = [x] ∨ w.toList.length ≠ 1 ∧ w.toList[i]? = some x := by
  cases w with
  | scalar y =>
    simp only [W.at] at h
    split_ifs at h with h1
    · simp only [Option.some.injEq] at h
      exact .inl ⟨h1, by simp [W.toList, h]⟩
  | array l =>
    simp only [W.at] at h
    split_ifs at h with h1 h2
    · match l, h1 with
      | [y], _ =>
        simp only [List.getElem?_cons_zero, Option.some.injEq] at h
        exact .inl ⟨h2, by simp [W.toList, h]⟩
    · exact .inr ⟨h1, h⟩

theorem W.sub_of_scalar {a b : W} {x : ℝ} (h : a.toList = [x]) : W.sub a b = b.toList.map (x - ·) := by
  unfold W.sub
  rw [h]

theorem W.sub_of_scalar' {a b : W} {y : ℝ} (h : b.toList = [y]) (h' : a.toList.length ≠ 1) :
    W.sub a b = a.toList.map (· - y) := by
  unfold W.sub
  rw [h]
  match ha : a.toList with
  | [] => rfl
  | [x] => rw [ha] at h'; simp at h'
  | x :: x' :: l => rfl

theorem W.sub_of_arrays {a b : W} (h : a.toList.length ≠ 1) (h' : b.toList.length ≠ 1) :
    W.sub a b = List.zipWith (· - ·) a.toList b.toList := by
  unfold W.sub
  match ha : a.toList, hb : b.toList with
  | [x], _ => rw [ha] at h; simp at h
  | _, [y] => rw [hb] at h'; simp at h'
  | [], [] => rfl
  | [], y :: y' :: l => rfl
  | x :: x' :: l, [] => rfl
  | x :: x' :: l, y :: y' :: l' => rfl

/-- The difference for row `i`. -/
theorem W.sub_at {n i : Nat} {a b : W} {x y : ℝ} (ha : a.Ok n) (hb : b.Ok n) (hx : a.at n i = some x)
    (hy : b.at n i = some y) :
    (W.sub a b).length = 1 ∧ (W.sub a b).headD 0 = x - y ∨
    (W.sub a b).length = n ∧ (W.sub a b).length ≠ 1 ∧ (W.sub a b)[i]? = some (x - y) := by
  have lens : ∀ w : W, w.Ok n → w.toList.length ≠ 1 → w.toList.length = n := by
    intro w hw h
    cases w with
    | scalar z => simp [W.toList] at h
    | array l =>
      simp only [W.Ok, W.toList] at hw h ⊢
      omega
  rcases W.toList_at hx with ⟨h1, h2⟩ | ⟨h1, h2⟩ <;> rcases W.toList_at hy with ⟨h3, h4⟩ | ⟨h3, h4⟩
  · left
    rw [W.sub_of_scalar h2, h4]
    simp
  · right
    rw [W.sub_of_scalar h2, List.length_map, List.getElem?_map, h4]
    exact ⟨lens b hb h3, h3, rfl⟩
  · right
    rw [W.sub_of_scalar' h4 h1, List.length_map, List.getElem?_map, h2]
    exact ⟨lens a ha h1, h1, rfl⟩
  · right
    rw [W.sub_of_arrays h1 h3, List.length_zipWith, lens a ha h1, lens b hb h3, min_self,
      List.getElem?_zipWith, h2, h4]
    have := lens a ha h1
    exact ⟨rfl, by omega, rfl⟩

/-- `_apply_w_proj` changes nothing but the data; it turns the selected rows by the difference of the
two values and leaves the others alone. -/
theorem applyW_spec {o o' : Obj} {new old : W} {mask : List Bool}
    (hd : ∀ d, o.data = some d → d.length = o.uvw.length) (h : applyW o new old mask = .ok o') :
    o' = { o with data := o'.data } ∧ (o.data = none ↔ o'.data = none) ∧
    (∀ d, o'.data = some d → d.length = o.uvw.length) ∧
    (o.data ≠ none → mask.length = o.uvw.length) ∧
    (∀ i row, mask[i]? = some false → (RowData o' i row ↔ RowData o i row)) ∧
    (∀ i x y, mask[i]? = some true → new.at o.uvw.length i = some x → old.at o.uvw.length i = some y →
      ∀ row', RowData o' i row' ↔ ∃ row, RowData o i row ∧ row' = turn o.freqs (x - y) row) := by
  unfold applyW at h
  cases hdata : o.data with
  | none =>
    rw [hdata] at h
    simp only [Except.ok.injEq] at h
    subst h
    refine ⟨rfl, by simp [hdata], by simp [hdata], by simp, by simp, ?_⟩
    intro i x y _ _ _ row'
    simp [RowData, hdata]
  | some d =>
    rw [hdata] at h
    simp only at h
    have hl := hd d hdata
    split_ifs at h with h1 h2 h3 h4 <;> simp only [Except.ok.injEq] at h <;> subst h
    rotate_right
    · refine ⟨rfl, by simp [hdata], fun d' hd' => hd d' hd', fun _ => by omega, by simp, ?_⟩
      intro i x y hm
      exact absurd (true_mem hm) h2
    all_goals
      have hml : mask.length = d.length := by omega
      have hc := pick_count mask d hml
    · -- one value for all rows
      refine ⟨rfl, by simp, ?_, fun _ => by omega, ?_, ?_⟩
      · intro d' hd'
        simp only [Option.some.injEq] at hd'
        subst hd'
        rw [maskSet_length, hl]
      · intro i row hm
        unfold RowData
        simp only [Option.some.injEq, exists_eq_left', hdata]
        rw [maskSet_false _ _ _ _ hm]
      · intro i x y hm hx hy row'
        rcases W.sub_at h3.2 h3.1 hx hy with ⟨h5, h6⟩ | ⟨-, h5, -⟩
        · unfold RowData
          simp only [Option.some.injEq, exists_eq_left', hdata]
          rw [maskSet_true _ _ _ _ hml (by rw [List.length_zipWith, List.length_replicate, min_self, hc]) hm,
            List.getElem?_zipWith, List.getElem?_replicate, if_pos (by rw [hc]; exact rank_lt hm), h6,
            pick_rank _ _ _ hml hm]
          have hi : i < d.length := by
            rw [← hml]; exact (List.getElem?_eq_some_iff.1 hm).1
          rw [List.getElem?_eq_getElem hi]
          simp [eq_comm]
        · exact absurd h4 h5
    · refine ⟨rfl, by simp, ?_, fun _ => by omega, ?_, ?_⟩
      · intro d' hd'
        simp only [Option.some.injEq] at hd'
        subst hd'
        rw [maskSet_length, hl]
      · intro i row hm
        unfold RowData
        simp only [Option.some.injEq, exists_eq_left', hdata]
        rw [maskSet_false _ _ _ _ hm]
      · intro i x y hm hx hy row'
        rcases W.sub_at h3.2 h3.1 hx hy with ⟨h5, -⟩ | ⟨h6, -, h5⟩
        · exact absurd h5 h4
        · unfold RowData
          simp only [Option.some.injEq, exists_eq_left', hdata]
          have hml' : mask.length = (W.sub new old).length := by omega
          have hc' := pick_count mask (W.sub new old) hml'
          rw [maskSet_true _ _ _ _ hml (by rw [List.length_zipWith, hc, hc', min_self]) hm,
            List.getElem?_zipWith, pick_rank _ _ _ hml' hm, h5, pick_rank _ _ _ hml hm]
          have hi : i < d.length := by
            rw [← hml]; exact (List.getElem?_eq_some_iff.1 hm).1
          rw [List.getElem?_eq_getElem hi]
          simp [eq_comm]

/-- It succeeds with a mask and values of the right length. -/
theorem applyW_ok {o : Obj} {new old : W} {mask : List Bool} (h1 : mask.length = o.uvw.length)
    (h2 : new.Ok o.uvw.length) (h3 : old.Ok o.uvw.length) : ∃ o', applyW o new old mask = .ok o' := by
  unfold applyW
  cases o.data with
  | none => exact ⟨_, rfl⟩
  | some d =>
    simp only
    rw [if_neg (by omega)]
    by_cases h4 : true ∉ mask
    · rw [if_pos h4]; exact ⟨_, rfl⟩
    · rw [if_neg h4, if_neg (by simp [h2, h3])]
      exact ⟨_, rfl⟩

/-- Rows of turned data have as many channels as before. -/
theorem turn_length (freqs : List ℝ) (x : ℝ) (row : List (List ℂ)) (h : row.length = freqs.length) :
    (turn freqs x row).length = freqs.length := by
  unfold turn
  rw [List.length_zipWith, h, min_self]

end Verif.Phase
