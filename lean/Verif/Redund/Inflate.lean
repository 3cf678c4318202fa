import Verif.Np

/-! Model of `UVData.inflate_by_redundancy` (uvdata.py 8908–8970) up to the final reordering, and C55. -/
namespace Verif.Redund
open Verif.Np

/-! ### Model -/

/-- Rows of the first baseline of the group that is in the data, lines 8922–8929; `none`: the group is missing. -/
def groupRows (bl : List Int) (gp : List Int) : Option (List Nat) :=
  (gp.find? (fun b => bl.contains b)).map (fun b => whereIdx (fun c => decide (c = b)) bl)

/-- `Nblts_full`, lines 8920–8929. -/
def nbltsFull (bl : List Int) (gps : List (List Int)) : Nat :=
  (gps.map (fun gp => match groupRows bl gp with
    | some rows => rows.length * gp.length
    | none => 0)).sum

/-- The rows written for one group, lines 8935–8943. -/
def inflateGroup (bl : List Int) (gp : List Int) : List (Nat × Int) :=
  match groupRows bl gp with
  | some rows => gp.flatMap (fun b => rows.map (fun r => (r, b)))
  | none => []

/-- Pairs of `blt_map` and `full_baselines`; the code writes them from the front into arrays of length `Nblts_full`
(`inflate_length` shows that this is the number of pairs). -/
def inflate (bl : List Int) (gps : List (List Int)) : List (Nat × Int) := gps.flatMap (inflateGroup bl)

/-- Lines 8949–8968: any array with a row per baseline-time. -/
def takeRows {α : Type} (bl : List Int) (gps : List (List Int)) (arr : List α) : List (Option α) :=
  (inflate bl gps).map (fun p => arr[p.1]?)

/-- Line 8933–8943. -/
def missingBls (bl : List Int) (gps : List (List Int)) : List Int :=
  gps.flatMap (fun gp => if (groupRows bl gp).isNone then gp else [])

/-! ### C55 -/

/-- The buffers are filled exactly. -/
theorem inflate_length (bl : List Int) (gps : List (List Int)) : (inflate bl gps).length = nbltsFull bl gps := by
  have one : ∀ gp, (inflateGroup bl gp).length = (match groupRows bl gp with
      | some rows => rows.length * gp.length
      | none => 0) := by
    intro gp
    unfold inflateGroup
    cases groupRows bl gp with
    | none => rfl
    | some rows =>
      simp only [List.length_flatMap, List.length_map, List.map_const', List.sum_replicate_nat]
      exact Nat.mul_comm _ _
  unfold inflate nbltsFull
  rw [List.length_flatMap]
  congr 1
  apply List.map_congr_left
  intro gp _
  exact one gp

/-- The baseline whose data stands for the group: the first of the group that is in the data. -/
def Stands (bl : List Int) (gp : List Int) (b0 : Int) : Prop :=
  b0 ∈ bl ∧ ∃ pre post, gp = pre ++ b0 :: post ∧ ∀ b ∈ pre, b ∉ bl

theorem groupRows_some (bl gp : List Int) (rows : List Nat) :
    groupRows bl gp = some rows ↔ ∃ b0, Stands bl gp b0 ∧ rows = whereIdx (fun c => decide (c = b0)) bl := by
  unfold groupRows Stands
  simp only [Option.map_eq_some_iff, List.find?_eq_some_iff_append, List.contains_iff_mem, Bool.not_eq_true', Bool.not_eq_eq_eq_not]
  constructor
  · rintro ⟨b, ⟨hb, pre, post, h1, h2⟩, rfl⟩
    exact ⟨b, ⟨hb, pre, post, h1, fun x hx => by simpa using h2 x hx⟩, rfl⟩
  · rintro ⟨b, ⟨hb, pre, post, h1, h2⟩, rfl⟩
    exact ⟨b, ⟨hb, pre, post, h1, fun x hx => by simpa using h2 x hx⟩, rfl⟩

/-- C55: exactly which rows there are: baseline `b` with a copy of row `r` iff `b` is in a group for which the baseline of row
`r` stands. -/
theorem inflate_rows (bl : List Int) (gps : List (List Int)) (r : Nat) (b : Int) :
    (r, b) ∈ inflate bl gps ↔ ∃ gp ∈ gps, b ∈ gp ∧ ∃ b0, Stands bl gp b0 ∧ bl[r]? = some b0 := by
  unfold inflate
  rw [List.mem_flatMap]
  constructor
  · rintro ⟨gp, hgp, h⟩
    refine ⟨gp, hgp, ?_⟩
    unfold inflateGroup at h
    cases hr : groupRows bl gp with
    | none => rw [hr] at h; simp at h
    | some rows =>
      rw [hr] at h
      simp only [List.mem_flatMap, List.mem_map, Prod.mk.injEq] at h
      obtain ⟨b', hb', r', hr', rfl, rfl⟩ := h
      obtain ⟨b0, hs, rfl⟩ := (groupRows_some bl gp rows).1 hr
      refine ⟨hb', b0, hs, ?_⟩
      rw [mem_whereIdx] at hr'
      obtain ⟨x, hx, hx'⟩ := hr'
      simp only [decide_eq_true_eq] at hx'
      rw [hx, hx']
  · rintro ⟨gp, hgp, hb, b0, hs, hr⟩
    refine ⟨gp, hgp, ?_⟩
    unfold inflateGroup
    rw [(groupRows_some bl gp _).2 ⟨b0, hs, rfl⟩]
    simp only [List.mem_flatMap, List.mem_map, Prod.mk.injEq]
    exact ⟨b, hb, r, mem_whereIdx.2 ⟨b0, hr, by simp⟩, rfl, rfl⟩

/-- C55: the rows of one baseline are the rows of the baseline that stands for its group, in the same order. -/
theorem inflate_block (bl : List Int) (gps : List (List Int)) (hn : gps.flatten.Nodup) (gp : List Int) (hgp : gp ∈ gps)
    (b b0 : Int) (hb : b ∈ gp) (hs : Stands bl gp b0) :
    ((inflate bl gps).filter (fun p => decide (p.2 = b))).map (·.1) = whereIdx (fun c => decide (c = b0)) bl := by
  have other : ∀ g : List Int, b ∉ g → (inflateGroup bl g).filter (fun p => decide (p.2 = b)) = [] := by
    intro g hg
    rw [List.filter_eq_nil_iff]
    intro p hp
    unfold inflateGroup at hp
    cases hr : groupRows bl g with
    | none => rw [hr] at hp; simp at hp
    | some rows =>
      rw [hr] at hp
      simp only [List.mem_flatMap, List.mem_map] at hp
      obtain ⟨b', hb', r', -, rfl⟩ := hp
      simp only [decide_eq_true_eq]
      rintro rfl
      exact hg hb'
  have own : gp.Nodup → ((inflateGroup bl gp).filter (fun p => decide (p.2 = b))).map (·.1) = whereIdx (fun c => decide (c = b0)) bl := by
    intro hnd
    unfold inflateGroup
    rw [(groupRows_some bl gp _).2 ⟨b0, hs, rfl⟩]
    simp only
    generalize whereIdx (fun c => decide (c = b0)) bl = rows
    clear hs hgp hn other
    induction gp with
    | nil => simp at hb
    | cons c gp ih =>
      rw [List.nodup_cons] at hnd
      rw [List.flatMap_cons, List.filter_append, List.map_append]
      by_cases hc : c = b
      · subst hc
        have h1 : (gp.flatMap (fun b => rows.map (fun r => (r, b)))).filter (fun p => decide (p.2 = c)) = [] := by
          rw [List.filter_eq_nil_iff]
          intro p hp
          simp only [List.mem_flatMap, List.mem_map] at hp
          obtain ⟨b', hb', r', -, rfl⟩ := hp
          simp only [decide_eq_true_eq]
          rintro rfl
          exact hnd.1 hb'
        rw [h1]
        simp [List.filter_map, Function.comp_def]
      · have h1 : (rows.map (fun r => (r, c))).filter (fun p => decide (p.2 = b)) = [] := by
          simp [List.filter_eq_nil_iff, hc]
        rw [h1]
        simp only [List.map_nil, List.nil_append]
        apply ih _ hnd.2
        rcases List.mem_cons.1 hb with h | h
        · exact absurd h.symm hc
        · exact h
  unfold inflate
  induction gps with
  | nil => simp at hgp
  | cons g gps ih =>
    rw [List.flatten_cons, List.nodup_append'] at hn
    rw [List.flatMap_cons, List.filter_append, List.map_append]
    rcases List.mem_cons.1 hgp with rfl | h
    · rw [own hn.1]
      have : (gps.flatMap (inflateGroup bl)).filter (fun p => decide (p.2 = b)) = [] := by
        rw [List.filter_flatMap, List.flatMap_eq_nil_iff]
        intro g' hg'
        apply other
        intro hbg
        exact hn.2.2 hb (List.mem_flatten.2 ⟨g', hg', hbg⟩)
      rw [this]
      simp
    · rw [other g (fun hbg => hn.2.2 hbg (List.mem_flatten.2 ⟨gp, h, hb⟩))]
      simpa using ih hn.2.1 h

/-- C55: if no group has two baselines in the data, every row whose baseline is in a group keeps its data under its own
baseline number. -/
theorem inflate_keeps_partial (bl : List Int) (gps : List (List Int)) (h1 : ∀ gp ∈ gps, ∀ a ∈ gp, ∀ b ∈ gp, a ∈ bl → b ∈ bl → a = b)
    (r : Nat) (b : Int) (hr : bl[r]? = some b) (hb : b ∈ gps.flatten) : (r, b) ∈ inflate bl gps := by
  obtain ⟨gp, hgp, hbg⟩ := List.mem_flatten.1 hb
  have hbl := List.mem_of_getElem? hr
  rw [inflate_rows]
  refine ⟨gp, hgp, hbg, b, ⟨hbl, ?_⟩, hr⟩
  -- the first occurrence
  have : ∃ pre post, gp = pre ++ b :: post ∧ b ∉ pre := by
    clear h1 hgp
    induction gp with
    | nil => simp at hbg
    | cons c gp ih =>
      by_cases hc : c = b
      · exact ⟨[], gp, by simp [hc], by simp⟩
      · have hbg' : b ∈ gp := by
          rcases List.mem_cons.1 hbg with h | h
          · exact absurd h.symm hc
          · exact h
        obtain ⟨p, q, hpq, hn⟩ := ih hbg'
        refine ⟨c :: p, q, by simp [hpq], ?_⟩
        simp only [List.mem_cons, not_or]
        exact ⟨fun h => hc h.symm, hn⟩
  obtain ⟨p, q, hpq, hn⟩ := this
  refine ⟨p, q, hpq, ?_⟩
  intro x hx hxbl
  have : x = b := h1 gp hgp x (by rw [hpq]; simp [hx]) b hbg hxbl hbl
  subst this
  exact hn hx

/-- C55: every group without a baseline in the data is reported, and only those. -/
theorem inflate_missing (bl : List Int) (gps : List (List Int)) (b : Int) :
    b ∈ missingBls bl gps ↔ ∃ gp ∈ gps, b ∈ gp ∧ ∀ c ∈ gp, c ∉ bl := by
  unfold missingBls
  rw [List.mem_flatMap]
  constructor
  · rintro ⟨gp, hgp, h⟩
    split at h
    · rename_i hn
      refine ⟨gp, hgp, h, ?_⟩
      unfold groupRows at hn
      simpa using hn
    · simp at h
  · rintro ⟨gp, hgp, h, hn⟩
    refine ⟨gp, hgp, ?_⟩
    rw [if_pos]
    · exact h
    · unfold groupRows
      simpa using hn

example : inflate [5, 8, 5, 8] [[4, 5, 6], [7], [8]] = [(0, 4), (2, 4), (0, 5), (2, 5), (0, 6), (2, 6), (1, 8), (3, 8)] ∧
    missingBls [5, 8, 5, 8] [[4, 5, 6], [7], [8]] = [7] := by decide +kernel

example := inflate_block [5, 8, 5, 8] [[4, 5, 6], [7], [8]] (by decide) [4, 5, 6] (by simp) 6 5 (by simp)
  ⟨by simp, [4], [6], rfl, by decide⟩

/-- The hypothesis of `inflate_keeps_partial` is needed: with two baselines of one group in the data the rows of the second
one are replaced by those of the first. -/
theorem inflate_keeps_counterexample : ¬(1, 5) ∈ inflate [4, 5] [[4, 5]] ∧ (0, 5) ∈ inflate [4, 5] [[4, 5]] := by
  decide +kernel

end Verif.Redund
