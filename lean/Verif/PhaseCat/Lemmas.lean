import Mathlib.Data.List.Nodup
import Mathlib.Data.List.Forall2
import Mathlib.Data.List.Lattice
import Mathlib.Data.Finset.Card
import Mathlib.Tactic.Linarith
import Mathlib.Data.List.MinMax
import Verif.PhaseCat.Spec

/-! Dictionary facts and the meaning of the comparison loop. -/
namespace Verif.PhaseCat
open Verif.Pol (Str)

theorem mem_keys {cat : Cat} {k : Int} : k ∈ keys cat ↔ ∃ e, (k, e) ∈ cat := by
  simp [keys]

theorem get_some {cat : Cat} (h : (keys cat).Nodup) {k : Int} {e : Entry} : get cat k = some e ↔ (k, e) ∈ cat := by
  unfold get
  induction cat with
  | nil => simp
  | cons p l ih =>
    have hl : (keys l).Nodup := (List.nodup_cons.1 h).2
    have hp : p.1 ∉ keys l := (List.nodup_cons.1 h).1
    rw [List.find?_cons]
    by_cases hk : p.1 = k
    · simp only [hk, decide_true, Option.map_some, Option.some.injEq, List.mem_cons]
      constructor
      · rintro rfl; exact Or.inl (by rw [← hk])
      · rintro (h | h)
        · rw [← h]
        · exact absurd (mem_keys.2 ⟨e, h⟩) (hk ▸ hp)
    · simp only [hk, decide_false, List.mem_cons]
      rw [ih hl]
      constructor
      · exact Or.inr
      · rintro (h | h)
        · exact absurd (by rw [← h]) hk
        · exact h

theorem get_none {cat : Cat} {k : Int} : get cat k = none ↔ k ∉ keys cat := by
  simp only [get, keys, Option.map_eq_none_iff, List.find?_eq_none, decide_eq_true_eq, List.mem_map, not_exists, not_and]

theorem get_isSome {cat : Cat} {k : Int} : (∃ e, get cat k = some e) ↔ k ∈ keys cat := by
  have := get_none (cat := cat) (k := k)
  rcases h : get cat k with _ | e
  · simp only [h, true_iff] at this; simp [this]
  · simp only [h, reduceCtorEq, false_iff, not_not] at this; simp [this]

theorem keys_put (cat : Cat) (k : Int) (e : Entry) :
    keys (put cat k e) = if k ∈ keys cat then keys cat else keys cat ++ [k] := by
  unfold put
  split
  · simp only [keys, List.map_map]
    apply List.map_congr_left
    intro p _
    simp only [Function.comp_apply]
    split <;> simp_all
  · simp [keys]

theorem keys_del (cat : Cat) (k : Int) : keys (del cat k) = (keys cat).filter (fun j => decide (j ≠ k)) := by
  simp only [keys, del, List.filter_map]
  rfl

theorem keys_modify (cat : Cat) (k : Int) (f : Entry → Entry) : keys (modifyAt cat k f) = keys cat := by
  simp only [keys, modifyAt, List.map_map]
  apply List.map_congr_left
  intro p _
  simp only [Function.comp_apply]
  split <;> rfl

theorem nodup_put {cat : Cat} (h : (keys cat).Nodup) (k : Int) (e : Entry) : (keys (put cat k e)).Nodup := by
  rw [keys_put]
  split
  · exact h
  · rename_i hk
    rw [List.nodup_append]
    refine ⟨h, by simp, ?_⟩
    intro a ha b hb
    simp only [List.mem_singleton] at hb
    subst hb
    rintro rfl
    exact hk ha

theorem nodup_del {cat : Cat} (h : (keys cat).Nodup) (k : Int) : (keys (del cat k)).Nodup := by
  rw [keys_del]; exact h.filter _

theorem mem_keys_put {cat : Cat} {k j : Int} {e : Entry} : j ∈ keys (put cat k e) ↔ j = k ∨ j ∈ keys cat := by
  rw [keys_put]
  split
  · constructor
    · exact Or.inr
    · rintro (rfl | h)
      · assumption
      · exact h
  · simp [or_comm]

theorem mem_keys_del {cat : Cat} {k j : Int} : j ∈ keys (del cat k) ↔ j ∈ keys cat ∧ j ≠ k := by
  rw [keys_del]; simp

theorem mem_put {cat : Cat} {k j : Int} {e x : Entry} :
    (j, x) ∈ put cat k e ↔ (j = k ∧ x = e) ∨ (j ≠ k ∧ (j, x) ∈ cat) := by
  unfold put
  split
  · rename_i hk
    simp only [List.mem_map]
    constructor
    · rintro ⟨p, hp, h⟩
      split at h
      · rw [Prod.mk.injEq] at h; exact Or.inl ⟨h.1.symm, h.2.symm⟩
      · rename_i hne; subst h; exact Or.inr ⟨hne, hp⟩
    · rintro (⟨rfl, rfl⟩ | ⟨h1, h2⟩)
      · obtain ⟨y, hy⟩ := mem_keys.1 hk
        exact ⟨(j, y), hy, by simp⟩
      · exact ⟨(j, x), h2, by simp [h1]⟩
  · rename_i hk
    simp only [List.mem_append, List.mem_singleton, Prod.mk.injEq]
    constructor
    · rintro (h | h)
      · refine Or.inr ⟨?_, h⟩
        rintro rfl
        exact hk (mem_keys.2 ⟨x, h⟩)
      · exact Or.inl h
    · rintro (h | h)
      · exact Or.inr h
      · exact Or.inl h.2

theorem mem_del {cat : Cat} {k j : Int} {x : Entry} : (j, x) ∈ del cat k ↔ j ≠ k ∧ (j, x) ∈ cat := by
  simp [del, and_comm]

theorem mem_modify {cat : Cat} {k j : Int} {f : Entry → Entry} {x : Entry} :
    (j, x) ∈ modifyAt cat k f ↔ (j = k ∧ ∃ y, (j, y) ∈ cat ∧ x = f y) ∨ (j ≠ k ∧ (j, x) ∈ cat) := by
  simp only [modifyAt, List.mem_map]
  constructor
  · rintro ⟨p, hp, h⟩
    split at h
    · rename_i hk
      rw [Prod.mk.injEq] at h
      refine Or.inl ⟨h.1 ▸ hk, p.2, ?_, h.2.symm⟩
      rw [← h.1]; exact hp
    · rename_i hk; subst h; exact Or.inr ⟨hk, hp⟩
  · rintro (⟨h1, y, h2, h3⟩ | ⟨h1, h2⟩)
    · exact ⟨(j, y), h2, by simp [h1, h3]⟩
    · exact ⟨(j, x), h2, by simp [h1]⟩

theorem key_unique {cat : Cat} (h : (keys cat).Nodup) {k : Int} {e e' : Entry} (h1 : (k, e) ∈ cat) (h2 : (k, e') ∈ cat) :
    e = e' := by
  have a := (get_some h).2 h1
  have b := (get_some h).2 h2
  rw [a] at b
  exact Option.some.inj b

/-! ### Comparison -/

theorem closeQ_iff {rtol atol a b : Rat} : closeQ rtol atol a b = true ↔ Near rtol atol a b := by
  simp [closeQ, Near]

theorem near_forall (rtol atol : Rat) (a b : List Rat) :
    (decide (a.length = b.length) && (a.zip b).all (fun p => closeQ rtol atol p.1 p.2)) = true ↔
      List.Forall₂ (Near rtol atol) a b := by
  induction a generalizing b with
  | nil => cases b <;> simp
  | cons x a ih =>
    cases b with
    | nil => simp
    | cons y b =>
      rw [List.forall₂_cons, ← ih, ← closeQ_iff]
      simp only [List.length_cons, List.zip_cons_cons, List.all_cons, Bool.and_eq_true, decide_eq_true_eq,
        Nat.add_right_cancel_iff]
      tauto

theorem fieldDiff_near {rtol atol : Rat} {p q : Option Val} :
    fieldDiff (closeV rtol atol) p q = 0 ↔ NearVal rtol atol p q := by
  rcases p with _ | p <;> rcases q with _ | q
  · exact ⟨fun _ => .missing, fun _ => rfl⟩
  · exact ⟨fun h => by simp [fieldDiff] at h, fun h => by cases h⟩
  · exact ⟨fun h => by simp [fieldDiff] at h, fun h => by cases h⟩
  · have e : fieldDiff (closeV rtol atol) (some p) (some q) = 0 ↔ closeV rtol atol p q = true := by
      simp [fieldDiff]
    rw [e]
    cases p <;> cases q
    · simp only [closeV, closeQ_iff]
      exact ⟨.scalar, fun h => by cases h; assumption⟩
    · simp only [closeV, Bool.false_eq_true, false_iff]
      intro h; cases h
    · simp only [closeV, Bool.false_eq_true, false_iff]
      intro h; cases h
    · simp only [closeV]
      rw [near_forall]
      exact ⟨.vec, fun h => by cases h; assumption⟩

theorem fieldDiff_eq {α : Type} [DecidableEq α] {p q : Option α} :
    fieldDiff (fun a b => decide (a = b)) p q = 0 ↔ p = q := by
  cases p <;> cases q <;> simp [fieldDiff]

theorem diffs_zero {c : Consts} {p q : Entry} : diffs c p q = 0 ↔ Equivalent c p q := by
  unfold diffs
  simp only [Nat.add_eq_zero_iff, fieldDiff_near, fieldDiff_eq, Option.some.injEq]
  constructor
  · rintro ⟨⟨⟨⟨⟨⟨⟨⟨⟨h1, h2⟩, h3⟩, h4⟩, h5⟩, h6⟩, h7⟩, h8⟩, h9⟩, h10⟩
    exact ⟨h1, h2, h3, h4, h5, h6, h7, h8, h9, h10⟩
  · rintro ⟨h1, h2, h3, h4, h5, h6, h7, h8, h9, h10⟩
    exact ⟨⟨⟨⟨⟨⟨⟨⟨⟨h1, h2⟩, h3⟩, h4⟩, h5⟩, h6⟩, h7⟩, h8⟩, h9⟩, h10⟩

theorem near_refl {rtol atol : Rat} (h1 : 0 ≤ rtol) (h2 : 0 ≤ atol) (a : Rat) : Near rtol atol a a := by
  unfold Near
  rw [sub_self, abs_zero]
  have := mul_nonneg h1 (abs_nonneg a)
  linarith

theorem nearVal_refl {rtol atol : Rat} (h1 : 0 ≤ rtol) (h2 : 0 ≤ atol) (v : Option Val) : NearVal rtol atol v v := by
  rcases v with _ | (x | l)
  · exact .missing
  · exact .scalar (near_refl h1 h2 x)
  · exact .vec (List.forall₂_same.2 (fun x _ => near_refl h1 h2 x))

theorem equivalent_refl {c : Consts} (h : 0 ≤ c.radTol) (e : Entry) : Equivalent c e e := by
  have a : (0 : Rat) ≤ 1 / 100000 := by norm_num
  have b : (0 : Rat) ≤ 1 / 100000000 := by norm_num
  exact ⟨rfl, nearVal_refl le_rfl h _, nearVal_refl le_rfl h _, rfl, rfl, nearVal_refl a b _, nearVal_refl a b _,
    nearVal_refl a b _, nearVal_refl a b _, nearVal_refl a b _⟩

/-- The loop ends with zero differences exactly at a matching entry. -/
theorem scan_found {c : Consts} {p : Entry} {ign : Bool} :
    ∀ {cat : Cat} {m r : Option Int × Nat}, m.2 ≠ 0 → scan c p ign cat m = r → r.2 = 0 →
      ∃ k e, r.1 = some k ∧ (k, e) ∈ cat ∧ Matches c ign p e := by
  intro cat
  induction cat with
  | nil =>
    intro m r hm h h0
    simp only [scan] at h
    subst h
    exact absurd h0 hm
  | cons q l ih =>
    obtain ⟨k, e⟩ := q
    intro m r hm h h0
    have rec' : ∀ {m' : Option Int × Nat}, m'.2 ≠ 0 → scan c p ign l m' = r →
        ∃ j x, r.1 = some j ∧ (j, x) ∈ (k, e) :: l ∧ Matches c ign p x := by
      intro m' hm' h'
      obtain ⟨j, x, a, b, d⟩ := ih hm' h' h0
      exact ⟨j, x, a, List.mem_cons_of_mem _ b, d⟩
    simp only [scan, if_neg hm] at h
    split at h
    · exact rec' hm h
    · rename_i hname
      split at h
      · split at h
        · split at h
          · rename_i hd
            subst h
            refine ⟨k, e, rfl, List.mem_cons_self, diffs_zero.1 hd, fun hi => ?_⟩
            by_contra hne
            exact hname ⟨hne, by simp [hi]⟩
          · rename_i hd
            exact rec' (by simpa using hd) h
        · exact rec' hm h
      · exact rec' hm h

/-- Otherwise no entry matches. -/
theorem scan_missing {c : Consts} {p : Entry} {ign : Bool} :
    ∀ {cat : Cat} {m : Option Int × Nat}, m.2 ≠ 0 → (scan c p ign cat m).2 ≠ 0 →
      ∀ k e, (k, e) ∈ cat → ¬Matches c ign p e := by
  intro cat
  induction cat with
  | nil => simp
  | cons q l ih =>
    obtain ⟨k, e⟩ := q
    intro m hm h j x hx hmatch
    simp only [scan, if_neg hm] at h
    rcases List.mem_cons.1 hx with hx | hx
    · rw [Prod.mk.injEq] at hx
      obtain ⟨rfl, rfl⟩ := hx
      have hd := diffs_zero.2 hmatch.1
      have hn : ¬(p.name ≠ x.name ∧ ¬ign = true) := by
        rintro ⟨a, b⟩
        exact a (hmatch.2 (by simpa using b))
      rw [if_neg hn, if_pos (Or.inl hd), if_pos (by omega), if_pos hd] at h
      exact h rfl
    · have go : ∀ {m' : Option Int × Nat}, m'.2 ≠ 0 → (scan c p ign l m').2 ≠ 0 → False :=
        fun hm' h' => ih hm' h' j x hx hmatch
      split at h
      · exact go hm h
      · split at h
        · split at h
          · split at h
            · exact h rfl
            · rename_i hd
              exact go (by simpa using hd) h
          · exact go hm h
        · exact go hm h

/-- `look_in_catalog` reports an entry with no differences exactly if there is one. -/
theorem look_spec (c : Consts) (cat : Cat) (p : Entry) (ign : Bool) :
    (∃ k e, look c cat p ign = (some k, 0) ∧ (k, e) ∈ cat ∧ Matches c ign p e) ∨
    ((∀ k, look c cat p ign ≠ (some k, 0)) ∧ ∀ k e, (k, e) ∈ cat → ¬Matches c ign p e) := by
  by_cases h : (look c cat p ign).2 = 0
  · obtain ⟨k, e, h1, h2, h3⟩ := scan_found (r := look c cat p ign) (by decide) rfl h
    refine Or.inl ⟨k, e, ?_, h2, h3⟩
    rw [← h1, ← h]
  · refine Or.inr ⟨fun k hk => h (by rw [hk]), ?_⟩
    exact scan_missing (by decide) h

/-! ### New IDs -/

theorem candidates_ne_nil {n : Nat} {used : List Int} (h : used.dedup.length ≤ n) : candidates n used ≠ [] := by
  intro hnil
  have hall : ∀ i ∈ (List.range (n + 1)).map (fun i : Nat => (i : Int)), i ∈ used := by
    intro i hi
    by_contra hc
    have : i ∈ candidates n used := List.mem_filter.2 ⟨hi, by simpa using hc⟩
    rw [hnil] at this
    exact List.not_mem_nil this
  have hnd : ((List.range (n + 1)).map (fun i : Nat => (i : Int))).Nodup :=
    List.nodup_range.map (fun a b h => by simpa using h)
  have hsub : (List.range (n + 1)).map (fun i : Nat => (i : Int)) ⊆ used.dedup :=
    fun i hi => List.mem_dedup.2 (hall i hi)
  have := (List.subperm_of_subset hnd hsub).length_le
  simp only [List.length_map, List.length_range] at this
  omega

theorem pick_candidates (pop : Pop) {n : Nat} {used : List Int} (h : used.dedup.length ≤ n) :
    pop.pick (candidates n used) ∉ used ∧ 0 ≤ pop.pick (candidates n used) ∧ pop.pick (candidates n used) ≤ n := by
  have hm := pop.mem _ (candidates_ne_nil h)
  obtain ⟨h1, h2⟩ := List.mem_filter.1 hm
  obtain ⟨i, hi, he⟩ := List.mem_map.1 h1
  rw [List.mem_range] at hi
  refine ⟨by simpa using h2, ?_, ?_⟩ <;> rw [← he] <;> omega

theorem mem_usedIds {cat : Option (List Int)} {oldId : Option Int} {reserved : List Int} {k : Int} :
    k ∈ usedIds cat oldId reserved ↔ (k ∈ cat.getD [] ∧ some k ≠ oldId) ∨ k ∈ reserved := by
  simp [usedIds]

end Verif.PhaseCat
