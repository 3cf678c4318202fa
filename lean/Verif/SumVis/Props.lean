import Verif.SumVis.Model
import Mathlib.Algebra.Group.Basic

/-! When visibilities are added and subtracted, and what comes out (C143, C144). -/

namespace Verif.SumVis
open Verif.Pol (Str)

variable {P E V : Type}

/-- A name is among the overrides, with or without underscore. -/
def Named (ov : List (Option Str)) (n : Str) : Prop := some n ∈ ov ∧ n.head? ≠ some '_' ∨ some ('_' :: n) ∈ ov

/-- Overrides that are understood: names of parameters, with or without underscore. -/
def Understood (x : Obj P E V) (ov : List (Option Str)) : Prop :=
  ∀ e ∈ ov, ∃ n, e = some n ∧ n ≠ [] ∧ (if n.head? = some '_' then n.tail else n) ∈ x.names

/-- Parameters of the two objects that have the same name agree, but for those in a list. -/
def Agree (eq : P → P → Bool) (x y : Obj P E V) (except : Str → Prop) : Prop :=
  (∀ n p, (n, p) ∈ x.params → ¬ except n → ∃ q, (n, q) ∈ y.params ∧ eq p q = true) ∧
    (¬ except nameFile → x.filename = y.filename)

/-- Names are different. -/
structure Sound (x : Obj P E V) : Prop where
  nodup : (x.params.map Prod.fst).Nodup
  other : ∀ n ∈ x.params.map Prod.fst, n ≠ nameHistory ∧ n ≠ nameData ∧ n ≠ nameExtra ∧ n ≠ nameFile

theorem get_iff {A : Type} {l : List (Str × A)} (h : (l.map Prod.fst).Nodup) {k : Str} {v : A} :
    get l k = some v ↔ (k, v) ∈ l := by
  unfold get
  constructor
  · intro hg
    simp only [Option.map_eq_some_iff] at hg
    obtain ⟨e, he, rfl⟩ := hg
    have h1 := List.mem_of_find?_eq_some he
    have h2 := List.find?_some he
    simp only [beq_iff_eq] at h2
    subst h2
    exact h1
  · intro hm
    cases hf : l.find? (fun e => e.1 == k) with
    | none =>
      have := List.find?_eq_none.1 hf (k, v) hm
      simp at this
    | some e =>
      have h1 := List.mem_of_find?_eq_some hf
      have h2 := List.find?_some hf
      simp only [beq_iff_eq] at h2
      have := List.inj_on_of_nodup_map h h1 hm h2
      rw [this]
      rfl

theorem override_ok {names l : List Str}
    (h : ∀ n ∈ l, n ≠ [] ∧ (if n.head? = some '_' then n.tail else n) ∈ names) :
    override names l = .ok (l.map (fun n => if n.head? = some '_' then n.tail else n)) := by
  induction l with
  | nil => rfl
  | cons n l ih =>
    obtain ⟨h1, h2⟩ := h n (by simp)
    cases n with
    | nil => exact absurd rfl h1
    | cons c s =>
      have e : (if c = '_' then s else c :: s) = (if (c :: s).head? = some '_' then (c :: s).tail else c :: s) := by
        simp
      simp only [override]
      rw [e, if_pos h2, ih (fun n hn => h n (List.mem_cons_of_mem _ hn))]
      rfl

theorem override_err {names l : List Str}
    (h : ¬ ∀ n ∈ l, n ≠ [] ∧ (if n.head? = some '_' then n.tail else n) ∈ names) :
    ∃ e, override names l = .error e := by
  induction l with
  | nil => simp at h
  | cons n l ih =>
    cases n with
    | nil => exact ⟨_, rfl⟩
    | cons c s =>
      have e : (if c = '_' then s else c :: s) = (if (c :: s).head? = some '_' then (c :: s).tail else c :: s) := by
        simp
      simp only [override]
      rw [e]
      by_cases h2 : (if (c :: s).head? = some '_' then (c :: s).tail else c :: s) ∈ names
      · rw [if_pos h2]
        obtain ⟨e, he⟩ := ih (fun hl => h (fun n hn => by
          rcases List.mem_cons.1 hn with rfl | hn
          · exact ⟨by simp, h2⟩
          · exact hl n hn))
        rw [he]
        exact ⟨_, rfl⟩
      · rw [if_neg h2]
        exact ⟨_, rfl⟩

theorem mapM_some {l : List (Option Str)} (h : ∀ e ∈ l, e.isSome) : ∃ m, l.mapM id = some m ∧ l = m.map some := by
  induction l with
  | nil => exact ⟨[], rfl, rfl⟩
  | cons e l ih =>
    obtain ⟨m, h1, h2⟩ := ih (fun x hx => h x (List.mem_cons_of_mem _ hx))
    obtain ⟨a, rfl⟩ := Option.isSome_iff_exists.1 (h e (by simp))
    refine ⟨a :: m, ?_, by rw [h2]; rfl⟩
    rw [List.mapM_cons, h1]
    rfl

theorem ignored_ok {x : Obj P E V} {ov : List (Option Str)} (h : Understood x ov) :
    ∃ ign, ignored x.names ov = .ok ign ∧
      ∀ n, n ∈ ign ↔ n = nameHistory ∨ n = nameData ∨ n = nameExtra ∨ Named ov n := by
  obtain ⟨m, h1, h2⟩ := mapM_some (l := ov) (fun e he => by obtain ⟨n, rfl, -⟩ := h e he; rfl)
  subst h2
  have h3 : ∀ n ∈ m, n ≠ [] ∧ (if n.head? = some '_' then n.tail else n) ∈ x.names := by
    intro n hn
    obtain ⟨n', e, a, b⟩ := h (some n) (List.mem_map_of_mem hn)
    simp only [Option.some.injEq] at e
    subst e
    exact ⟨a, b⟩
  refine ⟨[nameHistory, nameData, nameExtra] ++ m.map (fun n => if n.head? = some '_' then n.tail else n), ?_, ?_⟩
  · unfold ignored
    rw [h1]
    simp only
    rw [override_ok h3]
  · intro n
    simp only [List.cons_append, List.nil_append, List.mem_cons, List.mem_map, Named, Option.some.injEq, exists_eq_right]
    refine or_congr_right (or_congr_right (or_congr_right ?_))
    constructor
    · rintro ⟨a, ha, hb⟩
      split at hb
      · rename_i hu
        right
        cases a with
        | nil => simp at hu
        | cons c s =>
          simp only [List.head?_cons, Option.some.injEq] at hu
          simp only [List.tail_cons] at hb
          subst hu hb
          exact ha
      · rename_i hu
        subst hb
        exact Or.inl ⟨ha, hu⟩
    · rintro (⟨ha, hb⟩ | ha)
      · exact ⟨n, ha, if_neg hb⟩
      · exact ⟨_, ha, by simp⟩

theorem same_iff {eq : P → P → Bool} {x y : Obj P E V} (hx : Sound x) (hy : Sound y) {ign : List Str}
    {exc : Str → Prop} (hi : ∀ n, n ∈ ign ↔ n = nameHistory ∨ n = nameData ∨ n = nameExtra ∨ exc n) :
    (x.names.filter (fun n => !decide (n ∈ ign))).all (same eq x y) = true ↔ Agree eq x y exc := by
  simp only [List.all_eq_true, List.mem_filter, Bool.not_eq_true', decide_eq_false_iff_not, hi]
  constructor
  · intro h
    constructor
    · intro n p hnp hne
      have hn : n ∈ x.params.map Prod.fst := List.mem_map.2 ⟨_, hnp, rfl⟩
      obtain ⟨a1, a2, a3, a4⟩ := hx.other n hn
      have := h n ⟨List.mem_append_left _ hn, by tauto⟩
      unfold same at this
      rw [if_neg a4, (get_iff hx.nodup).2 hnp] at this
      cases hg : get y.params n with
      | none => rw [hg] at this; simp at this
      | some q =>
        rw [hg] at this
        exact ⟨q, (get_iff hy.nodup).1 hg, this⟩
    · intro hne
      have := h nameFile ⟨by simp [Obj.names], by
        have e1 : nameFile ≠ nameHistory := by decide
        have e2 : nameFile ≠ nameData := by decide
        have e3 : nameFile ≠ nameExtra := by decide
        tauto⟩
      simpa [same, sameFile] using this
  · rintro ⟨h1, h2⟩ n ⟨hn, hne⟩
    unfold same
    rcases List.mem_append.1 hn with hn | hn
    · obtain ⟨a1, a2, a3, a4⟩ := hx.other n hn
      rw [if_neg a4]
      obtain ⟨⟨n', p⟩, hp, rfl⟩ := List.mem_map.1 hn
      obtain ⟨q, hq, he⟩ := h1 _ p hp (by tauto)
      rw [(get_iff hx.nodup).2 hp, (get_iff hy.nodup).2 hq]
      exact he
    · simp only [List.mem_cons, List.not_mem_nil, or_false] at hn
      rcases hn with rfl | rfl | rfl | rfl
      · exact absurd (Or.inl rfl) hne
      · exact absurd (Or.inr (Or.inl rfl)) hne
      · exact absurd (Or.inr (Or.inr (Or.inl rfl))) hne
      · rw [if_pos rfl]
        simp only [sameFile, decide_eq_true_eq]
        exact h2 (by tauto)

section dict
variable {A : Type}

theorem get_put (l : List (Str × A)) (e : Str × A) (k : Str) : get (put l e) k = if k = e.1 then some e.2 else get l k := by
  unfold put
  split
  · rename_i h
    induction l with
    | nil => simp at h
    | cons x l ih =>
      simp only [List.map_cons, get]
      by_cases hx : x.1 = e.1
      · simp only [hx, beq_self_eq_true, if_true, List.find?_cons]
        by_cases hk : k = e.1
        · subst hk
          simp
        · rw [if_neg hk]
          have hb : (e.1 == k) = false := by simpa using Ne.symm hk
          rw [hb]
          simp only
          by_cases hl : l.any (fun x => x.1 == e.1) = true
          · have := ih hl
            unfold get at this
            rw [this, if_neg hk]
          · have : l.map (fun x => if x.1 == e.1 then e else x) = l := by
              rw [List.map_congr_left (g := id), List.map_id]
              intro a ha
              have hne : ¬ (a.1 == e.1) = true := fun h => hl (List.any_eq_true.2 ⟨a, ha, h⟩)
              rw [if_neg hne]; rfl
            rw [this]
      · have hxb : (x.1 == e.1) = false := by simpa using hx
        simp only [hxb, Bool.false_eq_true, if_false, List.find?_cons]
        have hl : l.any (fun x => x.1 == e.1) = true := by
          rw [List.any_cons, hxb, Bool.false_or] at h
          exact h
        have := ih hl
        unfold get at this
        by_cases hk : x.1 = k
        · have : k ≠ e.1 := fun h => hx (hk.trans h)
          rw [if_neg this]
          simp [hk]
        · have hkb : (x.1 == k) = false := by simpa using hk
          rw [hkb]
          exact this
  · rename_i h
    unfold get
    rw [List.find?_append]
    by_cases hk : k = e.1
    · subst hk
      have : l.find? (fun x => x.1 == e.1) = none := by
        rw [List.find?_eq_none]
        intro x hx hxe
        exact h (List.any_eq_true.2 ⟨x, hx, hxe⟩)
      rw [this]
      simp
    · rw [if_neg hk]
      have hb : (e.1 == k) = false := by simpa using Ne.symm hk
      cases l.find? (fun x => x.1 == k) with
      | none => simp [hb]
      | some v => simp

theorem get_dict (l m : List (Str × A)) (hm : (m.map Prod.fst).Nodup) (k : Str) :
    get (m.foldl put l) k = (get m k).or (get l k) := by
  induction m generalizing l with
  | nil => rfl
  | cons e m ih =>
    have hn := List.nodup_cons.1 hm
    rw [List.foldl_cons, ih _ hn.2, get_put]
    have hc : get (e :: m) k = if k = e.1 then some e.2 else get m k := by
      unfold get
      rw [List.find?_cons]
      by_cases hk : k = e.1
      · subst hk; simp
      · rw [if_neg hk]
        have : (e.1 == k) = false := by simpa using Ne.symm hk
        rw [this]
    rw [hc]
    by_cases hk : k = e.1
    · rw [if_pos hk, if_pos hk]
      have : get m k = none := by
        cases hg : get m k with
        | none => rfl
        | some v =>
          have := (get_iff hn.2).1 hg
          rw [hk] at this
          exact absurd (List.mem_map.2 ⟨_, this, rfl⟩) hn.1
      rw [this]
      rfl
    · rw [if_neg hk, if_neg hk]

end dict

variable [AddGroup V]

/-- C143: with the checks passed and the overrides understood, visibilities are added (subtracted) exactly if the
parameters and file names that are not overridden agree; if they do not, nothing changes. -/
theorem accepted_iff (eq : P → P → Bool) (ok : List (Str × P) → Bool) (diff verbose : Bool) {ov : List (Option Str)}
    {x y : Obj P E V} (hx : Sound x) (hy : Sound y) (cx : check ok x = true) (cy : check ok y = true)
    (ho : Understood x ov) :
    ((sumVis eq ok diff verbose false ov x y).2 = none ↔ Agree eq x y (Named ov)) ∧
      ((sumVis eq ok diff verbose false ov x y).2 ≠ none → sumVis eq ok diff verbose false ov x y = (x, some .differs)) := by
  obtain ⟨ign, h1, h2⟩ := ignored_ok ho
  have hs := same_iff (eq := eq) hx hy h2
  unfold sumVis
  simp only [cx, cy, h1, Bool.not_true, Bool.false_eq_true, if_false, Bool.false_and]
  by_cases h : Agree eq x y (Named ov)
  · rw [if_pos (hs.2 h)]
    simp [h]
  · rw [if_neg (fun e => h (hs.1 e))]
    simp [h]

/-- C143: an override that is a string but not a name is an error, and nothing changes. -/
theorem misnamed (eq : P → P → Bool) (ok : List (Str × P) → Bool) (diff verbose run : Bool) {ov : List Str}
    {x y : Obj P E V} (ho : ¬ Understood x (ov.map some)) :
    ∃ e, sumVis eq ok diff verbose run (ov.map some) x y = (x, some e) := by
  have hm : (ov.map some).mapM id = some ov := by
    induction ov with
    | nil => rfl
    | cons a l ih =>
      rw [List.map_cons, List.mapM_cons]
      by_cases h : Understood x (l.map some)
      · obtain ⟨m, h1, h2⟩ := mapM_some (l := l.map some) (fun e he => by
          obtain ⟨n, -, rfl⟩ := List.mem_map.1 he; rfl)
        have : l = m := (List.map_injective_iff.2 (Option.some_injective _)) h2
        rw [h1, ← this]
        rfl
      · rw [ih h]
        rfl
  obtain ⟨e, he⟩ := override_err (names := x.names) (l := ov) (fun h => ho (fun e he => by
    obtain ⟨n, hn, rfl⟩ := List.mem_map.1 he
    exact ⟨n, rfl, h n hn⟩))
  unfold sumVis
  by_cases cx : check ok x = true
  · by_cases cy : check ok y = true
    · refine ⟨e, ?_⟩
      simp only [cx, cy, Bool.not_true, Bool.false_eq_true, if_false, ignored, hm, he]
    · exact ⟨.checkOther, by simp only [cx, cy, Bool.not_true, Bool.not_false, Bool.false_eq_true, if_false, if_true]⟩
  · exact ⟨.checkThis, by simp only [cx, Bool.not_false, if_true]⟩

theorem sum_combined {eq : P → P → Bool} {ok : List (Str × P) → Bool} {diff verbose run : Bool} {ov : List (Option Str)}
    {x y z : Obj P E V} (h : sumVis eq ok diff verbose run ov x y = (z, none)) : z = combined diff verbose x y := by
  unfold sumVis at h
  split at h
  · simp at h
  split at h
  · simp at h
  split at h
  · simp at h
  split at h
  · split at h
    · simp at h
    · simp only [Prod.mk.injEq, and_true] at h
      exact h.symm
  · simp at h

/-- C143: what comes out.  Parameters are those of the first object, also for an object with overrides that are not
understood, and with the final check. -/
theorem sum_ok {eq : P → P → Bool} {ok : List (Str × P) → Bool} {diff verbose run : Bool} {ov : List (Option Str)}
    {x y z : Obj P E V} (hx : (x.extra.map Prod.fst).Nodup) (hy : (y.extra.map Prod.fst).Nodup)
    (h : sumVis eq ok diff verbose run ov x y = (z, none)) :
    z.data = (if diff then x.data - y.data else x.data + y.data) ∧ z.params = x.params ∧
      (∀ k, get z.extra k = (get x.extra k).or (get y.extra k)) ∧
      (x.history ++ (if diff then " Visibilities differenced using pyuvdata."
        else " Visibilities summed using pyuvdata.").toList) <+: z.history ∧
      (∀ f, (∃ l, z.filename = some l ∧ f ∈ l) ↔
        (∃ l, x.filename = some l ∧ f ∈ l) ∨ (∃ l, y.filename = some l ∧ f ∈ l)) := by
  have hz := sum_combined h
  subst hz
  refine ⟨rfl, rfl, ?_, ?_, ?_⟩
  · intro k
    show get (dictOf (y.extra ++ x.extra)) k = _
    unfold dictOf
    rw [List.foldl_append, get_dict _ _ hx, get_dict _ _ hy]
    have : get ([] : List (Str × E)) k = none := rfl
    rw [this, Option.or_none]
  · show _ <+: newHistory diff verbose x.history y.history
    unfold newHistory
    dsimp only
    generalize (if diff then " Visibilities differenced using pyuvdata."
      else " Visibilities summed using pyuvdata.").toList = t
    split
    · exact List.prefix_refl _
    · split
      · exact (List.prefix_append _ _).trans (List.prefix_append _ _)
      · split
        · exact List.prefix_refl _
        · exact (List.prefix_append _ _).trans (List.prefix_append _ _)
  · intro f
    show (∃ l, combineFiles x.filename y.filename = some l ∧ f ∈ l) ↔ _
    unfold combineFiles
    cases x.filename <;> cases y.filename <;> simp [List.mem_insertionSort]

/-- C143: every error but that of the final check leaves the object as it was. -/
theorem unchanged {eq : P → P → Bool} {ok : List (Str × P) → Bool} {diff verbose run : Bool} {ov : List (Option Str)}
    {x y z : Obj P E V} {e : Err} (h : sumVis eq ok diff verbose run ov x y = (z, some e)) (he : e ≠ .checkFinal) :
    z = x := by
  unfold sumVis at h
  split at h
  · simp at h; exact h.1.symm
  split at h
  · simp at h; exact h.1.symm
  split at h
  · simp at h; exact h.1.symm
  split at h
  · split at h
    · simp at h; exact absurd h.2.symm he
    · simp at h
  · simp at h; exact h.1.symm

/-- C143: the final check passes for objects that pass theirs, unless file names are overridden: then it passes exactly
if there are as many names afterwards as the first object had. -/
theorem final_partial (ok : List (Str × P) → Bool) (diff verbose : Bool) {x y : Obj P E V} (cx : check ok x = true)
    (hn : ∀ l, x.filename = some l → l.Nodup) (hf : x.filename = y.filename) :
    check ok (combined diff verbose x y) = true := by
  unfold check at cx ⊢
  simp only [Bool.and_eq_true] at cx ⊢
  refine ⟨cx.1, ?_⟩
  have hc := cx.2
  show (match combineFiles x.filename y.filename with
    | none => true
    | some l => l.length == x.form) = true
  rw [← hf]
  unfold combineFiles
  cases hx : x.filename with
  | none => rfl
  | some l =>
    rw [hx] at hc
    simp only [List.length_insertionSort] at hc ⊢
    have : (l ++ l).dedup.length = l.length := by
      have h1 : (l ++ l).dedup.Perm l.dedup := by
        rw [List.perm_ext_iff_of_nodup (List.nodup_dedup _) (List.nodup_dedup _)]
        intro a
        simp
      rw [h1.length_eq, (hn l hx).dedup]
    rw [this]
    exact hc

/-- C144: the difference undoes the sum, and the sum the difference. -/
theorem sum_diff {eq : P → P → Bool} {ok : List (Str × P) → Bool} {diff v1 v2 r1 r2 : Bool} {ov ov' : List (Option Str)}
    {x y z w : Obj P E V} (h1 : sumVis eq ok diff v1 r1 ov x y = (z, none))
    (h2 : sumVis eq ok (!diff) v2 r2 ov' z y = (w, none)) :
    w.data = x.data ∧ w.params = x.params := by
  rw [sum_combined h2, sum_combined h1]
  refine ⟨?_, rfl⟩
  cases diff <;> simp [combined]

end Verif.SumVis
