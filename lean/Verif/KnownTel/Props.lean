import Verif.KnownTel.Model
import Mathlib.Data.List.Perm.Subperm
import Mathlib.Tactic.Set

namespace Verif.KnownTel
open Verif.Pol (Str)

variable {L P K : Type}

/-! ## What is set stays -/

/-- Every parameter of `t` that is set is the same in `u`. -/
structure Keeps (t u : Tel L P K) : Prop where
  loc : ∀ x, t.loc = some x → u.loc = some x
  nants : ∀ x, t.nants = some x → u.nants = some x
  names : ∀ x, t.names = some x → u.names = some x
  nums : ∀ x, t.nums = some x → u.nums = some x
  pos : ∀ x, t.pos = some x → u.pos = some x
  diam : ∀ x, t.diam = some x → u.diam = some x
  orient : ∀ x, t.orient = some x → u.orient = some x

theorem Keeps.rfl {t : Tel L P K} : Keeps t t := by constructor <;> exact fun _ h => h

theorem Keeps.trans {t u v : Tel L P K} (a : Keeps t u) (b : Keeps u v) : Keeps t v :=
  ⟨fun x h => b.loc x (a.loc x h), fun x h => b.nants x (a.nants x h), fun x h => b.names x (a.names x h),
   fun x h => b.nums x (a.nums x h), fun x h => b.pos x (a.pos x h), fun x h => b.diam x (a.diam x h),
   fun x h => b.orient x (a.orient x h)⟩

theorem ants_keeps (info : Info P) (t : Tel L P K) : Keeps t (fillAnts false info t) := by
  unfold fillAnts
  split
  · split
    · rename_i h
      simp only [Bool.false_or, Bool.and_eq_true, Option.isNone_iff_eq_none] at h
      constructor <;> intro x hx <;> simp_all
    · split
      · dsimp only
        split
        · exact Keeps.rfl
        · constructor <;> intro x hx <;> simp_all
      · exact Keeps.rfl
  · exact Keeps.rfl

theorem diam_keeps (d : List K) (t : Tel L P K) : Keeps t (fillDiam false d t) := by
  unfold fillDiam
  split
  · rename_i h
    simp only [Bool.false_or, Option.isNone_iff_eq_none] at h
    split
    · exact Keeps.rfl
    · split
      · constructor <;> intro x hx <;> simp_all
      · split
        · constructor <;> intro x hx <;> simp_all
        · exact Keeps.rfl
  · exact Keeps.rfl

theorem orient_keeps (x : Str) (t : Tel L P K) : Keeps t (fillOrient false x t) := by
  unfold fillOrient
  split
  · rename_i h
    simp only [Bool.false_or, Option.isNone_iff_eq_none] at h
    constructor <;> intro x hx <;> simp_all
  · exact Keeps.rfl

/-- C149: without `overwrite`, what is set does not change. -/
theorem kept (loc : Option L) (entry : Option (Entry P K)) (t u : Tel L P K)
    (h : update false loc entry t = some u) : Keeps t u := by
  unfold update at h
  rw [Option.map_eq_some_iff] at h
  obtain ⟨t1, h1, h2⟩ := h
  have k1 : Keeps t t1 := by
    unfold fillLoc at h1
    split at h1
    · rename_i hn
      simp only [Bool.false_or, Option.isNone_iff_eq_none] at hn
      split at h1
      · simp at h1
      · simp only [Option.some.injEq] at h1
        subst h1
        constructor <;> intro x hx <;> simp_all
    · simp only [Option.some.injEq] at h1
      subst h1
      exact Keeps.rfl
  have kk : ∀ {α : Type} (x : Option α) (f : α → Tel L P K → Tel L P K) (t : Tel L P K), (∀ a t, Keeps t (f a t)) →
      Keeps t (ifKnown x f t) := by
    intro α x f t hf
    unfold ifKnown
    split
    · exact Keeps.rfl
    · exact hf _ _
  refine k1.trans ?_
  rw [← h2]
  exact kk _ _ _ (fun e t => ((kk _ _ _ ants_keeps).trans (kk _ _ _ diam_keeps)).trans (kk _ _ _ orient_keeps))

/-! ## What is missing is filled -/

theorem byName_eq (info : Info P) (a b : List Str) (ha : ∀ x ∈ a, x ∈ info.names) (hb : ∀ x ∈ b, x ∉ info.names) :
    byName info (some (a ++ b)) = a.zipIdx.map (fun e => (e.2, info.names.idxOf e.1)) := by
  unfold byName
  dsimp only
  rw [List.zipIdx_append, List.filterMap_append]
  have h2 : (b.zipIdx (0 + a.length)).filterMap
      (fun e => if e.1 ∈ info.names then some (e.2, info.names.idxOf e.1) else none) = [] := by
    rw [List.filterMap_eq_nil_iff]
    intro e he
    rw [if_neg (hb e.1 (List.fst_mem_of_mem_zipIdx he))]
  rw [h2, List.append_nil]
  rw [← List.filterMap_eq_map]
  apply List.filterMap_congr
  intro e he
  rw [if_pos (ha e.1 (List.fst_mem_of_mem_zipIdx he))]
  rfl

/-- One step of the search by number. -/
def step (info : Info P) (acc : List (Nat × Nat)) (e : Nat × Nat) : List (Nat × Nat) :=
  if e.2 ∉ acc.map (·.1) ∧ e.1 ∈ info.nums ∧ info.nums.idxOf e.1 ∉ acc.map (·.2) then
    acc ++ [(e.2, info.nums.idxOf e.1)] else acc

theorem fold_skip (info : Info P) (l : List (Nat × Nat)) (acc : List (Nat × Nat)) (h : ∀ e ∈ l, e.2 ∈ acc.map (·.1)) :
    l.foldl (step info) acc = acc := by
  induction l generalizing acc with
  | nil => rfl
  | cons e l ih =>
    rw [List.foldl_cons]
    have : step info acc e = acc := by
      unfold step
      rw [if_neg]
      exact fun hc => hc.1 (h e List.mem_cons_self)
    rw [this]
    exact ih acc (fun f hf => h f (List.mem_cons_of_mem _ hf))

theorem fold_take (info : Info P) (l : List (Nat × Nat)) (acc : List (Nat × Nat))
    (h1 : (acc.map (·.1) ++ l.map (·.2)).Nodup) (h2 : ∀ e ∈ l, e.1 ∈ info.nums)
    (h3 : (acc.map (·.2) ++ l.map (fun e => info.nums.idxOf e.1)).Nodup) :
    l.foldl (step info) acc = acc ++ l.map (fun e => (e.2, info.nums.idxOf e.1)) := by
  induction l generalizing acc with
  | nil => simp
  | cons e l ih =>
    rw [List.foldl_cons]
    have : step info acc e = acc ++ [(e.2, info.nums.idxOf e.1)] := by
      unfold step
      rw [if_pos]
      refine ⟨?_, h2 e List.mem_cons_self, ?_⟩
      · intro hc
        exact (List.nodup_append.1 h1).2.2 _ hc _ (by simp) rfl
      · intro hc
        exact (List.nodup_append.1 h3).2.2 _ hc _ (by simp) rfl
    rw [this, ih]
    · simp
    · simpa using h1
    · exact fun f hf => h2 f (List.mem_cons_of_mem _ hf)
    · simpa using h3

theorem zipIdx_snd {α : Type} (l : List α) (k : Nat) : (l.zipIdx k).map (·.2) = List.range' k l.length := by
  induction l generalizing k with
  | nil => rfl
  | cons x l ih => simp [List.range'_succ, ih]

theorem zipIdx_fst {α : Type} (l : List α) (k : Nat) : (l.zipIdx k).map (·.1) = l := by
  induction l generalizing k with
  | nil => rfl
  | cons x l ih => simp [ih]

/-- The antennas `a` are in the file by name, the antennas `d` after them by number, each a different antenna of the
file. -/
structure Found (info : Info P) (t : Tel L P K) (a : List Str) (d : List Nat) : Prop where
  names : (∃ b, t.names = some (a ++ b) ∧ ∀ x ∈ b, x ∉ info.names) ∨ (t.names = none ∧ a = [])
  nums : (∃ c, t.nums = some (c ++ d) ∧ c.length = a.length) ∨ (t.nums = none ∧ d = [])
  nants : t.nants = some (a.length + d.length)
  inNames : ∀ x ∈ a, x ∈ info.names
  inNums : ∀ x ∈ d, x ∈ info.nums
  distinct : (a.map (fun x => info.names.idxOf x) ++ d.map (fun x => info.nums.idxOf x)).Nodup

theorem found_idx {info : Info P} {t : Tel L P K} {a : List Str} {d : List Nat} (h : Found info t a d) :
    (byNum info t.nums t.nants (byName info t.names)).map (·.2) =
      a.map (fun x => info.names.idxOf x) ++ d.map (fun x => info.nums.idxOf x) := by
  have hbn : byName info t.names = a.zipIdx.map (fun e => (e.2, info.names.idxOf e.1)) := by
    rcases h.names with ⟨b, hb, hb2⟩ | ⟨hb, ha⟩
    · rw [hb]; exact byName_eq info a b h.inNames hb2
    · rw [hb, ha]; rfl
  have hsnd : (a.zipIdx.map (fun e => (e.2, info.names.idxOf e.1))).map (·.2) = a.map (fun x => info.names.idxOf x) := by
    rw [List.map_map]
    conv_rhs => rw [← zipIdx_fst a 0, List.map_map]
    rfl
  have hfst : (a.zipIdx.map (fun e => (e.2, info.names.idxOf e.1))).map (·.1) = List.range' 0 a.length := by
    rw [List.map_map]
    exact zipIdx_snd a 0
  rw [hbn]
  unfold byNum
  rcases h.nums with ⟨c, hc, hcl⟩ | ⟨hn, hd⟩
  · rw [hc, h.nants]
    dsimp only
    split
    · show (((c ++ d).zipIdx).foldl (step info) _).map (·.2) = _
      rw [List.zipIdx_append, List.foldl_append]
      rw [fold_skip info c.zipIdx, fold_take]
      · rw [List.map_append, hsnd, List.map_map]
        congr 1
        conv_rhs => rw [← zipIdx_fst d (0 + c.length), List.map_map]
        rfl
      · rw [hfst, zipIdx_snd, hcl, Nat.zero_add]
        have : List.range' 0 a.length ++ List.range' a.length d.length = List.range' 0 (a.length + d.length) := by
          simpa using List.range'_append_1 (s := 0) (m := a.length) (n := d.length)
        rw [this]
        exact List.nodup_range'
      · intro e he
        exact h.inNums e.1 (List.fst_mem_of_mem_zipIdx he)
      · rw [hsnd]
        have : (d.zipIdx (0 + c.length)).map (fun e => info.nums.idxOf e.1) = d.map (fun x => info.nums.idxOf x) := by
          conv_rhs => rw [← zipIdx_fst d (0 + c.length), List.map_map]
          rfl
        rw [this]
        exact h.distinct
      · intro e he
        rw [hfst]
        have : e.2 ∈ (c.zipIdx).map (·.2) := List.mem_map.2 ⟨e, he, rfl⟩
        rw [zipIdx_snd, hcl] at this
        exact this
    · rename_i hl
      rw [hsnd]
      have hl : a.length = a.length + d.length := by simpa using hl
      have : d = [] := List.length_eq_zero_iff.1 (by omega)
      rw [this]
      simp
  · rw [hn, hd]
    simp only [List.map_nil, List.append_nil]
    exact hsnd

theorem takeAll_get {α : Type} (l : List α) (idx : List Nat) (h : ∀ i ∈ idx, i < l.length) :
    (takeAll l idx).length = idx.length ∧ ∀ i : Nat, (takeAll l idx)[i]? = idx[i]?.bind (fun j => l[j]?) := by
  unfold takeAll
  induction idx with
  | nil => simp
  | cons k idx ih =>
    obtain ⟨h1, h2⟩ := ih (fun i hi => h i (List.mem_cons_of_mem _ hi))
    have hk := h k List.mem_cons_self
    rw [List.filterMap_cons_some (List.getElem?_eq_getElem hk)]
    refine ⟨by simp [h1], ?_⟩
    intro i
    cases i with
    | zero => simp [List.getElem?_eq_getElem hk]
    | succ i => simpa using h2 i

/-- The first step that touches antennas, in the whole. -/
theorem update_ants {loc : Option L} {e : Entry P K} {info : Info P} (he : e.ants = some info) {overwrite : Bool}
    {t u : Tel L P K} (h : update overwrite loc (some e) t = some u) :
    ∃ t1 : Tel L P K, (t1.names = t.names ∧ t1.nums = t.nums ∧ t1.pos = t.pos ∧ t1.nants = t.nants) ∧
      u.names = (fillAnts overwrite info t1).names ∧ u.nums = (fillAnts overwrite info t1).nums ∧
      u.pos = (fillAnts overwrite info t1).pos ∧ u.nants = (fillAnts overwrite info t1).nants := by
  unfold update at h
  rw [Option.map_eq_some_iff] at h
  obtain ⟨t1, h1, h2⟩ := h
  refine ⟨t1, ?_, ?_⟩
  · unfold fillLoc at h1
    split at h1
    · split at h1
      · simp at h1
      · rw [← Option.some.inj h1]; exact ⟨rfl, rfl, rfl, rfl⟩
    · rw [← Option.some.inj h1]; exact ⟨rfl, rfl, rfl, rfl⟩
  · simp only [ifKnown, he] at h2
    generalize fillAnts overwrite info t1 = v at h2
    have hd : ∀ (d : List K) (v : Tel L P K), (fillDiam overwrite d v).names = v.names ∧
        (fillDiam overwrite d v).nums = v.nums ∧ (fillDiam overwrite d v).pos = v.pos ∧
        (fillDiam overwrite d v).nants = v.nants := by
      intro d v
      unfold fillDiam
      split
      · split
        · exact ⟨rfl, rfl, rfl, rfl⟩
        · split
          · exact ⟨rfl, rfl, rfl, rfl⟩
          · split <;> exact ⟨rfl, rfl, rfl, rfl⟩
      · exact ⟨rfl, rfl, rfl, rfl⟩
    have ho : ∀ (x : Str) (v : Tel L P K), (fillOrient overwrite x v).names = v.names ∧
        (fillOrient overwrite x v).nums = v.nums ∧ (fillOrient overwrite x v).pos = v.pos ∧
        (fillOrient overwrite x v).nants = v.nants := by
      intro x v
      unfold fillOrient
      split <;> exact ⟨rfl, rfl, rfl, rfl⟩
    rw [← h2]
    split <;> split
    · exact ⟨rfl, rfl, rfl, rfl⟩
    · exact hd _ _
    · exact ho _ _
    · obtain ⟨a1, a2, a3, a4⟩ := ho ‹_› (fillDiam overwrite ‹_› v)
      obtain ⟨b1, b2, b3, b4⟩ := hd ‹_› v
      exact ⟨a1.trans b1, a2.trans b2, a3.trans b3, a4.trans b4⟩

/-- C149: missing positions, names and numbers are those of the same antennas in the file, if all antennas are there and
those found by name come before those found by number. -/
theorem filled_partial (loc : Option L) (e : Entry P K) (info : Info P) (t u : Tel L P K)
    (he : e.ants = some info) (h : update false loc (some e) t = some u)
    (a : List Str) (d : List Nat) (hf : Found info t a d) (hset : t.names.isSome ∨ t.nums.isSome)
    (hl1 : info.nums.length = info.names.length) (hl2 : info.pos.length = info.names.length) :
    ∃ j : Nat → Nat,
      (∀ i < a.length, info.names[j i]? = a[i]?) ∧ (∀ i < d.length, info.nums[j (a.length + i)]? = d[i]?) ∧
      (t.pos = none → ∃ ps, u.pos = some ps ∧ ps.length = a.length + d.length ∧
        ∀ i < a.length + d.length, ps[i]? = info.pos[j i]?) ∧
      (t.names = none → ∃ ns, u.names = some ns ∧ ns.length = a.length + d.length ∧
        ∀ i < a.length + d.length, ns[i]? = info.names[j i]?) ∧
      (t.nums = none → ∃ ms, u.nums = some ms ∧ ms.length = a.length + d.length ∧
        ∀ i < a.length + d.length, ms[i]? = info.nums[j i]?) := by
  obtain ⟨t1, ⟨e1, e2, e3, e4⟩, u1, u2, u3, -⟩ := update_ants he h
  have hf1 : Found info t1 a d := ⟨e1 ▸ hf.names, e2 ▸ hf.nums, e4 ▸ hf.nants, hf.inNames, hf.inNums, hf.distinct⟩
  have hidx := found_idx hf1
  set idx := a.map (fun x => info.names.idxOf x) ++ d.map (fun x => info.nums.idxOf x) with hi
  have hlen : idx.length = a.length + d.length := by simp [hi]
  have hlt : ∀ i ∈ idx, i < info.names.length := by
    intro i hm
    rcases List.mem_append.1 hm with hm | hm
    · obtain ⟨x, hx, rfl⟩ := List.mem_map.1 hm
      exact List.idxOf_lt_length_iff.2 (hf.inNames x hx)
    · obtain ⟨x, hx, rfl⟩ := List.mem_map.1 hm
      rw [← hl1]
      exact List.idxOf_lt_length_iff.2 (hf.inNums x hx)
  have hfound : some (byNum info t1.nums t1.nants (byName info t1.names)).length = t1.nants := by
    rw [← List.length_map (f := (·.2)), hidx, hlen, hf1.nants]
  have hset1 : (t1.names.isSome || t1.nums.isSome) = true := by rw [e1, e2]; simpa using hset
  have hfill : (t1.names.isNone || t1.nums.isNone || t1.pos.isNone) = true →
      fillAnts false info t1 = { t1 with
          pos := t1.pos.or (some (takeAll info.pos idx))
          names := t1.names.or (some (takeAll info.names idx))
          nums := t1.nums.or (some (takeAll info.nums idx)) } := by
    intro hn
    unfold fillAnts
    rw [if_pos (by simp only [Bool.false_or, hn, Bool.true_or]), if_neg (by simp [hf1.nants]), if_pos hset1]
    dsimp only
    rw [if_neg (by simpa using hfound), hidx]
  refine ⟨fun i => idx.getD i 0, ?_, ?_, ?_, ?_, ?_⟩
  · intro i hi'
    have : idx.getD i 0 = info.names.idxOf a[i] := by
      rw [List.getD_eq_getElem?_getD, hi, List.getElem?_append_left (by simpa using hi')]
      simp [List.getElem?_eq_getElem hi']
    dsimp only
    rw [this, List.getElem?_eq_getElem hi',
      List.getElem?_eq_getElem (List.idxOf_lt_length_iff.2 (hf.inNames _ (List.getElem_mem hi')))]
    simp
  · intro i hi'
    have : idx.getD (a.length + i) 0 = info.nums.idxOf d[i] := by
      rw [List.getD_eq_getElem?_getD, hi, List.getElem?_append_right (by simp)]
      simp [List.getElem?_eq_getElem hi']
    dsimp only
    rw [this, List.getElem?_eq_getElem hi',
      List.getElem?_eq_getElem (List.idxOf_lt_length_iff.2 (hf.inNums _ (List.getElem_mem hi')))]
    simp
  · intro hp
    have hp1 : t1.pos = none := e3.trans hp
    rw [u3, hfill (by simp [hp1])]
    obtain ⟨g1, g2⟩ := takeAll_get info.pos idx (fun i hm => by rw [hl2]; exact hlt i hm)
    refine ⟨takeAll info.pos idx, by simp [hp1], by rw [g1, hlen], ?_⟩
    intro i hi'
    dsimp only
    rw [g2 i, List.getD_eq_getElem?_getD, List.getElem?_eq_getElem (by omega)]
    rfl
  · intro hp
    have hp1 : t1.names = none := e1.trans hp
    rw [u1, hfill (by simp [hp1])]
    obtain ⟨g1, g2⟩ := takeAll_get info.names idx hlt
    refine ⟨takeAll info.names idx, by simp [hp1], by rw [g1, hlen], ?_⟩
    intro i hi'
    dsimp only
    rw [g2 i, List.getD_eq_getElem?_getD, List.getElem?_eq_getElem (by omega)]
    rfl
  · intro hp
    have hp1 : t1.nums = none := e2.trans hp
    rw [u2, hfill (by simp [hp1])]
    obtain ⟨g1, g2⟩ := takeAll_get info.nums idx (fun i hm => by rw [hl1]; exact hlt i hm)
    refine ⟨takeAll info.nums idx, by simp [hp1], by rw [g1, hlen], ?_⟩
    intro i hi'
    dsimp only
    rw [g2 i, List.getD_eq_getElem?_getD, List.getElem?_eq_getElem (by omega)]
    rfl

/-- C149: if nothing about the antennas is set, everything is taken from the file; with `overwrite` in any case. -/
theorem all_filled (overwrite : Bool) (loc : Option L) (e : Entry P K) (info : Info P) (t u : Tel L P K)
    (he : e.ants = some info) (h : update overwrite loc (some e) t = some u)
    (hn : overwrite = true ∨ (t.names = none ∧ t.nums = none ∧ t.pos = none ∧ t.nants = none)) :
    u.names = some info.names ∧ u.nums = some info.nums ∧ u.pos = some info.pos ∧ u.nants = some info.names.length := by
  obtain ⟨t1, ⟨e1, e2, e3, e4⟩, u1, u2, u3, u4⟩ := update_ants he h
  have : fillAnts overwrite info t1 = { t1 with
      nants := some info.names.length, names := some info.names, nums := some info.nums, pos := some info.pos } := by
    unfold fillAnts
    rcases hn with rfl | ⟨n1, n2, n3, n4⟩
    · simp
    · rw [if_pos (by simp [e1, n1]), if_pos (by simp [e1, e2, e3, e4, n1, n2, n3, n4])]
  rw [u1, u2, u3, u4, this]
  exact ⟨rfl, rfl, rfl, rfl⟩

/-! ## The other parameters -/

theorem loc_eq (overwrite : Bool) (loc : Option L) (entry : Option (Entry P K)) (t u : Tel L P K)
    (h : update overwrite loc entry t = some u) :
    u.loc = (if overwrite then loc else t.loc.or loc) ∧ u.loc.isSome := by
  unfold update at h
  rw [Option.map_eq_some_iff] at h
  obtain ⟨t1, h1, h2⟩ := h
  have hk : ∀ v : Tel L P K, (ifKnown entry (fun e t =>
    ifKnown e.orient (fillOrient overwrite) (ifKnown e.diam (fillDiam overwrite)
      (ifKnown e.ants (fillAnts overwrite) t))) v).loc = v.loc := by
    intro v
    have ha : ∀ (i : Info P) (v : Tel L P K), (fillAnts overwrite i v).loc = v.loc := by
      intro i v
      unfold fillAnts
      dsimp only
      split
      · split
        · rfl
        · split
          · split <;> rfl
          · rfl
      · rfl
    have hd : ∀ (d : List K) (v : Tel L P K), (fillDiam overwrite d v).loc = v.loc := by
      intro d v
      unfold fillDiam
      split
      · split
        · rfl
        · split
          · rfl
          · split <;> rfl
      · rfl
    have ho : ∀ (x : Str) (v : Tel L P K), (fillOrient overwrite x v).loc = v.loc := by
      intro x v
      unfold fillOrient
      split <;> rfl
    have hany : ∀ {α : Type} (x : Option α) (f : α → Tel L P K → Tel L P K) (v : Tel L P K),
        (∀ a v, (f a v).loc = v.loc) → (ifKnown x f v).loc = v.loc := by
      intro α x f v hf
      unfold ifKnown
      split
      · rfl
      · exact hf _ _
    apply hany
    intro e v
    rw [hany _ _ _ ho, hany _ _ _ hd, hany _ _ _ ha]
  rw [← h2, hk]
  unfold fillLoc at h1
  cases overwrite <;> cases hl : t.loc <;> cases hloc : loc <;> simp [hl, hloc] at h1 <;> subst h1 <;> simp [hl]

/-- C149: the orientation of the table is taken if none is set or with `overwrite`; one diameter is given to every
antenna, a list of diameters is taken if it has one for each. -/
theorem others_filled (overwrite : Bool) (loc : Option L) (e : Entry P K) (t u : Tel L P K)
    (h : update overwrite loc (some e) t = some u) :
    (∀ x, e.orient = some x → (overwrite = true ∨ t.orient = none) → u.orient = some x) ∧
    (∀ x n, e.diam = some [x] → (overwrite = true ∨ t.diam = none) → u.nants = some n →
      u.diam = some (List.replicate n x)) ∧
    (∀ l, e.diam = some l → l.length ≠ 1 → (overwrite = true ∨ t.diam = none) → u.nants = some l.length →
      u.diam = some l) ∧
    (∀ l, e.diam = some l → l.length ≠ 1 → u.nants ≠ some l.length → u.diam = t.diam) := by
  unfold update at h
  rw [Option.map_eq_some_iff] at h
  obtain ⟨t1, h1, h2⟩ := h
  have e1 : t1.orient = t.orient ∧ t1.diam = t.diam := by
    unfold fillLoc at h1
    split at h1
    · split at h1
      · simp at h1
      · rw [← Option.some.inj h1]; exact ⟨rfl, rfl⟩
    · rw [← Option.some.inj h1]; exact ⟨rfl, rfl⟩
  rw [ifKnown] at h2
  have ha : ∀ (i : Info P) (v : Tel L P K), (fillAnts overwrite i v).orient = v.orient ∧
      (fillAnts overwrite i v).diam = v.diam := by
    intro i v
    unfold fillAnts
    dsimp only
    split
    · split
      · exact ⟨rfl, rfl⟩
      · split
        · split <;> exact ⟨rfl, rfl⟩
        · exact ⟨rfl, rfl⟩
    · exact ⟨rfl, rfl⟩
  have e2 : (ifKnown e.ants (fillAnts overwrite) t1).orient = t.orient ∧
      (ifKnown e.ants (fillAnts overwrite) t1).diam = t.diam := by
    unfold ifKnown
    split
    · exact e1
    · exact ⟨(ha _ _).1.trans e1.1, (ha _ _).2.trans e1.2⟩
  generalize ifKnown e.ants (fillAnts overwrite) t1 = v at e2 h2
  have hd : ∀ (d : List K) (v : Tel L P K), (fillDiam overwrite d v).orient = v.orient ∧
      (fillDiam overwrite d v).nants = v.nants := by
    intro d v
    unfold fillDiam
    split
    · split
      · exact ⟨rfl, rfl⟩
      · split
        · exact ⟨rfl, rfl⟩
        · split <;> exact ⟨rfl, rfl⟩
    · exact ⟨rfl, rfl⟩
  have ho : ∀ (x : Option Str) (v : Tel L P K), (ifKnown x (fillOrient overwrite) v).diam = v.diam ∧
      (ifKnown x (fillOrient overwrite) v).nants = v.nants := by
    intro x v
    unfold ifKnown
    split
    · exact ⟨rfl, rfl⟩
    · unfold fillOrient
      split <;> exact ⟨rfl, rfl⟩
  have e3 : (ifKnown e.diam (fillDiam overwrite) v).orient = t.orient ∧
      (ifKnown e.diam (fillDiam overwrite) v).nants = v.nants := by
    unfold ifKnown
    split
    · exact ⟨e2.1, rfl⟩
    · exact ⟨(hd _ _).1.trans e2.1, (hd _ _).2⟩
  refine ⟨?_, ?_, ?_, ?_⟩
  · intro x hx hn
    rw [← h2, hx, ifKnown]
    unfold fillOrient
    rw [e3.1, if_pos (by rcases hn with rfl | hn <;> simp_all)]
  · intro x n hx hn hu
    rw [← h2, (ho _ _).2, e3.2] at hu
    rw [← h2, (ho _ _).1, hx, ifKnown]
    unfold fillDiam
    rw [e2.2, hu, if_pos (by rcases hn with rfl | hn <;> simp_all)]
  · intro l hx hl hn hu
    rw [← h2, (ho _ _).2, e3.2] at hu
    rw [← h2, (ho _ _).1, hx, ifKnown]
    unfold fillDiam
    rw [e2.2, hu, if_pos (by rcases hn with rfl | hn <;> simp_all)]
    dsimp only
    split
    · exact absurd rfl hl
    · rw [if_pos rfl]
  · intro l hx hl hu
    rw [← h2, (ho _ _).2, e3.2] at hu
    rw [← h2, (ho _ _).1, hx, ifKnown, ← e2.2]
    unfold fillDiam
    split
    · split
      · rfl
      · rename_i n hn
        split
        · exact absurd rfl hl
        · rw [if_neg (by rintro rfl; exact hu hn)]
    · rfl

/-! ## Antennas that are not in the file -/

theorem fold_fst (info : Info P) (p : Nat → Prop) (l : List (Nat × Nat)) (acc : List (Nat × Nat))
    (h1 : (acc.map (·.1)).Nodup) (h2 : ∀ k ∈ acc.map (·.1), p k) (h3 : ∀ e ∈ l, e.1 ∈ info.nums → p e.2) :
    ((l.foldl (step info) acc).map (·.1)).Nodup ∧ ∀ k ∈ (l.foldl (step info) acc).map (·.1), p k := by
  induction l generalizing acc with
  | nil => exact ⟨h1, h2⟩
  | cons e l ih =>
    rw [List.foldl_cons]
    have h3' := fun f hf => h3 f (List.mem_cons_of_mem _ hf)
    unfold step
    split
    · rename_i hc
      apply ih _ _ _ h3'
      · rw [List.map_append, List.map_cons, List.map_nil, List.nodup_append]
        refine ⟨h1, by simp, ?_⟩
        intro x hx y hy
        simp only [List.mem_singleton] at hy
        subst hy
        exact fun he => hc.1 (he ▸ hx)
      · intro k hk
        rw [List.map_append, List.mem_append] at hk
        rcases hk with hk | hk
        · exact h2 k hk
        · simp only [List.map_cons, List.map_nil, List.mem_singleton] at hk
          rw [hk]
          exact h3 e List.mem_cons_self hc.2.1
    · exact ih acc h1 h2 h3'

theorem byName_fst (info : Info P) (names : Option (List Str)) :
    ((byName info names).map (·.1)).Nodup ∧
    ∀ k ∈ (byName info names).map (·.1), ∃ l x, names = some l ∧ l[k]? = some x ∧ x ∈ info.names := by
  unfold byName
  cases names with
  | none => simp
  | some l =>
    dsimp only
    constructor
    · have hs : List.Sublist ((l.zipIdx.filterMap (fun e =>
          if e.1 ∈ info.names then some (e.2, info.names.idxOf e.1) else none)).map (·.1)) (l.zipIdx.map (·.2)) := by
        generalize l.zipIdx = z
        induction z with
        | nil => simp
        | cons e z ih =>
          by_cases hm : e.1 ∈ info.names
          · rw [List.filterMap_cons_some (by rw [if_pos hm]), List.map_cons, List.map_cons]
            exact ih.cons_cons _
          · rw [List.filterMap_cons_none (by rw [if_neg hm]), List.map_cons]
            exact ih.cons _
      apply hs.nodup
      rw [zipIdx_snd]
      exact List.nodup_range'
    · intro k hk
      obtain ⟨q, hq, rfl⟩ := List.mem_map.1 hk
      obtain ⟨e, he, heq⟩ := List.mem_filterMap.1 hq
      split at heq
      · rename_i hm
        rw [← Option.some.inj heq]
        refine ⟨l, e.1, rfl, ?_, hm⟩
        have := List.mk_mem_zipIdx_iff_getElem? (l := l) (i := e.2) (x := e.1)
        exact this.1 he
      · simp at heq

/-- C149: if an antenna is not in the file, neither by name nor by number, nothing about antennas is filled. -/
theorem incomplete (loc : Option L) (e : Entry P K) (info : Info P) (t u : Tel L P K)
    (he : e.ants = some info) (h : update false loc (some e) t = some u) (n i : Nat) (hn : t.nants = some n) (hi : i < n)
    (h1 : ∀ l, t.names = some l → l.length = n ∧ ∀ x, l[i]? = some x → x ∉ info.names)
    (h2 : ∀ l, t.nums = some l → l.length = n ∧ ∀ x, l[i]? = some x → x ∉ info.nums) :
    u.names = t.names ∧ u.nums = t.nums ∧ u.pos = t.pos ∧ u.nants = t.nants := by
  obtain ⟨t1, ⟨e1, e2, e3, e4⟩, u1, u2, u3, u4⟩ := update_ants he h
  have hb := byName_fst info t1.names
  have hp : ((byNum info t1.nums t1.nants (byName info t1.names)).map (·.1)).Nodup ∧
      ∀ k ∈ (byNum info t1.nums t1.nants (byName info t1.names)).map (·.1), k < n ∧ k ≠ i := by
    have hb2 : ∀ k ∈ (byName info t1.names).map (·.1), k < n ∧ k ≠ i := by
      intro k hk
      obtain ⟨l, x, hl, hx, hm⟩ := hb.2 k hk
      obtain ⟨g1, g2⟩ := h1 l (e1 ▸ hl)
      refine ⟨g1 ▸ (List.getElem?_eq_some_iff.1 hx).1, ?_⟩
      rintro rfl
      exact g2 x hx hm
    unfold byNum
    split
    · exact ⟨hb.1, hb2⟩
    · rename_i l hl
      split
      · refine fold_fst info _ l.zipIdx _ hb.1 hb2 ?_
        intro f hf hm
        obtain ⟨g1, g2⟩ := h2 l (e2 ▸ hl)
        have hx : l[f.2]? = some f.1 := (List.mk_mem_zipIdx_iff_getElem? (l := l) (i := f.2) (x := f.1)).1 hf
        refine ⟨g1 ▸ (List.getElem?_eq_some_iff.1 hx).1, ?_⟩
        intro hc
        rw [hc] at hx
        exact g2 _ hx hm
      · exact ⟨hb.1, hb2⟩
  have hlt : (byNum info t1.nums t1.nants (byName info t1.names)).length < n := by
    generalize byNum info t1.nums t1.nants (byName info t1.names) = w at hp
    have hsub : (i :: w.map (·.1)).Subperm (List.range n) := by
      apply List.subperm_of_subset
      · rw [List.nodup_cons]
        exact ⟨fun hc => (hp.2 i hc).2 rfl, hp.1⟩
      · intro k hk
        rw [List.mem_range]
        rcases List.mem_cons.1 hk with rfl | hk
        · exact hi
        · exact (hp.2 k hk).1
    have := hsub.length_le
    simp only [List.length_cons, List.length_map, List.length_range] at this
    omega
  have hfa : fillAnts false info t1 = t1 := by
    unfold fillAnts
    split
    · rw [if_neg (by simp [e4, hn])]
      split
      · dsimp only
        rw [if_pos (by rw [e4, hn]; simp only [ne_eq, Option.some.injEq]; rw [e4, hn] at hlt; omega)]
      · rfl
    · rfl
  rw [u1, u2, u3, u4, hfa]
  exact ⟨e1, e2, e3, e4⟩

end Verif.KnownTel
