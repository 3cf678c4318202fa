import Verif.H5Head.Spec
import Mathlib.Data.List.Nodup
import Mathlib.Data.List.Perm.Basic

namespace Verif.H5Head
open Verif.Pol (Str)

variable {V : Type}

theorem seq_iff {α : Type} {l : List (Option α)} {m : List α} : seq l = some m ↔ l = m.map some := by
  induction l generalizing m with
  | nil => cases m <;> simp [seq]
  | cons x l ih =>
    unfold seq
    cases x with
    | none => cases m <;> simp
    | some a =>
      cases hs : seq l with
      | none =>
        cases m with
        | nil => simp
        | cons b m =>
          simp only [List.map_cons, List.cons.injEq, Option.some.injEq, reduceCtorEq, false_iff, not_and]
          intro _ h
          rw [ih.2 h] at hs
          simp at hs
      | some m' =>
        have := ih.1 hs
        subst this
        cases m with
        | nil => simp
        | cons b m =>
          simp only [Option.some.injEq, List.cons.injEq, List.map_cons]
          constructor
          · rintro ⟨rfl, rfl⟩; exact ⟨rfl, rfl⟩
          · rintro ⟨rfl, h⟩
            exact ⟨rfl, (List.map_injective_iff.2 (Option.some_injective α)) h⟩

theorem lookup_mem {α : Type} {l : List (Str × α)} {n : Str} {x : α} (hn : (l.map (·.1)).Nodup) (h : (n, x) ∈ l) :
    lookup l n = some x := by
  unfold lookup
  induction l with
  | nil => simp at h
  | cons e l ih =>
    rw [List.map_cons, List.nodup_cons] at hn
    by_cases he : e.1 = n
    · rw [List.find?_cons_of_pos (by simpa using he)]
      rcases List.mem_cons.1 h with h | h
      · rw [← h]; rfl
      · exact absurd (List.mem_map.2 ⟨_, h, he.symm⟩) hn.1
    · rw [List.find?_cons_of_neg (by simpa using he)]
      rcases List.mem_cons.1 h with h | h
      · exact absurd (by rw [← h]) he
      · exact ih hn.2 h

theorem lookup_none {α : Type} {l : List (Str × α)} {n : Str} : lookup l n = none ↔ n ∉ l.map (·.1) := by
  unfold lookup
  simp only [Option.map_eq_none_iff, List.find?_eq_none, decide_eq_true_eq, List.mem_map, not_exists, not_and]

theorem enc_plain {s : Str} (h : Plain s) : enc s = some s := by
  unfold enc
  rw [if_pos]
  · congr 1
    rw [List.rdropWhile_eq_self_iff]
    intro hs
    have := (h _ (List.getLast_mem hs)).1
    simp only [beq_iff_eq]
    omega
  · rw [List.all_eq_true]
    exact fun c hc => decide_eq_true (h c hc).2

/-! ## The statements of the writer -/

theorem plan_nodup : (plan.map (·.1)).Nodup := by decide +kernel

theorem write_iff {o : Obj V} {h : List (Str × Node V)} (hw : write o = some h) :
    ∀ e ∈ plan, node o e.1 e.2 = some (lookup h e.1) := by
  unfold write at hw
  rw [Option.map_eq_some_iff] at hw
  obtain ⟨m, hm, rfl⟩ := hw
  rw [seq_iff] at hm
  have key : ∀ (p : List (Str × Kind)) (m : List (Option (Str × Node V))), (p.map (·.1)).Nodup →
      p.map (fun e => (node o e.1 e.2).map (fun x => x.map (fun y => (e.1, y)))) = m.map some →
      (∀ a ∈ m.filterMap id, a.1 ∈ p.map (·.1)) ∧ ((m.filterMap id).map (·.1)).Nodup ∧
      ∀ e ∈ p, node o e.1 e.2 = some (lookup (m.filterMap id) e.1) := by
    intro p
    induction p with
    | nil =>
      intro m _ h
      cases m <;> simp_all
    | cons e p ih =>
      intro m hn h
      cases m with
      | nil => simp at h
      | cons x m =>
        rw [List.map_cons, List.nodup_cons] at hn
        simp only [List.map_cons, List.cons.injEq] at h
        obtain ⟨h1, h2⟩ := h
        obtain ⟨i1, i2, i3⟩ := ih m hn.2 h2
        rw [Option.map_eq_some_iff] at h1
        obtain ⟨y, hy, rfl⟩ := h1
        cases y with
        | none =>
          simp only [Option.map_none, List.filterMap_cons, id_eq]
          refine ⟨fun a ha => List.mem_cons_of_mem _ (i1 a ha), i2, ?_⟩
          intro f hf
          rcases List.mem_cons.1 hf with rfl | hf
          · rw [hy]
            congr 1
            exact (lookup_none.2 (fun hc => by
              obtain ⟨a, ha, hae⟩ := List.mem_map.1 hc
              exact hn.1 (hae ▸ i1 a ha))).symm
          · exact i3 f hf
        | some z =>
          simp only [Option.map_some, List.filterMap_cons, id_eq]
          have hnd : (((e.1, z) :: m.filterMap id).map (·.1)).Nodup := by
            rw [List.map_cons, List.nodup_cons]
            refine ⟨fun hc => ?_, i2⟩
            obtain ⟨a, ha, hae⟩ := List.mem_map.1 hc
            exact hn.1 (hae ▸ i1 a ha)
          refine ⟨?_, hnd, ?_⟩
          · intro a ha
            rcases List.mem_cons.1 ha with rfl | ha
            · simp
            · exact List.mem_cons_of_mem _ (i1 a ha)
          · intro f hf
            rcases List.mem_cons.1 hf with rfl | hf
            · exact hy.trans (congrArg some (lookup_mem hnd List.mem_cons_self).symm)
            · have hne : ¬ e.1 = f.1 := fun hc => hn.1 (hc ▸ List.mem_map.2 ⟨f, hf, rfl⟩)
              rw [i3 f hf]
              unfold lookup
              rw [List.find?_cons_of_neg (by simpa using hne)]
              rfl
  exact (key plan m plan_nodup hm).2.2

theorem write_some {o : Obj V} (h : ∀ e ∈ plan, (node o e.1 e.2).isSome) : ∃ h, write o = some h := by
  unfold write
  have key : ∀ p : List (Str × Kind), (∀ e ∈ p, (node o e.1 e.2).isSome) →
      ∃ m, seq (p.map (fun e => (node o e.1 e.2).map (fun x => x.map (fun y => (e.1, y))))) = some m := by
    intro p
    induction p with
    | nil => intro _; exact ⟨[], rfl⟩
    | cons e p ih =>
      intro hp
      obtain ⟨m, hm⟩ := ih (fun f hf => hp f (List.mem_cons_of_mem _ hf))
      obtain ⟨x, hx⟩ := Option.isSome_iff_exists.1 (hp e List.mem_cons_self)
      refine ⟨(x.map (fun y => (e.1, y))) :: m, ?_⟩
      rw [seq_iff, List.map_cons, seq_iff.1 hm, hx]
      rfl
  obtain ⟨m, hm⟩ := key plan h
  exact ⟨_, by rw [hm]; rfl⟩

/-! ## Dictionaries -/

theorem parts_simple {k : Str} (h : Simple k) : parts k = [k] := by
  unfold parts
  rw [List.splitOn_eq_singleton h.2.2]
  simp [h.1, h.2.1]

theorem store_simple {k : Str} (h : Simple k) {l : List (Str × Node V)} (hk : k ∉ l.map (·.1)) (n : Node V) :
    store l k n = some (l ++ [(k, n)]) := by
  unfold store
  rw [if_neg, parts_simple h]
  · unfold put
    rw [lookup_none.2 hk]
  · intro hc
    cases k with
    | nil => simp at hc
    | cons c k =>
      simp only [List.head?_cons, Option.some.injEq] at hc
      exact h.2.2 (hc ▸ List.mem_cons_self)

/-- How a value is stored. -/
def nodeOf : Val V → Node V
  | .text s => .bytes s
  | .none => .empty
  | .num v => .num v
  | .raw s => .vlen s
  | .list l => .texts l
  | .junk => .empty

theorem ofVal_single {v : Val V} (h : Single v) : ofVal v = some (nodeOf v) := by
  cases h with
  | text h => simp [ofVal, nodeOf, enc_plain h]
  | none => rfl
  | num v => rfl

theorem writeGroup_dict {l : List (Str × Val V)} {g : List (Str × Node V)}
    (hn : (g.map (·.1) ++ l.map (·.1)).Nodup) (h : ∀ e ∈ l, Simple e.1 ∧ Single e.2) :
    writeGroup l g = some (g ++ l.map (fun e => (e.1, nodeOf e.2))) := by
  induction l generalizing g with
  | nil => simp [writeGroup]
  | cons e l ih =>
    obtain ⟨k, v⟩ := e
    have he := h (k, v) List.mem_cons_self
    have hv : ofVal v = some (nodeOf v) := ofVal_single he.2
    unfold writeGroup
    rw [hv]
    have hk : k ∉ g.map (·.1) := by
      intro hc
      rw [List.nodup_append] at hn
      exact hn.2.2 k hc k (by simp) rfl
    dsimp only
    rw [store_simple (show Simple k from he.1) hk]
    dsimp only
    rw [ih (by simpa using hn) (fun e he => h e (List.mem_cons_of_mem _ he))]
    simp

theorem members_perm {α : Type} (l : List (Str × α)) : (members l).Perm l := List.perm_insertionSort _ _

theorem members_map {α β : Type} (g : Str × α → Str × β) (hg : ∀ e, (g e).1 = e.1) (l : List (Str × α)) :
    members (l.map g) = (members l).map g := by
  unfold members
  exact (List.map_insertionSort (r := fun a b : Str × α => nameLE a.1 b.1) (s := fun a b : Str × β => nameLE a.1 b.1)
    g l (fun a _ b _ => by rw [hg, hg])).symm

theorem readVals_dict {f : Node V → Option (Val V)} (hf : ∀ v : Val V, Single v → f (nodeOf v) = some v)
    {l : List (Str × Val V)} (h : ∀ e ∈ l, Single e.2) :
    ∃ m, readVals f (l.map (fun e => (e.1, nodeOf e.2))) = some m ∧ m.Perm l := by
  have hm : members (l.map (fun e => (e.1, nodeOf e.2))) = (members l).map (fun e => (e.1, nodeOf e.2)) :=
    members_map (fun e => (e.1, nodeOf e.2)) (fun _ => rfl) l
  have hml := members_perm l
  generalize members l = m at hm hml
  refine ⟨m, ?_, hml⟩
  unfold readVals
  rw [hm, seq_iff, List.map_map]
  apply List.map_congr_left
  intro e he
  simp only [Function.comp_apply]
  rw [hf e.2 (h e (hml.subset he))]
  rfl

theorem kwVal_single (v : Val V) (h : Single v) : kwVal (nodeOf v) = some v := by
  cases h <;> rfl

theorem pcVal_single (v : Val V) (h : Single v) : pcVal (nodeOf v) = some v := by
  cases h <;> rfl

/-- How a dictionary is stored. -/
def groupOf (l : List (Str × Val V)) : Node V := .group (l.map (fun e => (e.1, nodeOf e.2)))

theorem writeGroup_eq {l : List (Str × Val V)} (h : Dict l) :
    writeGroup l [] = some (l.map (fun e => (e.1, nodeOf e.2))) := by
  rw [writeGroup_dict (by simpa using h.1) h.2]
  simp

theorem digits_inj {a b : Nat} (h : digits a = digits b) : a = b := by
  have : ofDigits (digits a) = ofDigits (digits b) := by rw [h]
  simpa [ofDigits, digits] using this

theorem writeCatalog_eq {c : List (Nat × List (Str × Val V))} (hn : (c.map (·.1)).Nodup) (h : ∀ e ∈ c, Dict e.2) :
    writeCatalog c = some (.group (c.map (fun e => (digits e.1, groupOf e.2)))) := by
  have hs : seq (c.map (fun e => (writeGroup e.2 []).map (fun g => (digits e.1, Node.group g)))) =
      some (c.map (fun e => (digits e.1, groupOf e.2))) := by
    rw [seq_iff, List.map_map]
    apply List.map_congr_left
    intro e he
    rw [writeGroup_eq (h e he)]
    rfl
  unfold writeCatalog
  rw [hs]
  dsimp only
  rw [if_pos]
  rw [List.map_map]
  have : (fun e : Nat × List (Str × Val V) => e.1) = fun e => e.1 := rfl
  have e : ((fun x : Str × Node V => x.1) ∘ fun e : Nat × List (Str × Val V) => (digits e.1, groupOf e.2)) =
      digits ∘ (fun e => e.1) := rfl
  rw [e, ← List.map_map]
  exact hn.map (fun a b h => digits_inj h)

theorem readCatalog_eq {c : List (Nat × List (Str × Val V))} (hc : c ≠ []) (h : ∀ e ∈ c, Dict e.2)
    {hd : List (Str × Node V)}
    (hl : lookup hd (name "phase_center_catalog") = some (.group (c.map (fun e => (digits e.1, groupOf e.2))))) :
    ∃ c', readCatalog hd = some c' ∧ SameCatalog c c' := by
  unfold readCatalog
  rw [hl]
  dsimp only
  rw [if_neg (by simpa using hc)]
  have hm : ∃ m : List (Nat × List (Str × Val V)), m.Perm c ∧
      members (c.map (fun e => (digits e.1, groupOf e.2))) = m.map (fun e => (digits e.1, groupOf e.2)) := by
    refine ⟨c.insertionSort (fun a b => nameLE (digits a.1) (digits b.1)), List.perm_insertionSort _ _, ?_⟩
    unfold members
    exact (List.map_insertionSort (r := fun a b : Nat × List (Str × Val V) => nameLE (digits a.1) (digits b.1))
      (s := fun a b : Str × Node V => nameLE a.1 b.1) _ c (fun a _ b _ => Iff.rfl)).symm
  obtain ⟨m, hm1, hm2⟩ := hm
  rw [hm2]
  have key : ∀ m : List (Nat × List (Str × Val V)), (∀ e ∈ m, Dict e.2) →
      ∃ c', seq ((m.map (fun e => (digits e.1, groupOf e.2))).map (fun e => match e.2 with
        | .group g => (readVals pcVal g).map (fun vs => (ofDigits e.1, vs))
        | _ => none)) = some c' ∧ List.Forall₂ (fun e f => e.1 = f.1 ∧ e.2.Perm f.2) c' m := by
    intro m
    induction m with
    | nil => intro _; exact ⟨[], rfl, .nil⟩
    | cons e m ih =>
      intro hd
      obtain ⟨c', h1, h2⟩ := ih (fun f hf => hd f (List.mem_cons_of_mem _ hf))
      obtain ⟨vs, v1, v2⟩ := readVals_dict pcVal_single (fun f hf => ((hd e List.mem_cons_self).2 f hf).2)
      refine ⟨(e.1, vs) :: c', ?_, .cons ⟨rfl, v2⟩ h2⟩
      rw [seq_iff, List.map_cons, List.map_cons, seq_iff.1 h1, List.map_cons]
      dsimp only [groupOf]
      rw [v1]
      simp [ofDigits, digits]
  obtain ⟨c', h1, h2⟩ := key m (fun e he => h e (hm1.subset he))
  exact ⟨c', h1, m, hm1, h2⟩

theorem readKeywords_eq {l : List (Str × Val V)} (h : Dict l) {hd : List (Str × Node V)}
    (hl : lookup hd (name "extra_keywords") = if l = [] then none else some (groupOf l)) :
    ∃ m, readKeywords hd = some m ∧ m.Perm l := by
  unfold readKeywords
  by_cases he : l = []
  · rw [if_pos he] at hl
    rw [hl, he]
    exact ⟨[], rfl, .nil⟩
  · rw [if_neg he] at hl
    rw [hl]
    exact readVals_dict kwVal_single (fun f hf => (h.2 f hf).2)

/-! ## Order of the rows -/

theorem split_cons {c d : Char} {t : Str} (hc : c ≠ ',') : splitOrder (c :: d :: t) =
    match splitOrder (d :: t) with
      | [] => [[c]]
      | w :: ws => (c :: w) :: ws := by
  rw [splitOrder, if_neg (by simp [hc])]
  cases splitOrder (d :: t) <;> rfl

theorem split_word {w : Str} (h : ',' ∉ w) : splitOrder w = [w] := by
  induction w with
  | nil => rfl
  | cons c w ih =>
    cases w with
    | nil => rfl
    | cons d w =>
      have hc : c ≠ ',' := fun e => h (e ▸ List.mem_cons_self)
      rw [split_cons hc, ih (fun hd => h (List.mem_cons_of_mem _ hd))]

theorem split_append {w t : Str} (h : ',' ∉ w) : splitOrder (w ++ ',' :: ' ' :: t) = w :: splitOrder t := by
  induction w with
  | nil => simp [splitOrder]
  | cons c w ih =>
    have hc : c ≠ ',' := fun e => h (e ▸ List.mem_cons_self)
    have hi := ih (fun hd => h (List.mem_cons_of_mem _ hd))
    cases w with
    | nil =>
      show splitOrder (c :: ',' :: ' ' :: t) = _
      rw [split_cons hc]
      simp only [List.nil_append] at hi
      rw [hi]
    | cons d w =>
      show splitOrder (c :: d :: (w ++ ',' :: ' ' :: t)) = _
      rw [split_cons hc]
      have : splitOrder (d :: (w ++ ',' :: ' ' :: t)) = (d :: w) :: splitOrder t := hi
      rw [this]

theorem split_join {l : List Str} (hl : l ≠ []) (h : ∀ w ∈ l, ',' ∉ w) : splitOrder (joinOrder l) = l := by
  induction l with
  | nil => exact absurd rfl hl
  | cons w l ih =>
    cases l with
    | nil => simpa [joinOrder] using split_word (h w (by simp))
    | cons v l =>
      have : joinOrder (w :: v :: l) = w ++ ',' :: ' ' :: joinOrder (v :: l) := by
        simp [joinOrder, List.intercalate_cons_cons]
      rw [this, split_append (h w (by simp)), ih (by simp) (fun x hx => h x (List.mem_cons_of_mem _ hx))]

theorem join_plain {l : List Str} (h : ∀ w ∈ l, Plain w) : Plain (joinOrder l) := by
  induction l with
  | nil => intro c hc; simp [joinOrder] at hc
  | cons w l ih =>
    cases l with
    | nil => simpa [joinOrder] using h w (by simp)
    | cons v l =>
      have : joinOrder (w :: v :: l) = w ++ ',' :: ' ' :: joinOrder (v :: l) := by
        simp [joinOrder, List.intercalate_cons_cons]
      rw [this]
      intro c hc
      rcases List.mem_append.1 hc with hc | hc
      · exact h w (by simp) c hc
      · rcases List.mem_cons.1 hc with rfl | hc
        · decide
        · rcases List.mem_cons.1 hc with rfl | hc
          · decide
          · exact ih (fun x hx => h x (List.mem_cons_of_mem _ hx)) c hc

/-! ## Everything together -/

theorem plan_num : ∀ e ∈ plan, e.2 = Kind.num → e.1 ∈ numNames ∧ e.1 ∉ optional := by decide +kernel
theorem plan_nat : ∀ e ∈ plan, e.2 = Kind.nat → e.1 ∈ natNames := by decide +kernel
theorem plan_txt : ∀ e ∈ plan, e.2 = Kind.txt → e.1 ∈ txtNames ∧ e.1 ∉ optional := by decide +kernel
theorem plan_optTxt : ∀ e ∈ plan, e.2 = Kind.optTxt → e.1 ∈ txtNames := by decide +kernel
theorem plan_ellipsoid : ∀ e ∈ plan, e.2 = Kind.ellipsoid → e.1 = name "ellipsoid" := by decide +kernel

theorem nodes {blOf : V → V → Nat → V} {o : Obj V} (hg : Good blOf o) : ∀ e ∈ plan, (node o e.1 e.2).isSome := by
  intro e he
  obtain ⟨n, k⟩ := e
  cases k with
  | version => rfl
  | num =>
    obtain ⟨h1, h2⟩ := plan_num _ he rfl
    simpa [node] using hg.num n h1 h2
  | nat => simpa [node] using hg.nat n (plan_nat _ he rfl)
  | txt =>
    obtain ⟨h1, h2⟩ := plan_txt _ he rfl
    obtain ⟨s, hs⟩ := Option.isSome_iff_exists.1 (hg.txt n h1 h2)
    simp [node, show o.txt n = some s from hs, enc_plain (hg.plain n h1 s hs)]
  | optNum => simp [node]
  | optTxt =>
    have h1 := plan_optTxt _ he rfl
    simp only [node]
    cases hs : o.txt n with
    | none => rfl
    | some s => simp [enc_plain (hg.plain n h1 s hs)]
  | optBool => simp [node]
  | ellipsoid =>
    have h1 : n = name "ellipsoid" := plan_ellipsoid _ he rfl
    subst h1
    simp only [node]
    split
    · rename_i hm
      rcases hg.frame with ⟨h, -⟩ | ⟨-, h⟩
      · rw [h] at hm
        exact absurd hm (by decide +kernel)
      · simpa using h
    · rfl
  | names =>
    simp only [node]
    have : seq (o.antNames.map enc) = some o.antNames := by
      rw [seq_iff]
      exact List.map_congr_left (fun s hs => enc_plain (hg.names s hs))
    rw [this]
    rfl
  | order =>
    simp only [node]
    cases hb : o.bltOrder with
    | none => rfl
    | some l => simp [enc_plain (join_plain (fun w hw => ((hg.order l hb).2 w hw).1))]
  | catalog => simp [node, writeCatalog_eq hg.catalog.2.1 hg.catalog.2.2]
  | keywords =>
    simp only [node]
    split
    · rfl
    · simp [writeGroup_eq hg.keywords]

section
variable {blOf : V → V → Nat → V} {o : Obj V} {h : List (Str × Node V)}

theorem get_num (hw : write o = some h) {n : Str} (hn : (n, Kind.num) ∈ plan ∨ (n, Kind.optNum) ∈ plan) :
    getNum h n = o.num n := by
  unfold getNum
  rcases hn with hn | hn <;> have := write_iff hw _ hn <;> dsimp only [node] at this
  · cases ho : o.num n with
    | none => rw [ho] at this; simp at this
    | some v => rw [ho] at this; simp only [Option.map_some, Option.some.injEq] at this; rw [← this]
  · rw [← Option.some.inj this]
    cases o.num n <;> rfl

theorem get_nat (hw : write o = some h) {n : Str} (hn : (n, Kind.nat) ∈ plan) : getNat h n = o.nat n := by
  unfold getNat
  have := write_iff hw _ hn
  dsimp only [node] at this
  cases ho : o.nat n with
  | none => rw [ho] at this; simp at this
  | some v => rw [ho] at this; simp only [Option.map_some, Option.some.injEq] at this; rw [← this]

theorem get_bool (hw : write o = some h) {n : Str} (hn : (n, Kind.optBool) ∈ plan) : getBool h n = o.bool n := by
  unfold getBool
  have := write_iff hw _ hn
  dsimp only [node] at this
  rw [← Option.some.inj this]
  cases o.bool n <;> rfl

theorem get_node_txt (hw : write o = some h) (hg : Good blOf o) {n : Str}
    (hn : (n, Kind.txt) ∈ plan ∨ (n, Kind.optTxt) ∈ plan) : lookup h n = (o.txt n).map .bytes := by
  rcases hn with hn | hn <;> have := write_iff hw _ hn <;> dsimp only [node] at this
  · cases ho : o.txt n with
    | none => rw [ho] at this; simp at this
    | some s =>
      rw [ho, Option.bind_some, enc_plain (hg.plain n (plan_txt _ hn rfl).1 s ho)] at this
      exact (Option.some.inj this).symm
  · cases ho : o.txt n with
    | none => rw [ho] at this; exact (Option.some.inj this).symm
    | some s =>
      rw [ho] at this
      dsimp only at this
      rw [enc_plain (hg.plain n (plan_optTxt _ hn rfl) s ho)] at this
      exact (Option.some.inj this).symm

theorem get_txt (hw : write o = some h) (hg : Good blOf o) {n : Str}
    (hn : (n, Kind.txt) ∈ plan ∨ (n, Kind.optTxt) ∈ plan) (hs : n ∈ stringAttrs) : getTxt h n = o.txt n := by
  unfold getTxt
  rw [if_pos hs, get_node_txt hw hg hn]
  cases o.txt n <;> rfl

end

/-- C148: an object written to a file and read again has the same parameters.  To the history the version of the program
is added if it is not there yet; what is known about the telescope and was not set is set. -/
theorem round_trip (version : Str) (det : Bool × Option Bool) (blOf : V → V → Nat → V) (fill : V)
    (known : Str → Known V) (o : Obj V) (hg : Good blOf o) :
    ∃ h o', write o = some h ∧ read version det blOf fill known h = some o' ∧
      (∀ n ∈ numNames, n ≠ "antenna_diameters".toList → o'.num n = o.num n) ∧
      (∀ n ∈ natNames, o'.nat n = o.nat n) ∧
      (∀ n ∈ txtNames, n ≠ "history".toList → n ≠ "x_orientation".toList → o'.txt n = o.txt n) ∧
      (∀ n ∈ boolNames, o'.bool n = o.bool n) ∧
      o'.antNames = o.antNames ∧ o'.bltOrder = o.bltOrder ∧
      SameCatalog o.catalog o'.catalog ∧ o'.keywords.Perm o.keywords ∧
      (∀ s, o.txt "history".toList = some s →
        o'.txt "history".toList = some (if History.hasVersion s version then s else s ++ version)) ∧
      (∀ t, o.txt "telescope_name".toList = some t →
        o'.num "antenna_diameters".toList = (o.num "antenna_diameters".toList).or (known t).diam ∧
        o'.txt "x_orientation".toList = (o.txt "x_orientation".toList).or (known t).orient) := by
  obtain ⟨h, hw⟩ := write_some (nodes hg)
  have hnum := fun n hn => get_num (n := n) hw hn
  have hnat := fun n hn => get_nat (n := n) hw hn
  have htxt := fun n hn hs => get_txt (n := n) hw hg hn hs
  have r1 : reqNums.all (fun n => (getNum h n).isSome) = true := by
    rw [List.all_eq_true]
    have hd : ∀ n ∈ reqNums, (n, Kind.num) ∈ plan ∧ n ∈ numNames ∧ n ∉ optional := by decide +kernel
    intro n hn
    rw [hnum n (Or.inl (hd n hn).1)]
    exact hg.num n (hd n hn).2.1 (hd n hn).2.2
  have r2 : reqNats.all (fun n => (getNat h n).isSome) = true := by
    rw [List.all_eq_true]
    have hd : ∀ n ∈ reqNats, (n, Kind.nat) ∈ plan ∧ n ∈ natNames := by decide +kernel
    intro n hn
    rw [hnat n (hd n hn).1]
    exact hg.nat n (hd n hn).2
  have some_txt : ∀ n, n ∈ txtNames → n ∉ optional → ∃ s, o.txt n = some s := fun n a b =>
    Option.isSome_iff_exists.1 (hg.txt n a b)
  obtain ⟨frame, hframe⟩ := some_txt (name "telescope_frame") (by decide +kernel) (by decide +kernel)
  obtain ⟨tel, htel⟩ := some_txt (name "telescope_name") (by decide +kernel) (by decide +kernel)
  obtain ⟨inst, hinst⟩ := some_txt (name "instrument") (by decide +kernel) (by decide +kernel)
  obtain ⟨hist, hhist⟩ := some_txt (name "history") (by decide +kernel) (by decide +kernel)
  obtain ⟨vu, hvu⟩ := some_txt (name "vis_units") (by decide +kernel) (by decide +kernel)
  obtain ⟨a1, ha1⟩ := Option.isSome_iff_exists.1 (hg.num (name "ant_1_array") (by decide +kernel) (by decide +kernel))
  obtain ⟨a2, ha2⟩ := Option.isSome_iff_exists.1 (hg.num (name "ant_2_array") (by decide +kernel) (by decide +kernel))
  obtain ⟨nt, hnt⟩ := Option.isSome_iff_exists.1 (hg.nat (name "Nants_telescope") (by decide +kernel))
  obtain ⟨nb, hnb⟩ := Option.isSome_iff_exists.1 (hg.nat (name "Nbls") (by decide +kernel))
  obtain ⟨nr, hnr⟩ := Option.isSome_iff_exists.1 (hg.nat (name "Nblts") (by decide +kernel))
  obtain ⟨nti, hnti⟩ := Option.isSome_iff_exists.1 (hg.nat (name "Ntimes") (by decide +kernel))
  have gtel : getTxt h (name "telescope_name") = some tel := by
    rw [htxt _ (by decide +kernel) (by decide +kernel), htel]
  have ginst : getTxt h (name "instrument") = some inst := by
    rw [htxt _ (by decide +kernel) (by decide +kernel), hinst]
  have ghist : getTxt h (name "history") = some hist := by
    rw [htxt _ (by decide +kernel) (by decide +kernel), hhist]
  have hfr : frame = name "itrs" ∨ frame = name "mcmf" := by
    rcases hg.frame with ⟨x, -⟩ | ⟨x, -⟩ <;> rw [hframe] at x
    · exact Or.inl (Option.some.inj x)
    · exact Or.inr (Option.some.inj x)
  have gframe : readFrame h = some frame := by
    unfold readFrame
    rw [get_node_txt hw hg (by decide +kernel), hframe]
    simp [decode, hfr]
  have gvu : readUnits h = some vu := by
    unfold readUnits
    rw [get_node_txt hw hg (by decide +kernel), hvu]
    have : vu ≠ name "UNCALIB" := fun hc => hg.units (by rw [hvu, hc])
    simp [decode, this]
  have gnbls : readNbls h = some nb := by
    unfold readNbls
    rw [hnat _ (by decide +kernel), hnat _ (by decide +kernel), hnat _ (by decide +kernel), hnb, hnr, hnti, gtel]
    dsimp only
    split
    · rename_i hc
      have ht : nti = 1 := hg.nbls nb nr nti hnb hnr hnti (by rw [htel]; exact hc.1) hc.2.1 hc.2.2
      rw [ht, Nat.div_one, hc.2.1]
    · rfl
  have gell : readEllipsoid h frame = some (o.txt (name "ellipsoid")) := by
    unfold readEllipsoid
    have he := write_iff hw (name "ellipsoid", .ellipsoid) (by decide +kernel)
    dsimp only [node] at he
    rcases hg.frame with ⟨x, y⟩ | ⟨x, y⟩
    · have : frame = name "itrs" := by rw [hframe] at x; exact Option.some.inj x
      rw [if_neg (by rw [this]; decide +kernel), y]
    · have hf : frame = name "mcmf" := by rw [hframe] at x; exact Option.some.inj x
      rw [if_pos hf]
      rw [if_pos x] at he
      obtain ⟨s, hs⟩ := Option.isSome_iff_exists.1 y
      rw [hs] at he
      rw [← Option.some.inj he, hs]
      rfl
  have gnames : lookup h (name "antenna_names") = some (.texts o.antNames) := by
    have he := write_iff hw (name "antenna_names", .names) (by decide +kernel)
    dsimp only [node] at he
    have : seq (o.antNames.map enc) = some o.antNames := by
      rw [seq_iff]
      exact List.map_congr_left (fun s hs => enc_plain (hg.names s hs))
    rw [this] at he
    exact (Option.some.inj he).symm
  obtain ⟨cat, gcat, scat⟩ : ∃ c', readCatalog h = some c' ∧ SameCatalog o.catalog c' := by
    apply readCatalog_eq hg.catalog.1 hg.catalog.2.2
    have he := write_iff hw (name "phase_center_catalog", .catalog) (by decide +kernel)
    dsimp only [node] at he
    rw [writeCatalog_eq hg.catalog.2.1 hg.catalog.2.2] at he
    exact (Option.some.inj he).symm
  obtain ⟨kws, gkws, skws⟩ : ∃ m, readKeywords h = some m ∧ m.Perm o.keywords := by
    apply readKeywords_eq hg.keywords
    have he := write_iff hw (name "extra_keywords", .keywords) (by decide +kernel)
    dsimp only [node] at he
    split at he
    · rename_i hc
      rw [if_pos hc]
      exact (Option.some.inj he).symm
    · rename_i hc
      rw [if_neg hc]
      rw [writeGroup_eq hg.keywords] at he
      exact (Option.some.inj he).symm
  have gorder : (match lookup h (name "blt_order") with
      | some x => (decode x).map splitOrder
      | none => none) = o.bltOrder := by
    have he := write_iff hw (name "blt_order", .order) (by decide +kernel)
    dsimp only [node] at he
    cases hb : o.bltOrder with
    | none =>
      rw [hb] at he
      rw [← Option.some.inj he]
    | some l =>
      rw [hb] at he
      dsimp only at he
      obtain ⟨h1, h2⟩ := hg.order l hb
      rw [enc_plain (join_plain (fun w hw => (h2 w hw).1))] at he
      rw [← Option.some.inj he]
      simp [decode, split_join h1 (fun w hw => (h2 w hw).2)]
  have gfast : readFaster det h = o.bool (name "time_axis_faster_than_bls") := by
    unfold readFaster
    rw [get_bool hw (by decide +kernel), get_bool hw (by decide +kernel)]
    cases ht : o.bool (name "time_axis_faster_than_bls") with
    | none => rfl
    | some t =>
      obtain ⟨r, hr, htr⟩ := hg.faster t ht
      rw [hr]
      cases r with
      | true => rfl
      | false => cases t <;> simp at htr ⊢
  have ga1 : getNum h (name "ant_1_array") = some a1 := by rw [hnum _ (by decide +kernel), ha1]
  have ga2 : getNum h (name "ant_2_array") = some a2 := by rw [hnum _ (by decide +kernel), ha2]
  have gnt : getNat h (name "Nants_telescope") = some nt := by rw [hnat _ (by decide +kernel), hnt]
  have hread : read version det blOf fill known h = some (assemble version det blOf fill (known tel) h frame tel inst hist
      vu nb (o.txt (name "ellipsoid")) o.antNames cat kws a1 a2 nt) := by
    unfold read
    rw [r1, r2, gframe, gtel, ginst, ghist, gvu, gnbls]
    simp only [Bool.not_true, Bool.false_eq_true, if_false]
    rw [gell, gnames, gcat, gkws, ga1, ga2, gnt]
  refine ⟨h, _, hw, hread, ?_, ?_, ?_, ?_, rfl, gorder, scat, skws, ?_, ?_⟩
  · have hd : ∀ n ∈ numNames, n = name "baseline_array" ∨ n = name "flex_spw_id_array" ∨ n = name "antenna_diameters" ∨
        (n ≠ name "baseline_array" ∧ n ≠ name "flex_spw_id_array" ∧ n ≠ name "antenna_diameters" ∧
          (n ∈ reqNums ∨ n ∈ optNums) ∧ ((n, Kind.num) ∈ plan ∨ (n, Kind.optNum) ∈ plan)) := by decide +kernel
    intro n hn hne
    rcases hd n hn with rfl | rfl | rfl | ⟨h1, h2, h3, h4, h5⟩
    · exact (hg.bl a1 a2 nt ha1 ha2 hnt).symm
    · have e : name "flex_spw_id_array" ≠ name "baseline_array" := by decide +kernel
      dsimp only [assemble]
      rw [if_neg e, if_pos rfl, hnum _ (by decide +kernel)]
      obtain ⟨f, hf⟩ := Option.isSome_iff_exists.1
        (hg.num (name "flex_spw_id_array") (by decide +kernel) (by decide +kernel))
      rw [hf]
      rfl
    · exact absurd rfl hne
    · dsimp only [assemble]
      rw [if_neg h1, if_neg h2, if_neg h3, if_pos h4, hnum _ h5]
  · have hd : ∀ n ∈ natNames, n = name "Nbls" ∨ (n ≠ name "Nbls" ∧ n ∈ reqNats ∧ (n, Kind.nat) ∈ plan) := by
      decide +kernel
    intro n hn
    rcases hd n hn with rfl | ⟨h1, h2, h3⟩
    · exact hnb.symm
    · dsimp only [assemble]
      rw [if_neg h1, if_pos h2, hnat _ h3]
  · have hd : ∀ n ∈ txtNames, n = name "telescope_frame" ∨ n = name "ellipsoid" ∨ n = name "telescope_name" ∨
        n = name "instrument" ∨ n = name "vis_units" ∨ n = name "history" ∨ n = name "x_orientation" ∨
        (n ≠ name "telescope_frame" ∧ n ≠ name "ellipsoid" ∧ n ≠ name "telescope_name" ∧ n ≠ name "instrument" ∧
          n ≠ name "vis_units" ∧ n ≠ name "history" ∧ n ≠ name "x_orientation" ∧ n ∈ optTxts ∧
          ((n, Kind.txt) ∈ plan ∨ (n, Kind.optTxt) ∈ plan) ∧ n ∈ stringAttrs) := by decide +kernel
    intro n hn hne hnx
    rcases hd n hn with rfl | rfl | rfl | rfl | rfl | rfl | rfl | ⟨h1, h2, h3, h4, h5, h6, h7, h8, h9, h10⟩
    · exact hframe.symm
    · dsimp only [assemble]
      rw [if_neg (by decide +kernel), if_pos rfl]
    · dsimp only [assemble]
      rw [if_neg (by decide +kernel), if_neg (by decide +kernel), if_pos rfl, htel]
    · dsimp only [assemble]
      rw [if_neg (by decide +kernel), if_neg (by decide +kernel), if_neg (by decide +kernel), if_pos rfl, hinst]
    · dsimp only [assemble]
      rw [if_neg (by decide +kernel), if_neg (by decide +kernel), if_neg (by decide +kernel),
        if_neg (by decide +kernel), if_pos rfl, hvu]
    · exact absurd rfl hne
    · exact absurd rfl hnx
    · dsimp only [assemble]
      rw [if_neg h1, if_neg h2, if_neg h3, if_neg h4, if_neg h5, if_neg h6, if_neg h7, if_pos h8, htxt _ h9 h10]
  · have hd : ∀ n ∈ boolNames, n = name "blts_are_rectangular" ∨
        (n ≠ name "blts_are_rectangular" ∧ n = name "time_axis_faster_than_bls") := by decide +kernel
    intro n hn
    rcases hd n hn with rfl | ⟨h1, rfl⟩
    · dsimp only [assemble]
      rw [if_pos rfl, get_bool hw (by decide +kernel)]
    · dsimp only [assemble]
      rw [if_neg h1, if_pos rfl, gfast]
  · intro s hs
    have : hist = s := Option.some.inj (hhist.symm.trans hs)
    subst this
    show (assemble version det blOf fill (known tel) h frame tel inst hist vu nb (o.txt (name "ellipsoid")) o.antNames cat
      kws a1 a2 nt).txt (name "history") = _
    dsimp only [assemble]
    rw [if_neg (by decide +kernel), if_neg (by decide +kernel), if_neg (by decide +kernel), if_neg (by decide +kernel),
      if_neg (by decide +kernel), if_pos rfl]
  · intro t ht
    have : tel = t := Option.some.inj (htel.symm.trans ht)
    subst this
    constructor
    · show (assemble version det blOf fill (known tel) h frame tel inst hist vu nb (o.txt (name "ellipsoid")) o.antNames
        cat kws a1 a2 nt).num (name "antenna_diameters") = (o.num (name "antenna_diameters")).or _
      dsimp only [assemble]
      rw [if_neg (by decide +kernel), if_neg (by decide +kernel), if_pos rfl, hnum _ (by decide +kernel)]
    · show (assemble version det blOf fill (known tel) h frame tel inst hist vu nb (o.txt (name "ellipsoid")) o.antNames
        cat kws a1 a2 nt).txt (name "x_orientation") = (o.txt (name "x_orientation")).or _
      dsimp only [assemble]
      rw [if_neg (by decide +kernel), if_neg (by decide +kernel), if_neg (by decide +kernel),
        if_neg (by decide +kernel), if_neg (by decide +kernel), if_neg (by decide +kernel), if_pos rfl,
        htxt _ (by decide +kernel) (by decide +kernel)]

/-! ## Names with slashes, text that is not ASCII -/

theorem lookup_group {l : List (Str × Node V)} {c : Str} {x : Node V} (h : lookup l c = some x) : (c, x) ∈ l := by
  unfold lookup at h
  rw [Option.map_eq_some_iff] at h
  obtain ⟨e, he, rfl⟩ := h
  have h1 := List.find?_some he
  have h2 := List.mem_of_find?_eq_some he
  simp only [decide_eq_true_eq] at h1
  rw [← h1]
  exact h2

theorem put_keeps {n : Node V} {p : List Str} {l l' : List (Str × Node V)} (h : put n p l = some l') :
    (∀ c g, (c, Node.group g) ∈ l → ∃ g', (c, Node.group g') ∈ l') ∧
    (∀ c d r, p = c :: d :: r → ∃ g', (c, Node.group g') ∈ l') := by
  match p with
  | [] => simp [put] at h
  | [c] =>
    unfold put at h
    split at h
    · simp only [Option.some.injEq] at h
      subst h
      refine ⟨fun c g hc => ⟨g, List.mem_append_left _ hc⟩, ?_⟩
      intro c d r he
      simp at he
    · simp at h
  | c :: d :: r =>
    unfold put at h
    split at h
    · rw [Option.map_eq_some_iff] at h
      obtain ⟨g, -, rfl⟩ := h
      refine ⟨fun c g hc => ⟨g, List.mem_append_left _ hc⟩, ?_⟩
      intro c' d' r' he
      obtain ⟨rfl, -⟩ := List.cons.inj he
      exact ⟨g, by simp⟩
    · rename_i g hl
      rw [Option.map_eq_some_iff] at h
      obtain ⟨g', -, rfl⟩ := h
      constructor
      · intro c1 g1 h1
        by_cases hc : c1 = c
        · exact ⟨g', List.mem_map.2 ⟨_, h1, by simp [hc]⟩⟩
        · exact ⟨g1, List.mem_map.2 ⟨_, h1, by simp [hc]⟩⟩
      · intro c' d' r' he
        obtain ⟨rfl, -⟩ := List.cons.inj he
        exact ⟨g', List.mem_map.2 ⟨_, lookup_group hl, by simp⟩⟩
    · simp at h

theorem group_keeps {l : List (Str × Val V)} {g g' : List (Str × Node V)} (h : writeGroup l g = some g') :
    ∀ c x, (c, Node.group x) ∈ g → ∃ x', (c, Node.group x') ∈ g' := by
  induction l generalizing g with
  | nil =>
    simp only [writeGroup, Option.some.injEq] at h
    subst h
    exact fun c x hc => ⟨x, hc⟩
  | cons e l ih =>
    obtain ⟨k, v⟩ := e
    unfold writeGroup at h
    split at h
    · simp at h
    · rename_i n hv
      split at h
      · simp at h
      · rename_i g1 hs
        intro c x hc
        unfold store at hs
        split at hs
        · simp only [Option.some.injEq] at hs
          subst hs
          exact ih h c x hc
        · obtain ⟨x', hx'⟩ := (put_keeps hs).1 c x hc
          exact ih h c x' hx'

theorem group_nested {l : List (Str × Val V)} {g g' : List (Str × Node V)} (h : writeGroup l g = some g')
    {k : Str} {v : Val V} (hk : (k, v) ∈ l) (hs : k.head? ≠ some '/') (hp : 2 ≤ (parts k).length) :
    ∃ c x, (c, Node.group x) ∈ g' := by
  induction l generalizing g with
  | nil => simp at hk
  | cons e l ih =>
    obtain ⟨k1, v1⟩ := e
    unfold writeGroup at h
    split at h
    · simp at h
    · split at h
      · simp at h
      · rename_i g1 hst
        rcases List.mem_cons.1 hk with he | hk
        · obtain ⟨rfl, rfl⟩ := Prod.mk.inj he
          unfold store at hst
          rw [if_neg hs] at hst
          match hpp : parts k, hp with
          | c :: d :: r, _ =>
            rw [hpp] at hst
            obtain ⟨x, hx⟩ := (put_keeps hst).2 c d r rfl
            obtain ⟨x', hx'⟩ := group_keeps h c x hx
            exact ⟨c, x', hx'⟩
        · exact ih h hk

theorem seq_none {α : Type} {l : List (Option α)} (h : none ∈ l) : seq l = none := by
  cases hs : seq l with
  | none => rfl
  | some m =>
    rw [seq_iff] at hs
    rw [hs] at h
    simp at h

/-- C148: a file with a keyword that has a slash in the middle of its name can be written but not read. -/
theorem slash (version : Str) (det : Bool × Option Bool) (blOf : V → V → Nat → V) (fill : V) (known : Str → Known V)
    (o : Obj V) (h : List (Str × Node V)) (hw : write o = some h) (k : Str) (v : Val V) (hk : (k, v) ∈ o.keywords)
    (hs : k.head? ≠ some '/') (hp : 2 ≤ (parts k).length) : read version det blOf fill known h = none := by
  have hkw : readKeywords h = none := by
    have he := write_iff hw (name "extra_keywords", .keywords) (by decide +kernel)
    dsimp only [node] at he
    split at he
    · rename_i hc
      rw [hc] at hk
      simp at hk
    · cases hg : writeGroup o.keywords [] with
      | none => rw [hg] at he; simp at he
      | some g =>
        rw [hg] at he
        obtain ⟨c, x, hx⟩ := group_nested hg hk hs hp
        unfold readKeywords
        rw [← Option.some.inj he]
        dsimp only
        unfold readVals
        apply seq_none
        exact List.mem_map.2 ⟨(c, .group x), (members_perm g).symm.subset hx, rfl⟩
  unfold read
  split
  · rfl
  split
  · rfl
  split
  · rw [hkw]
    split
    · simp_all
    · rfl
  · rfl

/-- C148: nothing is written if a text has a character that is not ASCII. -/
theorem not_ascii (o : Obj V) (n s : Str) (hn : n ∈ txtNames) (hne : n ≠ "ellipsoid".toList) (ho : o.txt n = some s)
    (c : Char) (hc : c ∈ s) (h128 : 128 ≤ c.toNat) : write o = none := by
  cases hw : write o with
  | none => rfl
  | some h =>
    have hd : ∀ n ∈ txtNames, n = name "ellipsoid" ∨ (n, Kind.txt) ∈ plan ∨ (n, Kind.optTxt) ∈ plan := by decide +kernel
    have henc : enc s = none := by
      unfold enc
      rw [if_neg]
      intro ha
      have := List.all_eq_true.1 ha c hc
      simp only [decide_eq_true_eq] at this
      omega
    rcases hd n hn with rfl | hp | hp
    · exact absurd rfl hne
    · have := write_iff hw _ hp
      dsimp only [node] at this
      rw [ho, Option.bind_some, henc] at this
      simp at this
    · have := write_iff hw _ hp
      dsimp only [node] at this
      rw [ho] at this
      dsimp only at this
      rw [henc] at this
      simp at this

end Verif.H5Head
