import Verif.AntStr.Choose
import Mathlib.Data.List.Sort
import Mathlib.Data.List.Count

/-!
Which polarizations a string chooses.
-/
namespace Verif.AntStr
open Verif.Pol (Str polstr2num polnum2str)

/-- The object has the pair of two antennas in one order or the other. -/
def Present (d : Data) (i j : Nat) : Prop := (i, j) ∈ d.pairs ∨ (j, i) ∈ d.pairs

instance (d : Data) (i j : Nat) : Decidable (Present d i j) := inferInstanceAs (Decidable (_ ∨ _))

/-- What two antennas of the string say about a polarization, in order: something if they have feeds, the object has their pair, and it has a polarization of the
name that the feeds make. -/
def Act.saysPol (d : Data) (n : Int) (a : Act) : List Bool :=
  match a.names with
  | none => []
  | some ns => if Present d a.i a.j then (ns.filter (fun name => name ∈ d.pols ∧ polstr2num d.xo name = some n)).map (fun _ => a.incl) else []

/-- What a part of the string says about a polarization, in order. -/
def Item.saysPol (d : Data) (n : Int) : Item → List Bool
  | .stokes m => if m = n then [true] else []
  | t =>
    match t.acts d with
    | .error _ => []
    | .ok as => as.flatMap (Act.saysPol d n)

/-- The last thing that the string says about a polarization is that it is asked for. -/
def PolWanted (d : Data) (ts : List Item) (n : Int) : Prop := ((prefixed ts).flatMap (Item.saysPol d n)).getLast? = some true

/-- What holds of the list of polarizations. -/
def PInv (l : List Int) (W : Int → Prop) : Prop := (∀ n < 0, l.count n ≤ 1) ∧ ∀ n, n ∈ l ↔ W n

theorem pinv_congr {l : List Int} {W W' : Int → Prop} (h : PInv l W) (hw : ∀ n, W n ↔ W' n) : PInv l W' :=
  ⟨h.1, fun n => (h.2 n).trans (hw n)⟩

/-- Letters that stand for feeds. -/
def feedChars : List Char := ['x', 'y', 'l', 'r']

theorem orient_cases (xo : Option Str) :
    xo.bind Verif.Pol.xOrientPolMap = none ∨ xo.bind Verif.Pol.xOrientPolMap = some ('e', 'n') ∨ xo.bind Verif.Pol.xOrientPolMap = some ('n', 'e') := by
  cases xo with
  | none => exact Or.inl rfl
  | some s =>
    simp only [Option.bind_some, Verif.Pol.xOrientPolMap]
    cases Verif.Pol.Dict.get Verif.Pol.xorientMap (Verif.Pol.lower s) with
    | none => exact Or.inl rfl
    | some b => cases b <;> simp

/-- The table of a given orientation. -/
def table (m : Option (Char × Char)) : Verif.Pol.Dict Str Int :=
  match m with
  | some (ex, ey) => Verif.Pol.polStr2Num.foldl (fun acc p => Verif.Pol.Dict.set acc (Verif.Pol.renameXY ex ey p.1) p.2) Verif.Pol.polStr2Num
  | none => Verif.Pol.polStr2Num

theorem polstr_table (xo : Option Str) (s : Str) :
    polstr2num xo s = (Verif.Pol.lowerKeys (table (xo.bind Verif.Pol.xOrientPolMap))).get (Verif.Pol.lower s) := rfl

theorem feed_neg (xo : Option Str) (c e : Char) (hc : c ∈ feedChars) (he : e ∈ feedChars) (n : Int) (h : polstr2num xo [c, e] = some n) : n < 0 := by
  rw [polstr_table] at h
  have key : ∀ m ∈ [none, some ('e', 'n'), some ('n', 'e')], ∀ c ∈ feedChars, ∀ e ∈ feedChars,
      ∀ n ∈ (Verif.Pol.lowerKeys (table m)).get (Verif.Pol.lower [c, e]), n < 0 := by
    decide +kernel
  refine key _ ?_ c hc e he n h
  rcases orient_cases xo with h | h | h <;> rw [h] <;> decide

/-- The names of an action are made of letters of feeds if it excludes. -/
def Act.Fed (a : Act) : Prop := a.incl = false → ∀ ns, a.names = some ns → ∀ s ∈ ns, ∃ c ∈ feedChars, ∃ e ∈ feedChars, s = [c, e]

theorem feed_mem (f : Feed) : f.char ∈ feedChars := by cases f <;> decide

theorem act_names (a b : Ant) : ∀ ns, (act a b).names = some ns → ∀ s ∈ ns, ∃ c ∈ feedChars, ∃ e ∈ feedChars, s = [c, e] := by
  intro ns h s hs
  rcases a with ⟨_, _, _ | f⟩ <;> rcases b with ⟨_, _, _ | g⟩
  · cases h
  · simp only [act, polNames, Option.some.injEq] at h
    subst h
    have hg := feed_mem g
    split at hs <;> simp only [List.mem_cons, List.not_mem_nil, or_false] at hs <;> rcases hs with rfl | rfl
    · exact ⟨'x', by decide, _, hg, rfl⟩
    · exact ⟨'y', by decide, _, hg, rfl⟩
    · exact ⟨'l', by decide, _, hg, rfl⟩
    · exact ⟨'r', by decide, _, hg, rfl⟩
  · simp only [act, polNames, Option.some.injEq] at h
    subst h
    have hf := feed_mem f
    split at hs <;> simp only [List.mem_cons, List.not_mem_nil, or_false] at hs <;> rcases hs with rfl | rfl
    · exact ⟨_, hf, 'x', by decide, rfl⟩
    · exact ⟨_, hf, 'y', by decide, rfl⟩
    · exact ⟨_, hf, 'l', by decide, rfl⟩
    · exact ⟨_, hf, 'r', by decide, rfl⟩
  · simp only [act, polNames, Option.some.injEq] at h
    subst h
    rw [List.mem_singleton] at hs
    exact ⟨_, feed_mem f, _, feed_mem g, hs⟩

theorem act_fed (a b : Ant) : (act a b).Fed := fun _ => act_names a b

theorem group_names {as : List Ant} {j : Nat} {a : Act} (h : groupAct as j = .ok a) :
    ∀ ns, a.names = some ns → ∀ s ∈ ns, ∃ c ∈ ',' :: feedChars, ∃ e ∈ feedChars, s = [c, e] := by
  unfold groupAct at h
  split at h
  · cases h
  · cases h
  · rename_i x xs _
    obtain rfl := Except.ok.inj h
    intro ns hns s hs
    obtain rfl := Option.some.inj hns
    have hc : (match x.feed with | some f => f.char | none => ',') ∈ ',' :: feedChars := by
      cases x.feed with
      | none => exact List.mem_cons_self
      | some f => exact List.mem_cons_of_mem _ (feed_mem f)
    by_cases hl : ((x :: xs).any fun b => b.feed.any Feed.linear) = true
    · rw [if_pos hl] at hs
      simp only [List.mem_cons, List.not_mem_nil, or_false] at hs
      rcases hs with rfl | rfl
      · exact ⟨_, hc, 'x', by decide, rfl⟩
      · exact ⟨_, hc, 'y', by decide, rfl⟩
    · rw [if_neg hl] at hs
      simp only [List.mem_cons, List.not_mem_nil, or_false] at hs
      rcases hs with rfl | rfl
      · exact ⟨_, hc, 'l', by decide, rfl⟩
      · exact ⟨_, hc, 'r', by decide, rfl⟩

theorem acts_names {d : Data} {t : Item} {as : List Act} (h : t.acts d = .ok as) :
    ∀ a ∈ as, ∀ ns, a.names = some ns → ∀ s ∈ ns, ∃ c ∈ ',' :: feedChars, ∃ e ∈ feedChars, s = [c, e] := by
  have up : ∀ x y : Ant, ∀ ns, (act x y).names = some ns → ∀ s ∈ ns, ∃ c ∈ ',' :: feedChars, ∃ e ∈ feedChars, s = [c, e] := by
    intro x y ns hns s hs
    obtain ⟨c, hc, r⟩ := act_names x y ns hns s hs
    exact ⟨c, List.mem_cons_of_mem _ hc, r⟩
  intro a ha
  unfold Item.acts at h
  split at h
  · cases h
    obtain ⟨j, _, rfl⟩ := List.mem_map.1 ha
    exact up _ _
  · obtain ⟨j, _, hj⟩ := mapM_mem h a ha
    exact group_names hj
  · cases h
    obtain ⟨x, _, hx⟩ := List.mem_flatMap.1 ha
    obtain ⟨y, _, rfl⟩ := List.mem_map.1 hx
    exact up _ _
  · cases h
    cases ha

theorem acts_fed {d : Data} {t : Item} {as : List Act} (h : t.acts d = .ok as) : ∀ a ∈ as, a.Fed := by
  intro a ha
  unfold Item.acts at h
  split at h
  · cases h
    obtain ⟨j, _, rfl⟩ := List.mem_map.1 ha
    exact act_fed _ _
  · obtain ⟨j, _, hj⟩ := mapM_mem h a ha
    intro hc
    rw [(groupAct_ok hj).2] at hc
    cases hc
  · cases h
    obtain ⟨x, _, hx⟩ := List.mem_flatMap.1 ha
    obtain ⟨y, _, rfl⟩ := List.mem_map.1 hx
    exact act_fed _ _
  · cases h
    cases ha

/-- What is said about a polarization by one name. -/
def nameSays (d : Data) (n : Int) (v : Bool) (name : Str) : List Bool :=
  if name ∈ d.pols ∧ polstr2num d.xo name = some n then [v] else []

theorem filter_names (d : Data) (n : Int) (v : Bool) (ns : List Str) :
    (ns.filter (fun name => name ∈ d.pols ∧ polstr2num d.xo name = some n)).map (fun _ => v) = ns.flatMap (nameSays d n v) := by
  induction ns with
  | nil => rfl
  | cons s ns ih =>
    rw [List.flatMap_cons, ← ih, List.filter_cons]
    unfold nameSays
    by_cases h : s ∈ d.pols ∧ polstr2num d.xo s = some n
    · rw [if_pos h, if_pos (by exact decide_eq_true h)]
      rfl
    · rw [if_neg h, if_neg (by simpa using h)]
      rfl

theorem addPol_inv {d : Data} {l l' : List Int} {s : Str} {W : Int → Prop} (h : addPol d l s = .ok l') (hi : PInv l W) :
    PInv l' (fun n => upd (W n) (nameSays d n true s)) := by
  unfold addPol at h
  by_cases h1 : s ∈ d.pols
  · rw [if_pos h1] at h
    cases hp : polstr2num d.xo s with
    | none => rw [hp] at h; cases h
    | some q =>
      rw [hp] at h
      dsimp only at h
      have hw : ∀ n, (n = q ∨ W n) ↔ upd (W n) (nameSays d n true s) := by
        intro n
        unfold nameSays
        by_cases hn : n = q
        · subst hn
          rw [if_pos ⟨h1, hp⟩]
          simp [upd]
        · rw [if_neg (fun h => hn (Option.some.inj (h.2.symm.trans hp)))]
          simp [upd, hn]
      refine pinv_congr (W := fun n => n = q ∨ W n) ?_ hw
      cases h
      by_cases hq : q ∈ l
      · rw [if_pos hq]
        refine ⟨hi.1, fun n => ?_⟩
        rw [hi.2 n]
        constructor
        · exact Or.inr
        · rintro (rfl | h)
          · exact (hi.2 _).1 hq
          · exact h
      · rw [if_neg hq]
        refine ⟨fun n hn => ?_, fun n => ?_⟩
        · rw [List.count_append]
          by_cases hnq : n = q
          · subst hnq
            rw [List.count_eq_zero.2 hq]
            simp
          · have : List.count n [q] = 0 := by
              rw [List.count_eq_zero, List.mem_singleton]
              exact hnq
            rw [this]
            exact hi.1 n hn
        · rw [List.mem_append, List.mem_singleton, hi.2 n]
          exact or_comm
  · rw [if_neg h1] at h
    cases h
    refine pinv_congr hi (fun n => ?_)
    unfold nameSays
    rw [if_neg (fun h => h1 h.1)]
    rfl

theorem addPols_inv {d : Data} : ∀ {ns : List Str} {l l' : List Int} {W : Int → Prop}, ns.foldlM (addPol d) l = .ok l' → PInv l W →
    PInv l' (fun n => upd (W n) (ns.flatMap (nameSays d n true))) := by
  intro ns
  induction ns with
  | nil =>
    intro l l' W h hi
    cases h
    exact hi
  | cons s ns ih =>
    intro l l' W h hi
    rw [List.foldlM_cons] at h
    cases hs : addPol d l s with
    | error e => rw [hs] at h; cases h
    | ok l1 =>
      rw [hs] at h
      refine pinv_congr (ih h (addPol_inv hs hi)) (fun n => ?_)
      rw [← upd_append, List.flatMap_cons]

theorem erase_inv {l : List Int} {W : Int → Prop} (hi : PInv l W) {q : Int} (hq : q < 0) : PInv (l.erase q) (fun n => n ≠ q ∧ W n) := by
  refine ⟨fun n hn => (List.Sublist.count_le n List.erase_sublist).trans (hi.1 n hn), fun n => ?_⟩
  by_cases hn : n = q
  · subst hn
    simp only [ne_eq, not_true_eq_false, false_and, iff_false]
    intro h
    have := List.count_pos_iff.2 h
    rw [List.count_erase_self] at this
    have := hi.1 n hq
    omega
  · rw [List.mem_erase_of_ne hn, hi.2 n]
    simp [hn]

theorem dropPol_inv {d : Data} {q : Nat × Nat} {s s' : St} {name : Str} {W : Int → Prop} (hf : ∃ c ∈ feedChars, ∃ e ∈ feedChars, name = [c, e])
    (h : dropPol d q s name = .ok s') (hi : PInv s.pols W) : PInv s'.pols (fun n => upd (W n) (nameSays d n false name)) := by
  unfold dropPol at h
  by_cases h1 : name ∈ d.pols
  · rw [if_pos h1] at h
    have key : ∀ p, polstr2num d.xo name = some p → PInv (s.pols.erase p) (fun n => upd (W n) (nameSays d n false name)) := by
      intro p hp
      obtain ⟨c, hc, e, he, rfl⟩ := hf
      refine pinv_congr (erase_inv hi (feed_neg d.xo c e hc he p hp)) (fun n => ?_)
      unfold nameSays
      by_cases hn : n = p
      · subst hn
        rw [if_pos ⟨h1, hp⟩]
        simp [upd]
      · rw [if_neg (fun h => hn (Option.some.inj (h.2.symm.trans hp)))]
        simp [upd, hn]
    by_cases h2 : d.pols = [name]
    · rw [if_pos h2] at h
      by_cases h3 : q ∈ s.pairs
      · rw [if_pos h3] at h
        split at h
        · cases h
        · cases h
          exact key _ ‹_›
      · rw [if_neg h3] at h; cases h
    · rw [if_neg h2] at h
      split at h
      · cases h
      · cases h
        exact key _ ‹_›
  · rw [if_neg h1] at h
    cases h
    refine pinv_congr hi (fun n => ?_)
    unfold nameSays
    rw [if_neg (fun h => h1 h.1)]
    rfl

theorem dropPols_inv {d : Data} {q : Nat × Nat} : ∀ {ns : List Str} {s s' : St} {W : Int → Prop},
    (∀ name ∈ ns, ∃ c ∈ feedChars, ∃ e ∈ feedChars, name = [c, e]) → ns.foldlM (dropPol d q) s = .ok s' → PInv s.pols W →
    PInv s'.pols (fun n => upd (W n) (ns.flatMap (nameSays d n false))) := by
  intro ns
  induction ns with
  | nil =>
    intro s s' W _ h hi
    cases h
    exact hi
  | cons m ns ih =>
    intro s s' W hf h hi
    rw [List.foldlM_cons] at h
    cases hs : dropPol d q s m with
    | error e => rw [hs] at h; cases h
    | ok s1 =>
      rw [hs] at h
      refine pinv_congr (ih (fun x hx => hf x (List.mem_cons_of_mem _ hx)) h (dropPol_inv (hf m List.mem_cons_self) hs hi)) (fun n => ?_)
      rw [← upd_append, List.flatMap_cons]

theorem orient_present {d : Data} {i j : Nat} {q : Nat × Nat} (h : orient d i j = some q) : Present d i j := by
  unfold orient at h
  by_cases h1 : (i, j) ∈ d.pairs
  · exact Or.inl h1
  · rw [if_neg h1] at h
    by_cases h2 : (j, i) ∈ d.pairs
    · exact Or.inr h2
    · rw [if_neg h2] at h; cases h

theorem orient_absent {d : Data} {i j : Nat} (h : orient d i j = none) : ¬ Present d i j := by
  unfold orient at h
  by_cases h1 : (i, j) ∈ d.pairs
  · rw [if_pos h1] at h; cases h
  · rw [if_neg h1] at h
    by_cases h2 : (j, i) ∈ d.pairs
    · rw [if_pos h2] at h; cases h
    · exact fun h => h.elim h1 h2

theorem step_pinv {d : Data} {s s' : St} {a : Act} {W : Int → Prop} (ha : a.Fed) (h : step d s a = .ok s') (hi : PInv s.pols W) :
    PInv s'.pols (fun n => upd (W n) (a.saysPol d n)) := by
  unfold step at h
  cases ho : orient d a.i a.j with
  | none =>
    rw [ho] at h
    cases h
    refine pinv_congr hi (fun n => ?_)
    unfold Act.saysPol
    split
    · rfl
    · rw [if_neg (orient_absent ho)]
      rfl
  | some q =>
    rw [ho] at h
    dsimp only at h
    have hp := orient_present ho
    cases hn : a.names with
    | none =>
      rw [hn] at h
      have hs : ∀ n, a.saysPol d n = [] := by
        intro n
        unfold Act.saysPol
        rw [hn]
      have : s'.pols = s.pols := by
        by_cases hc : a.incl = true
        · rw [if_pos hc] at h
          cases h
          rfl
        · rw [if_neg hc] at h
          cases h
          rfl
      rw [this]
      refine pinv_congr hi (fun n => ?_)
      rw [hs n]
      rfl
    | some ns =>
      rw [hn] at h
      have hs : ∀ n, a.saysPol d n = ns.flatMap (nameSays d n a.incl) := by
        intro n
        unfold Act.saysPol
        rw [hn]
        dsimp only
        rw [if_pos hp, filter_names]
      simp only [hs]
      by_cases hc : a.incl = true
      · rw [if_pos hc] at h
        rw [hc]
        dsimp only at h
        split at h
        · cases h
        · cases h
          exact addPols_inv ‹_› hi
      · rw [if_neg hc] at h
        rw [Bool.not_eq_true] at hc
        rw [hc]
        exact dropPols_inv (ha hc ns hn) h hi

theorem steps_pinv {d : Data} : ∀ {as : List Act} {s s' : St} {W : Int → Prop}, (∀ a ∈ as, a.Fed) → as.foldlM (step d) s = .ok s' →
    PInv s.pols W → PInv s'.pols (fun n => upd (W n) (as.flatMap (Act.saysPol d n))) := by
  intro as
  induction as with
  | nil =>
    intro s s' W _ h hi
    cases h
    exact hi
  | cons a as ih =>
    intro s s' W ha h hi
    rw [List.foldlM_cons] at h
    cases hs : step d s a with
    | error e => rw [hs] at h; cases h
    | ok s1 =>
      rw [hs] at h
      have := ih (fun b hb => ha b (List.mem_cons_of_mem _ hb)) h (step_pinv (ha a List.mem_cons_self) hs hi)
      refine pinv_congr this (fun n => ?_)
      rw [← upd_append, List.flatMap_cons]

/-- The names of Stokes parameters have the numbers 1 to 4. -/
def StokesPos (ts : List Item) : Prop := ∀ n, .stokes n ∈ ts → 0 < n

theorem item_pinv {d : Data} {last : Bool} {s s' : St} {t : Item} {W : Int → Prop} (hn : ∀ n, t = .stokes n → 0 < n)
    (h : item d last s t = .ok s') (hi : PInv s.pols W) : PInv s'.pols (fun n => upd (W n) (t.saysPol d n)) := by
  cases t with
  | all =>
    cases h
    cases last <;> exact hi
  | auto => cases h; exact hi
  | cross => cases h; exact hi
  | stokes m =>
    cases h
    have hm := hn m rfl
    refine ⟨fun n hn => ?_, fun n => ?_⟩
    · rw [List.count_append]
      have : List.count n [m] = 0 := by
        rw [List.count_eq_zero, List.mem_singleton]
        omega
      rw [this]
      exact hi.1 n hn
    · rw [List.mem_append, List.mem_singleton, hi.2 n, eq_comm]
      exact (upd_ite _ _).symm
  | bare a =>
    rw [item] at h
    cases ha : (Item.bare a).acts d with
    | error e => rw [ha] at h; cases h
    | ok as =>
      rw [ha] at h
      refine pinv_congr (steps_pinv (acts_fed ha) h hi) (fun n => ?_)
      rw [Item.saysPol, ha]
      all_goals simp
    all_goals simp
  | pair a b =>
    rw [item] at h
    cases ha : (Item.pair a b).acts d with
    | error e => rw [ha] at h; cases h
    | ok as =>
      rw [ha] at h
      refine pinv_congr (steps_pinv (acts_fed ha) h hi) (fun n => ?_)
      rw [Item.saysPol, ha]
      all_goals simp
    all_goals simp

theorem run_pinv {d : Data} : ∀ {ts : List Item} {s s' : St} {W : Int → Prop}, StokesPos ts →
    run d s ts = .ok s' → PInv s.pols W → PInv s'.pols (fun n => upd (W n) (ts.flatMap (Item.saysPol d n))) := by
  intro ts
  induction ts with
  | nil =>
    intro s s' W _ h hi
    cases h
    exact hi
  | cons t ts ih =>
    intro s s' W hp h hi
    rw [run] at h
    cases ht : item d ts.isEmpty s t with
    | error e => rw [ht] at h; cases h
    | ok s1 =>
      rw [ht] at h
      dsimp only at h
      have h1 := item_pinv (fun n hn => hp n (hn ▸ List.mem_cons_self)) ht hi
      refine pinv_congr (ih (fun n hn => hp n (List.mem_cons_of_mem _ hn)) h h1) (fun n => ?_)
      rw [← upd_append, List.flatMap_cons]

/-- The polarizations that are returned are those for which the last thing that the string says is that they are asked for, from the greatest number to the least, those of
feeds each once. None are returned exactly if none is asked for. -/
theorem pols_last_wins (d : Data) (ts : List Item) (hp : StokesPos ts) (r : Option (List (Nat × Nat))) (ps : Option (List Int))
    (h : parse d ts = .ok (r, ps)) :
    (∀ l, ps = some l → l.Pairwise (· ≥ ·) ∧ (∀ n < 0, l.count n ≤ 1) ∧ ∀ n, n ∈ l ↔ PolWanted d ts n) ∧
    (ps = none ↔ ∀ n, ¬ PolWanted d ts n) := by
  unfold parse at h
  cases hr : run d ⟨[], []⟩ (prefixed ts) with
  | error e => rw [hr] at h; cases h
  | ok s =>
    rw [hr] at h
    dsimp only at h
    have hp' : StokesPos (prefixed ts) := by
      intro n hn
      unfold prefixed at hn
      split at hn
      · split at hn
        · rcases List.mem_cons.1 hn with h | hn
          · cases h
          · exact hp n hn
        · exact hp n hn
      · cases hn
    have hi := run_pinv (W := fun _ => False) hp' hr ⟨fun n _ => by simp, fun n => by simp⟩
    have hw : ∀ n, n ∈ s.pols ↔ PolWanted d ts n := fun n => (hi.2 n).trans (upd_false _)
    injection h with h
    injection h with _ h
    by_cases h0 : s.pols = []
    · rw [if_pos h0] at h
      subst h
      refine ⟨fun l h => (nomatch h), fun _ n hn => ?_, fun _ => rfl⟩
      have := (hw n).2 hn
      rw [h0] at this
      cases this
    · rw [if_neg h0] at h
      subst h
      have hpm := List.perm_insertionSort (· ≥ ·) s.pols
      refine ⟨?_, ?_, ?_⟩
      · intro l hl
        obtain rfl := Option.some.inj hl
        refine ⟨List.pairwise_insertionSort (· ≥ ·) s.pols, fun n hn => ?_, fun n => ?_⟩
        · rw [hpm.count_eq]
          exact hi.1 n hn
        · rw [hpm.mem_iff]
          exact hw n
      · intro h; cases h
      · intro h
        exact absurd (List.eq_nil_iff_forall_not_mem.2 (fun n hn => h n ((hw n).1 hn))) h0

/-- Two antennas with feeds: the polarization of those feeds, if the object has the pair and a polarization of that name. -/
theorem two_feeds (d : Data) (i j : Nat) (f g : Feed) (n : Int) :
    PolWanted d [.pair (.ant ⟨false, i, some f⟩) (.ant ⟨false, j, some g⟩)] n ↔
      Present d i j ∧ [f.char, g.char] ∈ d.pols ∧ polstr2num d.xo [f.char, g.char] = some n := by
  have he : (prefixed [.pair (.ant ⟨false, i, some f⟩) (.ant ⟨false, j, some g⟩)]).flatMap (Item.saysPol d n) =
      Act.saysPol d n (act ⟨false, i, some f⟩ ⟨false, j, some g⟩) := by
    have : ∀ l : List Bool, (l ++ []) ++ [] = l := by simp
    exact this _
  rw [PolWanted, he]
  have hn : (act ⟨false, i, some f⟩ ⟨false, j, some g⟩).saysPol d n =
      if Present d i j then ([[f.char, g.char]].filter (fun name => name ∈ d.pols ∧ polstr2num d.xo name = some n)).map (fun _ => true) else [] := rfl
  rw [hn, filter_names]
  by_cases hp : Present d i j
  · rw [if_pos hp]
    simp only [List.flatMap_cons, List.flatMap_nil, List.append_nil, nameSays]
    by_cases hc : [f.char, g.char] ∈ d.pols ∧ polstr2num d.xo [f.char, g.char] = some n
    · simp [hc, hp]
    · rw [if_neg hc]
      simp only [List.getLast?_nil, reduceCtorEq, false_iff]
      exact fun h => hc h.2
  · rw [if_neg hp]
    simp [hp]

example : parse sample [.pair (.ant ⟨false, 1, some .y⟩) (.ant ⟨false, 0, some .y⟩), .pair (.ant ⟨false, 0, some .x⟩) (.ant ⟨false, 2, none⟩)] =
    .ok (some [(0, 1), (0, 2)], some [-5, -6]) := by decide +kernel
example : parse sample [.stokes 2, .pair (.ant ⟨false, 1, some .y⟩) (.ant ⟨false, 0, some .y⟩)] = .ok (some [(0, 1)], some [2, -6]) := by decide +kernel

/-- The names of a given orientation. -/
def names (m : Option (Char × Char)) : Verif.Pol.Dict Int Str :=
  match m with
  | some (ex, ey) => Verif.Pol.polNum2Str.foldl (fun acc p => Verif.Pol.Dict.set acc p.1 (Verif.Pol.renameXY ex ey p.2)) Verif.Pol.polNum2Str
  | none => Verif.Pol.polNum2Str

theorem polnum_names (xo : Option Str) (k : Int) : polnum2str xo k = (names (xo.bind Verif.Pol.xOrientPolMap)).get k := rfl

theorem oriented_names : ∀ m ∈ [('e', 'n'), ('n', 'e')], ∀ q ∈ names (some m), ∀ c ∈ ',' :: feedChars, ∀ e ∈ feedChars, q.2 = [c, e] →
    ∀ n ∈ (Verif.Pol.lowerKeys (table (some m))).get (Verif.Pol.lower [c, e]), -5 < n := by
  decide +kernel

/-- If the orientation of the feeds is known, the object gives its polarizations names with `e` and `n`, and no name made of `x` and `y` is one of them: whatever the string,
no linear polarization is chosen. -/
theorem oriented_never (d : Data) (ts : List Item) (hp : StokesPos ts) (ho : d.xo.bind Verif.Pol.xOrientPolMap ≠ none)
    (hd : ∀ name ∈ d.pols, ∃ k, polnum2str d.xo k = some name) (n : Int) (hn : n ≤ -5) : ¬ PolWanted d ts n := by
  have hno : ∀ a : Act, (∀ ns, a.names = some ns → ∀ s ∈ ns, ∃ c ∈ ',' :: feedChars, ∃ e ∈ feedChars, s = [c, e]) → a.saysPol d n = [] := by
    intro a ha
    unfold Act.saysPol
    cases hns : a.names with
    | none => rfl
    | some ns =>
      dsimp only
      split
      · rw [List.map_eq_nil_iff, List.filter_eq_nil_iff]
        intro s hs hcs
        obtain ⟨h1, h2⟩ := of_decide_eq_true hcs
        obtain ⟨c, hc', e, he, rfl⟩ := ha ns hns s hs
        obtain ⟨k, hk⟩ := hd _ h1
        rw [polstr_table] at h2
        rw [polnum_names] at hk
        have hm : ∃ m ∈ [('e', 'n'), ('n', 'e')], d.xo.bind Verif.Pol.xOrientPolMap = some m := by
          rcases orient_cases d.xo with h | h | h
          · exact absurd h ho
          · exact ⟨_, List.mem_cons_self, h⟩
          · exact ⟨_, List.mem_cons_of_mem _ List.mem_cons_self, h⟩
        obtain ⟨m, hm, he'⟩ := hm
        rw [he'] at h2 hk
        unfold Verif.Pol.Dict.get at hk
        obtain ⟨q, hq, hq2⟩ := Option.map_eq_some_iff.1 hk
        have := oriented_names m hm q (List.mem_of_find?_eq_some hq) c hc' e he hq2 n h2
        omega
      · rfl
  have hit : ∀ t ∈ prefixed ts, t.saysPol d n = [] := by
    intro t ht
    have named : ∀ as, t.acts d = .ok as → as.flatMap (Act.saysPol d n) = [] := by
      intro as ha
      rw [List.flatMap_eq_nil_iff]
      exact fun a h => hno a (acts_names ha a h)
    cases t with
    | stokes m =>
      have : 0 < m := by
        apply hp m
        unfold prefixed at ht
        split at ht
        · split at ht
          · rcases List.mem_cons.1 ht with h | ht
            · cases h
            · exact ht
          · exact ht
        · cases ht
      have hne : m ≠ n := by omega
      exact if_neg hne
    | all => rfl
    | auto => rfl
    | cross => rfl
    | bare a =>
      cases ha : (Item.bare a).acts d with
      | error e =>
        rw [Item.saysPol, ha]
        all_goals simp
      | ok as =>
        rw [Item.saysPol, ha]
        · exact named as ha
        all_goals simp
    | pair a b =>
      cases ha : (Item.pair a b).acts d with
      | error e =>
        rw [Item.saysPol, ha]
        all_goals simp
      | ok as =>
        rw [Item.saysPol, ha]
        · exact named as ha
        all_goals simp
  intro h
  rw [PolWanted, List.flatMap_eq_nil_iff.2 hit] at h
  cases h

/-- The object of the example with a known orientation. -/
def oriented : Data := ⟨[0, 1], [(0, 1)], [['e', 'e'], ['n', 'n']], some ['e', 'a', 's', 't']⟩

/-- The feeds named do not choose a polarization, and all are kept. -/
theorem feeds_oriented_counterexample :
    parse oriented [.pair (.ant ⟨false, 0, some .x⟩) (.ant ⟨false, 1, some .x⟩)] = .ok (some [(0, 1)], none) ∧
    parse { oriented with pols := [['x', 'x'], ['y', 'y']], xo := none } [.pair (.ant ⟨false, 0, some .x⟩) (.ant ⟨false, 1, some .x⟩)] =
      .ok (some [(0, 1)], some [-5]) := by
  refine ⟨by decide +kernel, by decide +kernel⟩

example : oriented.xo.bind Verif.Pol.xOrientPolMap ≠ none ∧ ∀ name ∈ oriented.pols, ∃ k, polnum2str oriented.xo k = some name := by
  refine ⟨by decide, ?_⟩
  intro name h
  simp only [oriented, List.mem_cons, List.not_mem_nil, or_false] at h
  rcases h with rfl | rfl
  · exact ⟨-5, by decide⟩
  · exact ⟨-6, by decide⟩

/-- To exclude with feeds: nothing is excluded if the object has more than one polarization, and with one polarization the string is an error if the pair is not asked for
before. -/
theorem exclude_feeds_counterexample :
    parse sample [.pair (.ant ⟨true, 0, some .x⟩) (.ant ⟨false, 1, some .x⟩)] = .ok (some sample.pairs, none) ∧
    parse { sample with pols := [['x', 'x']] } [.auto, .pair (.ant ⟨true, 0, some .x⟩) (.ant ⟨false, 1, some .x⟩)] = .error .remove := by
  refine ⟨by decide +kernel, by decide +kernel⟩

/-- In a string of pairs with feeds, the polarizations of one pair are chosen for all pairs. -/
theorem feeds_mix_counterexample :
    parse sample [.pair (.ant ⟨false, 0, some .x⟩) (.ant ⟨false, 1, some .x⟩), .pair (.ant ⟨false, 0, some .y⟩) (.ant ⟨false, 2, some .y⟩)] =
      .ok (some [(0, 1), (0, 2)], some [-5, -6]) := by
  decide +kernel

end Verif.AntStr
