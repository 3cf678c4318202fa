import Verif.AntStr.Model
import Mathlib.Data.List.Nodup
import Mathlib.Data.List.Perm.Lattice

/-!
Which antenna pairs a string chooses.

What each part of the string says about a pair of the object is written here without the list that is built up: it may ask for the pair, or exclude it, or say
nothing. The pairs returned are those for which the last thing said is that they are asked for.
-/
namespace Verif.AntStr
open Verif.Pol (Str polstr2num)

/-- The pair of the object meant by two antenna numbers: in the order given if the object has it so, otherwise in the other order. -/
def Means (d : Data) (i j : Nat) (p : Nat × Nat) : Prop :=
  p ∈ d.pairs ∧ (p = (i, j) ∨ (p = (j, i) ∧ (i, j) ∉ d.pairs))

instance (d : Data) (i j : Nat) (p : Nat × Nat) : Decidable (Means d i j p) := inferInstanceAs (Decidable (_ ∧ _))

/-- What two antennas say about a pair. To exclude with feeds is to exclude polarizations; it says something about the pair only if the object has no other. -/
def Act.says (d : Data) (p : Nat × Nat) (a : Act) : Option Bool :=
  if Means d a.i a.j p then
    if a.incl then some true
    else
      match a.names with
      | none => some false
      | some ns => if ∃ n ∈ ns, d.pols = [n] then some false else none
  else none

/-- What a part of the string says about a pair, in order. -/
def Item.says (d : Data) (p : Nat × Nat) (last : Bool) : Item → List Bool
  | .all => if p ∈ d.pairs ∧ last = false then [true] else []
  | .auto => if p ∈ d.pairs ∧ p.1 = p.2 then [true] else []
  | .cross => if p ∈ d.pairs ∧ p.1 ≠ p.2 then [true] else []
  | .stokes _ => []
  | t =>
    match t.acts d with
    | .error _ => []
    | .ok as => as.filterMap (Act.says d p)

/-- What a string says about a pair, in order. -/
def said (d : Data) (p : Nat × Nat) : List Item → List Bool
  | [] => []
  | t :: ts => t.says d p ts.isEmpty ++ said d p ts

/-- The last thing said is that the pair is asked for. -/
def Wanted (d : Data) (ts : List Item) (p : Nat × Nat) : Prop := (said d p (prefixed ts)).getLast? = some true

/-- What holds of the list before and after. -/
def Inv (pairs : List (Nat × Nat)) (W : Nat × Nat → Prop) : Prop := pairs.Nodup ∧ ∀ p, p ∈ pairs ↔ W p

/-- The last of what is said, starting from what held before. -/
def upd (b : Prop) (l : List Bool) : Prop :=
  match l.getLast? with
  | none => b
  | some v => v = true

theorem upd_nil (b : Prop) : upd b [] = b := rfl

theorem upd_append (b : Prop) (l m : List Bool) : upd b (l ++ m) = upd (upd b l) m := by
  unfold upd
  rw [List.getLast?_append]
  cases m.getLast? <;> simp

theorem upd_single (b : Prop) (v : Bool) : upd b [v] = (v = true) := rfl

theorem upd_false (l : List Bool) : upd False l ↔ l.getLast? = some true := by
  unfold upd
  cases l.getLast? <;> simp

theorem orient_some {d : Data} {i j : Nat} {q : Nat × Nat} (h : orient d i j = some q) (p : Nat × Nat) : Means d i j p ↔ p = q := by
  unfold orient at h
  unfold Means
  by_cases h1 : (i, j) ∈ d.pairs
  · rw [if_pos h1] at h
    obtain rfl := Option.some.inj h
    constructor
    · rintro ⟨_, h | h⟩
      · exact h
      · exact absurd h1 h.2
    · rintro rfl
      exact ⟨h1, Or.inl rfl⟩
  · rw [if_neg h1] at h
    by_cases h2 : (j, i) ∈ d.pairs
    · rw [if_pos h2] at h
      obtain rfl := Option.some.inj h
      constructor
      · rintro ⟨h, rfl | h⟩
        · exact absurd h h1
        · exact h.1
      · rintro rfl
        exact ⟨h2, Or.inr ⟨rfl, h1⟩⟩
    · rw [if_neg h2] at h
      cases h

theorem orient_none {d : Data} {i j : Nat} (h : orient d i j = none) (p : Nat × Nat) : ¬ Means d i j p := by
  unfold orient at h
  by_cases h1 : (i, j) ∈ d.pairs
  · rw [if_pos h1] at h; cases h
  · rw [if_neg h1] at h
    by_cases h2 : (j, i) ∈ d.pairs
    · rw [if_pos h2] at h; cases h
    · rintro ⟨hp, rfl | ⟨rfl, _⟩⟩
      · exact h1 hp
      · exact h2 hp

theorem dropPol_pairs {d : Data} {q : Nat × Nat} {s s' : St} {n : Str} (h : dropPol d q s n = .ok s') :
    (d.pols = [n] → q ∈ s.pairs ∧ s'.pairs = s.pairs.erase q) ∧ (d.pols ≠ [n] → s'.pairs = s.pairs) := by
  unfold dropPol at h
  by_cases h1 : n ∈ d.pols
  · rw [if_pos h1] at h
    by_cases h2 : d.pols = [n]
    · rw [if_pos h2] at h
      by_cases h3 : q ∈ s.pairs
      · rw [if_pos h3] at h
        split at h
        · cases h
        · cases h
          exact ⟨fun _ => ⟨h3, rfl⟩, fun h => absurd h2 h⟩
      · rw [if_neg h3] at h; cases h
    · rw [if_neg h2] at h
      split at h
      · cases h
      · cases h
        exact ⟨fun h => absurd h h2, fun _ => rfl⟩
  · rw [if_neg h1] at h
    cases h
    exact ⟨fun h => absurd (by rw [h]; exact List.mem_singleton_self n) h1, fun _ => rfl⟩

theorem foldl_dropPol {d : Data} {q : Nat × Nat} (ns : List Str) (hn : ns.Nodup) :
    ∀ {s s' : St}, ns.foldlM (dropPol d q) s = .ok s' →
      ((∃ n ∈ ns, d.pols = [n]) → s'.pairs = s.pairs.erase q) ∧ ((¬ ∃ n ∈ ns, d.pols = [n]) → s'.pairs = s.pairs) := by
  induction ns with
  | nil =>
    intro s s' h
    cases h
    exact ⟨fun ⟨n, hn, _⟩ => absurd hn List.not_mem_nil, fun _ => rfl⟩
  | cons m ns ih =>
    intro s s' h
    rw [List.foldlM_cons] at h
    cases hm : dropPol d q s m with
    | error e => rw [hm] at h; cases h
    | ok s1 =>
      rw [hm] at h
      have hs := dropPol_pairs hm
      have ht := ih (List.nodup_cons.1 hn).2 h
      by_cases h1 : d.pols = [m]
      · have h2 : ¬ ∃ n ∈ ns, d.pols = [n] := by
          rintro ⟨n, hn', hd⟩
          rw [h1] at hd
          have : m = n := by simpa using hd
          exact (List.nodup_cons.1 hn).1 (this ▸ hn')
        refine ⟨fun _ => ?_, fun h => absurd ⟨m, List.mem_cons_self, h1⟩ h⟩
        rw [ht.2 h2, (hs.1 h1).2]
      · have hs2 := hs.2 h1
        constructor
        · rintro ⟨n, hn', hd⟩
          rcases List.mem_cons.1 hn' with rfl | hn'
          · exact absurd hd h1
          · rw [ht.1 ⟨n, hn', hd⟩, hs2]
        · intro h2
          rw [ht.2 (fun ⟨n, hn', hd⟩ => h2 ⟨n, List.mem_cons_of_mem _ hn', hd⟩), hs2]

/-- The names of an action are different from one another. -/
def Act.Ok (a : Act) : Prop := ∀ ns, a.names = some ns → ns.Nodup

theorem act_ok (a b : Ant) : (act a b).Ok := by
  rcases a with ⟨_, _, _ | f⟩ <;> rcases b with ⟨_, _, _ | g⟩ <;> intro ns h
  · cases h
  · simp only [act, polNames, Option.some.injEq] at h
    subst h
    cases g <;> decide
  · simp only [act, polNames, Option.some.injEq] at h
    subst h
    cases f <;> decide
  · simp only [act, polNames, Option.some.injEq] at h
    subst h
    exact List.nodup_singleton _

theorem groupAct_ok {as : List Ant} {j : Nat} {a : Act} (h : groupAct as j = .ok a) : a.Ok ∧ a.incl = true := by
  unfold groupAct at h
  split at h
  · cases h
  · cases h
  · dsimp only at h
    obtain rfl := Except.ok.inj h
    refine ⟨?_, rfl⟩
    intro ns hns
    obtain rfl := Option.some.inj hns
    by_cases hl : ((‹Ant› :: ‹List Ant›).any fun b => b.feed.any Feed.linear) = true
    · rw [if_pos hl]
      simp
    · rw [if_neg hl]
      simp

theorem mapM_mem {ε β γ : Type} {f : β → Except ε γ} : ∀ {l : List β} {r : List γ}, l.mapM f = .ok r → ∀ y ∈ r, ∃ x ∈ l, f x = .ok y := by
  intro l
  induction l with
  | nil =>
    intro r h y hy
    cases h
    cases hy
  | cons a l ih =>
    intro r h y hy
    rw [List.mapM_cons] at h
    cases ha : f a with
    | error e => rw [ha] at h; cases h
    | ok b =>
      rw [ha] at h
      cases hl : l.mapM f with
      | error e => rw [hl] at h; cases h
      | ok bs =>
        rw [hl] at h
        cases h
        rcases List.mem_cons.1 hy with rfl | hy
        · exact ⟨a, List.mem_cons_self, ha⟩
        · obtain ⟨x, hx, hxy⟩ := ih hl y hy
          exact ⟨x, List.mem_cons_of_mem _ hx, hxy⟩

theorem acts_ok {d : Data} {t : Item} {as : List Act} (h : t.acts d = .ok as) : ∀ a ∈ as, a.Ok := by
  intro a ha
  unfold Item.acts at h
  split at h
  · cases h
    obtain ⟨j, _, rfl⟩ := List.mem_map.1 ha
    exact act_ok _ _
  · obtain ⟨j, _, hj⟩ := mapM_mem h a ha
    exact (groupAct_ok hj).1
  · cases h
    obtain ⟨x, _, hx⟩ := List.mem_flatMap.1 ha
    obtain ⟨y, _, rfl⟩ := List.mem_map.1 hx
    exact act_ok _ _
  · cases h
    cases ha

theorem inv_insert {l : List (Nat × Nat)} {W : Nat × Nat → Prop} (h : Inv l W) (q : Nat × Nat) :
    Inv (if q ∈ l then l else l ++ [q]) (fun p => p = q ∨ W p) := by
  by_cases hq : q ∈ l
  · rw [if_pos hq]
    refine ⟨h.1, fun p => ?_⟩
    rw [h.2 p]
    constructor
    · exact Or.inr
    · rintro (rfl | hp)
      · exact (h.2 _).1 hq
      · exact hp
  · rw [if_neg hq]
    refine ⟨?_, fun p => ?_⟩
    · rw [List.nodup_append]
      refine ⟨h.1, List.nodup_singleton _, ?_⟩
      intro a ha b hb
      rw [List.mem_singleton] at hb
      subst hb
      rintro rfl
      exact hq ha
    · rw [List.mem_append, List.mem_singleton, h.2 p]
      exact or_comm

theorem inv_erase {l : List (Nat × Nat)} {W : Nat × Nat → Prop} (h : Inv l W) (q : Nat × Nat) :
    Inv (l.erase q) (fun p => p ≠ q ∧ W p) := by
  refine ⟨h.1.erase q, fun p => ?_⟩
  rw [h.1.mem_erase_iff, h.2 p]

theorem inv_congr {l : List (Nat × Nat)} {W W' : Nat × Nat → Prop} (h : Inv l W) (hw : ∀ p, W p ↔ W' p) : Inv l W' :=
  ⟨h.1, fun p => (h.2 p).trans (hw p)⟩

theorem step_inv {d : Data} {s s' : St} {a : Act} {W : Nat × Nat → Prop} (ha : a.Ok) (h : step d s a = .ok s') (hi : Inv s.pairs W) :
    Inv s'.pairs (fun p => upd (W p) (a.says d p).toList) := by
  unfold step at h
  cases ho : orient d a.i a.j with
  | none =>
    rw [ho] at h
    cases h
    refine inv_congr hi (fun p => ?_)
    rw [Act.says, if_neg (orient_none ho p)]
    rfl
  | some q =>
    rw [ho] at h
    dsimp only at h
    have hm := orient_some ho
    by_cases hc : a.incl = true
    · rw [if_pos hc] at h
      have hw : ∀ p, (p = q ∨ W p) ↔ upd (W p) (a.says d p).toList := by
        intro p
        by_cases hp : p = q
        · rw [Act.says, if_pos ((hm p).2 hp), if_pos hc]
          simp [hp, upd]
        · rw [Act.says, if_neg (fun h => hp ((hm p).1 h))]
          simp [hp, upd]
      have key := inv_congr (inv_insert hi q) hw
      cases hn : a.names with
      | none =>
        rw [hn] at h
        cases h
        exact key
      | some ns =>
        rw [hn] at h
        dsimp only at h
        split at h
        · cases h
        · cases h
          exact key
    · rw [if_neg hc] at h
      cases hn : a.names with
      | none =>
        rw [hn] at h
        cases h
        refine inv_congr (inv_erase hi q) (fun p => ?_)
        by_cases hp : p = q
        · rw [Act.says, if_pos ((hm p).2 hp), if_neg hc, hn]
          simp [hp, upd]
        · rw [Act.says, if_neg (fun h => hp ((hm p).1 h))]
          simp [hp, upd]
      | some ns =>
        rw [hn] at h
        dsimp only at h
        have hd := foldl_dropPol ns (ha ns hn) h
        by_cases he : ∃ n ∈ ns, d.pols = [n]
        · rw [hd.1 he]
          refine inv_congr (inv_erase hi q) (fun p => ?_)
          by_cases hp : p = q
          · rw [Act.says, if_pos ((hm p).2 hp), if_neg hc, hn]
            simp only [if_pos he]
            simp [hp, upd]
          · rw [Act.says, if_neg (fun h => hp ((hm p).1 h))]
            simp [hp, upd]
        · rw [hd.2 he]
          refine inv_congr hi (fun p => ?_)
          rw [Act.says]
          by_cases hp : Means d a.i a.j p
          · rw [if_pos hp, if_neg hc, hn]
            simp only [if_neg he]
            rfl
          · rw [if_neg hp]
            rfl

theorem steps_inv {d : Data} : ∀ {as : List Act} {s s' : St} {W : Nat × Nat → Prop}, (∀ a ∈ as, a.Ok) → as.foldlM (step d) s = .ok s' →
    Inv s.pairs W → Inv s'.pairs (fun p => upd (W p) (as.filterMap (Act.says d p))) := by
  intro as
  induction as with
  | nil =>
    intro s s' W _ h hi
    cases h
    exact hi
  | cons a as ih =>
    intro s s' W ha h hi
    rw [List.foldlM_cons] at h
    cases hs : step d s a with
    | error e => rw [hs] at h; cases h
    | ok s1 =>
      rw [hs] at h
      have := ih (fun b hb => ha b (List.mem_cons_of_mem _ hb)) h (step_inv (ha a List.mem_cons_self) hs hi)
      refine inv_congr this (fun p => ?_)
      rw [← upd_append, List.filterMap_cons]
      cases a.says d p <;> rfl

theorem foldl_add {c : Nat × Nat → Prop} [DecidablePred c] {W : Nat × Nat → Prop} :
    ∀ (ps l : List (Nat × Nat)), Inv l W → Inv (ps.foldl (fun l p => if c p ∧ p ∉ l then l ++ [p] else l) l) (fun p => W p ∨ (p ∈ ps ∧ c p)) := by
  intro ps
  induction ps generalizing W with
  | nil =>
    intro l h
    exact inv_congr h (fun p => by simp)
  | cons q ps ih =>
    intro l h
    rw [List.foldl_cons]
    have h1 : Inv (if c q ∧ q ∉ l then l ++ [q] else l) (fun p => W p ∨ (p = q ∧ c q)) := by
      by_cases hc : c q
      · have := inv_congr (W' := fun p => W p ∨ (p = q ∧ c q)) (inv_insert h q) (fun p => by simp [hc, or_comm])
        by_cases hq : q ∈ l
        · rw [if_pos hq] at this
          rwa [if_neg (fun h => h.2 hq)]
        · rw [if_neg hq] at this
          rwa [if_pos ⟨hc, hq⟩]
      · rw [if_neg (fun h => hc h.1)]
        exact inv_congr h (fun p => by simp [hc])
    refine inv_congr (ih _ h1) (fun p => ?_)
    rw [List.mem_cons]
    constructor
    · rintro ((h | ⟨rfl, h⟩) | ⟨h1, h2⟩)
      · exact Or.inl h
      · exact Or.inr ⟨Or.inl rfl, h⟩
      · exact Or.inr ⟨Or.inr h1, h2⟩
    · rintro (h | ⟨rfl | h, h2⟩)
      · exact Or.inl (Or.inl h)
      · exact Or.inl (Or.inr ⟨rfl, h2⟩)
      · exact Or.inr ⟨h, h2⟩

theorem upd_ite (b c : Prop) [Decidable c] : upd b (if c then [true] else []) ↔ (b ∨ c) := by
  by_cases hc : c
  · simp [hc, upd]
  · simp [hc, upd]

theorem item_inv {d : Data} {last : Bool} {s s' : St} {t : Item} {W : Nat × Nat → Prop} (hd : d.pairs.Nodup) (hW : ∀ p, W p → p ∈ d.pairs)
    (h : item d last s t = .ok s') (hi : Inv s.pairs W) : Inv s'.pairs (fun p => upd (W p) (t.says d p last)) := by
  have named : (∀ as, t.acts d = .ok as → as.foldlM (step d) s = .ok s' → Inv s'.pairs (fun p => upd (W p) (as.filterMap (Act.says d p)))) :=
    fun as ha hs => steps_inv (acts_ok ha) hs hi
  cases t with
  | all =>
    cases h
    cases last with
    | true => exact inv_congr hi (fun p => by simp [Item.says, upd])
    | false =>
      refine ⟨hd, fun p => ?_⟩
      simp only [Item.says, and_true]
      rw [upd_ite]
      exact ⟨Or.inr, fun h => h.elim (hW p) id⟩
  | auto =>
    cases h
    refine inv_congr (foldl_add (c := fun p => p.1 = p.2) d.pairs s.pairs hi) (fun p => ?_)
    rw [Item.says, upd_ite]
  | cross =>
    cases h
    have := foldl_add (c := fun p => p.1 ≠ p.2) d.pairs s.pairs hi
    have he : (fun (l : List (Nat × Nat)) (p : Nat × Nat) => if ¬ (p.1 = p.2 ∨ p ∈ l) then l ++ [p] else l) =
        (fun l p => if p.1 ≠ p.2 ∧ p ∉ l then l ++ [p] else l) := by
      funext l p
      simp only [not_or, ne_eq]
    dsimp only
    rw [he]
    refine inv_congr this (fun p => ?_)
    rw [Item.says, upd_ite]
  | stokes n =>
    cases h
    exact hi
  | bare a =>
    rw [item] at h
    cases ha : (Item.bare a).acts d with
    | error e => rw [ha] at h; cases h
    | ok as =>
      rw [ha] at h
      have := named as ha h
      refine inv_congr this (fun p => ?_)
      rw [Item.says, ha]
      all_goals simp
    all_goals simp
  | pair a b =>
    rw [item] at h
    cases ha : (Item.pair a b).acts d with
    | error e => rw [ha] at h; cases h
    | ok as =>
      rw [ha] at h
      have := named as ha h
      refine inv_congr this (fun p => ?_)
      rw [Item.says, ha]
      all_goals simp
    all_goals simp

theorem says_mem {d : Data} {p : Nat × Nat} {last : Bool} {t : Item} (h : t.says d p last ≠ []) : p ∈ d.pairs := by
  by_contra hp
  apply h
  have hm : ∀ as : List Act, as.filterMap (Act.says d p) = [] := by
    intro as
    rw [List.filterMap_eq_nil_iff]
    intro a _
    rw [Act.says, if_neg (fun h => hp h.1)]
  cases t <;> simp only [Item.says, hp, false_and, if_false]
  · split
    · rfl
    · exact hm _
  · split
    · rfl
    · exact hm _

theorem run_inv {d : Data} (hd : d.pairs.Nodup) : ∀ {ts : List Item} {s s' : St} {W : Nat × Nat → Prop}, (∀ p, W p → p ∈ d.pairs) →
    run d s ts = .ok s' → Inv s.pairs W → Inv s'.pairs (fun p => upd (W p) (said d p ts)) := by
  intro ts
  induction ts with
  | nil =>
    intro s s' W _ h hi
    cases h
    exact hi
  | cons t ts ih =>
    intro s s' W hW h hi
    rw [run] at h
    cases ht : item d ts.isEmpty s t with
    | error e => rw [ht] at h; cases h
    | ok s1 =>
      rw [ht] at h
      dsimp only at h
      have h1 := item_inv hd hW ht hi
      have := ih (W := fun p => upd (W p) (t.says d p ts.isEmpty)) ?_ h h1
      · refine inv_congr this (fun p => ?_)
        rw [said, upd_append]
      · intro p hp
        by_cases hn : t.says d p ts.isEmpty = []
        · rw [hn, upd_nil] at hp
          exact hW p hp
        · exact says_mem hn

theorem run_wanted {d : Data} (hd : d.pairs.Nodup) {ts : List Item} {s : St} (h : run d ⟨[], []⟩ (prefixed ts) = .ok s) :
    s.pairs.Nodup ∧ ∀ p, p ∈ s.pairs ↔ Wanted d ts p := by
  have := run_inv hd (W := fun _ => False) (fun _ h => h.elim) h ⟨List.nodup_nil, fun p => by simp⟩
  exact ⟨this.1, fun p => (this.2 p).trans (upd_false _)⟩

theorem wanted_mem {d : Data} {ts : List Item} {p : Nat × Nat} (h : Wanted d ts p) : p ∈ d.pairs := by
  unfold Wanted at h
  generalize prefixed ts = us at h
  induction us with
  | nil => cases h
  | cons t us ih =>
    rw [said] at h
    by_cases hn : t.says d p us.isEmpty = []
    · rw [hn] at h
      exact ih h
    · exact says_mem hn

/-- The pairs that are returned are those for which the last thing that the string says is that they are asked for, each once; they are pairs of the object. No
list is returned exactly if the string is only `all`, or if no pair is asked for and the string is not only `auto` or `cross`. -/
theorem last_wins (d : Data) (hd : d.pairs.Nodup) (ts : List Item) (r : Option (List (Nat × Nat))) (ps : Option (List Int))
    (h : parse d ts = .ok (r, ps)) :
    (∀ l, r = some l → l.Nodup ∧ (∀ p, p ∈ l ↔ Wanted d ts p) ∧ ∀ p ∈ l, p ∈ d.pairs) ∧
    (r = none ↔ ts = [.all] ∨ ((∀ p, ¬ Wanted d ts p) ∧ ts ≠ [.auto] ∧ ts ≠ [.cross])) := by
  unfold parse at h
  cases hr : run d ⟨[], []⟩ (prefixed ts) with
  | error e => rw [hr] at h; cases h
  | ok s =>
    rw [hr] at h
    dsimp only at h
    obtain ⟨hn, hw⟩ := run_wanted hd hr
    injection h with h
    injection h with h _
    have he : s.pairs = [] ↔ ∀ p, ¬ Wanted d ts p := by
      rw [List.eq_nil_iff_forall_not_mem]
      exact forall_congr' (fun p => not_congr (hw p))
    by_cases ha : ts = [.all]
    · rw [if_pos ha] at h
      subst h
      exact ⟨fun l h => (nomatch h), by simp [ha]⟩
    · rw [if_neg ha] at h
      have hl : ∀ l, some s.pairs = some l → l.Nodup ∧ (∀ p, p ∈ l ↔ Wanted d ts p) ∧ ∀ p ∈ l, p ∈ d.pairs := by
        intro l hl
        obtain rfl := Option.some.inj hl
        exact ⟨hn, hw, fun p hp => wanted_mem ((hw p).1 hp)⟩
      by_cases h0 : s.pairs = []
      · rw [if_pos h0] at h
        by_cases hc : ts = [.auto] ∨ ts = [.cross]
        · rw [if_pos hc] at h
          subst h
          refine ⟨hl, ?_⟩
          constructor
          · intro h; cases h
          · rintro (h | ⟨_, h1, h2⟩)
            · exact absurd h ha
            · exact (hc.elim h1 h2).elim
        · rw [if_neg hc] at h
          subst h
          refine ⟨fun l h => (nomatch h), ?_⟩
          rw [not_or] at hc
          exact ⟨fun _ => Or.inr ⟨he.1 h0, hc.1, hc.2⟩, fun _ => rfl⟩
      · rw [if_neg h0] at h
        subst h
        refine ⟨hl, ?_⟩
        constructor
        · intro h; cases h
        · rintro (h | ⟨h1, _⟩)
          · exact absurd h ha
          · exact absurd (he.2 h1) h0

end Verif.AntStr
