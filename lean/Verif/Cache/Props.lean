import Verif.Cache.Spec
import Verif.GetData.Props

/-!
C15: index caches never serve stale answers.
-/
namespace Verif.Cache
open Verif.GetData
open Verif.Slices (SlicifyOut slicify)
open Verif.AntPair (Numbered LaidOut IsRowsOf antpair2ind)
open Verif.Pol (polstr2num)

theorem lookup_cons {α β : Type} [DecidableEq α] (k k' : α) (v : β) (d : List (α × β)) :
    lookup ((k', v) :: d) k = if k' = k then some v else lookup d k := by
  unfold lookup
  rw [List.find?_cons]
  by_cases h : k' = k <;> simp [h]

/-- Every cached entry is what a fresh computation gives. -/
def Coherent (s : St) : Prop :=
  (∀ a b ord v, lookup s.antCache (a, b, ord) = some v → antpair2ind s.o.pairs a b ord = .ok v) ∧
  ∀ k i, lookup s.keyCache k = some i → key2inds s.o k = .ok i

theorem antpair2ind_or (o : AntPair.Obj) (a b : Nat) (ord : Bool) :
    antpair2ind o a b (ord || decide (a = b)) = antpair2ind o a b ord := by
  unfold antpair2ind
  cases ord <;> simp

theorem askPair_spec {s : St} (h : Coherent s) (a b : Nat) (ord : Bool) :
    (askPair s a b ord).2 = antpair2ind s.o.pairs a b ord ∧ Coherent (askPair s a b ord).1 ∧
      (askPair s a b ord).1.o = s.o := by
  unfold askPair
  simp only
  rw [← antpair2ind_or s.o.pairs a b ord]
  cases hl : lookup s.antCache (a, b, ord || decide (a = b)) with
  | some v => exact ⟨(h.1 _ _ _ _ hl).symm, h, rfl⟩
  | none =>
    cases hc : antpair2ind s.o.pairs a b (ord || decide (a = b)) with
    | error e => exact ⟨rfl, h, rfl⟩
    | ok v =>
      refine ⟨rfl, ⟨?_, h.2⟩, rfl⟩
      intro a' b' ord' v' hv
      simp only [lookup_cons] at hv
      split at hv
      · rename_i heq
        simp only [Prod.mk.injEq] at heq
        obtain ⟨rfl, rfl, rfl⟩ := heq
        simp only [Option.some.injEq] at hv
        subst hv
        exact hc
      · exact h.1 _ _ _ _ hv

theorem remember_spec {s : St} (h : Coherent s) (k : Key) (r : Except Err Inds) (hr : key2inds s.o k = r) :
    (remember s k r).2 = r ∧ Coherent (remember s k r).1 ∧ (remember s k r).1.o = s.o := by
  cases r with
  | error e => exact ⟨rfl, h, rfl⟩
  | ok i =>
    refine ⟨rfl, ⟨h.1, ?_⟩, rfl⟩
    intro k' i' hi
    simp only [remember, lookup_cons] at hi
    split at hi
    · rename_i heq
      simp only [Option.some.injEq] at hi
      subst heq hi
      exact hr
    · exact h.2 _ _ hi

theorem askRows_spec {s : St} (h : Coherent s) (k : Key) (a b : Nat) (p : Option PolArg)
    (hk : key2inds s.o k = byPair s.o a b p) :
    (askRows s k a b p).2 = byPair s.o a b p ∧ Coherent (askRows s k a b p).1 ∧ (askRows s k a b p).1.o = s.o := by
  obtain ⟨h1, h2, h3⟩ := askPair_spec h a b true
  unfold askRows
  generalize askPair s a b true = x at *
  obtain ⟨s1, r1⟩ := x
  simp only at h1 h2 h3
  cases r1 with
  | error e => exact ⟨by simp [byPair, ← h1], h2, h3⟩
  | ok b1 =>
    simp only
    split
    · rename_i hab
      have e : byPair s.o a b p = combine s.o p b1 .none := by unfold byPair; rw [← h1, if_pos hab]
      rw [← h3] at e hk
      rw [← h3, ← e]
      exact remember_spec h2 k _ hk
    · rename_i hab
      obtain ⟨g1, g2, g3⟩ := askPair_spec h2 b a true
      generalize askPair s1 b a true = y at *
      obtain ⟨s2, r2⟩ := y
      simp only at g1 g2 g3
      rw [h3] at g1 g3
      cases r2 with
      | error e => exact ⟨by simp [byPair, ← h1, hab, ← g1], g2, g3⟩
      | ok b2 =>
        have e : byPair s.o a b p = combine s.o p b1 b2 := by simp [byPair, ← h1, hab, ← g1]
        simp only
        rw [← g3] at e hk
        rw [← g3, ← e]
        exact remember_spec g2 k _ hk

theorem askKey_spec {s : St} (h : Coherent s) (k : Key) :
    (askKey s k).2 = key2inds s.o k ∧ Coherent (askKey s k).1 ∧ (askKey s k).1.o = s.o := by
  cases k with
  | int n =>
    simp only [askKey, key2inds]
    split
    · exact ⟨rfl, h, rfl⟩
    · generalize Verif.Baseline.baselineToAntnums s.o.pairs.nants [n] = r
      rcases r with e | ⟨xs, ys⟩
      · exact ⟨rfl, h, rfl⟩
      · rcases xs with _ | ⟨x, _ | ⟨x', xs⟩⟩ <;> rcases ys with _ | ⟨y, _ | ⟨y', ys⟩⟩ <;>
          first | exact ⟨rfl, h, rfl⟩ | exact askRows_spec h _ _ _ _ rfl
  | polName n =>
    simp only [askKey]
    cases hl : lookup s.keyCache (.polName n) with
    | some i => exact ⟨(h.2 _ _ hl).symm, h, rfl⟩
    | none =>
      simp only [key2inds]
      cases hp : polstr2num s.o.xo n with
      | none => exact ⟨rfl, h, rfl⟩
      | some p => exact remember_spec h _ _ (by simp [key2inds, hp])
  | pair a b =>
    simp only [askKey]
    cases hl : lookup s.keyCache (.pair a b) with
    | some i => exact ⟨(h.2 _ _ hl).symm, h, rfl⟩
    | none => exact askRows_spec h _ _ _ _ rfl
  | pairPol a b p =>
    simp only [askKey]
    cases hl : lookup s.keyCache (.pairPol a b p) with
    | some i => exact ⟨(h.2 _ _ hl).symm, h, rfl⟩
    | none => exact askRows_spec h _ _ _ _ rfl

theorem antpair2ind_pols (s : St) (l : List Int) : (setPols s l).o.pairs = s.o.pairs := rfl

theorem history_coherent {s : St} (h : History s) : Coherent s := by
  induction h with
  | fresh o => exact ⟨by simp [lookup], by simp [lookup]⟩
  | pair a b ord _ ih => exact (askPair_spec ih a b ord).2.1
  | key k _ ih => exact (askKey_spec ih k).2.1
  | ant1 l _ _ => exact ⟨by simp [setAnt1, lookup], by simp [setAnt1, lookup]⟩
  | ant2 l _ _ => exact ⟨by simp [setAnt2, lookup], by simp [setAnt2, lookup]⟩
  | pols l _ ih => exact ⟨ih.1, by simp [setPols, lookup]⟩

/-- C15: after any history of queries and of assignments to the antenna and polarization arrays, every lookup —
by antenna pair or by any form of key — answers as a fresh computation on the current arrays would. -/
theorem caches_fresh (s : St) (h : History s) :
    (∀ a b ord, (askPair s a b ord).2 = antpair2ind s.o.pairs a b ord) ∧
    (∀ k, (askKey s k).2 = key2inds s.o k) ∧
    ∀ {V : Type} (cj : V → V) (data : List (List V)) (k : Key),
      (getDataCached cj s data k).2 = getData cj s.o data k := by
  have hc := history_coherent h
  refine ⟨fun a b ord => (askPair_spec hc a b ord).1, fun k => (askKey_spec hc k).1, ?_⟩
  intro V cj data k
  have := (askKey_spec hc k).1
  unfold getDataCached getData
  rw [← this]
  generalize askKey s k = x
  obtain ⟨s', r⟩ := x
  cases r <;> rfl

/-! ### With the layout attributes changing -/

/-- `v` stands for the rows of (a, b). -/
def Denotes (o : AntPair.Obj) (a b : Nat) (v : SlicifyOut) : Prop :=
  ∃ l, IsRowsOf o a b l ∧ v.picks o.nblts = (if l = [] then none else some l) ∧ (v = .none ↔ l = [])

theorem denotes_unique {o : AntPair.Obj} {a b : Nat} {v w : SlicifyOut} (hv : Denotes o a b v) (hw : Denotes o a b w) :
    (v = .none ↔ w = .none) ∧ v.picks o.nblts = w.picks o.nblts := by
  obtain ⟨l, h1, h2, h3⟩ := hv
  obtain ⟨l', g1, g2, g3⟩ := hw
  obtain rfl := Verif.AntPair.rows_unique h1 g1
  exact ⟨by rw [h3, g3], by rw [h2, g2]⟩

/-- The pair and polarization of a key that names an antenna pair. -/
def pairOf : Key → Option (Nat × Nat × Option PolArg)
  | .pair a b => some (a, b, none)
  | .pairPol a b p => some (a, b, some p)
  | _ => none

/-- `i` is a correct answer for key `k`. -/
def Valid (o : Obj) (k : Key) (i : Inds) : Prop :=
  match k with
  | .polName n => ∃ p, polstr2num o.xo n = some p ∧ byPol o p = .ok i
  | .int _ => False
  | .pair a b => ∃ b1 b2, Denotes o.pairs a b b1 ∧ (if a = b then b2 = .none else Denotes o.pairs b a b2) ∧
      combine o none b1 b2 = .ok i
  | .pairPol a b p => ∃ b1 b2, Denotes o.pairs a b b1 ∧ (if a = b then b2 = .none else Denotes o.pairs b a b2) ∧
      combine o (some p) b1 b2 = .ok i

/-- Every cached entry has the right meaning. -/
def Meaningful (s : St) : Prop :=
  (∀ a b v, lookup s.antCache (a, b, true) = some v → Denotes s.o.pairs a b v) ∧
  ∀ k i, lookup s.keyCache k = some i → Valid s.o k i

theorem denotes_fresh {o : AntPair.Obj} (hn : Numbered o) (hl : LaidOut o) (a b : Nat) :
    ∃ v, antpair2ind o a b true = .ok v ∧ Denotes o a b v := by
  obtain ⟨r, l, h1, h2, h3, h4⟩ := Verif.AntPair.antpair2ind_exact o hn hl a b
  exact ⟨r, h1, l, h2, h3, h4⟩

theorem askPair_m {s : St} (h : Meaningful s) (hn : Numbered s.o.pairs) (hl : LaidOut s.o.pairs) (a b : Nat) (ord : Bool) :
    Meaningful (askPair s a b ord).1 ∧ (askPair s a b ord).1.o = s.o ∧
      (ord = true → ∃ v, (askPair s a b ord).2 = .ok v ∧ Denotes s.o.pairs a b v) := by
  unfold askPair
  simp only
  cases hlk : lookup s.antCache (a, b, ord || decide (a = b)) with
  | some v =>
    refine ⟨h, rfl, ?_⟩
    rintro rfl
    exact ⟨v, rfl, h.1 a b v (by simpa using hlk)⟩
  | none =>
    obtain ⟨w, hw, hd⟩ := denotes_fresh hn hl a b
    cases hc : antpair2ind s.o.pairs a b (ord || decide (a = b)) with
    | error e =>
      refine ⟨h, rfl, ?_⟩
      rintro rfl
      simp [hw] at hc
    | ok v =>
      refine ⟨⟨?_, h.2⟩, rfl, ?_⟩
      · intro a' b' v' hv
        simp only [lookup_cons] at hv
        split at hv
        · rename_i heq
          simp only [Prod.mk.injEq] at heq
          obtain ⟨rfl, rfl, he⟩ := heq
          simp only [Option.some.injEq] at hv
          subst hv
          rw [he, hw] at hc
          simp only [Except.ok.injEq] at hc
          subst hc
          exact hd
        · exact h.1 _ _ _ hv
      · rintro rfl
        rw [Bool.true_or, hw] at hc
        simp only [Except.ok.injEq] at hc
        subst hc
        exact ⟨w, rfl, hd⟩

theorem remember_m {s : St} (h : Meaningful s) (k : Key) (r : Except Err Inds) (hr : ∀ i, r = .ok i → Valid s.o k i) :
    Meaningful (remember s k r).1 ∧ (remember s k r).1.o = s.o ∧ (remember s k r).2 = r := by
  cases r with
  | error e => exact ⟨h, rfl, rfl⟩
  | ok i =>
    refine ⟨⟨h.1, ?_⟩, rfl, rfl⟩
    intro k' i' hi
    simp only [remember, lookup_cons] at hi
    split at hi
    · rename_i heq
      simp only [Option.some.injEq] at hi
      subst heq hi
      exact hr i rfl
    · exact h.2 _ _ hi

theorem askRows_m {s : St} (h : Meaningful s) (hn : Numbered s.o.pairs) (hl : LaidOut s.o.pairs) (k : Key) (a b : Nat)
    (p : Option PolArg) (hk : pairOf k = some (a, b, p)) :
    Meaningful (askRows s k a b p).1 ∧ (askRows s k a b p).1.o = s.o ∧
      ∃ b1 b2, Denotes s.o.pairs a b b1 ∧ (if a = b then b2 = .none else Denotes s.o.pairs b a b2) ∧
        (askRows s k a b p).2 = combine s.o p b1 b2 := by
  have hvalid : ∀ b1 b2 i, Denotes s.o.pairs a b b1 → (if a = b then b2 = .none else Denotes s.o.pairs b a b2) →
      combine s.o p b1 b2 = .ok i → Valid s.o k i := by
    intro b1 b2 i h1 h2 h3
    cases k with
    | int n => simp [pairOf] at hk
    | polName n => simp [pairOf] at hk
    | pair a' b' =>
      simp only [pairOf, Option.some.injEq, Prod.mk.injEq] at hk
      obtain ⟨rfl, rfl, rfl⟩ := hk
      exact ⟨b1, b2, h1, h2, h3⟩
    | pairPol a' b' p' =>
      simp only [pairOf, Option.some.injEq, Prod.mk.injEq] at hk
      obtain ⟨rfl, rfl, rfl⟩ := hk
      exact ⟨b1, b2, h1, h2, h3⟩
  obtain ⟨h1, h2, h3⟩ := askPair_m h hn hl a b true
  obtain ⟨b1, h3, h4⟩ := h3 rfl
  unfold askRows
  generalize askPair s a b true = x at *
  obtain ⟨s1, r1⟩ := x
  simp only at h1 h2 h3
  subst h3
  simp only
  by_cases hab : a = b
  · rw [if_pos hab]
    obtain ⟨m1, m2, m3⟩ := remember_m h1 k (combine s1.o p b1 .none) (by
      intro i hi; rw [h2] at hi ⊢; exact hvalid b1 .none i h4 (by simp [hab]) hi)
    exact ⟨m1, by rw [m2, h2], b1, .none, h4, by simp [hab], by rw [m3, h2]⟩
  · rw [if_neg hab]
    obtain ⟨g1, g2, g3⟩ := askPair_m h1 (by rw [h2]; exact hn) (by rw [h2]; exact hl) b a true
    obtain ⟨b2, g3, g4⟩ := g3 rfl
    generalize askPair s1 b a true = y at *
    obtain ⟨s2, r2⟩ := y
    simp only at g1 g2 g3
    subst g3
    rw [h2] at g2 g4
    simp only
    obtain ⟨m1, m2, m3⟩ := remember_m g1 k (combine s2.o p b1 b2) (by
      intro i hi; rw [g2] at hi ⊢; exact hvalid b1 b2 i h4 (by simpa [hab] using g4) hi)
    exact ⟨m1, by rw [m2, g2], b1, b2, h4, by simpa [hab] using g4, by rw [m3, g2]⟩

theorem askKey_m {s : St} (h : Meaningful s) (hn : Numbered s.o.pairs) (hl : LaidOut s.o.pairs) (k : Key) :
    Meaningful (askKey s k).1 ∧ (askKey s k).1.o = s.o := by
  cases k with
  | int n =>
    simp only [askKey]
    split
    · exact ⟨h, rfl⟩
    · split
      · obtain ⟨h1, h2, _⟩ := askRows_m h hn hl (.pair _ _) _ _ none rfl
        exact ⟨h1, h2⟩
      · exact ⟨h, rfl⟩
  | polName n =>
    simp only [askKey]
    cases hlk : lookup s.keyCache (.polName n) with
    | some i => exact ⟨h, rfl⟩
    | none =>
      cases hp : polstr2num s.o.xo n with
      | none => exact ⟨h, rfl⟩
      | some p =>
        obtain ⟨h1, h2, _⟩ := remember_m h (.polName n) (byPol s.o p) (fun i hi => ⟨p, hp, hi⟩)
        exact ⟨h1, h2⟩
  | pair a b =>
    simp only [askKey]
    cases hlk : lookup s.keyCache (.pair a b) with
    | some i => exact ⟨h, rfl⟩
    | none =>
      obtain ⟨h1, h2, _⟩ := askRows_m h hn hl (.pair a b) _ _ none rfl
      exact ⟨h1, h2⟩
  | pairPol a b p =>
    simp only [askKey]
    cases hlk : lookup s.keyCache (.pairPol a b p) with
    | some i => exact ⟨h, rfl⟩
    | none =>
      obtain ⟨h1, h2, _⟩ := askRows_m h hn hl (.pairPol a b p) _ _ (some p) rfl
      exact ⟨h1, h2⟩

theorem truthful_meaningful {s : St} (h : TruthfulHistory s) : Meaningful s := by
  induction h with
  | fresh o => exact ⟨by simp [lookup], by simp [lookup]⟩
  | pair a b ord _ hn hl ih => exact (askPair_m ih hn hl a b ord).1
  | key k _ hn hl ih => exact (askKey_m ih hn hl k).1
  | ant1 l _ _ => exact ⟨by simp [setAnt1, lookup], by simp [setAnt1, lookup]⟩
  | ant2 l _ _ => exact ⟨by simp [setAnt2, lookup], by simp [setAnt2, lookup]⟩
  | pols l _ ih => exact ⟨ih.1, by simp [setPols, lookup]⟩
  | layout bl nbls ntimes nants rect tf _ ih =>
    refine ⟨fun a b v hv => ih.1 a b v hv, fun k i hi => ?_⟩
    have := ih.2 k i hi
    cases k with
    | int n => exact this
    | polName n => exact this
    | pair a b => exact this
    | pairPol a b p => exact this

/-- Two answers that select the same things. -/
def SameInds (n : Nat) (i j : Inds) : Prop :=
  (i.blt1 = .none ↔ j.blt1 = .none) ∧ (i.blt2 = .none ↔ j.blt2 = .none) ∧ i.blt1.picks n = j.blt1.picks n ∧
  i.blt2.picks n = j.blt2.picks n ∧ i.pol1 = j.pol1 ∧ i.pol2 = j.pol2

def SameResult (n : Nat) : Except Err Inds → Except Err Inds → Prop
  | .error e, .error e' => e = e'
  | .ok i, .ok j => SameInds n i j
  | _, _ => False

theorem SameResult.refl (n : Nat) (r : Except Err Inds) : SameResult n r r := by
  cases r with
  | error e => exact rfl
  | ok i => exact ⟨Iff.rfl, Iff.rfl, rfl, rfl, rfl, rfl⟩

theorem combine_congr (o : Obj) (p : Option PolArg) (n : Nat) (b1 b2 c1 c2 : SlicifyOut) (h1 : b1 = .none ↔ c1 = .none)
    (h2 : b2 = .none ↔ c2 = .none) (h3 : b1.picks n = c1.picks n) (h4 : b2.picks n = c2.picks n) :
    SameResult n (combine o p b1 b2) (combine o p c1 c2) := by
  by_cases hb1 : b1 = .none
  · have hc1 := h1.1 hb1
    subst hb1 hc1
    by_cases hb2 : b2 = .none
    · have hc2 := h2.1 hb2
      subst hb2 hc2
      exact SameResult.refl _ _
    · have hc2 : c2 ≠ .none := fun h => hb2 (h2.2 h)
      cases p with
      | none =>
        simp only [combine, allPols, hb2, hc2, and_false, if_false, if_true]
        cases Verif.Pol.reorderConjPols o.pols with
        | none => exact rfl
        | some r => exact ⟨Iff.rfl, h2, rfl, h4, rfl, rfl⟩
      | some p =>
        simp only [combine, withPol, conjInd, finishPol, hb2, hc2, and_false, if_false, if_true, true_or, true_and, false_or]
        cases p.number o.xo with
        | none => exact rfl
        | some m =>
          simp only
          cases Verif.Pol.conjNum m with
          | none => exact rfl
          | some q =>
            simp only
            split
            · exact rfl
            · exact ⟨Iff.rfl, h2, rfl, h4, rfl, rfl⟩
  · have hc1 : c1 ≠ .none := fun h => hb1 (h1.2 h)
    by_cases hb2 : b2 = .none
    · have hc2 := h2.1 hb2
      subst hb2 hc2
      cases p with
      | none =>
        simp only [combine, allPols, hb1, hc1, false_and, if_false, if_true]
        exact ⟨h1, Iff.rfl, h3, rfl, rfl, rfl⟩
      | some p =>
        simp only [combine, withPol, conjInd, finishPol, hb1, hc1, false_and, if_false, if_true, true_or, and_true, false_or]
        cases p.number o.xo with
        | none => exact rfl
        | some m =>
          simp only
          split
          · exact rfl
          · exact ⟨h1, Iff.rfl, h3, rfl, rfl, rfl⟩
    · have hc2 : c2 ≠ .none := fun h => hb2 (h2.2 h)
      cases p with
      | none =>
        simp only [combine, allPols, hb1, hc1, hb2, hc2, and_self, if_false]
        cases Verif.Pol.reorderConjPols o.pols with
        | none => exact ⟨h1, Iff.rfl, h3, rfl, rfl, rfl⟩
        | some r => exact ⟨h1, h2, h3, h4, rfl, rfl⟩
      | some p =>
        simp only [combine, withPol, conjInd, finishPol, hb1, hc1, hb2, hc2, and_self, if_false, false_or]
        cases p.number o.xo with
        | none => exact rfl
        | some m =>
          simp only
          cases Verif.Pol.conjNum m with
          | none => exact rfl
          | some q =>
            simp only
            split
            · exact rfl
            · exact ⟨h1, h2, h3, h4, rfl, rfl⟩

theorem smartSlice_congr {V : Type} (cj : V → V) (data : List (List V)) (m : Nat) (i j : Inds)
    (h : SameInds data.length i j) : smartSlice cj data m i = smartSlice cj data m j := by
  obtain ⟨h1, h2, h3, h4, h5, h6⟩ := h
  have c1 : cut data m i.blt1 i.pol1 = cut data m j.blt1 j.pol1 := by unfold cut; rw [h3, h5]
  have c2 : cut data m i.blt2 i.pol2 = cut data m j.blt2 j.pol2 := by unfold cut; rw [h4, h6]
  unfold smartSlice
  by_cases hb1 : i.blt1 = .none
  · have hd1 := h1.1 hb1
    by_cases hb2 : i.blt2 = .none
    · have hd2 := h2.1 hb2
      simp only [hb1, hb2, hd1, hd2, true_or, if_true]
      rw [hb1, hd1] at c1
      rw [c1]
    · have hd2 : j.blt2 ≠ .none := fun h => hb2 (h2.2 h)
      simp only [hb1, hb2, hd1, hd2, true_or, if_true, if_false, c2]
  · have hd1 : j.blt1 ≠ .none := fun h => hb1 (h1.2 h)
    by_cases hb2 : i.blt2 = .none
    · have hd2 := h2.1 hb2
      simp only [hb1, hb2, hd1, hd2, or_true, if_true, if_false, c1]
    · have hd2 : j.blt2 ≠ .none := fun h => hb2 (h2.2 h)
      rw [h5] at c1
      rw [h6] at c2
      simp only [hb1, hb2, hd1, hd2, or_self, if_false, h5, h6, c1, c2]

theorem both_denote {o : Obj} {a b : Nat} {p : Option PolArg} {b1 b2 c1 c2 : SlicifyOut} (h1 : Denotes o.pairs a b b1)
    (h2 : if a = b then b2 = .none else Denotes o.pairs b a b2) (g1 : Denotes o.pairs a b c1)
    (g2 : if a = b then c2 = .none else Denotes o.pairs b a c2) :
    SameResult o.pairs.nblts (combine o p b1 b2) (combine o p c1 c2) := by
  obtain ⟨u1, u2⟩ := denotes_unique h1 g1
  by_cases hab : a = b
  · rw [if_pos hab] at h2 g2
    subst h2 g2
    exact combine_congr o p _ _ _ _ _ u1 Iff.rfl u2 rfl
  · rw [if_neg hab] at h2 g2
    obtain ⟨v1, v2⟩ := denotes_unique h2 g2
    exact combine_congr o p _ _ _ _ _ u1 v1 u2 v2

theorem byPair_fresh {o : Obj} (hn : Numbered o.pairs) (hl : LaidOut o.pairs) (a b : Nat) (p : Option PolArg) :
    ∃ c1 c2, Denotes o.pairs a b c1 ∧ (if a = b then c2 = .none else Denotes o.pairs b a c2) ∧
      byPair o a b p = combine o p c1 c2 := by
  obtain ⟨c1, e1, d1⟩ := denotes_fresh hn hl a b
  by_cases hab : a = b
  · exact ⟨c1, .none, d1, by simp [hab], by unfold byPair; rw [e1, if_pos hab]⟩
  · obtain ⟨c2, e2, d2⟩ := denotes_fresh hn hl b a
    exact ⟨c1, c2, d1, by simpa [hab] using d2, by unfold byPair; rw [e1, if_neg hab, e2]⟩

theorem askKey_same {s : St} (h : Meaningful s) (hn : Numbered s.o.pairs) (hl : LaidOut s.o.pairs) (k : Key) :
    SameResult s.o.pairs.nblts (askKey s k).2 (key2inds s.o k) := by
  have hrows : ∀ k a b p, pairOf k = some (a, b, p) →
      SameResult s.o.pairs.nblts (askRows s k a b p).2 (byPair s.o a b p) := by
    intro k a b p hk
    obtain ⟨_, _, b1, b2, h1, h2, h3⟩ := askRows_m h hn hl k a b p hk
    obtain ⟨c1, c2, g1, g2, g3⟩ := byPair_fresh hn hl a b p
    rw [h3, g3]
    exact both_denote h1 h2 g1 g2
  have hval : ∀ a b p i b1 b2, Denotes s.o.pairs a b b1 → (if a = b then b2 = .none else Denotes s.o.pairs b a b2) →
      combine s.o p b1 b2 = .ok i → SameResult s.o.pairs.nblts (.ok i) (byPair s.o a b p) := by
    intro a b p i b1 b2 h1 h2 h3
    obtain ⟨c1, c2, g1, g2, g3⟩ := byPair_fresh hn hl a b p
    rw [g3, ← h3]
    exact both_denote h1 h2 g1 g2
  cases k with
  | int n =>
    simp only [askKey, key2inds]
    split
    · exact SameResult.refl _ _
    · generalize Verif.Baseline.baselineToAntnums s.o.pairs.nants [n] = r
      rcases r with e | ⟨xs, ys⟩
      · exact rfl
      · rcases xs with _ | ⟨x, _ | ⟨x', xs⟩⟩ <;> rcases ys with _ | ⟨y, _ | ⟨y', ys⟩⟩ <;>
          first | exact rfl | exact hrows _ _ _ _ rfl
  | polName n =>
    simp only [askKey]
    cases hlk : lookup s.keyCache (.polName n) with
    | some i =>
      obtain ⟨p, h1, h2⟩ := h.2 _ _ hlk
      simp only [key2inds, h1, h2]
      exact SameResult.refl _ _
    | none =>
      simp only [key2inds]
      cases hp : polstr2num s.o.xo n with
      | none => exact rfl
      | some p =>
        simp only
        cases byPol s.o p with
        | error e => exact rfl
        | ok i => exact SameResult.refl _ (.ok i)
  | pair a b =>
    simp only [askKey]
    cases hlk : lookup s.keyCache (.pair a b) with
    | some i =>
      obtain ⟨b1, b2, h1, h2, h3⟩ := h.2 _ _ hlk
      exact hval a b none i b1 b2 h1 h2 h3
    | none => exact hrows _ _ _ _ rfl
  | pairPol a b p =>
    simp only [askKey]
    cases hlk : lookup s.keyCache (.pairPol a b p) with
    | some i =>
      obtain ⟨b1, b2, h1, h2, h3⟩ := h.2 _ _ hlk
      exact hval a b (some p) i b1 b2 h1 h2 h3
    | none => exact hrows _ _ _ _ rfl

/-- C15, with the layout attributes (baseline numbers, counts, rectangularity) changing arbitrarily between
queries and clearing no cache: as long as they are truthful whenever a query is made, an antenna-pair lookup
selects exactly the current rows of the pair and `get_data` through the caches returns what it would return
without them. -/
theorem caches_fresh_layout (s : St) (h : TruthfulHistory s) (hn : Numbered s.o.pairs) (hl : LaidOut s.o.pairs) :
    (∀ a b, ∃ r l, (askPair s a b true).2 = .ok r ∧ IsRowsOf s.o.pairs a b l ∧
      r.picks s.o.pairs.nblts = (if l = [] then none else some l)) ∧
    ∀ {V : Type} (cj : V → V) (data : List (List V)) (k : Key), data.length = s.o.pairs.nblts →
      (getDataCached cj s data k).2 = getData cj s.o data k := by
  have hm := truthful_meaningful h
  constructor
  · intro a b
    obtain ⟨v, h1, l, h2, h3, _⟩ := (askPair_m hm hn hl a b true).2.2 rfl
    exact ⟨v, l, h1, h2, h3⟩
  · intro V cj data k hd
    have := askKey_same hm hn hl k
    unfold getDataCached getData
    generalize askKey s k = x at this
    obtain ⟨s', r⟩ := x
    simp only at this
    generalize key2inds s.o k = r' at this
    cases r with
    | error e => cases r' with
      | error e' => have : e = e' := this; subst this; rfl
      | ok j => exact this.elim
    | ok i => cases r' with
      | error e' => exact this.elim
      | ok j =>
        simp only
        exact smartSlice_congr cj data _ i j (by rw [hd]; exact this)

/-! ### Concrete cases -/

/-- A history with a query, an assignment and another query. -/
def busy : St := (askKey (setAnt2 (askKey ⟨GetData.demo, [], []⟩ (.pair 0 2)).1 [1, 0, 2, 1, 0, 2]) (.pairPol 2 0 (.num (-8)))).1

example : History busy ∧ busy.antCache.length = 2 ∧ busy.keyCache.length = 1 :=
  ⟨.key _ (.ant2 _ (.key _ (.fresh _))), by decide +kernel, by decide +kernel⟩

example : TruthfulHistory (setLayout (askKey ⟨GetData.demo, [], []⟩ (.pair 0 2)).1 GetData.demo.pairs.bl 3 2 3 false false) ∧
    Numbered GetData.demo.pairs ∧ LaidOut GetData.demo.pairs :=
  ⟨.layout _ _ _ _ _ _ (.key _ (.fresh _) AntPair.demo_numbered AntPair.demo_laidOut), AntPair.demo_numbered,
    AntPair.demo_laidOut⟩

/-- One row, polarization xx only, feeds to the east. -/
def oneRow : GetData.Obj :=
  { pairs := { ant1 := [1], ant2 := [0], bl := [67584], nbls := 1, ntimes := 1, nants := 2, rect := false,
               timeFaster := false },
    pols := [-5], xo := some ['e', 'a', 's', 't'] }

/-- C15, the fault: changing the orientation of the feeds clears no cache, so a polarization name that has been
asked for before keeps its old meaning.  A fresh lookup of "ee" fails (it is now yy, which is not in the
data), the cached one returns the xx column. -/
theorem orientation_stale_counterexample :
    let s := setOrientation (askKey ⟨oneRow, [], []⟩ (.polName ['e', 'e'])).1 (some ['n', 'o', 'r', 't', 'h'])
    key2inds s.o (.polName ['e', 'e']) = .error .noPol ∧
      (getDataCached (fun x => -x) s [[(7 : Int)]] (.polName ['e', 'e'])).2 = .ok [[7]] := by
  decide +kernel

/-- Why queries must be made on a truthful object: asking after `ant_1_array` and `ant_2_array` have been
exchanged but before `baseline_array` has been updated caches an answer that stays wrong afterwards. -/
theorem early_query_counterexample :
    let s0 : St := setAnt2 (setAnt1 ⟨{ GetData.demo with pairs := { AntPair.demo with timeFaster := false } }, [], []⟩
      AntPair.demo.ant2) AntPair.demo.ant1
    let s := setLayout (askPair s0 1 0 true).1 [67584, 65538, 69632, 67584, 65538, 69632] 3 2 3 true false
    antpair2ind s.o.pairs 1 0 true = .ok (.slice ⟨0, 6, some 3⟩) ∧ (askPair s 1 0 true).2 = .ok .none := by
  decide +kernel

end Verif.Cache
