import Verif.SetData.Lemmas

/-!
C119: `set_data` changes the records of its key and nothing else, `get_data` gives back what was set; when it is refused.
-/
namespace Verif.SetData
open Verif.Np Verif.Slices Verif.Hdf5
open Verif.AntPair (IsRowsOf Numbered LaidOut antpair2ind)
open Verif.GetData (Obj Key PolArg key2inds byPol byPair combine withPol allPols finishPol conjInd polWhere allOf getData smartSlice cut)
open Verif.Pol (polstr2num reorderConjPols)

/-- No rows of the reversed pair, or no other pair. -/
def NoReverse (o : Obj) (a b : Nat) : Prop := a = b ∨ IsRowsOf o.pairs b a []

/-- The rows and the positions of polarizations that a key stands for, all of them stored as the key says. -/
inductive Means (o : Obj) : Key → List Nat → List Nat → Prop
  | name {s p k} : polstr2num o.xo s = some p → o.pols[k]? = some p → Means o (.polName s) (List.range o.pairs.nblts) [k]
  | num {n k} : n < 5 → o.pols[k]? = some n → Means o (.int n) (List.range o.pairs.nblts) [k]
  | pair {a b l} : IsRowsOf o.pairs a b l → l ≠ [] → NoReverse o a b → Means o (.pair a b) l (List.range o.pols.length)
  | open {a b l} : IsRowsOf o.pairs a b l → l ≠ [] → reorderConjPols o.pols = none → Means o (.pair a b) l (List.range o.pols.length)
  | pairPol {a b l p n k} : IsRowsOf o.pairs a b l → l ≠ [] → NoReverse o a b → p.number o.xo = some n → o.pols[k]? = some n →
      Means o (.pairPol a b p) l [k]

/-- An object that is consistent, with at least one row and one polarization. -/
structure Sound (o : Obj) : Prop where
  numbered : Numbered o.pairs
  laidOut : LaidOut o.pairs
  nodup : o.pols.Nodup
  rows : 0 < o.pairs.nblts
  pols : o.pols ≠ []

theorem pol_at {o : Obj} (hn : o.pols.Nodup) {k : Nat} {p : Int} (h : o.pols[k]? = some p) :
    slicify (polWhere o.pols p) = .slice ⟨k, k + 1, some 1⟩ ∧ (slicify (polWhere o.pols p)).picks o.pols.length = some [k] ∧ polWhere o.pols p = [k] := by
  have h1 := GetData.findIdx_getElem o.pols hn k p h
  have h2 : polWhere o.pols p = [k] := by rw [GetData.polWhere_eq _ hn, h1]; rfl
  refine ⟨by rw [h2]; simp [slicify], ?_, h2⟩
  rw [h2]
  exact slicify_picks [k] _ (by simp) (by simp) (by simpa using (List.getElem?_eq_some_iff.1 h).1)

theorem pair_lookup {o : Obj} (g : Sound o) {a b : Nat} {l : List Nat} (hl : IsRowsOf o.pairs a b l) :
    ∃ r, antpair2ind o.pairs a b true = .ok r ∧ (r = .none ↔ l = []) ∧ (l ≠ [] → r.picks o.pairs.nblts = some l) := by
  obtain ⟨r, l', h1, h2, h3, h4⟩ := Verif.AntPair.antpair2ind_exact o.pairs g.numbered g.laidOut a b
  obtain rfl := Verif.AntPair.rows_unique hl h2
  exact ⟨r, h1, h4, fun hne => by rw [h3, if_neg hne]⟩

theorem second {o : Obj} (g : Sound o) {a b : Nat} (h : NoReverse o a b) : (if a = b then .ok .none else antpair2ind o.pairs b a true) = .ok .none := by
  by_cases hab : a = b
  · rw [if_pos hab]
  · rw [if_neg hab]
    rcases h with h | h
    · exact absurd h hab
    · obtain ⟨r, h1, h2, _⟩ := pair_lookup g h
      rw [h1, h2.2 rfl]

/-- What the key becomes. -/
theorem means_inds {o : Obj} (g : Sound o) {key : Key} {ls ps : List Nat} (h : Means o key ls ps) :
    ∃ i, key2inds o key = .ok i ∧ i.blt2 = .none ∧ i.blt1.picks o.pairs.nblts = some ls ∧ i.pol1.picks o.pols.length = some ps ∧ ls ≠ [] ∧ ps ≠ [] ∧
      ls.Pairwise (· < ·) ∧ ps.Pairwise (· < ·) ∧ (∀ s, i.blt1 = .slice s → 0 < s.step.getD 1) ∧ (∀ s, i.pol1 = .slice s → 0 < s.step.getD 1) ∧
      (∀ l, i.pol1 ≠ .inds l) := by
  have hall : ∀ {p : Int} {k : Nat}, o.pols[k]? = some p → ∃ i, byPol o p = .ok i ∧ i.blt2 = .none ∧ i.blt1.picks o.pairs.nblts = some (List.range o.pairs.nblts) ∧
      i.pol1.picks o.pols.length = some [k] ∧ (List.range o.pairs.nblts) ≠ [] ∧ [k] ≠ [] ∧ (List.range o.pairs.nblts).Pairwise (· < ·) ∧ [k].Pairwise (· < ·) ∧
      (∀ s, i.blt1 = .slice s → 0 < s.step.getD 1) ∧ (∀ s, i.pol1 = .slice s → 0 < s.step.getD 1) ∧ (∀ l, i.pol1 ≠ .inds l) := by
    intro p k hk
    obtain ⟨e1, e2, e3⟩ := pol_at g.nodup hk
    refine ⟨_, by unfold byPol; rw [if_pos (by rw [e3]; simp)], rfl, GetData.allOf_picks _, e2, by simpa using g.rows.ne', by simp, List.pairwise_lt_range, by simp,
      ?_, ?_, ?_⟩
    · intro s hs; cases hs; exact Int.one_pos
    · intro s hs; simp only [e1] at hs; cases hs; exact Int.one_pos
    · intro l hl; simp only [e1] at hl; cases hl
  have hpols : ∀ s, allOf o.pols.length = .slice s → 0 < s.step.getD 1 := by intro s hs; cases hs; exact Int.one_pos
  have hr : List.range o.pols.length ≠ [] := by simpa using g.pols
  cases h with
  | name h1 h2 =>
    obtain ⟨i, hi, rest⟩ := hall h2
    exact ⟨i, by simp only [key2inds, h1]; exact hi, rest⟩
  | num h1 h2 =>
    obtain ⟨i, hi, rest⟩ := hall h2
    exact ⟨i, by simp only [key2inds, if_pos h1]; exact hi, rest⟩
  | pair hl hne hrev =>
    rename_i a b
    obtain ⟨r, h1, h2, h3⟩ := pair_lookup g hl
    have hr0 : r ≠ .none := fun e => hne (h2.1 e)
    refine ⟨⟨r, .none, allOf o.pols.length, .none⟩, ?_, rfl, h3 hne, GetData.allOf_picks _, hne, hr, hl.1, List.pairwise_lt_range, ?_, hpols, ?_⟩
    · simp only [key2inds, byPair, h1, second g hrev, combine, allPols]
      simp [hr0]
    · intro s hs; simp only at hs; subst hs; exact antpair_pos g.numbered g.laidOut h1
    · intro l hl; cases hl
  | «open» hl hne hcl =>
    rename_i a b
    obtain ⟨r, h1, h2, h3⟩ := pair_lookup g hl
    have hr0 : r ≠ .none := fun e => hne (h2.1 e)
    have hsec : ∃ r2, (if a = b then .ok .none else antpair2ind o.pairs b a true) = .ok r2 := by
      by_cases hab : a = b
      · exact ⟨_, if_pos hab⟩
      · obtain ⟨r2, _, e, _⟩ := Verif.AntPair.antpair2ind_exact o.pairs g.numbered g.laidOut b a
        exact ⟨r2, by rw [if_neg hab]; exact e⟩
    obtain ⟨r2, hr2⟩ := hsec
    refine ⟨⟨r, .none, allOf o.pols.length, .none⟩, ?_, rfl, h3 hne, GetData.allOf_picks _, hne, hr, hl.1, List.pairwise_lt_range, ?_, hpols, ?_⟩
    · simp only [key2inds, byPair, h1, hr2, combine, allPols, hcl]
      simp [hr0]
    · intro s hs; simp only at hs; subst hs; exact antpair_pos g.numbered g.laidOut h1
    · intro l hl; cases hl
  | pairPol hl hne hrev hnum hk =>
    rename_i a b p n k
    obtain ⟨r, h1, h2, h3⟩ := pair_lookup g hl
    have hr0 : r ≠ .none := fun e => hne (h2.1 e)
    obtain ⟨e1, e2, e3⟩ := pol_at g.nodup hk
    refine ⟨⟨r, .none, slicify (polWhere o.pols n), .none⟩, ?_, rfl, h3 hne, e2, hne, by simp, hl.1, by simp, ?_, ?_, ?_⟩
    · simp only [key2inds, byPair, h1, second g hrev, combine, hnum, withPol, finishPol]
      simp [hr0, e1]
    · intro s hs; simp only at hs; subst hs; exact antpair_pos g.numbered g.laidOut h1
    · intro s hs; simp only [e1] at hs; cases hs; exact Int.one_pos
    · intro l hl; simp only [e1] at hl; cases hl

/-- The array as rows of spectra, as `get_data` sees it. -/
def toRows {α : Type} (d : Arr α) (n nf m : Nat) : List (List (List α)) :=
  (List.range n).map fun i => (List.range m).map fun k => (List.range nf).map fun f => d.get [i, f, k]

/-- C119. Setting the values of a key is done if the shape fits, changes the records of the key to those that are given and no others, and `get_data`
gives them back. -/
theorem set_data_exact {α : Type} {o : Obj} (g : Sound o) {data new : Arr α} {nf : Nat} (hd : data.shape = [o.pairs.nblts, nf, o.pols.length])
    {key : Key} {ls ps : List Nat} (hk : Means o key ls ps) (hn : new.shape = [ls.length, nf, ps.length]) :
    ∃ d, setData o data nf key new = .ok d ∧ d.shape = data.shape ∧
      (∀ i f k x y, ls[i]? = some x → f < nf → ps[k]? = some y → d.get [x, f, y] = new.get [i, f, k]) ∧
      (∀ x f y, (x ∉ ls ∨ nf ≤ f ∨ y ∉ ps) → d.get [x, f, y] = data.get [x, f, y]) ∧
      ∀ cj, getData cj o (toRows d o.pairs.nblts nf o.pols.length) key = .ok (toRows new ls.length nf ps.length) := by
  obtain ⟨i, h1, h2, h3, h4, h5, h6, h7, h8, h9, h10, h11⟩ := means_inds g hk
  obtain ⟨a, c, d, e1, e2, e3, e4, e5, e6⟩ := write_core hd h3 h4 h5 h6 h7 h8 h9 h10 h11 hn
  have hlt : ∀ x ∈ ls, x < o.pairs.nblts := by
    intro x hx
    cases hk with
    | name => simpa using hx
    | num => simpa using hx
    | pair hl => exact (List.getElem?_eq_some_iff.1 ((hl.2 x).1 hx).1).1
    | «open» hl => exact (List.getElem?_eq_some_iff.1 ((hl.2 x).1 hx).1).1
    | pairPol hl => exact (List.getElem?_eq_some_iff.1 ((hl.2 x).1 hx).1).1
  have hplt : ∀ x ∈ ps, x < o.pols.length := by
    intro x hx
    cases hk with
    | name _ h => simp only [List.mem_singleton] at hx; subst hx; exact (List.getElem?_eq_some_iff.1 h).1
    | num _ h => simp only [List.mem_singleton] at hx; subst hx; exact (List.getElem?_eq_some_iff.1 h).1
    | pair => simpa using hx
    | «open» => simpa using hx
    | pairPol _ _ _ _ h => simp only [List.mem_singleton] at hx; subst hx; exact (List.getElem?_eq_some_iff.1 h).1
  refine ⟨d, ?_, e4, e5, e6, ?_⟩
  · unfold setData
    simp only [h1, h2, h3, h4, e1, e2, e3]
    simp [hn]
  · intro cj
    unfold getData
    simp only [h1]
    have hlen : (toRows d o.pairs.nblts nf o.pols.length).length = o.pairs.nblts := by simp [toRows]
    obtain ⟨out, c1, c2⟩ := GetData.cut_spec (toRows d o.pairs.nblts nf o.pols.length) o.pols.length i.blt1 i.pol1 ls ps (by rw [hlen]; exact h3) h4
      (by rw [hlen]; exact hlt) hplt (by
        intro r hr
        simp only [toRows, List.mem_map] at hr
        obtain ⟨x, _, rfl⟩ := hr
        simp)
    have hb1 : i.blt1 ≠ .none := by
      intro e; rw [e] at h3; cases h3
    have hss : smartSlice cj (toRows d o.pairs.nblts nf o.pols.length) o.pols.length i = .ok out := by
      unfold smartSlice
      simp [h2, c1, hb1]
    rw [hss]
    congr 1
    apply GetData.map_some_inj
    rw [c2]
    apply List.ext_getElem?
    intro j
    rw [List.getElem?_map, List.getElem?_map]
    by_cases hj : j < ls.length
    · have hx := List.getElem?_eq_getElem hj
      have hxl := hlt _ (List.mem_of_getElem? hx)
      rw [hx]
      simp only [toRows, Option.map_some, List.getElem?_map, List.getElem?_range hj, Option.some.injEq, List.getElem?_range hxl, Option.bind_some]
      apply List.ext_getElem?
      intro k
      simp only [List.getElem?_map]
      by_cases hkk : k < ps.length
      · have hy := List.getElem?_eq_getElem hkk
        have hyl := hplt _ (List.mem_of_getElem? hy)
        rw [hy]
        simp only [Option.map_some, List.getElem?_range hyl, List.getElem?_range hkk, Option.some.injEq]
        apply List.map_congr_left
        intro f hf
        exact e5 j f k _ _ hx (by simpa using hf) hy
      · rw [List.getElem?_eq_none (by omega), List.getElem?_eq_none (by simp; omega)]
        rfl
    · rw [List.getElem?_eq_none (by omega), List.getElem?_eq_none (by simp [toRows]; omega)]
      rfl

theorem finishPol_ok {b1 b2 p1 p2 : SlicifyOut} {i : GetData.Inds} (h : finishPol b1 b2 p1 p2 = .ok i) :
    i = ⟨b1, b2, p1, p2⟩ ∧ ¬ ((b1 = .none ∨ p1 = .none) ∧ (b2 = .none ∨ p2 = .none)) := by
  unfold finishPol at h
  split at h
  · cases h
  · rename_i hc
    injection h with h
    exact ⟨h.symm, hc⟩

/-- C119: for a pair with a polarization, when values are accepted. -/
theorem set_pol_iff {α : Type} {o : Obj} (g : Sound o) {data new : Arr α} {nf : Nat} (hd : data.shape = [o.pairs.nblts, nf, o.pols.length]) {a b : Nat}
    {p : PolArg} {n : Int} (hnum : p.number o.xo = some n) {l : List Nat} (hl : IsRowsOf o.pairs a b l) :
    (∃ d, setData o data nf (.pairPol a b p) new = .ok d) ↔ l ≠ [] ∧ NoReverse o a b ∧ n ∈ o.pols ∧ new.shape = [l.length, nf, 1] := by
  constructor
  · rintro ⟨d, hset⟩
    unfold setData at hset
    obtain ⟨r, h1, h2, h3⟩ := pair_lookup g hl
    obtain ⟨r2, l2, e1, e2, e3, e4⟩ := Verif.AntPair.antpair2ind_exact o.pairs g.numbered g.laidOut b a
    have hkey : key2inds o (.pairPol a b p) = combine o (some p) r (if a = b then .none else r2) := by
      simp only [key2inds, byPair, h1, e1]
      by_cases hab : a = b <;> simp [hab]
    split at hset
    · cases hset
    rename_i i hi
    rw [hkey] at hi
    generalize hw : (if a = b then SlicifyOut.none else r2) = w at hi
    split at hset
    · cases hset
    rename_i hb2
    have hb2 : i.blt2 = .none := by simpa using hb2
    unfold combine at hi
    split at hi
    · cases hi
    simp only [hnum, withPol] at hi
    have hrev : w = .none := by
      by_contra hc
      rw [if_neg hc] at hi
      split at hi
      · cases hi
      · obtain ⟨rfl, _⟩ := finishPol_ok hi
        exact hc hb2
    rw [if_pos hrev, hrev] at hi
    obtain ⟨hi, hcond⟩ := finishPol_ok hi
    have hr0 : r ≠ .none := by
      intro e; apply hcond; simp [e]
    have hnr : NoReverse o a b := by
      by_cases hab : a = b
      · exact Or.inl hab
      · rw [if_neg hab, hrev] at hw
        exact Or.inr (by rw [← e4.1 hw]; exact e2)
    have hpol : n ∈ o.pols := by
      by_contra hc
      apply hcond
      simp [GetData.pol_absent g.nodup hc]
    have hl0 : l ≠ [] := fun e => hr0 (h2.2 e)
    refine ⟨hl0, hnr, hpol, ?_⟩
    obtain ⟨k, hk⟩ := List.getElem?_of_mem hpol
    obtain ⟨p1, p2, _⟩ := pol_at g.nodup hk
    subst hi
    simp only [if_neg hr0, h3 hl0, p2] at hset
    split at hset
    · cases hset
    · rename_i hs
      simpa using hs
  · rintro ⟨h1, h2, h3, h4⟩
    obtain ⟨k, hk⟩ := List.getElem?_of_mem h3
    obtain ⟨d, hd', _⟩ := set_data_exact g hd (.pairPol (p := p) hl h1 h2 hnum hk) (by simpa using h4)
    exact ⟨d, hd'⟩

/-! A concrete case: the pair (0, 1) in rows 0 and 3; the pair (2, 0) is there reversed too. -/

def dataDemo : Arr Int := ⟨[6, 2, 4], fun i => (i.getD 0 0 : Int) * 100 + (i.getD 1 0 : Int) * 10 + i.getD 2 0⟩

def newDemo : Arr Int := ⟨[2, 2, 1], fun i => -((i.getD 0 0 : Int) * 10 + i.getD 1 0 + 1)⟩

theorem demo_sound : Sound GetData.demo where
  numbered := AntPair.demo_numbered
  laidOut := AntPair.demo_laidOut
  nodup := by decide
  rows := by decide
  pols := by decide

theorem demo_rows : IsRowsOf GetData.demo.pairs 0 1 [0, 3] ∧ IsRowsOf GetData.demo.pairs 1 0 [] := by
  have h1 := AntPair.rowsWhere_spec AntPair.demo (by decide) 0 1
  have h2 := AntPair.rowsWhere_spec AntPair.demo (by decide) 1 0
  rw [show AntPair.rowsWhere AntPair.demo 0 1 = [0, 3] by decide +kernel] at h1
  rw [show AntPair.rowsWhere AntPair.demo 1 0 = [] by decide +kernel] at h2
  exact ⟨h1, h2⟩

def cell (r : Except Err (Arr Int)) (i : List Nat) : Option Int := match r with
  | .ok d => some (d.get i)
  | .error _ => none

def errOf (r : Except Err (Arr Int)) : Option Err := match r with
  | .ok _ => none
  | .error e => some e

theorem demo_means : Means GetData.demo (.pairPol 0 1 (.num (-7))) [0, 3] [1] :=
  .pairPol demo_rows.1 (by simp) (Or.inr demo_rows.2) rfl (by decide)

example : Sound GetData.demo ∧ dataDemo.shape = [GetData.demo.pairs.nblts, 2, GetData.demo.pols.length] ∧
    Means GetData.demo (.pairPol 0 1 (.num (-7))) [0, 3] [1] ∧ newDemo.shape = [2, 2, 1] ∧
    cell (setData GetData.demo dataDemo 2 (.pairPol 0 1 (.num (-7))) newDemo) [3, 1, 1] = some (-12) ∧
    cell (setData GetData.demo dataDemo 2 (.pairPol 0 1 (.num (-7))) newDemo) [3, 1, 2] = some 312 :=
  ⟨demo_sound, rfl, demo_means, rfl, by decide +kernel, by decide +kernel⟩

/-- A pair that is there in both directions, one that is not there, and one with too few values. -/
example : errOf (setData GetData.demo dataDemo 2 (.pairPol 2 0 (.num (-7))) newDemo) = some .conjugated ∧
    errOf (setData GetData.demo dataDemo 2 (.pairPol 1 2 (.num (-7))) newDemo) = some (.key .noPair) ∧
    errOf (setData GetData.demo dataDemo 2 (.pair 0 1) newDemo) = some .shape := by
  refine ⟨by decide +kernel, by decide +kernel, by decide +kernel⟩

end Verif.SetData
