import Verif.Cache.Props

/-!
C120: what queries give after a file is read into an object that was in use.

Model of `_convert_from_filetype` (src/pyuvdata/uvdata/uvdata.py 8974–8987), through which every file is read into an
object (9119, 9233, 9351, 9449, 9587, 9737, 9934): the parameters are replaced as whole objects (`setattr(self, p,
param)` with `p` the name with the underscore), not through the properties of uvbase.py 257–261, so the functions
of uvdata.py 634–643 that empty the caches are not called.
-/
namespace Verif.Cache
open Verif.GetData
open Verif.Slices (SlicifyOut slicify)
open Verif.AntPair (antpair2ind)

/-- Reading a file that holds `o` into an object, uvdata.py 8985–8987. -/
def readInto (s : St) (o : Obj) : St := { s with o := o }

/-- Keys that are not numbers. -/
def Named : Key → Prop
  | .int _ => False
  | _ => True

theorem remember_ok {s s' : St} {k : Key} {r : Except Err Inds} {i : Inds} (h : remember s k r = (s', .ok i)) : lookup s'.keyCache k = some i := by
  cases r with
  | error e => simp [remember] at h
  | ok j =>
    simp only [remember, Prod.mk.injEq, Except.ok.injEq] at h
    obtain ⟨rfl, rfl⟩ := h
    simp [lookup_cons]

theorem askRows_ok {s s' : St} {k : Key} {a b : Nat} {p : Option PolArg} {i : Inds} (h : askRows s k a b p = (s', .ok i)) :
    lookup s'.keyCache k = some i := by
  unfold askRows at h
  generalize askPair s a b true = x at h
  obtain ⟨s1, r1⟩ := x
  cases r1 with
  | error e => simp at h
  | ok b1 =>
    simp only at h
    by_cases hab : a = b
    · rw [if_pos hab] at h
      exact remember_ok h
    · rw [if_neg hab] at h
      generalize askPair s1 b a true = y at h
      obtain ⟨s2, r2⟩ := y
      cases r2 with
      | error e => simp at h
      | ok b2 => exact remember_ok h

/-- A query by a pair or by a name of a polarization leaves its answer in the cache. -/
theorem asked {s s' : St} {k : Key} {i : Inds} (hk : Named k) (h : askKey s k = (s', .ok i)) : lookup s'.keyCache k = some i := by
  cases k with
  | int n => exact hk.elim
  | polName n =>
    simp only [askKey] at h
    split at h
    · rename_i j hj
      simp only [Prod.mk.injEq, Except.ok.injEq] at h
      obtain ⟨rfl, rfl⟩ := h
      exact hj
    · split at h
      · simp at h
      · exact remember_ok h
  | pair a b =>
    simp only [askKey] at h
    split at h
    · rename_i j hj
      simp only [Prod.mk.injEq, Except.ok.injEq] at h
      obtain ⟨rfl, rfl⟩ := h
      exact hj
    · exact askRows_ok h
  | pairPol a b p =>
    simp only [askKey] at h
    split at h
    · rename_i j hj
      simp only [Prod.mk.injEq, Except.ok.injEq] at h
      obtain ⟨rfl, rfl⟩ := h
      exact hj
    · exact askRows_ok h

theorem cached {s : St} {k : Key} {i : Inds} (hk : Named k) (h : lookup s.keyCache k = some i) : askKey s k = (s, .ok i) := by
  cases k with
  | int n => exact hk.elim
  | polName n => simp only [askKey, h]
  | pair a b => simp only [askKey, h]
  | pairPol a b p => simp only [askKey, h]

/-- C120, the fault, in general: a query that succeeded before the file was read gives the same rows and
polarizations afterwards, whatever the file holds. -/
theorem read_stale {s s' : St} {k : Key} {i : Inds} (hk : Named k) (h : askKey s k = (s', .ok i)) (o : Obj) :
    (askKey (readInto s' o) k).2 = .ok i ∧
    ∀ {V : Type} (cj : V → V) (data : List (List V)), (getDataCached cj (readInto s' o) data k).2 = smartSlice cj data o.pols.length i := by
  have hc : lookup (readInto s' o).keyCache k = some i := by
    have := asked hk h
    exact this
  have := cached hk hc
  refine ⟨by rw [this], fun cj data => ?_⟩
  unfold getDataCached
  rw [this]
  rfl

/-- The object holds what the file held and every query is answered from it. -/
def AnswersFrom (t : St) (o : Obj) : Prop :=
  t.o = o ∧ (∀ x y ord, (askPair t x y ord).2 = antpair2ind o.pairs x y ord) ∧ (∀ k, (askKey t k).2 = key2inds o k) ∧
    ∀ (V : Type) (cj : V → V) (data : List (List V)) (k : Key), (getDataCached cj t data k).2 = getData cj o data k

theorem answers_empty (o : Obj) : AnswersFrom ⟨o, [], []⟩ o := by
  obtain ⟨h1, h2, h3⟩ := caches_fresh ⟨o, [], []⟩ (.fresh o)
  exact ⟨rfl, h1, h2, fun V cj data k => h3 cj data k⟩

/-- C120, what holds: read into an object whose caches are empty, as they are when nothing was asked before, every
query is answered from the file. -/
theorem read_fresh_partial (s : St) (o : Obj) (h1 : s.antCache = []) (h2 : s.keyCache = []) : AnswersFrom (readInto s o) o := by
  obtain ⟨o', c1, c2⟩ := s
  subst h1 h2
  exact answers_empty o

/-- C120, a way out: whatever was asked before, assigning one of the antenna arrays to itself after reading. -/
theorem read_then_assign (s : St) (o : Obj) :
    AnswersFrom (setAnt1 (readInto s o) o.pairs.ant1) o ∧ AnswersFrom (setAnt2 (readInto s o) o.pairs.ant2) o :=
  ⟨answers_empty o, answers_empty o⟩

/-! Two files with the same two pairs in different order. -/

def fileA : Obj :=
  { pairs := { ant1 := [0, 0], ant2 := [1, 2], bl := [65537, 65538], nbls := 2, ntimes := 1, nants := 3, rect := false, timeFaster := false },
    pols := [-5], xo := none }

def fileB : Obj :=
  { pairs := { ant1 := [0, 0], ant2 := [2, 1], bl := [65538, 65537], nbls := 2, ntimes := 1, nants := 3, rect := false, timeFaster := false },
    pols := [-5], xo := none }

example : Named (.pair 0 1) ∧ ∃ i, (askKey (readInto ⟨fileB, [], []⟩ fileA) (.pair 0 1)).2 = .ok i := ⟨trivial, _, rfl⟩

/-- C120, the fault: after a look at the pair (0, 1) of the first file, the second file is read into the same object;
`get_data(0, 1)` gives the values of the pair (0, 2) of the second file. -/
theorem read_counterexample :
    let s := (askKey ⟨fileA, [], []⟩ (.pair 0 1)).1
    let data : List (List Int) := [[20], [10]]
    getData (fun x => -x) fileB data (.pair 0 1) = .ok [[10]] ∧ getData (fun x => -x) fileB data (.pair 0 2) = .ok [[20]] ∧
      (getDataCached (fun x => -x) (readInto s fileB) data (.pair 0 1)).2 = .ok [[20]] := by
  decide +kernel

end Verif.Cache
