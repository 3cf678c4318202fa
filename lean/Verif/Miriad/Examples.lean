import Mathlib.Algebra.Order.Ring.Rat
import Mathlib.Algebra.Order.Field.Rat
import Mathlib.Data.Prod.Lex
import Verif.Miriad.Sel
import Verif.Miriad.Row
import Verif.Miriad.Head

/-! # Examples -/

namespace Verif.Miriad.Examples
open Verif.Pol (Str)

/-! ## Selections -/

example : bl2ant (ij2bl 300 7) = (8, 301) := bl2ant_ij2bl 300 7 (by decide) (by decide)
example : getIJ (mkbl 7 300) = (7, 300) := getIJ_mkbl 7 300 (by decide) (by decide)
example : getIJ (mkbl 5 2047) = (6, -1) := getIJ_mkbl_counterexample 5

/-- The intersection of sets. -/
def inter (a b : List (Nat × Nat)) : List (Nat × Nat) := a.filter (fun x => decide (x ∈ b))

theorem mem_inter (a b : List (Nat × Nat)) (x : Nat × Nat) : x ∈ inter a b ↔ x ∈ a ∧ x ∈ b := by
  simp [inter]

/-- `conj_pol` for linear polarizations. -/
def cp (p : Int) : Int := if p = -7 then -8 else if p = -8 then -7 else p

def rec1 (i j : Nat) (t : ℚ) (p : Int) : Rcd ℚ := ⟨mkbl i j, t, t - 2400000, 2 / 100, p⟩

def file : List (Rcd ℚ) := [rec1 0 1 (2400000 + 1 / 4) (-7), rec1 0 1 (2400000 + 1 / 4) (-8), rec1 0 2 (2400000 + 1 / 4) (-7),
  rec1 0 1 (2400000 + 1 / 2) (-8), rec1 1 2 (2400000 + 1 / 2) (-8)]

/-- The pair (1, 0) with polarization -7, so (0, 1) with -8, in the first half of a day. -/
def req : Req ℚ := ⟨some [0, 1], some [(1, 0, some (-7))], some (2400000, 2400000 + 2 / 5), none⟩

theorem req_simple : Simple inter req where
  small := by
    intro l hl
    have : l = [(0, 1)] := by
      have : pairs inter req = some [(0, 1)] := by decide +kernel
      rw [this] at hl
      exact (Option.some.inj hl).symm
    subst this
    intro x hx
    rw [List.mem_singleton] at hx
    subst hx
    exact ⟨by decide, by decide⟩
  one := by
    intro l hl
    left
    have : pairs inter req = some [(0, 1)] := by decide +kernel
    rw [this] at hl
    rw [← Option.some.inj hl]
    rfl
  sorted := by
    intro n b hn hb
    have : n = [0, 1] := (Option.some.inj hn).symm
    subst this
    simp
  pol := by
    intro b hb
    have : b = [(1, 0, some (-7))] := (Option.some.inj hb).symm
    exact Or.inr ⟨rfl, _, this⟩
  range := by
    intro x hx
    have : x = (2400000, 2400000 + 2 / 5) := (Option.some.inj hx).symm
    subst this
    exact ⟨by decide +kernel, by decide +kernel⟩

def ant (r : Rcd ℚ) : Nat × Nat := ((getIJ r.bl).1.toNat, (getIJ r.bl).2.toNat)

theorem file_good : ∀ r ∈ file, Good (rec1 0 1 (2400000 + 1 / 4) (-7)).int r (ant r).1 (ant r).2 := by
  have h : ∀ r ∈ file, r.bl = mkbl (ant r).1 (ant r).2 ∧ (ant r).1 ≤ (ant r).2 ∧ (ant r).2 < 2047 ∧
      r.tod + (rec1 0 1 (2400000 + 1 / 4) (-7)).int / 2 < 1 ∧ r.int = (rec1 0 1 (2400000 + 1 / 4) (-7)).int ∧ r.pol ∈ allPols := by
    decide +kernel
  intro r hr
  obtain ⟨h1, h2, h3, h4, h5, h6⟩ := h r hr
  exact ⟨h1, h2, h3, h4, h5, h6⟩

example : ∃ l : List (Rcd ℚ), l.Sublist file ∧ (∀ r ∈ file, (r ∈ l ↔ Wanted cp req r (ant r).1 (ant r).2)) ∧
    readSel inter cp req file = if l = [] then none else some l :=
  readSel_partial inter mem_inter cp req req_simple _ _ ant file_good (by
    intro l hl
    have : l = [-8] := by
      have h : polsOf cp req = some [-8] := by decide +kernel
      rw [h] at hl
      exact (Option.some.inj hl).symm
    subst this
    exact ⟨-8, by decide, by decide⟩)

/-- One of the five records is read. -/
example : (readSel inter cp req file).map (fun l => l.map (fun r => (r.bl, r.pol))) = some [(mkbl 0 1, -8)] := by decide +kernel

example : ∃ cs, calls [] (readCalls inter cp (2 / 100 : ℚ) req) = some cs ∧
    ∀ (r : Rcd ℚ) (i j : Nat), Good (2 / 100) r i j → (keeps cs r = true ↔ Wanted cp req r i j) :=
  readCalls_partial inter mem_inter cp _ req req_simple

/-- Two pairs and a polarization: both polarizations of the first pair are read. -/
example : ∃ cs, calls [] (readCalls inter cp (2 / 100 : ℚ) ⟨none, some [(0, 1, none), (0, 2, none)], none, some [-8]⟩) = some cs ∧
    ∀ r : Rcd ℚ, r.bl = mkbl 0 1 → keeps cs r = true :=
  otherKeywords_counterexample inter cp _ _ rfl [] (0, 1, none) (0, 2, none) rfl (by simp) (by simp) (by simp)

example : (readSel inter cp ⟨none, some [(0, 1, none), (0, 2, none)], none, some [-8]⟩ file).map (fun l => l.map (fun r => (r.bl, r.pol)))
    = some [(mkbl 0 1, -7), (mkbl 0 1, -8), (mkbl 0 1, -8)] := by decide +kernel

example : ∃ cs, calls [] (readCalls inter cp (2 / 100 : ℚ) ⟨some [1, 2], some [(0, 2, none)], none, none⟩) = some cs ∧
    ∀ r : Rcd ℚ, keeps cs r = true :=
  emptyIntersection_counterexample inter mem_inter cp _ _ [1, 2] [(0, 2, none)] rfl rfl rfl rfl (by decide)

example : ∃ cs, calls [] (readCalls inter cp (2 / 100 : ℚ) ⟨some [5, 3], some [(3, 5, none)], none, none⟩) = some cs ∧
    ∀ r : Rcd ℚ, keeps cs r = true :=
  unsorted_counterexample inter mem_inter cp _ 5 3 (by decide)

example : readSel inter cp ⟨none, none, some (2400000 + 26 / 100, 2400000 + 26 / 100), none⟩ file = none :=
  pointRange_counterexample inter cp _ file

example : ∃ cs, calls [] (readCalls inter cp (2 / 100 : ℚ) ⟨none, none, some (2400000, 2400001), none⟩) = some cs ∧
    ∀ r : Rcd ℚ, r.time + 2 / 100 / 2 = 2400001 → 2400000 ≤ r.time + r.int / 2 → 2 / 100 < r.int →
      keeps cs r = true ∧ ¬ (2400000 ≤ r.time + r.int / 2 ∧ r.time + r.int / 2 ≤ 2400001) :=
  otherLengths_counterexample inter cp _ _ _ (by decide +kernel)

/-! ## Rows -/

/-- Names of rows by time, antennas and length. -/
def keyLe (a b : Key ℚ) : Prop :=
  toLex (a.time, toLex (a.i, toLex (a.j, a.int))) ≤ toLex (b.time, toLex (b.i, toLex (b.j, b.int)))

instance : DecidableRel keyLe := fun _ _ => by unfold keyLe; infer_instance
instance : Std.Total keyLe := ⟨fun _ _ => le_total _ _⟩
instance : IsTrans (Key ℚ) keyLe := ⟨fun _ _ _ => le_trans⟩
instance : Std.Antisymm keyLe := ⟨fun a b h1 h2 => by
  have := le_antisymm h1 h2
  cases a; cases b
  simp only [toLex_inj, Prod.mk.injEq] at this
  simp [this]⟩

def sp (x : ℚ) (f : Bool) : Spec ℚ := ⟨[x, x + 1], [f, false], [2, 3]⟩

def rows : List (MRow ℚ ℚ ℤ Bool) :=
  [⟨11, 2, 5, 0, 1, 7, true, [sp 1 false, sp 2 true]⟩, ⟨10, 2, 4, 0, 1, 8, true, [sp 3 false, sp 4 true]⟩,
   ⟨10, 2, 4, 0, 0, 0, false, [sp 5 false, sp 6 true]⟩]

theorem rows_ok : ∀ b ∈ rows, RowOk 2 2 b := by
  have h : ∀ b ∈ rows, 0 ≤ b.a1 ∧ b.a1 ≤ b.a2 ∧ b.a2 < 2047 ∧ b.specs.length = 2 ∧ ∀ s ∈ b.specs, s.data.length = 2 := by decide +kernel
  intro b hb
  obtain ⟨h1, h2, h3, h4, h5⟩ := h b hb
  exact ⟨h1, h2, h3, h4, h5⟩

example : readRows keyLe 0 1 2 (0, false, 0) (1 / 10) (writeRows (1 / 10) [-5, -6] rows) =
    some ([-5, -6], rows.insertionSort (fun a b => keyLe (rowKey a) (rowKey b))) :=
  readRows_write_partial keyLe 0 1 2 (0, false, 0) (1 / 10) [-5, -6] (by decide) (by decide) rows (by simp [rows]) rows_ok (by decide +kernel)

/-- Rows come back in another order: the earlier ones first, autocorrelations before others. -/
example : (readRows keyLe 0 1 2 (0, false, 0) (1 / 10) (writeRows (1 / 10) [-5, -6] rows)).map (fun x => x.2.map (fun b => (b.time, b.a1, b.a2, b.uvw)))
    = some [(10, 0, 0, 0), (10, 0, 1, 8), (11, 0, 1, 7)] := by decide +kernel

def twice : List (MRow ℚ ℚ ℤ Bool) := rows ++ [⟨10, 2, 4, 0, 1, 8, true, [sp 13 false, sp 14 true]⟩]

theorem twice_ok : ∀ b ∈ twice, RowOk 2 2 b := by
  intro b hb
  rcases List.mem_append.mp hb with h | h
  · exact rows_ok b h
  · rw [List.mem_singleton] at h
    subst h
    exact ⟨by decide, by decide, by decide, rfl, by simp [sp]⟩

example : ∃ p rs, readRows keyLe 0 1 2 (0, false, 0) (1 / 10) (writeRows (1 / 10) [-5, -6] twice) = some (p, rs) ∧ rs.length < twice.length := by
  have h : (readRows keyLe 0 1 2 (0, false, 0) (1 / 10) (writeRows (1 / 10) [-5, -6] twice)).isSome = true := by decide +kernel
  obtain ⟨⟨p, rs⟩, h⟩ := Option.isSome_iff_exists.mp h
  exact ⟨p, rs, h, sameRows_counterexample keyLe 0 1 2 (0, false, 0) (1 / 10) [-5, -6] p twice rs twice_ok (by decide +kernel) h⟩

/-- A file with the second polarization of one row missing, and one record twice. -/
def mr (i j : Nat) (t : ℚ) (p : Int) (x : ℚ) (f : Bool) : MRec ℚ ℚ ℤ Bool := ⟨mkbl i j, t, 2, 4, p, 8, true, ⟨[x, x], [f, f], [2, 2]⟩⟩

def recs : List (MRec ℚ ℚ ℤ Bool) := [mr 0 1 9 (-5) 1 false, mr 0 1 9 (-6) 2 false, mr 0 1 11 (-6) 3 true, mr 0 1 9 (-5) 4 false]

example : ∃ pols rows, readRows keyLe 0 1 2 (0, false, 0) (1 / 10) recs = some (pols, rows) ∧
    ∃ b ∈ rows, b.time = 10 ∧ b.int = 2 ∧ (b.a1, b.a2) = (0, 1) ∧ ∃ k : Nat, pols[k]? = some (-5) ∧ b.specs[k]? = some ⟨[4, 4], [false, false], [2, 2]⟩ := by
  have h : (readRows keyLe 0 1 2 (0, false, 0) (1 / 10) recs).isSome = true := by decide +kernel
  obtain ⟨⟨p, rs⟩, h⟩ := Option.isSome_iff_exists.mp h
  refine ⟨p, rs, h, ?_⟩
  obtain ⟨b, hb, h1, h2, h3, h4⟩ := readRows_complete keyLe 0 1 2 (0, false, 0) (1 / 10)
    [mr 0 1 9 (-5) 1 false, mr 0 1 9 (-6) 2 false, mr 0 1 11 (-6) 3 true] [] (mr 0 1 9 (-5) 4 false) p rs h (by simp)
  refine ⟨b, hb, ?_, h2, ?_, h4⟩
  · rw [h1]; decide +kernel
  · rw [h3]; decide +kernel

def k11 : Key ℚ := ⟨11, 0, 1, 2⟩

example : ∃ b, buildRow 0 1 2 ((0 : ℤ), false, (0 : ℚ)) (1 / 10) [-5, -6] recs k11 = some b ∧ b.specs[0]? = some ⟨[0, 0], [true, true], [1, 1]⟩ ∧
    b.uvw = 0 := by
  obtain ⟨b, h1, h2, -⟩ := flaggedRow_counterexample 0 1 2 ((0 : ℤ), false, (0 : ℚ)) (1 / 10) (-5) [-6] recs k11 (by decide +kernel) (by decide +kernel)
  exact ⟨b, h1, missing_counterexample 0 1 2 ((0 : ℤ), false, (0 : ℚ)) (1 / 10) [-5, -6] recs k11 b h1 0 (-5) rfl (by decide +kernel), h2⟩

/-! ## Antennas -/

/-- A rotation of numbers by a change of sign. -/
def rot (x : ℤ) : ℤ := -x

def absolute (l : List ℤ) : Bool := decide (∀ x ∈ l, x = 0 ∨ 1000 < |x|)

def nm (s : String) : Str := s.toList

theorem noSep_of {a : Str} (h : (List.range (a.length + 1)).all (fun i => decide ((a.drop i).take 2 ≠ [',', ' '])) = true) : NoSep a := by
  rintro ⟨s, t, e⟩
  rw [List.all_eq_true] at h
  have hl : s.length ∈ List.range (a.length + 1) := by
    rw [List.mem_range, ← e]
    simp
    omega
  have := h s.length hl
  rw [decide_eq_true_eq] at this
  apply this
  rw [← e]
  simp

theorem ok1 : AntOk rot 5000 [4, 0, 2] [10, 0, 30] [nm "four", nm "a,b", nm "two"] where
  nodup := by decide
  many := by decide
  lenPos := rfl
  away := by decide
  namesNe := by simp
  noSep := by
    intro a ha
    simp only [List.mem_cons, List.not_mem_nil, or_false] at ha
    rcases ha with rfl | rfl | rfl <;> exact noSep_of (by decide +kernel)
  noNul := by decide +kernel

example : readAnts rot 5000 absolute (writeAnts rot 5000 [4, 0, 2] [10, 0, 30] [nm "four", nm "a,b", nm "two"])
    = some ([4, 0, 2], [10, 0, 30], [nm "four", nm "a,b", nm "two"]) :=
  readAnts_write_partial rot rot 5000 absolute _ _ _ (fun x => by simp [rot]) rfl ok1 (by decide +kernel) (Or.inl ⟨4, by decide, by decide⟩)

example : splitCS (joinCS [nm "four", nm "a,b", nm "two"]) = [nm "four", nm "a,b", nm "two"] := splitCS_joinCS _ (by simp) ok1.noSep

theorem ok2 : AntOk rot 5000 [2, 0, 1] [10, 20, 30] [nm "a", nm "b", nm "c"] where
  nodup := by decide
  many := by decide
  lenPos := rfl
  away := by decide
  namesNe := by simp
  noSep := by
    intro a ha
    simp only [List.mem_cons, List.not_mem_nil, or_false] at ha
    rcases ha with rfl | rfl | rfl <;> exact noSep_of (by decide +kernel)
  noNul := by decide +kernel

example : ∃ pos', readAnts rot 5000 absolute (writeAnts rot 5000 [2, 0, 1] [10, 20, 30] [nm "a", nm "b", nm "c"])
      = some ([2, 0, 1], pos', [nm "a", nm "b", nm "c"]) ∧
    ∀ (i n : Nat) (p : ℤ), [2, 0, 1][i]? = some n → [10, 20, 30][i]? = some p → pos'[n]? = some p :=
  permuted_counterexample rot rot 5000 absolute _ _ _ (fun x => by simp [rot]) rfl ok2 (by decide +kernel) (by decide) (by decide)

/-- Antenna 2 was at 10 and is now at 20. -/
example : readAnts rot 5000 absolute (writeAnts rot 5000 [2, 0, 1] [10, 20, 30] [nm "a", nm "b", nm "c"])
    = some ([2, 0, 1], [20, 30, 10], [nm "a", nm "b", nm "c"]) := by decide +kernel

example : readAnts rot 5000 absolute (writeAnts rot 5000 [7] [10] [nm "a"]) = none := oneAntenna_counterexample rot rot 5000 absolute 7 [10] [nm "a"]

example : ∃ pos', readAnts rot 5000 absolute (writeAnts rot 5000 [1, 0] [10, 20] [nm "a, b", nm "c"]) = some ([1, 0], pos', [nm "a", nm "b", nm "c"]) :=
  names_counterexample rot rot 5000 absolute [1, 0] [10, 20] (nm "a") (nm "b") (nm "c") [] (by decide) ok2.noSep ok2.noNul

/-! ## Frequencies -/

/-- The middle of a list, good enough for a median of equal values. -/
def med (l : List ℚ) : ℚ := l.getD (l.length / 2) 0

theorem med_replicate (x : ℚ) (k : Nat) (h : 0 < k) : med (List.replicate k x) = x := by
  unfold med
  rw [List.getD_eq_getElem?_getD, List.length_replicate, List.getElem?_replicate, if_pos (by omega)]
  rfl

/-- A window upwards and one downwards. -/
example : (writeFreqs med [⟨0, [(100, 2), (102, 2), (104, 2)]⟩, ⟨1, [(90, 3), (87, 3)]⟩]).map readFreqs
    = some [⟨0, [(100, 2), (102, 2), (104, 2)]⟩, ⟨1, [(90, 3), (87, 3)]⟩] := by
  have := readFreqs_write_partial med med_replicate [(100, 2, 3), (90, -3, 2)] (by decide +kernel)
  have e : ([(100, 2, 3), (90, -3, 2)] : List (ℚ × ℚ × ℕ)).zipIdx.map (fun x => (⟨(x.2 : Int), evenChans x.1.1 x.1.2.1 x.1.2.2⟩ : Win ℚ))
      = [⟨0, [(100, 2), (102, 2), (104, 2)]⟩, ⟨1, [(90, 3), (87, 3)]⟩] := by
    simp only [List.zipIdx_cons, List.zipIdx_nil, List.map_cons, List.map_nil, List.cons.injEq, Win.mk.injEq, and_true]
    exact ⟨⟨rfl, by decide +kernel⟩, rfl, by decide +kernel⟩
  rw [e] at this
  exact this

example : (writeFreqs med [⟨0, [(100, 2)]⟩]).map readFreqs = some [⟨0, [(100, 0)]⟩] := oneChannel_counterexample med 0 100 2

example : ∃ vs, (writeFreqs med [⟨7, [(100, 2), (102, 2)]⟩, ⟨3, [(90, 3), (87, 3)]⟩]).map readFreqs = some vs ∧
    vs.map Win.id = (List.range vs.length).map (fun k : Nat => (k : Int)) := by
  have h : ((writeFreqs med [⟨7, [(100, 2), (102, 2)]⟩, ⟨3, [(90, 3), (87, 3)]⟩]).map readFreqs).isSome = true := by decide +kernel
  obtain ⟨vs, h⟩ := Option.isSome_iff_exists.mp h
  exact ⟨vs, h, windowNumbers_counterexample med _ vs h⟩

/-! ## Keywords -/

def kws : List (Str × KVal ℚ) := [(nm "OBSERVER", .str (nm "me")), (nm "run", .int (-12)), (nm "gain", .float (1 / 2)), (nm "good", .bool false)]

example : ∃ vars, writeKeys kws [] = some vars ∧ ∀ k, readKey [nm "ntimes", nm "pol"] vars k = kws.lookup k :=
  readKey_write_partial _ kws (by decide +kernel) (by decide +kernel) (by decide +kernel) (by
    intro kv h
    simp only [kws, List.mem_cons, List.not_mem_nil, or_false] at h
    rcases h with rfl | rfl | rfl | rfl
    · exact ⟨by decide +kernel, by decide +kernel, by decide +kernel⟩
    · exact ⟨by decide, by decide⟩
    · trivial
    · trivial)

example : ∃ vars : List (Str × FVal ℚ), writeKeys [(nm "observation", .int 3)] [] = some vars ∧ readKey [] vars (nm "observation") = none := by
  refine ⟨[(nm "observat", .int 3)], by decide +kernel, ?_⟩
  exact longName_counterexample (F := ℚ) [] [(nm "observation", .int 3)] _ (by decide +kernel) _ (by decide +kernel)

example : ∃ vars : List (Str × FVal ℚ), writeKeys [(nm "observation", .int 3), (nm "observatory", .int 4)] [] = some vars ∧
    readKey [] vars (nm "observat") = some (.int 4) :=
  sameStart_counterexample [] (nm "observation") (nm "observatory") 3 4 (by decide +kernel) (by simp) (by decide)

/-- With another type the writing fails. -/
example : writeKeys [(nm "observation", (.int 3 : KVal ℚ)), (nm "observatory", .str (nm "x"))] [] = none := by decide +kernel

example : ∃ vars : List (Str × FVal ℚ), writeKeys [(nm "flag", .str "True".toList)] [] = some vars ∧ readKey [] vars (nm "flag") = some (.bool true) :=
  trueText_counterexample [] (nm "flag") (by decide +kernel) (by simp)

example : ∃ (vars : List (Str × FVal ℚ)) (m : Int), writeKeys [(nm "gps", .int 3000000000)] [] = some vars ∧ readKey [] vars (nm "gps") = some (.int m) ∧
    -2147483648 ≤ m ∧ m < 2147483648 := largeInt_counterexample [] (nm "gps") 3000000000 (by decide +kernel) (by simp)

example : readKey [nm "pol"] [(nm "pol", (.int 1 : FVal ℚ))] (nm "pol") = none := knownName_counterexample _ _ _ (by simp)

example : writeKeys [(nm "a", (.int 1 : KVal ℚ)), (nm "b", .npBool true)] [] = none := npBool_counterexample _ [] (nm "b") true (by simp)

end Verif.Miriad.Examples
