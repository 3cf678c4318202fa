import Mathlib.Algebra.Order.Ring.Rat
import Verif.FlagIo.New

/-!
# Examples
-/

namespace Verif.FlagIo.Ex
open Verif.Pol (Str)

def ver : Str := " Written with 3.0.".toList

theorem ver_line : '\n' ∉ ver := by decide +kernel

def tel : Tel Nat Nat := ⟨some "A".toList, some 5, some [1, 2, 4], some ["a".toList, "b".toList, "c".toList], some [7, 8, 9], some 3, 0⟩

theorem tel_full : FullTel tel := by simp [FullTel, tel]

def blNum : Option Nat → Nat → Nat → Nat := fun _ a b => 2048 * (a + 1) + (b + 1) + 65536

def rows : Rows := ⟨[blNum none 1 2, blNum none 1 4, blNum none 1 2, blNum none 1 4], [1, 1, 1, 1], [2, 4, 2, 4], 2, 4⟩

def vis : Vis ℚ Nat Nat Nat :=
  { ntimes := 2, times := [6, 6, 5, 5], lsts := [1, 1, 0, 0], nfreqs := 3, freqs := [10, 12, 14], widths := [2, 2, 2], nspws := 1, spws := [0],
    flex := [0, 0, 0], npols := 1, pols := [-5], tel := tel, rows := rows, nants := 3, flags := some (full [4, 3, 1] true), kws := some [("k".toList, 3)],
    files := ["x".toList], cls := "UVData".toList }

def metricText : Str := "Metric".toList

def flagText : Str := "flag".toList

theorem metric_low : metricText.map Char.toLower = FMode.metric.text := by decide +kernel

theorem flag_low : flagText.map Char.toLower = FMode.flag.text := by decide +kernel

example := vis_baseline ver Old.fresh vis metricText "by me".toList "lab".toList .metric ver_line metric_low

example := vis_flags ver Old.fresh vis metricText "by me".toList "lab".toList .metric ver_line metric_low

example := vis_waterfall ver Old.fresh vis flagText "by me".toList "lab".toList .flag ver_line flag_low rfl

example : (fromVis ver Old.fresh vis flagText false true "by me".toList [] : Option (Flg ℚ Nat Nat Nat)).map (fun f => (f.times, f.lsts)) =
    some ([5, 6], [0, 1]) := by decide +kernel

example : (fromVis ver Old.fresh vis flagText true false "by me".toList [] : Option (Flg ℚ Nat Nat Nat)).map (fun f => String.ofList f.history) =
    some "Flag object with type \"baseline\" created.  Written with 3.0. Flags copied from UVData object.by me" := by decide +kernel

example : (fromVis ver Old.fresh vis metricText false false "by me".toList [] : Option (Flg ℚ Nat Nat Nat)).map (fun f => (f.metric, f.weights, f.wsq, f.flags)) =
    some (some (full [4, 3, 1] 0), some (full [4, 3, 1] 1), none, none) := by decide +kernel

example := vis_refused ver (Old.fresh : Old ℚ Nat) vis flagText true true [] [] (Or.inl ⟨rfl, rfl⟩)

example := vis_refused ver (Old.fresh : Old ℚ Nat) vis "flags".toList true false [] []
  (Or.inr (by intro m; cases m <;> decide +kernel))

example := vis_file ver id (fun _ => []) blNum (fun _ => true) "new".toList vis metricText "by me".toList "lab".toList .metric ver_line metric_low
  tel_full (by decide +kernel) (by decide +kernel) (by decide +kernel)

/-- An object that was used before: text and squares of weights stay. -/
def used : Old ℚ Nat := ⟨"old".toList, "l".toList, some (full [1, 1, 1] 4), []⟩

example : ∃ f, fromVis ver used vis metricText false false [] [] = some f ∧ used.history <+: f.history ∧ f.wsq = some (full [1, 1, 1] 4) := by
  obtain ⟨f, h, -⟩ := vis_baseline ver used vis metricText [] [] .metric ver_line metric_low
  have := used_counterexample ver used vis metricText [] [] f metric_low ver_line h
  exact ⟨f, h, this.1, this.2.2⟩

def cal : Cal ℚ Nat Nat :=
  { wide := false, ntimes := 1, times := [5], lsts := [0], nfreqs := 2, freqs := [10, 12], widths := [2, 2], nspws := 1, spws := [0], flex := [0, 0],
    njones := 1, jones := [-5], tel := tel, ant := [1, 2], flags := some (full [2, 2, 1, 1] true), files := ["x".toList], cls := "UVCal".toList }

example := cal_antenna ver (Old.fresh : Old ℚ Nat) cal flagText [] [] .flag ver_line flag_low rfl

example := cal_flags ver (Old.fresh : Old ℚ Nat) cal flagText [] [] .flag ver_line flag_low rfl

example := cal_waterfall ver (Old.fresh : Old ℚ Nat) cal flagText [] [] .flag ver_line flag_low rfl

example := cal_refused ver (Old.fresh : Old ℚ Nat) { cal with wide := true } flagText false false [] [] (Or.inl rfl)

example : ∃ f, fromCal ver (Old.fresh : Old ℚ Nat) cal flagText true false [] [] = some f ∧ f.kws = [] := by
  obtain ⟨f, h, -⟩ := cal_flags ver (Old.fresh : Old ℚ Nat) cal flagText [] [] .flag ver_line flag_low rfl
  exact ⟨f, h, calKeywords_counterexample ver _ cal flagText true false [] [] f h⟩

/-- A waterfall with squares of weights. -/
def wf : Flg ℚ Nat Nat Nat :=
  { type := .waterfall, mode := .metric, history := "h".toList, label := [], ntimes := 1, times := [5], lsts := [0], nfreqs := 3,
    freqs := [10, 12, 14], widths := [2, 2, 2], nspws := 1, spws := [0], flex := [0, 0, 0], npols := 1, pols := .texts ["ee".toList], tel := tel,
    rows := none, ant := none, nants := none, metric := some ⟨[1, 3, 1], [1, 2, 3]⟩, weights := some ⟨[1, 3, 1], [1, 0, 1]⟩,
    wsq := some ⟨[1, 3, 1], [1, 0, 2]⟩, flags := none, kws := [("k".toList, 3)], files := [] }

theorem wf_data : GoodData wf := by
  constructor
  · intro _
    exact ⟨⟨_, rfl, rfl⟩, ⟨_, rfl, rfl⟩, (fun q hq => by simp [wf] at hq; subst hq; rfl), rfl⟩
  · intro h; cases h

theorem wf_ants : GoodAnts blNum wf := by
  constructor
  · intro h; cases h
  · intro h; cases h
  · intro _; exact ⟨rfl, rfl, rfl⟩

example := write_read ver id (fun _ => []) blNum (fun _ => true) "new".toList wf ver_line wf_data wf_ants tel_full

/-- A file of the past: an axis for spectral windows, no counts, no label, no windows and no widths. -/
def oldFile : Hdr ℚ Nat Nat Nat :=
  { type := "waterfall".toList, mode := "metric".toList, ntimes := none, times := [5], lsts := [0], nfreqs := none, freqs := [10, 12, 14], widths := none,
    spws := none, nspws := none, flex := none, npols := none, pols := .texts ["ee".toList], tel := tel, history := "h".toList, label := none,
    kws := [("k".toList, 3)], a1 := none, a2 := none, nblts := none, ant := none, nants := none, metric := some ⟨[1, 1, 3, 1], [1, 2, 3]⟩,
    weights := some ⟨[1, 1, 3, 1], [1, 0, 1]⟩, wsq := some ⟨[1, 1, 3, 1], [1, 0, 2]⟩, flags := none }

theorem old_tells : Tells (fun _ => true) wf oldFile := by
  refine { type := rfl, mode := rfl, times := rfl, lsts := rfl, freqs := rfl, pols := rfl, tel := rfl, kws := rfl,
           ntimes := Or.inr ⟨rfl, by decide +kernel⟩, nfreqs := Or.inr ⟨rfl, by decide +kernel⟩, npols := Or.inr ⟨rfl, ?_, ?_⟩,
           spws := Or.inr ⟨rfl, rfl⟩, nspws := Or.inr ⟨rfl, rfl⟩, flex := Or.inr ⟨rfl, 0, rfl, rfl, rfl⟩,
           widths := Or.inr (Or.inr ⟨rfl, ?_, rfl, rfl, ?_, rfl, ?_⟩), label := Or.inr ⟨rfl, rfl⟩, a1 := ?_, a2 := ?_, nblts := ?_, ant := ?_,
           nants := ?_, metric := ?_, weights := ?_, wsq := ?_, flags := ?_ }
  · intro l e; cases e
  · intro l e; injection e with e; subst e; rfl
  · decide
  · intro i a b h1 h2
    match i with
    | 0 => simp [wf] at h1 h2 ⊢; subst h1 h2; decide +kernel
    | 1 => simp [wf] at h1 h2 ⊢; subst h1 h2; decide +kernel
    | i + 2 => simp [wf] at h2
  · intro _ i j hi hj
    have hi : i < 3 := hi
    have hj : j < 3 := hj
    have : ∀ i j : Fin 3, wf.widths[i.val]? = wf.widths[j.val]? := by decide +kernel
    exact this ⟨i, hi⟩ ⟨j, hj⟩
  · intro e; cases e
  · intro e; cases e
  · intro r e; cases e
  · intro e; cases e
  · intro a e; cases e
  · intro _; exact Or.inr ⟨_, _, rfl, rfl, 1, [3, 1], rfl, rfl, rfl⟩
  · intro _; exact Or.inr ⟨_, _, rfl, rfl, 1, [3, 1], rfl, rfl, rfl⟩
  · intro _; exact Or.inr ⟨_, _, rfl, rfl, 1, [3, 1], rfl, rfl, rfl⟩
  · intro e; cases e

example := tells_read ver id (fun _ => []) blNum (fun _ => true) "new".toList wf oldFile "more".toList old_tells
  wf_data wf_ants tel_full

def readQ (h : Hdr ℚ Nat Nat Nat) (tn : Option Str) : Option (Flg ℚ Nat Nat Nat) :=
  readFile ver id (fun n => (toString n).toList) blNum (fun _ => true) "new".toList h "more".toList tn

example : ∃ f, readQ oldFile (some "B".toList) = some f ∧ f.files = ["new".toList] := by
  obtain ⟨f, hf⟩ := Option.isSome_iff_exists.mp (show (readQ oldFile (some "B".toList)).isSome = true by decide +kernel)
  exact ⟨f, hf, (read_history ver id _ blNum _ _ _ _ _ f ver_line hf).2.2⟩

example : ∃ f, readQ oldFile (some "B".toList) = some f ∧ f.tel.name = some "B".toList := by
  obtain ⟨f, hf⟩ := Option.isSome_iff_exists.mp (show (readQ oldFile (some "B".toList)).isSome = true by decide +kernel)
  exact ⟨f, hf, (read_name ver id _ blNum _ _ _ _ _ f (fun _ => rfl) hf).1 _ rfl⟩

example : readQ { oldFile with type := "baselines".toList } none = none :=
  strange_refused ver id _ blNum _ _ _ _ none (Or.inl (by intro t; cases t <;> decide +kernel))

example : ∃ f, readQ { oldFile with freqs := [14, 12, 10] } none = some f ∧ ∀ w ∈ f.widths, w < 0 := by
  obtain ⟨f, hf⟩ := Option.isSome_iff_exists.mp (show (readQ { oldFile with freqs := [14, 12, 10] } none).isSome = true by decide +kernel)
  exact ⟨f, hf, descending_counterexample ver id _ blNum _ _ _ _ none f hf rfl (by decide +kernel)⟩

example : readQ { oldFile with freqs := [14] } none = none := oneChannel_counterexample ver id _ blNum _ _ _ _ none rfl rfl

/-- A file of baselines without antennas of the telescope. -/
def bareFile : Hdr ℚ Nat Nat Nat :=
  { oldFile with type := "baseline".toList, times := [5, 5], lsts := [0, 0], a1 := some [4, 1], a2 := some [4, 2], mode := "flag".toList,
                 flags := some ⟨[2, 3, 1], [true, false, true, false, false, false]⟩,
                 tel := ⟨some "A".toList, some 5, none, none, none, some 9, 0⟩ }

example : ∃ f r, readQ bareFile none = some f ∧ f.rows = some r ∧ f.tel.nums = some [1, 2, 4] ∧ f.tel.nants = some 3 := by
  obtain ⟨f, hf⟩ := Option.isSome_iff_exists.mp (show (readQ bareFile none).isSome = true by decide +kernel)
  have h1 : (readQ bareFile none).map (fun f => (f.rows.isSome, f.tel.nums, f.tel.nants)) = some (true, some [1, 2, 4], some 3) := by decide +kernel
  rw [hf] at h1
  simp only [Option.map_some, Option.some.injEq, Prod.mk.injEq] at h1
  obtain ⟨r, hr⟩ := Option.isSome_iff_exists.mp h1.1
  have := read_antennas ver id _ blNum _ _ bareFile _ "A".toList f r rfl rfl rfl rfl (fun _ => rfl) hf hr
  have := read_baselines ver id _ blNum _ _ bareFile _ none f r hf hr
  exact ⟨f, r, hf, hr, h1.2.1, h1.2.2⟩

example : ∃ f, readQ { bareFile with tel := { bareFile.tel with pos := some [1, 2, 3, 4, 5, 6, 7, 8, 9] } } none = some f ∧ f.tel.nums = none := by
  obtain ⟨f, hf⟩ := Option.isSome_iff_exists.mp
    (show (readQ { bareFile with tel := { bareFile.tel with pos := some [1, 2, 3, 4, 5, 6, 7, 8, 9] } } none).isSome = true by decide +kernel)
  have h1 : (readQ { bareFile with tel := { bareFile.tel with pos := some [1, 2, 3, 4, 5, 6, 7, 8, 9] } } none).map (fun f => f.nants) = some (some 3) := by
    decide +kernel
  rw [hf] at h1
  simp only [Option.map_some, Option.some.injEq] at h1
  exact ⟨f, hf, (unknown_antennas ver id _ blNum _ _ _ _ f 9 rfl rfl rfl (fun _ => rfl) hf (by rw [h1]; decide)).1⟩

/-- Another numbering of baselines. -/
def otherNumbers : Flg ℚ Nat Nat Nat :=
  { wf with type := .baseline, mode := .flag, metric := none, weights := none, wsq := none, flags := some ⟨[1, 3, 1], [true, false, true]⟩,
            rows := some ⟨[258], [1], [2], 1, 1⟩, nants := some 2 }

example : ∃ g s, readFile ver id (fun _ => []) blNum (fun _ => true) [] (writeFile ver otherNumbers) [] none = some g ∧ g.rows = some s ∧ s.bl ≠ [258] := by
  obtain ⟨g, hg⟩ := Option.isSome_iff_exists.mp
    (show (readFile ver id (fun _ => []) blNum (fun _ => true) [] (writeFile ver otherNumbers) [] none).isSome = true by decide +kernel)
  have h1 : (readFile ver id (fun _ => []) blNum (fun _ => true) [] (writeFile ver otherNumbers) [] none).map (fun g => g.rows.isSome) = some true := by
    decide +kernel
  rw [hg] at h1
  simp only [Option.map_some, Option.some.injEq] at h1
  obtain ⟨s, hs⟩ := Option.isSome_iff_exists.mp h1
  exact ⟨g, s, hg, hs, numbering_counterexample ver id _ blNum _ [] otherNumbers g _ s rfl rfl hs (by decide +kernel) hg⟩

/-- Lists: the text given is not in what is read first. -/
def readT : Nat → Str → Option Str → Option Str := fun n h t => some ((toString n).toList ++ h ++ t.getD [])

example : readMany readT (fun a b => some (a ++ "+".toList ++ b)) [1, 2, 3] "h".toList (some "T".toList) = some "1+2h+3h".toList := by decide +kernel

example := readMany_append readT (fun a b => some (a ++ b)) [1, 2] 3 "h".toList none (by decide)

example := initMany_append (F := Nat) ver (fun _ _ _ => some wf) (fun _ b => some b) [.vis vis] (.path 1) flagText false false [] "l".toList none (by simp)

example := initOne_given (F := Nat) (V := Nat) (P := Nat) (X := Nat) (α := ℚ) ver (fun _ _ _ => some wf) metricText .metric true "h".toList "l".toList none
  ver_line metric_low

end Verif.FlagIo.Ex
