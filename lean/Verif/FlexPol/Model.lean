import Verif.FreqSort.Model
import Mathlib.Data.List.Dedup

/-!
Model of the conversions between several polarizations and one polarization per spectral window:
`remove_flex_pol`, uvdata.py 1691–1933, `_make_flex_pol`, 1935–2034, `convert_to_flex_pol`, 2036–2097.

* `V` stands for visibility, flag and number of samples of one cell; all three are handled alike. Arrays of data are functions of
  baseline-time, channel and polarization positions.
* `reshape(..., order="F")` is written out: position in memory counted with the first axis fastest.
* The number taken from a set of free numbers in 2056–2060 is any number that is not in use (`fresh`).
* The ordering of channels and windows in 1834–1864 is a parameter of `remove`; `reorderFlex` is the one of the code, on top of the
  model of `_sort_freq_helper`. `eq_coeffs`, which the conversions do not touch, is left out.
* Left out: warnings, objects without data.
-/
namespace Verif.FlexPol
open Verif.Np Verif.FreqSort

variable {K V : Type}

structure Obj (K V : Type) where
  nblts : Nat
  spws : List Int
  flexId : List Int
  freq : List K
  width : List K
  pols : List Int
  flexPol : Option (List Int)
  data : Nat → Nat → Nat → V

/-- `a.reshape((m0, m1, m2), order="F")` of an array of shape `(n0, n1, n2)`, uvdata.py 1887–1895, 2084–2092. -/
def reshapeF (n0 n1 m0 m1 : Nat) (a : Nat → Nat → Nat → V) : Nat → Nat → Nat → V :=
  fun i j k => let t := i + m0 * (j + m1 * k); a (t % n0) (t / n0 % n1) (t / n0 / n1)

/-! ### convert_to_flex_pol -/

/-- Windows with their polarizations, and the table of new window numbers. -/
structure CSt where
  wins : List (Int × Int)
  ids : Nat → Nat → Int

/-- Lines 2056–2066. -/
def convertStep (fresh : List Int → Int) (flexId : List Int) (st : CSt) (q : (Int × Nat) × Int) : CSt :=
  let new := fresh (st.wins.map Prod.fst)
  { wins := st.wins ++ [(new, q.1.1)]
    ids := fun f p => if p = q.1.2 ∧ flexId[f]? = some q.2 then new else st.ids f p }

/-- Lines 2048–2066; the two loops are one over pairs. -/
def convertLoop (fresh : List Int → Int) (spws flexId pols : List Int) : CSt :=
  ((pols.zipIdx.drop 1).flatMap (fun q => spws.map (fun s => (q, s)))).foldl (convertStep fresh flexId)
    { wins := spws.map (fun s => (s, pols.headD 0)), ids := fun f p => if p = 0 then (flexId[f]?).getD 0 else 0 }

/-- Lines 2068–2095. -/
def converted (fresh : List Int → Int) (o : Obj K V) : Obj K V :=
  let st := convertLoop fresh o.spws o.flexId o.pols
  let wins := st.wins.insertionSort (fun a b => a.1 ≤ b.1)
  let nf := o.freq.length
  let np := o.pols.length
  { nblts := o.nblts
    spws := wins.map Prod.fst
    flexPol := some (wins.map Prod.snd)
    flexId := (List.range (nf * np)).map (fun t => st.ids (t % nf) (t / nf))
    pols := [0]
    freq := (List.replicate np o.freq).flatten
    width := (List.replicate np o.width).flatten
    data := reshapeF o.nblts nf o.nblts (nf * np) o.data }

/-- `convert_to_flex_pol`, lines 2036–2097; `none` is `ValueError`. -/
def convert (fresh : List Int → Int) (o : Obj K V) : Option (Obj K V) :=
  match o.flexPol with
  | some _ => none
  | none => some (converted fresh o)

/-! ### remove_flex_pol -/

/-- The values of the channels of a window: `xs[flex_spw_id_array == s]`, uvdata.py 1789–1797, 1828–1830. -/
def ofWin {α : Type} (ids : List Int) (xs : List α) (s : Int) : List α :=
  ((ids.zip xs).filter (fun q => decide (q.1 = s))).map Prod.snd

/-- Different values in the order of first appearance, uvdata.py 1733–1735, 1874–1881. -/
def firsts {α : Type} [DecidableEq α] (l : List α) : List α := l.reverse.dedup.reverse

/-- A set of windows with the same frequencies and widths, lines 1736–1741. -/
structure WinSet (K : Type) where
  freqs : List K
  widths : List K
  spws : List Int
  pols : List Int

section
variable [LinearOrder K]

/-- Frequencies of a window sorted, and widths in the same order, lines 1749–1752. -/
def signature (sF : Argsort K) (ids : List Int) (freq width : List K) (s : Int) : List K × List K :=
  let ord := sF.run (ofWin ids freq s)
  (fancy (ofWin ids freq s) ord, fancy (ofWin ids width s) ord)

/-- The polarization of a window, line 1746. -/
def polOf (spws flexPol : List Int) (s : Int) : Int := (flexPol[spws.idxOf s]?).getD 0

/-- Add a window to the first set it matches; `none` if no set matches, error if the set has its polarization already, lines 1754–1770. -/
def joinSet (sig : List K × List K) (s pol : Int) : List (WinSet K) → Except Unit (Option (List (WinSet K)))
  | [] => .ok none
  | w :: ws =>
    if w.freqs = sig.1 ∧ w.widths = sig.2 then
      if w.pols.contains pol then .error () else .ok (some ({ w with spws := w.spws ++ [s], pols := w.pols ++ [pol] } :: ws))
    else
      match joinSet sig s pol ws with
      | .error e => .error e
      | .ok none => .ok none
      | .ok (some ws') => .ok (some (w :: ws'))

/-- Lines 1744–1780: one window. -/
def setStep (sig : Int → List K × List K) (pol : Int → Int) (sets : List (WinSet K)) (s : Int) : Except Unit (List (WinSet K)) :=
  match joinSet (sig s) s (pol s) sets with
  | .error e => .error e
  | .ok none => .ok (sets ++ [⟨(sig s).1, (sig s).2, [s], [pol s]⟩])
  | .ok (some sets') => .ok sets'

/-- `first_spw_dict`, lines 1767, 1779, 1823. -/
def firstOf (sets : List (WinSet K)) (s : Int) : Int :=
  (((sets.find? (fun w => w.spws.contains s)).bind (fun w => w.spws.head?))).getD 0

/-- Number of places where neighbours differ: `np.nonzero(np.diff(l))[0].size`, line 1825. -/
def steps : List Int → Nat
  | a :: b :: l => (if a = b then 0 else 1) + steps (b :: l)
  | _ => 0

/-- Lines 1786–1800. -/
def needsChannelOrder (ids : List Int) (freq width : List K) (sets : List (WinSet K)) : Bool :=
  sets.any (fun w => w.spws.tail.any (fun s =>
    !(decide (ofWin ids freq (w.spws.headD 0) = ofWin ids freq s) && decide (ofWin ids width (w.spws.headD 0) = ofWin ids width s))))

/-- Lines 1824–1832. -/
def needsSpwOrder (uniq polCheck firstSpw : List Int) : Bool :=
  decide (steps polCheck ≠ uniq.length - 1) ||
    uniq.tail.any (fun p => decide (ofWin polCheck firstSpw p ≠ ofWin polCheck firstSpw (uniq.headD 0)))

/-- Lines 1866–1895. -/
def finishCombine (o : Obj K V) (flexPol : List Int) (sets : List (WinSet K)) : Obj K V :=
  let nf := (sets.map (fun w => w.freqs.length)).sum
  let first := o.flexId.map (firstOf sets)
  { nblts := o.nblts
    spws := firsts first
    flexId := first.take nf
    freq := o.freq.take nf
    width := o.width.take nf
    pols := firsts (o.flexId.map (polOf o.spws flexPol))
    flexPol := none
    data := reshapeF o.nblts o.freq.length o.nblts nf o.data }

/-- Lines 1908–1933: each window's data under its polarization, the rest empty. -/
def spread (blank : V) (o : Obj K V) (flexPol uniq : List Int) : Obj K V :=
  { o with
    pols := uniq
    flexPol := none
    data := (o.spws.zip flexPol).foldl (fun (d : Nat → Nat → Nat → V) q =>
      fun b f p => if o.flexId[f]? = some q.1 ∧ p = uniq.idxOf q.2 then o.data b f 0 else d b f p) (fun _ _ _ => blank) }

/-- How channels and windows are put in order: polarizations, sets of windows, whether channels and windows have to be sorted. -/
abbrev Reorder (K V : Type) := List Int → List (WinSet K) → Bool → Bool → Obj K V → Option (Obj K V)

/-- `remove_flex_pol`, lines 1691–1933; `none` is `ValueError`. -/
def remove (sF : Argsort K) (reorder : Reorder K V) (blank : V) (combine : Bool) (o : Obj K V) : Option (Obj K V) :=
  match o.flexPol with
  | none => some o
  | some fp =>
    let uniq := unique fp
    if o.spws.length = 1 ∨ uniq.length = 1 then some { o with pols := uniq, flexPol := none }
    else if combine then
      match (firsts o.flexId).foldlM (setStep (signature sF o.flexId o.freq o.width) (polOf o.spws fp)) [] with
      | .error _ => none
      | .ok sets =>
        if sets.all (fun w => decide (w.spws.length = uniq.length)) then
          let rc := needsChannelOrder o.flexId o.freq o.width sets
          let rs := needsSpwOrder uniq (o.flexId.map (polOf o.spws fp)) (o.flexId.map (firstOf sets))
          (if rc || rs then reorder uniq sets rc rs o else some o).map (fun o' => finishCombine o' (o'.flexPol.getD []) sets)
        else some (spread blank o fp uniq)
    else some (spread blank o fp uniq)

/-- Lines 1842–1844: negative polarizations by their absolute value. -/
def polOrder (uniq : List Int) : List Int :=
  if uniq.all (fun q => decide (q < 0)) then uniq.insertionSort (fun a b => a.natAbs ≤ b.natAbs) else uniq

/-- The window of a set with a polarization, line 1848. -/
def pickPol (w : WinSet K) (q : Int) : Int := (((w.spws.zip w.pols).find? (fun z => decide (z.2 = q))).map Prod.fst).getD 0

/-- Lines 1841–1851: `spw_order`. -/
def newOrder (uniq : List Int) (sets : List (WinSet K)) (spws : List Int) : List Int :=
  (polOrder uniq).flatMap (fun q => sets.map (fun w => ((spws.idxOf (pickPol w q) : Nat) : Int)))

/-- `reorder_freqs` once the order is known, uvdata.py 4139–4162. -/
def applyOrder (o : Obj K V) (fp : List Int) (idx : List Nat) : Obj K V :=
  { o with
    freq := fancy o.freq idx
    width := fancy o.width idx
    flexId := fancy o.flexId idx
    spws := firsts (fancy o.flexId idx)
    flexPol := some ((firsts (fancy o.flexId idx)).map (polOf o.spws fp))
    data := fun b f p => o.data b ((idx[f]?).getD 0) p }

end

section
variable [Field K] [LinearOrder K]

/-- Lines 1834–1855 with `reorder_freqs`, 4124–4162; `none` is an exception of `_sort_freq_helper`. -/
def reorderFlex (sI : Argsort Int) (sF : Argsort K) : Reorder K V := fun uniq sets rc rs o =>
  match sortFreq sI sF o.freq o.spws o.flexId (if rs then .idx (newOrder uniq sets o.spws) else .none)
      (if rc then .str "freq".toList else .none) none with
  | .error _ => none
  | .ok none => some o
  | .ok (some idx) => some (applyOrder o (o.flexPol.getD []) idx)

end

section
variable [LinearOrder K]

/-! ### _make_flex_pol -/

/-- Lines 1986–2001: the polarization with data that are not flagged; `none` if there are several, `some none` (−1 in the code) if
there is none. -/
def windowPol (flagged : V → Bool) (o : Obj K V) (s : Int) : Option (Option Nat) :=
  match (List.range o.pols.length).filter (fun p => !(List.range o.nblts).all (fun b => (List.range o.freq.length).all (fun f =>
      !decide (o.flexId[f]? = some s) || flagged (o.data b f p)))) with
  | [] => some none
  | [p] => some (some p)
  | _ => none

/-- Lines 2003–2006: windows without data take the only polarization there is, otherwise the last one. -/
def fillPols (npols : Nat) (l : List (Option Nat)) : List Nat :=
  match (l.filterMap id).dedup with
  | [p] => l.map (fun _ => p)
  | _ => l.map (fun q => q.getD (npols - 1))

/-- `_make_flex_pol`, lines 1935–2034; the object is returned as it is where the code returns early or raises. -/
def makeFlex (flagged : V → Bool) (blank : V) (o : Obj K V) : Obj K V :=
  if o.pols.length = 1 then
    match o.flexPol with
    | some _ => o
    | none => { o with flexPol := some (o.spws.map (fun _ => o.pols.headD 0)), pols := [0] }
  else
    match o.spws.mapM (windowPol flagged o) with
    | none => o
    | some l =>
      let idx := fillPols o.pols.length l
      { o with
        flexPol := some (idx.map (fun p => (o.pols[p]?).getD 0))
        pols := [0]
        data := (o.spws.zip idx).foldl (fun (d : Nat → Nat → Nat → V) q =>
          fun b f p => if o.flexId[f]? = some q.1 ∧ p = 0 then o.data b f q.2 else d b f p) (fun _ _ _ => blank) }

end

end Verif.FlexPol
