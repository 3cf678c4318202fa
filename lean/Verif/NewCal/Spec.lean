import Verif.NewCal.Model

/-! What a new calibration object should be. -/

namespace Verif.NewCal
open Verif.NewData (Num)
open Verif.Pol (Str)

variable {K P D V : Type} [Field K] [LinearOrder K]

/-- One entry for each antenna. -/
def TelFits (t : Tel P D) : Prop :=
  t.names.length = t.numbers.length ∧ t.pos.length = t.numbers.length ∧ ∀ d, t.diam = some d → d.length = t.numbers.length

/-- The number of times. -/
def Args.nt (a : Args K P D V) : Nat := match a.times, a.ranges with
  | some t, _ => t.length
  | none, some r => r.length
  | none, none => 0

/-- Times or ranges, and integration times that fit; integration times can be found if times are different, or if there are at least
two ranges. -/
def TimesFit (overlap : List (K × K) → Bool) (a : Args K P D V) : Prop :=
  a.nt ≠ 0 ∧
  match a.times, a.ranges with
  | some t, none => (match a.intg with
    | .none => t.Nodup
    | .one _ => True
    | .all l => l.length = t.length)
  | none, some r => overlap r = false ∧ (match a.intg with
    | .none => r.length ≠ 1
    | .one _ => True
    | .all l => l.length = r.length)
  | _, _ => False

/-- Frequencies or ranges of frequencies, and windows that fit. -/
def FreqsFit (a : Args K P D V) : Prop :=
  match a.freqs, a.freqRange with
  | some f, none => f ≠ [] ∧ (∀ l, a.width = .all l → l.length = f.length) ∧ (∀ i, a.ids = some i → i.length = f.length) ∧
      (∀ s, a.spws = some s → s.length = (match a.ids with
        | some i => i.dedup.length
        | none => 1) ∧ (match a.ids with
        | some i => ∀ w ∈ i, w ∈ s
        | none => 0 ∈ s))
  | none, some r => r ≠ [] ∧ a.width = .none ∧ a.ids = none ∧ ∀ s, a.spws = some s → s.length = r.length
  | _, _ => False

/-- Jones terms by number. -/
def JonesAre (xo : Option Str) : Jones → List Int → Prop
  | .linear, l => l = [-5, -6, -7, -8]
  | .circular, l => l = [-1, -2, -3, -4]
  | .nums n, l => l = n
  | .names n, l => n.map (Pol.jstr2num xo) = l.map some

/-- Gains for channels; for ranges what is asked for, or else delays. -/
def Args.kind (a : Args K P D V) : CalType := if a.freqs.isSome then .gain else a.calType.getD .delay

/-- The shape of solutions: antennas, channels or windows, times, Jones terms. -/
def Args.solShape (a : Args K P D V) (nj : Nat) : List Nat :=
  [(a.ants.getD a.tel.numbers).length, match a.freqs with
    | some f => f.length
    | none => (a.freqRange.getD []).length, a.nt, nj]

/-- Arrays that are given have the shape of solutions. -/
def DataFit (a : Args K P D V) (nj : Nat) : Prop :=
  (∀ x, a.data.flag = some x → x.shape = a.solShape nj) ∧
  (a.kind = .gain → ∀ x, a.data.gain = some x → x.shape = a.solShape nj) ∧
  (a.kind = .delay → ∀ x, a.data.delay = some x → x.shape = a.solShape nj) ∧
  (∀ x, a.data.quality = some x → x.shape = a.solShape nj) ∧
  (∀ x, a.data.total = some x → x.shape = (a.solShape nj).tail)

/-- Arguments that belong together. -/
def Acceptable (overlap : List (K × K) → Bool) (a : Args K P D V) : Prop :=
  TelFits a.tel ∧ a.tel.orient.isSome ∧
  a.ants.getD a.tel.numbers ≠ [] ∧ (∀ n ∈ a.ants.getD a.tel.numbers, n ∈ a.tel.numbers) ∧
  TimesFit overlap a ∧ FreqsFit a ∧
  (∃ l, JonesAre a.tel.orient a.jones l ∧ l ≠ [] ∧ (∀ j ∈ l, -8 ≤ j ∧ j ≤ 0) ∧ DataFit a l.length) ∧
  (a.style = .sky → a.refAnt.isSome ∧ a.catalog.isSome)

/-- The object is what was asked for. -/
structure Made [Zero V] [One V] (lst : K → K) (a : Args K P D V) (c : Cal K P D V) : Prop where
  tel : c.tel = a.tel
  ants : c.ants = a.ants.getD a.tel.numbers
  jones : JonesAre a.tel.orient a.jones c.jones
  times : c.times = a.times
  ranges : c.ranges = a.ranges
  sidereal : ∀ t, a.times = some t → c.lst = some (t.map lst)
  siderealRange : ∀ r, a.ranges = some r → c.lstRange = some (r.map (fun x => (lst x.1, lst x.2)))
  /-- one integration time for each time, the one that is given, or the length of the range in seconds -/
  intg : ∃ l, c.intg = some (.list l) ∧ l.length = a.nt ∧ (∀ x, a.intg = .one x → ∀ y ∈ l, y = x) ∧ (∀ m, a.intg = .all m → l = m) ∧
    (a.intg = .none → ∀ r, a.ranges = some r → l = r.map (fun x => (x.2 - x.1) * 86400))
  freqs : c.freqs = a.freqs
  freqRange : c.freqRange = a.freqRange
  wide : c.wide = a.freqRange.isSome
  kind : c.calType = a.kind
  width : ∀ f, a.freqs = some f → ∃ w, c.width = some w ∧ w.length = f.length ∧ (∀ x, a.width = .one x → ∀ y ∈ w, y = x) ∧ (∀ m, a.width = .all m → w = m)
  /-- windows of the channels: those that are given, or one window 0 -/
  ids : ∀ f, a.freqs = some f → c.ids = some (a.ids.getD (f.map (fun _ => 0)))
  /-- the windows: those of the channels in rising order, or one number for each range -/
  spws : match a.spws, a.freqs with
    | some s, _ => c.spws = s
    | none, some _ => c.spws.Pairwise (· < ·) ∧ ∀ w, w ∈ c.spws ↔ w ∈ a.ids.getD [0]
    | none, none => c.spws = (List.range (a.freqRange.getD []).length).map Int.ofNat
  counts : c.nants = c.ants.length ∧ c.njones = c.jones.length ∧ c.ntimes = some a.nt ∧ c.nspws = c.spws.length ∧
    c.nfreqs = ((a.freqs.map List.length).getD 1)
  /-- arrays are there if this is asked for or if any is given -/
  arrays : (a.empty = false ∧ a.data.given = false ∧ c.flag = none ∧ c.gain = none ∧ c.delay = none ∧ c.quality = none ∧ c.total = none) ∨
    ((a.empty = true ∨ a.data.given = true) ∧
      c.flag = some (a.data.flag.getD ⟨a.solShape c.jones.length, fun _ => false⟩) ∧
      c.gain = (if a.kind = .gain then some (a.data.gain.getD ⟨a.solShape c.jones.length, fun _ => 1⟩) else none) ∧
      c.delay = (if a.kind = .delay then some (a.data.delay.getD ⟨a.solShape c.jones.length, fun _ => 0⟩) else none) ∧
      c.quality = a.data.quality ∧ c.total = a.data.total)

/-- The feeds of a polarization, as Jones terms. -/
def feeds : Int → List Int
  | -1 => [-1] | -2 => [-2] | -3 => [-1, -2] | -4 => [-2, -1]
  | -5 => [-5] | -6 => [-6] | -7 => [-5, -6] | -8 => [-6, -5]
  | _ => []

end Verif.NewCal
