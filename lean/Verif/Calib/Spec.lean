import Verif.Calib.Model
import Verif.AntPair.Spec

/-!
Which calibration solution belongs to a visibility, independent of how `uvcalibrate` finds it.
-/
namespace Verif.Calib
open Verif.Np
open Verif.Pol (Str)

variable {R V : Type} [Field R] [LinearOrder R] [Field V]

/-- Antenna number `n` of the telescope is called `s`. -/
def Tel.Named (t : Tel) (n : Nat) (s : Str) : Prop := ∃ i : Nat, t.numbers[i]? = some n ∧ t.names[i]? = some s

/-- Numbers and names identify the antennas. -/
structure Tel.Ok (t : Tel) : Prop where
  length : t.numbers.length = t.names.length
  numbers : t.numbers.Nodup
  names : t.names.Nodup

/-- Entry `a` of the antenna axis of the calibration is the antenna that the data call `n`: the names agree. -/
def Solution (d : Dat R V) (c : Cal R V) (n a : Nat) : Prop :=
  ∃ (s : Str) (m : Nat), d.tel.Named n s ∧ c.ants[a]? = some m ∧ c.tel.Named m s

/-- What a feed measures: a linear feed along the x or y axis of the antennas (if their orientation is not known), along
east or north, or a circular feed. -/
inductive Dir | xAxis | yAxis | east | north | right | left
  deriving DecidableEq

/-- The spellings of the two orientations. -/
def East (s : Str) : Prop := Pol.lower s ∈ [['e','a','s','t'], ['e'], ['e','w']]
def North (s : Str) : Prop := Pol.lower s ∈ [['n','o','r','t','h'], ['n'], ['n','s']]

/-- The direction of the x (first) and y feeds for an orientation. -/
def Linear (xo : Option Str) (x y : Dir) : Prop :=
  match xo with
  | none => x = .xAxis ∧ y = .yAxis
  | some s => (East s ∧ x = .east ∧ y = .north) ∨ (North s ∧ x = .north ∧ y = .east)

/-- The two feeds of polarization number `p`: first that of the first antenna. -/
def PolFeeds (xo : Option Str) (p : Int) (f g : Dir) : Prop :=
  (p = -1 ∧ f = .right ∧ g = .right) ∨ (p = -2 ∧ f = .left ∧ g = .left) ∨ (p = -3 ∧ f = .right ∧ g = .left) ∨
  (p = -4 ∧ f = .left ∧ g = .right) ∨
  ∃ x y, Linear xo x y ∧ ((p = -5 ∧ f = x ∧ g = x) ∨ (p = -6 ∧ f = y ∧ g = y) ∨ (p = -7 ∧ f = x ∧ g = y) ∨
    (p = -8 ∧ f = y ∧ g = x))

/-- The feed whose gain is the Jones term `j`. -/
def JonesFeed (xo : Option Str) (j : Int) (f : Dir) : Prop :=
  (j = -1 ∧ f = .right) ∨ (j = -2 ∧ f = .left) ∨ ∃ x y, Linear xo x y ∧ ((j = -5 ∧ f = x) ∨ (j = -6 ∧ f = y))

/-- Entries `j₁`, `j₂` of the Jones axis are the gains of the two feeds of polarization `p`.  Without orientation in the
data, x and y mean the same in both objects. -/
def Feeds (d : Dat R V) (c : Cal R V) (p : Int) (j₁ j₂ : Nat) : Prop :=
  ∃ (f g : Dir) (a b : Int), PolFeeds d.xo p f g ∧ c.jones[j₁]? = some a ∧ c.jones[j₂]? = some b ∧
    JonesFeed (d.xo.bind fun _ => c.xo) a f ∧ JonesFeed (d.xo.bind fun _ => c.xo) b g

/-- Entry `t` of the time axis of the calibration is for the time of row `r`. -/
def AtTime (tol : R) (d : Dat R V) (c : Cal R V) (r t : Nat) : Prop :=
  ∃ x, d.times[r]? = some x ∧
    match c.ranges with
    | some rs => ∃ p, rs[t]? = some p ∧ p.1 ≤ x ∧ x ≤ p.2
    | none => ∃ y, c.times[t]? = some y ∧ |y - x| ≤ tol

/-- Entry `f` of the frequency axis of the calibration is for the frequency of channel `ch`. -/
def AtFreq (tol : R) (d : Dat R V) (c : Cal R V) (ch f : Nat) : Prop :=
  ∃ x y, d.freqs[ch]? = some x ∧ c.freqs[f]? = some y ∧ |y - x| ≤ tol

/-- An increasing axis whose values differ by more than two tolerances. -/
def Spaced (tol : R) (l : List R) : Prop := l.Pairwise (fun a b => a + 2 * tol < b)

/-- The rows of every antenna pair are at all the times of the data, in increasing order. -/
def FullInOrder (d : Dat R V) : Prop :=
  ∀ a b l, AntPair.IsRowsOf d.blts a b l → l ≠ [] → l.map (fun r => d.times[r]?) = (unique d.times).map some

/-- The data object is consistent. -/
structure Dat.Ok (d : Dat R V) : Prop where
  numbered : AntPair.Numbered d.blts
  laidOut : AntPair.LaidOut d.blts
  tel : d.tel.Ok
  times : d.times.length = d.blts.nblts
  pols : d.pols.Nodup
  xo : ∀ s, d.xo = some s → East s ∨ North s

/-- The calibration object is consistent. -/
structure Cal.Ok (c : Cal R V) : Prop where
  tel : c.tel.Ok
  ants : c.ants.Nodup
  jones : c.jones.Nodup
  xo : ∀ s, c.xo = some s → East s ∨ North s

/-- Row, channel and polarization exist. -/
def Cell (d : Dat R V) (r ch k : Nat) : Prop := r < d.blts.nblts ∧ ch < d.freqs.length ∧ k < d.pols.length

/-- The conventions that are in force: the argument, else the attribute of the object, else the other object's. -/
def calConv (o : Opts) (c : Cal R V) (d : Dat R V) : Option Conv := (o.uvc.or c.conv).or (o.uvd.or d.conv)
def datConv (o : Opts) (c : Cal R V) (d : Dat R V) : Option Conv := (o.uvd.or d.conv).or (calConv o c d)

/-- How visibilities change from one convention to the other: with "avg", XX is I; with "sum", XX is I/2. -/
def Conv.to : Conv → Conv → V
  | .avg, .sum => 1 / 2
  | .sum, .avg => 2
  | _, _ => 1

/-- The factor between the conventions of the calibration and of the data; none if the calibration has no scale. -/
def convFactor (o : Opts) (c : Cal R V) (d : Dat R V) : V :=
  match c.scale, calConv o c d, datConv o c d with
  | some _, some a, some b => if o.undo then b.to a else a.to b
  | _, _, _ => 1

/-- The gain of a visibility from those of its two antennas. -/
def pairGain (cj : V → V) (flip : Bool) (g₁ g₂ : V) : V := if flip then cj g₁ * g₂ else g₁ * cj g₂

/-- The visibility `x` after calibration with gain `g`, multiplying or dividing; `bad` gains are not used. -/
def applied (multiply bad : Bool) (g x : V) : V := if bad then x else if multiply then x * g else x / g

/-- The time axis is in order: one entry, or as many as each antenna pair has rows. -/
def TimesInOrder (e : Env R V) (c : Cal R V) (d : Dat R V) : Prop :=
  c.ranges = none → c.times.length ≠ 1 →
    c.times ≠ [] ∧ Spaced e.tolT c.times ∧ Spaced e.tolT (unique d.times) ∧ FullInOrder d

/-- Solution `t` is meant for the time of row `r`, or there is only one and the check was switched off. -/
def TimeOk (e : Env R V) (o : Opts) (c : Cal R V) (d : Dat R V) (r t : Nat) : Prop :=
  AtTime e.tolT d c r t ∨ (o.timeCheck = false ∧ c.ntimes = 1 ∧ t = 0)

/-- Visibility and flag of a cell in `d'` are those in `d` calibrated with the solutions of its two antennas (found by name),
of the feeds of its polarization, at its frequency and its time, scaled to the convention of the data; it is flagged if it
was or if (with `prop_flags`) a solution is flagged or the gain is close to zero. -/
def Calibrated (e : Env R V) (o : Opts) (c : Cal R V) (d d' : Dat R V) (r ch k : Nat) : Prop :=
  ∀ (n₁ n₂ : Nat) (p : Int) (a₁ a₂ : Nat), d.blts.ant1[r]? = some n₁ → d.blts.ant2[r]? = some n₂ → d.pols[k]? = some p →
    Solution d c n₁ a₁ → Solution d c n₂ a₂ →
    ∃ j₁ j₂ f t, Feeds d c p j₁ j₂ ∧ AtFreq e.tolF d c ch f ∧ TimeOk e o c d r t ∧
      ∀ g bad, g = pairGain e.cj o.flip (c.gain a₁ f t j₁) (c.gain a₂ f t j₂) →
        bad = (o.propFlags && (e.near0 g || c.gflag a₁ f t j₁ || c.gflag a₂ f t j₂)) →
        d'.vis r ch k = applied (xor c.mult o.undo) bad g (d.vis r ch k) * convFactor o c d ∧
        d'.flag r ch k = (d.flag r ch k || bad)

end Verif.Calib
