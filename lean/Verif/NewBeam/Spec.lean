import Verif.NewBeam.Model

/-! What a new beam should be. -/

namespace Verif.NewBeam
open Verif.Pol (Str)

variable {K V : Type}

/-- Either feeds or polarizations, these by number or by name. -/
def KindIs (a : Args K V) : Kind → Prop
  | .efield f => a.feeds = some f ∧ a.pols = none
  | .power l => a.feeds = none ∧ (a.pols = some (.nums l) ∨ ∃ n, a.pols = some (.names n) ∧ n.map (Pol.polstr2num none) = l.map some)

/-- One or two feeds; polarizations that exist. -/
def KindFits : Kind → Prop
  | .efield f => (f.length = 1 ∨ f.length = 2) ∧ ∀ s ∈ f, ∃ c ∈ ['x', 'y', 'n', 'e', 'r', 'l'], s.map Char.toLower = [c]
  | .power l => l ≠ [] ∧ ∀ p ∈ l, (-8 ≤ p ∧ p ≤ -1) ∨ (1 ≤ p ∧ p ≤ 4)

/-- Either a healpix map (of all pixels, if none are given) or two axes. -/
def GridIs (a : Args K V) : Grid K → Prop
  | .healpix n o p => a.nside = some n ∧ a.axis1 = none ∧ a.axis2 = none ∧ (match a.ordering with
      | some x => o = x
      | none => o = "ring".toList) ∧ (match a.pixels with
      | some x => p = x
      | none => p.length = 12 * n ^ 2 ∧ ∀ (i : Nat), i < 12 * n ^ 2 → p[i]? = some (i : Int))
  | .axes s x y => a.nside = none ∧ a.pixels = none ∧ a.axis1 = some x ∧ a.axis2 = some y ∧ s = "az_za".toList

/-- The number of pixels, by axis. -/
def Args.pix (a : Args K V) : List Nat :=
  match a.nside with
  | some n => [match a.pixels with
    | some p => p.length
    | none => 12 * n ^ 2]
  | none => [(a.axis2.getD []).length, (a.axis1.getD []).length]

/-- A cross polarization. -/
def IsCross (p : Int) : Prop := p = -3 ∨ p = -4 ∨ p = -7 ∨ p = -8

/-- Electric fields and powers of cross polarizations are complex, other powers are real. -/
def ComplexKind : Kind → Prop
  | .efield _ => True
  | .power l => ∃ p ∈ l, IsCross p

section
variable [Field K] [LinearOrder K]

/-- Pixels or axes that are not empty and have acceptable values. -/
def GridFits (pi : K) (a : Args K V) : Prop :=
  match a.nside with
  | some n => a.axis1 = none ∧ a.axis2 = none ∧ (∀ o, a.ordering = some o → o.map Char.toLower = "ring".toList ∨ o.map Char.toLower = "nested".toList) ∧
      (match a.pixels with
        | some p => p ≠ []
        | none => n ≠ 0)
  | none => a.pixels = none ∧ a.system = none ∧ ∃ x y, a.axis1 = some x ∧ a.axis2 = some y ∧ x ≠ [] ∧ y ≠ [] ∧
      (x.map abs).sum ≤ 2 * pi * x.length ∧ (y.map abs).sum ≤ pi * y.length

/-- A phased array, if there are elements: at least two, and arrays that fit. -/
def PhasedFits (a : Args K V) (k : Kind) : Prop :=
  ∀ e, a.elements = some e → ∃ f n, k = .efield f ∧ e.shape = [2, n] ∧ 2 ≤ n ∧
    (∀ s, a.elementSys = some s → s.map Char.toLower = "n-e".toList ∨ s.map Char.toLower = "x-y".toList) ∧
    (∀ d, a.delays = some d → d.shape = [n]) ∧ (∀ g, a.gains = some g → g.shape = [n]) ∧
    ∀ c, a.coupling = some c → c.shape = [n, n, f.length, f.length, a.freqs.length]

/-- Arguments that belong together. -/
def Acceptable (pi : K) (short : Arr K → Bool) (a : Args K V) : Prop :=
  a.freqs ≠ [] ∧
  (a.norm.map Char.toLower ∈ ["physical".toList, "peak".toList, "solid_angle".toList]) ∧
  GridFits pi a ∧
  (∀ o, a.orient = some o → (o.map Char.toLower ∈ ["east".toList, "north".toList, "e".toList, "n".toList, "ew".toList, "ns".toList])) ∧
  (∀ b, a.bandpass = some b → b.shape = [a.freqs.length]) ∧
  ∃ k, KindIs a k ∧ KindFits k ∧ PhasedFits a k ∧
    (∀ b, a.basis = some b → b.shape = (match k with
      | .efield _ => 2
      | .power _ => 1) :: 2 :: a.pix ∧ short b = true) ∧
    (match a.data, k with
      | some d, .efield f => d.1.shape = 2 :: f.length :: a.freqs.length :: a.pix ∧ d.2 = .complex
      | some d, .power l => d.1.shape = 1 :: l.length :: a.freqs.length :: a.pix ∧ (d.2 = .complex ↔ ComplexKind (.power l))
      | none, .efield _ => True
      | none, .power l => ∀ p ∈ l, ¬ IsCross p)

end

/-- The beam is what was asked for. -/
structure Made [Zero K] [One K] [Zero V] [One V] (a : Args K V) (b : Beam K V) : Prop where
  norm : b.norm = a.norm
  freqs : b.freqs = a.freqs
  kind : KindIs a b.kind
  grid : GridIs a b.grid
  orient : match a.orient with
    | none => b.orient = none
    | some o => (o.map Char.toLower).head? = some 'e' ∧ b.orient = some "east".toList ∨ (o.map Char.toLower).head? = some 'n' ∧ b.orient = some "north".toList
  /-- the basis vectors that are given, or those of the axes for an electric field -/
  basis : match a.basis, b.kind with
    | some v, _ => b.basis = some v
    | none, .power _ => b.basis = none
    | none, .efield _ => ∃ v, b.basis = some v ∧ v.shape = 2 :: 2 :: a.pix ∧
      ∀ i j p, v.val (i :: j :: p) = if i = j then 1 else 0
  bandpass : match a.bandpass with
    | some v => b.bandpass = v
    | none => b.bandpass.shape = [a.freqs.length] ∧ ∀ p, b.bandpass.val p = 1
  simple : a.elements = none → b.phased = none
  /-- elements without delays, with gains one, and not coupled to each other, if nothing else is given -/
  phased : ∀ e, a.elements = some e → ∃ q n f, b.phased = some q ∧ b.kind = .efield f ∧ q.locations = e ∧ e.shape = [2, n] ∧ q.n = n ∧
    (match a.elementSys with
      | some s => q.system = s
      | none => q.system = "x-y".toList) ∧
    (match a.delays with
      | some d => q.delays = d
      | none => q.delays.shape = [n] ∧ ∀ p, q.delays.val p = 0) ∧
    (match a.gains with
      | some d => q.gains = d
      | none => q.gains.shape = [n] ∧ ∀ p, q.gains.val p = 1) ∧
    (match a.coupling with
      | some d => q.coupling = d
      | none => q.coupling.shape = [n, n, f.length, f.length, a.freqs.length] ∧ ∀ i j p, q.coupling.val (i :: j :: p) = if i = j then 1 else 0)
  data : match a.data with
    | some d => b.data = d.1 ∧ b.ty = d.2
    | none => (∀ p, b.data.val p = 0) ∧ (match b.kind with
      | .efield f => b.data.shape = 2 :: f.length :: a.freqs.length :: a.pix
      | .power l => b.data.shape = 1 :: l.length :: a.freqs.length :: a.pix)
  /-- the type belongs to the kind of beam -/
  ty : b.ty = .complex ↔ ComplexKind b.kind

end Verif.NewBeam
