import Mathlib.Algebra.Order.Field.Basic
import Verif.Pol.Model

/-!
# New beams

Model of `new_uvbeam` (`src/pyuvdata/uvbeam/initializers.py` 152-377) with the parts of `UVBeam.check` (`src/pyuvdata/uvbeam/uvbeam.py` 580-684,
793-821) and `UVBase.check` (`src/pyuvdata/uvbase.py` 685-831) that decide whether a beam is made, and of the check of auto polarizations of power
beams (`uvbeam.py` 686-762).

* Arrays have a shape, and values at positions. Frequencies, axes and pixels are lists.
* Of types only that of the data (real or complex) is modelled: it decides whether power beams are made.
* Basis vectors that are not too long are a predicate (`short`) that stands for uvbeam.py 819-821 and for the range of their mean.
* Names and versions of telescope, feed and model, and the history, are left out.
-/

namespace Verif.NewBeam
open Verif.Pol (Str)

inductive Ty
  | real | complex
  deriving DecidableEq

/-- An array of numpy. -/
structure Arr (V : Type) where
  shape : List Nat
  val : List Nat → V

inductive Pols
  | nums (l : List Int)
  | names (l : List Str)

structure Args (K V : Type) where
  norm : Str
  freqs : List K
  feeds : Option (List Str) := none
  pols : Option Pols := none
  orient : Option Str := none
  /-- `pixel_coordinate_system` -/
  system : Option Str := none
  axis1 : Option (List K) := none
  axis2 : Option (List K) := none
  nside : Option Nat := none
  ordering : Option Str := none
  pixels : Option (List Int) := none
  basis : Option (Arr K) := none
  bandpass : Option (Arr K) := none
  elements : Option (Arr K) := none
  elementSys : Option Str := none
  delays : Option (Arr K) := none
  gains : Option (Arr K) := none
  coupling : Option (Arr V) := none
  /-- the array and its type -/
  data : Option (Arr V × Ty) := none

/-- The pixels of a beam. -/
inductive Grid (K : Type)
  | healpix (nside : Nat) (ordering : Str) (pixels : List Int)
  | axes (system : Str) (axis1 axis2 : List K)

/-- The parts of a phased array. -/
structure Phased (K V : Type) where
  system : Str
  n : Nat
  locations : Arr K
  delays : Arr K
  gains : Arr K
  coupling : Arr V

/-- What the values are of: feeds of an electric field, or polarizations of a power. -/
inductive Kind
  | efield (feeds : List Str)
  | power (pols : List Int)

structure Beam (K V : Type) where
  norm : Str
  freqs : List K
  kind : Kind
  grid : Grid K
  /-- the number of basis vectors -/
  nvec : Nat
  orient : Option Str
  basis : Option (Arr K)
  bandpass : Arr K
  phased : Option (Phased K V)
  data : Arr V
  ty : Ty

inductive Err
  | kind | pols | bothGrids | nside | system | grid | orient | basis | bandpass | elements | data | check
  deriving DecidableEq

def sHealpix : Str := "healpix".toList
def sAzZa : Str := "az_za".toList
def sOrtho : Str := "orthoslant_zenith".toList
def sRing : Str := "ring".toList
def sNested : Str := "nested".toList
def sXY : Str := "x-y".toList
def sNE : Str := "n-e".toList

variable {K V : Type}

/-- Lines 156-175. Names are looked up without an orientation. -/
def kindArgs (a : Args K V) : Except Err Kind :=
  match a.feeds, a.pols with
  | some _, some _ => .error .kind
  | none, none => .error .kind
  | some f, none => .ok (.efield f)
  | none, some (.nums l) => .ok (.power l)
  | none, some (.names l) => match l.mapM (Pol.polstr2num none) with
    | none => .error .pols
    | some l => .ok (.power l)

/-- Lines 177-220. The coordinate system that is compared is that of the new object, which has none yet (line 209). -/
def gridArgs (a : Args K V) : Except Err (Grid K) :=
  if a.nside.isSome ∧ (a.axis1.isSome ∨ a.axis2.isSome) then .error .bothGrids
  else if a.nside.isSome ∨ a.pixels.isSome then
    match a.nside with
    | none => .error .nside
    | some n => .ok (.healpix n (a.ordering.getD sRing) (a.pixels.getD ((List.range (12 * n ^ 2)).map Int.ofNat)))
  else match a.axis1, a.axis2 with
    | some x, some y =>
      let current : Option Str := none
      if a.system.isSome ∧ ¬ (∃ s ∈ current, s ∈ [sAzZa, sOrtho, sHealpix]) then .error .system
      else .ok (.axes (a.system.getD sAzZa) x y)
    | _, _ => .error .grid

/-- The last axes of arrays, lines 351-354. -/
def Grid.shape : Grid K → List Nat
  | .healpix _ _ p => [p.length]
  | .axes _ x y => [y.length, x.length]

/-- Lines 198, 215 and 222-223. -/
def Kind.nvec : Kind → Nat
  | .efield _ => 2
  | .power _ => 1

def Kind.size : Kind → Nat
  | .efield f => f.length
  | .power p => p.length

/-- Lines 242-243. -/
def orientArgs : Option Str → Except Err (Option Str)
  | none => .ok none
  | some s => match Pol.xorientMap.get (Pol.lower s) with
    | none => .error .orient
    | some e => .ok (some (if e then "east".toList else "north".toList))

section
variable [Zero K] [One K]

/-- Lines 245-270. -/
def basisArgs (k : Kind) (g : Grid K) : Option (Arr K) → Except Err (Option (Arr K))
  | some b => if b.shape ≠ [k.nvec, 2] ++ g.shape then .error .basis else .ok (some b)
  | none => match k with
    | .efield _ => .ok (some ⟨[2, 2] ++ g.shape, fun p => if p.getD 0 0 = p.getD 1 0 then 1 else 0⟩)
    | .power _ => .ok none

/-- Lines 272-279. -/
def bandArgs (n : Nat) : Option (Arr K) → Except Err (Arr K)
  | some b => if b.shape ≠ [n] then .error .bandpass else .ok b
  | none => .ok ⟨[n], fun _ => 1⟩

/-- An array of the expected shape, or a default. -/
def arrArg {α : Type} (shape : List Nat) (dflt : List Nat → α) : Option (Arr α) → Except Err (Arr α)
  | some b => if b.shape ≠ shape then .error .elements else .ok b
  | none => .ok ⟨shape, dflt⟩

/-- Lines 299-338, for elements of the right shape. -/
def phasedOf [Zero V] [One V] (a : Args K V) (nf : Nat) (e : Arr K) (n : Nat) : Except Err (Phased K V) :=
  match arrArg [n] (fun _ => 0) a.delays with
  | .error x => .error x
  | .ok d => match arrArg [n] (fun _ => 1) a.gains with
    | .error x => .error x
    | .ok g => match arrArg [n, n, nf, nf, a.freqs.length] (fun p => if p.getD 0 0 = p.getD 1 0 then (1 : V) else 0) a.coupling with
      | .error x => .error x
      | .ok c => .ok ⟨a.elementSys.getD sXY, n, e, d, g, c⟩

/-- Lines 281-341. -/
def phasedArgs [Zero V] [One V] (a : Args K V) (k : Kind) : Except Err (Option (Phased K V)) :=
  match a.elements with
  | none => .ok none
  | some e => match k, e.shape with
    | .power _, _ => .error .elements
    | .efield f, [m, n] =>
      if m ≠ 2 ∨ n ≤ 1 then .error .elements
      else match phasedOf a f.length e n with
        | .error x => .error x
        | .ok p => .ok (some p)
    | _, _ => .error .elements

/-- Lines 343-368. -/
def dataArgs [Zero V] (k : Kind) (g : Grid K) (nf : Nat) : Option (Arr V × Ty) → Except Err (Arr V × Ty)
  | some d => if d.1.shape ≠ [k.nvec, k.size, nf] ++ g.shape then .error .data else .ok d
  | none => .ok (⟨[k.nvec, k.size, nf] ++ g.shape, fun _ => 0⟩, match k with
    | .efield _ => .complex
    | .power _ => .real)

end

/-- The type that the data should have, uvbeam.py 642 and 657-661. -/
def Kind.ty : Kind → Ty
  | .efield _ => .complex
  | .power p => if p.any (fun x => decide (x ∈ [(-3 : Int), -4, -7, -8])) then .complex else .real

/-- Acceptable values of feeds and polarizations, and an axis that is not empty. -/
def Kind.ok : Kind → Bool
  | .efield f => (decide (f.length = 1) || decide (f.length = 2)) &&
      f.all (fun s => decide (Pol.lower s ∈ [['x'], ['y'], ['n'], ['e'], ['r'], ['l']]))
  | .power p => decide (p ≠ []) && p.all (fun x => decide ((-8 ≤ x ∧ x ≤ -1) ∨ (1 ≤ x ∧ x ≤ 4)))

section
variable [Field K] [LinearOrder K]

/-- Parameter.py 692-702: the mean of magnitudes is not larger than the bound. -/
def meanOk (bound : K) (l : List K) : Bool := decide ((l.map (fun x => max x (-x))).sum ≤ bound * l.length)

/-- Axes that are not empty and have acceptable values. -/
def Grid.ok (pi : K) : Grid K → Bool
  | .healpix _ o p => decide (Pol.lower o ∈ [sRing, sNested]) && decide (p ≠ [])
  | .axes s x y => decide (Pol.lower s ∈ [sAzZa, sOrtho, sHealpix]) && decide (x ≠ []) && decide (y ≠ []) &&
      decide (s = sAzZa → meanOk (2 * pi) x = true ∧ meanOk pi y = true)

def basisOk (short : Arr K → Bool) : Option (Arr K) → Bool
  | none => true
  | some b => short b

def phasedOk : Option (Phased K V) → Bool
  | none => true
  | some p => decide (Pol.lower p.system ∈ [sNE, sXY])

/-- `UVBeam.check`. -/
def check (pi : K) (short : Arr K → Bool) (b : Beam K V) : Bool :=
  b.kind.ok && b.grid.ok pi && decide (b.freqs ≠ []) &&
  decide (Pol.lower b.norm ∈ ["physical".toList, "peak".toList, "solid_angle".toList]) &&
  basisOk short b.basis &&
  phasedOk b.phased &&
  decide (b.ty = b.kind.ty)

/-- `new_uvbeam`. -/
def new [Zero V] [One V] (pi : K) (short : Arr K → Bool) (a : Args K V) : Except Err (Beam K V) :=
  match kindArgs a with
  | .error e => .error e
  | .ok k => match gridArgs a with
    | .error e => .error e
    | .ok g => match orientArgs a.orient with
      | .error e => .error e
      | .ok o => match basisArgs k g a.basis with
        | .error e => .error e
        | .ok bv => match bandArgs a.freqs.length a.bandpass with
          | .error e => .error e
          | .ok bp => match phasedArgs a k with
            | .error e => .error e
            | .ok ph => match dataArgs k g a.freqs.length a.data with
              | .error e => .error e
              | .ok d =>
                let b : Beam K V := ⟨a.norm, a.freqs, k, g, k.nvec, o, bv, bp, ph, d.1, d.2⟩
                if check pi short b then .ok b else .error .check

end

/-! ## Auto polarizations of power beams -/

/-- A power beam: complex numbers by polarization, and whether they are stored as such. -/
structure Power (K I : Type) where
  pols : List Int
  ty : Ty
  val : Nat → I → K × K

/-- Positions of polarizations that are called `xx`, `yy`, `rr`, `ll` or Stokes parameters, uvbeam.py 695-701 and 735-741. -/
def isAuto (p : Int) : Bool := decide (p ∈ [(-5 : Int), -6, -1, -2, 1, 2, 3, 4])

def Power.auto {I : Type} (b : Power K I) (k : Nat) : Bool := match b.pols[k]? with
  | some p => isAuto p
  | none => false

/-- `_fix_auto_power`, 703-708. `norm` is the magnitude of a complex number. -/
def fixAuto {I : Type} [Zero K] (norm : K × K → K) (b : Power K I) : Power K I :=
  if b.pols.all isAuto then { b with ty := .real, val := fun k i => (norm (b.val k i), 0) }
  else if b.pols.any isAuto then { b with val := fun k i => if b.auto k then (norm (b.val k i), 0) else b.val k i }
  else b

/-- `_check_auto_power`, 743-762. `pix` are the positions that are not polarizations. -/
def checkAuto {I : Type} [Zero K] [DecidableEq K] (norm : K × K → K) (pix : List I) (fix : Bool) (b : Power K I) : Except Unit (Power K I) :=
  if (List.range b.pols.length).any (fun k => b.auto k && pix.any (fun i => decide ((b.val k i).2 ≠ 0))) then
    if fix then .ok (fixAuto norm b) else .error ()
  else .ok b

end Verif.NewBeam
