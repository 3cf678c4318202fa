import Mathlib.Algebra.BigOperators.Group.List.Basic
import Mathlib.Algebra.Order.Floor.Ring
import Mathlib.Algebra.Order.Field.Basic
import Mathlib.Data.Nat.Factorial.Basic
import Mathlib.Data.List.Lex
import Mathlib.Data.Char
import Verif.Np

/-!
# Reading beams of the MWA

Model of `/repo/src/pyuvdata/uvbeam/mwa_beam.py`.  The file holds one table of spherical wave coefficients
for each feed, dipole and frequency, and one table of modes common to all of them.

Real numbers are a type `K`, complex numbers a type `C`; sine, cosine, square root, `exp` of an imaginary argument and
the Legendre functions of scipy are the fields of `Env`, about which nothing is assumed in the definitions.
-/

namespace Verif.MwaBeam

abbrev Str := List Char

/-- Functions of numpy and scipy used by the reader (not modelled). -/
structure Env (K C : Type) [Field K] [CommRing C] where
  cos : K → K
  sin : K → K
  /-- `lpmv(m, n, x)` -/
  leg : Nat → Nat → K → K
  sqrt : K → K
  pi : K
  /-- `exp(1j * x)` -/
  cis : K → C
  /-- a real number as a complex one -/
  emb : K →+* C
  /-- `1j` -/
  im : C

/-- A row of the table `modes`: type of the mode (1 or 2), order `m` and degree `n`. -/
structure Mode where
  s : Nat
  m : Int
  n : Nat
deriving DecidableEq, Repr

/-- A file: tables by name with two columns (absolute value, phase in degrees), and the modes.
The transposes at lines 325 and 336 are left out: a table is the list of its rows after transposing. -/
structure File (K : Type) where
  tables : List (Str × List (K × K))
  modes : List Mode

inductive Err | name | ampShape | delayShape | delayBig | rangeLen | noFreq | key | shape
deriving DecidableEq, Repr

/-! ## Names of tables (lines 213–268) -/

/-- `np.int64(freq)` (line 247), for texts of decimal digits only. -/
def int64 (s : Str) : Option Nat := if s ≠ [] ∧ s.all Char.isDigit then some (Nat.ofDigitChars 10 s 0) else none

/-- One name (lines 242–248): feed, dipole and frequency; `none` for other names, an error if there is not exactly one underscore. -/
def parseName (s : Str) : Except Err (Option (Char × Str × Nat)) :=
  match s with
  | c :: r =>
    if c = 'X' ∨ c = 'Y' then
      match r.splitOn '_' with
      | [d, f] => match int64 f with
        | some n => .ok (some (c, d, n))
        | none => .error .name
      | _ => .error .name
    else .ok none
  | [] => .ok none

/-- All names with feed, dipole and frequency (lines 241–260). -/
def parsed (names : List Str) : Except Err (List (Char × Str × Nat)) :=
  match names with
  | [] => .ok []
  | s :: l => (parseName s).bind fun o => (parsed l).bind fun r => .ok (o.toList ++ r)

/-- `pol + dp + "_" + str(freq)` (line 335). -/
def tableName (p : Char) (d : Str) (f : Nat) : Str := p :: (d ++ '_' :: Nat.toDigits 10 f)

def lookup {α : Type} (tables : List (Str × α)) (s : Str) : Option α := (tables.find? (fun t => t.1 = s)).map (·.2)

/-! ## Coefficients (lines 270–383) -/

section
variable {K C : Type} [Field K] [CommRing C]

/-- `np.deg2rad`. -/
def rad (E : Env K C) (x : K) : K := x * E.pi / 180

/-- An absolute value and a phase in degrees as a complex number (lines 366–371). -/
def polar (E : Env K C) (q : K × K) : C := E.emb q.1 * E.cis (rad E q.2)

/-- Excitation voltage of a dipole (lines 316–318). -/
def volt (E : Env K C) (f : Nat) (delay : Int) (amp : K) : C :=
  E.emb amp * E.cis (2 * E.pi * (f : K) * ((-delay : Int) : K) * (435 / 10 ^ 12))

/-- An array of zeros whose first places are filled by a list. -/
def arr (l : List C) (j : Nat) : C := (l[j]?).getD 0

/-- One dipole (lines 338–371): orders and degrees of its modes, and the coefficients of both types.
numpy refuses the assignment if the number of modes of a type is not half the length
(but for a single mode, which it would repeat; not modelled). -/
def dipole (E : Env K C) (modes : List Mode) (tab : List (K × K)) : Option (List (Int × Nat) × (Nat → C) × (Nat → C)) :=
  let md := modes.take tab.length
  let te := (md.zip tab).filter (fun x => decide (x.1.s ≤ 1))
  let tm := (md.zip tab).filter (fun x => decide (1 < x.1.s))
  if md.length = tab.length ∧ te.length = tab.length / 2 ∧ tm.length = tab.length / 2 ∧ te ≠ [] then
    some (te.map (fun x => (x.1.m, x.1.n)), arr (te.map fun x => polar E x.2), arr (tm.map fun x => polar E x.2))
  else none

/-- Coefficients summed over dipoles. -/
structure Acc (C : Type) where
  q1 : Nat → C
  q2 : Nat → C
  mn : List (Int × Nat)
  nmax : Nat

/-- `np.max(N)`. -/
def maxN (mn : List (Int × Nat)) : Nat := (mn.map (·.2)).foldr max 0

/-- Adding a dipole (lines 359–375). -/
def addDipole (a : Acc C) (d : List (Int × Nat) × (Nat → C) × (Nat → C)) (v : C) : Acc C :=
  { q1 := fun j => a.q1 j + d.2.1 j * v
    q2 := fun j => a.q2 j + d.2.2 j * v
    mn := if a.nmax < maxN d.1 then d.1 else a.mn
    nmax := if a.nmax < maxN d.1 then maxN d.1 else a.nmax }

/-- The loop over dipoles (lines 320–375). -/
def sumDipoles (E : Env K C) (file : File K) (p : Char) (f : Nat) :
    Acc C → List (Str × Int × K) → Except Err (Acc C)
  | a, [] => .ok a
  | a, (d, delay, amp) :: l =>
    match lookup file.tables (tableName p d f) with
    | none => .error .key
    | some tab =>
      match dipole E file.modes tab with
      | none => .error .shape
      | some r => sumDipoles E file p f (addDipole a r (volt E f delay amp)) l

/-- Half the length of the longest table of a feed and frequency (lines 250–257). -/
def maxLength (file : File K) (p : Char) (f : Nat) : Nat :=
  ((file.tables.filter (fun t => match parseName t.1 with
      | .ok (some (q, _, g)) => decide (q = p ∧ g = f)
      | _ => false)).map (fun t => t.2.length / 2)).foldr max 0

/-! ## Response (lines 20–192 and 385–480) -/

/-- `np.append(np.flipud(l[1::]), l)` (lines 116–119). -/
def block {α : Type} (l : List α) : List α := (l.drop 1).reverse ++ l

/-- `lpmv(orders, n, x)` (line 72). -/
def legRow (E : Env K C) (n : Nat) (x : K) : List K := (List.range (n + 1)).map fun m => E.leg m n x

/-- `delta_cos` (line 65). -/
def deltaCos : K := 1 / 10 ^ 6

/-- First result of `P1sin` for degree `n` (lines 85–110). -/
def pmSin [DecidableEq K] (E : Env K C) (n : Nat) (θ : K) : List K :=
  let c := E.cos θ
  if c = 1 then (List.range (n + 1)).map fun m => if m = 1 then -(E.leg 0 n c - E.leg 0 n (c - deltaCos)) / deltaCos else 0
  else if c = -1 then
    (List.range (n + 1)).map fun m => if m = 1 then -(E.leg 0 n (c - deltaCos) - E.leg 0 n c) / deltaCos else 0
  else (legRow E n c).map (· / E.sin θ)

/-- First result of `P1sin` (lines 20–121).  The ranges filled in turn lie one behind the other, so they are appended. -/
def p1sin [DecidableEq K] (E : Env K C) (nmax : Nat) (θ : K) : List K :=
  (List.range' 1 nmax).flatMap fun n => block (pmSin E n θ)

/-- First result of `P1sin_array` for one angle (lines 124–192). -/
def psinArray [DecidableEq K] (E : Env K C) (nmax : Nat) (θ : K) : List K :=
  if θ = E.pi then p1sin E nmax E.pi
  else if θ = 0 then p1sin E nmax 0
  else (List.range' 1 nmax).flatMap fun n => block ((legRow E n (E.cos θ)).map (· / E.sin θ))

/-- Second result of `P1sin_array` for one angle (lines 170–185). -/
def p1Array (E : Env K C) (nmax : Nat) (θ : K) : List K :=
  (List.range' 1 nmax).flatMap fun n => block ((legRow E n (E.cos θ)).drop 1 ++ [0])

/-- `MabsM` (lines 437–439). -/
def mabs (m : Int) : K := if 0 < m ∧ m % 2 ≠ 0 then -1 else 1

/-- `C_MN` (lines 433–435); for `|m| ≤ n`. -/
def cmn (E : Env K C) (m : Int) (n : Nat) : K :=
  E.sqrt (1 / 2 * (2 * n + 1) * ((n - m.natAbs).factorial : K) / ((n + m.natAbs).factorial : K))

/-- `phi_const` (line 451). -/
def phiConst (E : Env K C) (m : Int) (n : Nat) : K := cmn E m n * mabs m / E.sqrt ((n : K) * ((n : K) + 1))

/-- `emn_T` (lines 453–455) of one mode with its Legendre values. -/
def emnT (E : Env K C) (θ : K) (m : Int) (n : Nat) (ps p1 : K) (q1 q2 : C) : C :=
  E.im ^ n * (E.emb ps * (E.emb (E.cos θ * (m.natAbs : K)) * q2 - (m : C) * q1) + q2 * E.emb p1) * E.emb (phiConst E m n)

/-- `emn_P` (lines 456–460). -/
def emnP (E : Env K C) (θ : K) (m : Int) (n : Nat) (ps p1 : K) (q1 q2 : C) : C :=
  E.im ^ (n + 1) * (E.emb ps * ((m : C) * q2 - q1 * E.emb (E.cos θ * (m.natAbs : K))) - q1 * E.emb p1)
    * E.emb (phiConst E m n)

/-- Sum over the modes of each order, then over the orders (lines 445–447 and 462–475). -/
def sumOrders (E : Env K C) (φ : K) (nmax : Nat) (mn : List (Int × Nat)) (e : Int → Nat → Nat → C) : C :=
  ((List.range (2 * nmax + 1)).map fun (k : Nat) =>
    E.cis (φ * (((k : Int) - (nmax : Int) : Int) : K)) *
      ((mn.zipIdx.filter (fun x => decide (x.1.1 = (k : Int) - (nmax : Int)))).map fun x => e x.1.1 x.1.2 x.2).sum).sum

/-- Both components at one direction (lines 415–478): along the zenith angle and, with sign reversed, along azimuth. -/
def response [DecidableEq K] (E : Env K C) (a : Acc C) (φ θ : K) : C × C :=
  let nmax := maxN a.mn
  let ps := psinArray E nmax θ
  let p1 := p1Array E nmax θ
  (sumOrders E φ nmax a.mn (fun m n j => emnT E θ m n ((ps[j]?).getD 0) ((p1[j]?).getD 0) (a.q1 j) (a.q2 j)),
   -sumOrders E φ nmax a.mn (fun m n j => emnP E θ m n ((ps[j]?).getD 0) ((p1[j]?).getD 0) (a.q1 j) (a.q2 j)))

/-- numpy refuses the products at lines 453–460 unless all arrays have as many entries. -/
def shapesOk (a : Acc C) (len : Nat) : Prop :=
  a.mn ≠ [] ∧ a.mn.length = len ∧ len = maxN a.mn ^ 2 + 2 * maxN a.mn

instance (a : Acc C) (len : Nat) : Decidable (shapesOk a len) := by unfold shapesOk; infer_instance

end

/-! ## Reading (lines 483–667) -/

section
variable {K C : Type} [Field K] [LinearOrder K] [IsStrictOrderedRing K] [FloorRing K] [CommRing C]

/-- The beam object, and the arrays of the caller after the call (lines 544 and 545 write into them). -/
structure Beam (K C : Type) where
  freqs : List Nat
  feeds : List Char
  dips : List Str
  az : List K
  za : List K
  /-- vector component, feed, frequency, zenith angle, azimuth -/
  data : Nat → Nat → Nat → Nat → Nat → C
  /-- vector component, component, zenith angle, azimuth -/
  basis : Nat → Nat → Nat → Nat → K
  delays : List (List Int)
  amps : List (List K)

/-- Azimuths (lines 574 and 577). -/
def phiArr (E : Env K C) (ppd : K) : List K := (List.range ⌊360 * ppd⌋.toNat).map fun (k : Nat) => rad E ((k : K) / ppd)

/-- Zenith angles (lines 575 and 576). -/
def thetaArr (E : Env K C) (ppd : K) : List K := (List.range (⌊90 * ppd⌋ + 1).toNat).map fun (k : Nat) => rad E ((k : K) / ppd)

/-- `array.shape == (a, b)`. -/
def hasShape {α : Type} (l : List (List α)) (a b : Nat) : Prop := l.length = a ∧ ∀ r ∈ l, r.length = b

instance {α : Type} (l : List (List α)) (a b : Nat) : Decidable (hasShape l a b) := by unfold hasShape; infer_instance

/-- Delays and amplitudes with terminated dipoles set to zero (lines 537–545). -/
def fixDelays (delays : List (List Int)) : List (List Int) := delays.map fun r => r.map fun d => if d = 32 then 0 else d

def fixAmps (delays : List (List Int)) (amps : List (List K)) : List (List K) :=
  List.zipWith (fun r s => List.zipWith (fun d a => if d = 32 then 0 else a) r s) delays amps

/-- Frequencies used (lines 547–562). -/
def freqsUse (freqs : List Nat) (range : Option (List K)) : Except Err (List Nat) :=
  match range with
  | none => .ok freqs
  | some [a, b] =>
    let l := freqs.filter fun (f : Nat) => decide (a ≤ (f : K)) && decide ((f : K) ≤ b)
    if l.length < 1 then .error .noFreq else .ok l
  | some _ => .error .rangeLen

/-- Coefficients of all frequencies of a feed (lines 309–383). -/
def feedModes (E : Env K C) (file : File K) (dips : List Str) (p : Char) (delays : List Int) (amps : List K) :
    List Nat → Except Err (List (Nat × Acc C))
  | [] => .ok []
  | f :: l =>
    (sumDipoles E file p f ⟨fun _ => 0, fun _ => 0, [], 0⟩ (dips.zip (delays.zip amps))).bind fun a =>
      (feedModes E file dips p delays amps l).bind fun r => .ok ((f, a) :: r)

/-- Coefficients of all feeds. -/
def allModes (E : Env K C) (file : File K) (dips : List Str) (freqs : List Nat) :
    List (Char × List Int × List K) → Except Err (List (List (Nat × Acc C)))
  | [] => .ok []
  | (p, d, a) :: l =>
    (feedModes E file dips p d a freqs).bind fun r => (allModes E file dips freqs l).bind fun rs => .ok (r :: rs)

/-- `jones[pol, v, freq, phi, theta]` with axes in the order of the object (lines 477, 478, 653). -/
def dataOf (E : Env K C) (ms : List (List (Nat × Acc C))) (use : List Nat) (az za : List K) (v p k i j : Nat) : C :=
  let a := ((((ms[p]?).getD []).find? (fun x => decide (some x.1 = use[k]?))).map (·.2)).getD ⟨fun _ => 0, fun _ => 0, [], 0⟩
  let r := response E a ((az[j]?).getD 0) ((za[i]?).getD 0)
  if v = 0 then r.1 else r.2

/-- `basis_vector_array` (lines 655–659). -/
def basisOf (v c _i _j : Nat) : K := if v = 0 ∧ c = 0 ∨ v = 1 ∧ c = 1 then 1 else 0

/-- `read_mwa_beam` (lines 483–667).  Delays are integers here, so the test at line 515 is left out. -/
def read (E : Env K C) (file : File K) (delays : Option (List (List Int))) (amps : Option (List (List K))) (ppd : K)
    (range : Option (List K)) : Except Err (Beam K C) :=
  (parsed (file.tables.map (·.1))).bind fun names =>
  let pols := Np.unique (names.map (·.1))
  let dips := Np.unique (names.map (·.2.1))
  let freqs := Np.unique (names.map (·.2.2))
  let delays := delays.getD (List.replicate pols.length (List.replicate dips.length 0))
  let amps := amps.getD (List.replicate pols.length (List.replicate dips.length 1))
  if ¬ hasShape amps pols.length dips.length then .error .ampShape
  else if ¬ hasShape delays pols.length dips.length then .error .delayShape
  else if delays.any (fun r => r.any fun d => decide (32 < d)) then .error .delayBig
  else
    let amps' := fixAmps delays amps
    let delays' := fixDelays delays
    (freqsUse freqs range).bind fun use =>
    (allModes E file dips freqs (pols.zip (delays'.zip amps'))).bind fun ms =>
    if ¬ (pols.zip ms).all (fun x => x.2.all fun y => decide (y.1 ∈ use → shapesOk y.2 (maxLength file x.1 y.1))) then
      .error .shape
    else
    .ok { freqs := use, feeds := pols.map Char.toLower, dips := dips, az := phiArr E ppd, za := thetaArr E ppd,
          data := dataOf E ms use (phiArr E ppd) (thetaArr E ppd), basis := basisOf, delays := delays', amps := amps' }

end

end Verif.MwaBeam
