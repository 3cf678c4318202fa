import Mathlib.Algebra.Module.Basic
import Mathlib.Algebra.Order.Floor.Ring
import Mathlib.Algebra.Order.Field.Basic
import Mathlib.Algebra.BigOperators.Group.List.Basic

/-!
# Shifting spectra of MIR data

Model of `_generate_chanshift_kernel`, `_chanshift_vis` and `redoppler_data`
(`/repo/src/pyuvdata/uvdata/mir_parser.py` 3620-4112).

Arithmetic is exact.  Visibilities are elements of a vector space `V` over the numbers `K`, weights are numbers; data and weights
are finite before the shift.  A spectrum is a list of channels, so data, flags and weights have the same length.
`_chanshift_raw` (3889-3982) unpacks, calls `_chanshift_vis` and packs again; packing is modelled elsewhere.
-/

namespace Verif.MirShift

/-- One channel. -/
structure Chan (V K : Type) where
  v : V
  fl : Bool
  w : K
deriving DecidableEq, Repr

inductive Kind | nearest | linear | cubic
deriving DecidableEq, Repr

section
variable {K : Type} [Field K] [LinearOrder K] [FloorRing K]

/-- Whole and fractional part of the shift (3681-3686). -/
def parts (s tol : K) : Int × K :=
  let c := ⌊s⌋
  let f := s - (c : K)
  if f < tol ∨ 1 - tol < f then (if tol < f then c + 1 else c, 0) else (c, f)

/-- The cubic kernel (3711-3729). -/
def cubicKernel (a f : K) : List K :=
  [a * (2 - f) ^ 3 - 5 * a * (2 - f) ^ 2 + 8 * a * (2 - f) - 4 * a,
   (a + 2) * (1 - f) ^ 3 - (a + 3) * (1 - f) ^ 2 + 1,
   (a + 2) * f ^ 3 - (a + 3) * f ^ 2 + 1,
   a * (1 + f) ^ 3 - 5 * a * (1 + f) ^ 2 + 8 * a * (1 + f) - 4 * a]

/-- `_generate_chanshift_kernel` (3620-3737): whole shift and kernel; no kernel for a shift by whole channels.
An unknown name of a kernel is refused there (3731-3735). -/
def genKernel (s : K) (kind : Kind) (a tol : K) : Option (Int × Option (List K)) :=
  if tol < 0 ∨ 1 / 2 < tol then none
  else
    let (c, f) := parts s tol
    if kind = .nearest ∨ f = 0 then some (if 1 / 2 ≤ f then c + 1 else c, none)
    else match kind with
      | .linear => some (c, some [1 - f, f])
      | _ => some (c, some (cubicKernel a f))

end

/-! ## Slices -/

/-- An index in a slice of an array of length `n`. -/
def pyIdx (n : Nat) (i : Int) : Nat := if i < 0 then (i + n).toNat else min i.toNat n

/-- `l[a:b]`. -/
def pySlice {α : Type} (a b : Option Int) (l : List α) : List α :=
  (l.take ((b.map (pyIdx l.length)).getD l.length)).drop ((a.map (pyIdx l.length)).getD 0)

section
variable {K V : Type} [Field K] [AddCommGroup V] [Module K V]

/-- A channel without data. -/
def blank : Chan V K := ⟨0, true, 0⟩

/-- Shift by whole channels (3795-3816); assigning an array to a slice of the same length. -/
def shiftWhole (c : Int) (l : List (Chan V K)) : List (Chan V K) :=
  if c < 0 then pySlice (some (-c)) none l ++ List.replicate (pySlice (some c) none l).length blank
  else List.replicate (pySlice none (some c) l).length blank ++ pySlice none (some (-c)) l

/-- `np.convolve(l, kern, "valid")` for a list that is at least as long as the kernel; `none` is NaN. -/
def conv {W : Type} [AddCommGroup W] [Module K W] (kern : List K) (l : List (Option W)) : List (Option W) :=
  (List.range (l.length + 1 - kern.length)).map fun i =>
    (kern.zipIdx.mapM fun x => ((l[i + kern.length - 1 - x.2]?).join).map fun y => x.1 • y).map List.sum

/-- Assigning an array to a slice of length `n`: lengths must agree, but a single value is repeated. -/
def assign {α : Type} (n : Nat) (l : List α) : Option (List α) :=
  match l with
  | [x] => some (List.replicate n x)
  | l => if l.length = n then some l else none

/-- Value of a channel for the convolution (3842-3849). -/
def masked {W : Type} [Zero W] (flagAdj fl : Bool) (x : W) : Option W := if fl then (if flagAdj then none else some 0) else some x

/-- Channels from data and weights (3873-3876); inner channels. -/
def inner (flagAdj : Bool) (x : Option V × Option K) : Chan V K :=
  if flagAdj then (match x.1 with
    | none => ⟨0, true, 0⟩
    | some v => ⟨v, false, x.2.getD 0⟩)
  else ⟨x.1.getD 0, false, x.2.getD 0⟩

/-- Shift with a kernel (3817-3878). -/
def shiftKernel (c : Int) (kern : List K) (flagAdj : Bool) (l : List (Chan V K)) : Option (List (Chan V K)) :=
  let h : Int := (kern.length / 2 : Nat)
  let le := h + c
  let re := 1 - h + c
  let lclip := if le < 0 then some (-le) else none
  let le := if le < 0 then 0 else le
  let rclip := if 0 ≤ re then some ((l.length : Int) - re) else none
  let re := if 0 ≤ re then (l.length : Int) else re
  let temp := pySlice lclip rclip l
  if temp.length < kern.length then none
  else
    let v := conv kern (temp.map fun ch => masked flagAdj ch.fl ch.v)
    let w := conv kern (temp.map fun ch => masked flagAdj ch.fl ch.w)
    (assign (pySlice (some le) (some re) l).length (v.zip w)).map fun m =>
      List.replicate (pySlice none (some le) l).length blank ++ m.map (inner flagAdj) ++
        List.replicate (pySlice (some re) none l).length blank

/-- One record of `_chanshift_vis` (3784-3884). -/
def shift (t : Int × Option (List K)) (flagAdj : Bool) (l : List (Chan V K)) : Option (List (Chan V K)) :=
  match t.2 with
  | none => if t.1 = 0 then some l else some (shiftWhole t.1 l)
  | some kern => shiftKernel t.1 kern flagAdj l

/-- `_chanshift_vis` (3740-3886): records and shifts are matched by position. -/
def shiftAll (flagAdj : Bool) : List (Int × Option (List K)) → List (Nat × List (Chan V K)) → Option (List (Nat × List (Chan V K)))
  | t :: ts, r :: rs => (shift t flagAdj r.2).bind fun x => (shiftAll flagAdj ts rs).map fun xs => (r.1, x) :: xs
  | _, _ => some []

end

section
variable {K V : Type} [Field K] [LinearOrder K] [FloorRing K] [AddCommGroup V] [Module K V]

/-- `redoppler_data` with given shifts in GHz and channel widths in MHz (4085-4112). -/
def redoppler (freqShift fres : List K) (kind : Kind) (tol : K) (flagAdj : Bool) (vis : List (Nat × List (Chan V K))) :
    Option (List (Nat × List (Chan V K))) :=
  ((freqShift.zip fres).mapM fun x => genKernel (-x.1 / (x.2 / 1000)) kind (-1 / 2) tol).bind fun ts => shiftAll flagAdj ts vis

end

end Verif.MirShift
