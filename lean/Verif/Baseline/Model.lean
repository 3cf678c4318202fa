/-!
Model of the baseline-number encoder and decoder of pyuvdata.
Source: /repo/src/pyuvdata/utils/bls.py and /repo/src/pyuvdata/utils/bls.pyx.
-/
namespace Verif.Baseline

/-- Ways the functions can fail.  `nants`: bls.py 35-36 and 89-93; `antBig`: bls.py 94-98;
`antNeg`: bls.py 99-103; `blNeg`: bls.py 37-38; `blBig`: bls.py 39-40.
`undefined` stands for inputs on which the compiled code reads outside its buffers (bounds checks are
switched off, bls.pyx 30-38 read `array[0]` of an empty array and 127-128 index `ant2` with the length of
`ant1`); no statement is made about them. -/
inductive Err
  | nants | antBig | antNeg | blNeg | blBig | undefined
  deriving DecidableEq, Repr

/-- Unsigned 64-bit wrap-around: all arithmetic in bls.pyx is on `numpy.uint64_t`. -/
def u64 (n : Nat) : Nat := n % 2 ^ 64

/-- bls.pyx 40-48 `arraymax` (the running maximum, started at the first element). -/
def arrayMax (x : Nat) (xs : List Nat) : Nat :=
  xs.foldl (fun m v => if v > m then v else m) x

/-- bls.pyx 30-38 `arraymin`. -/
def arrayMin (x : Nat) (xs : List Nat) : Nat :=
  xs.foldl (fun m v => if v < m then v else m) x

/-- bls.pyx 27-28 `max` of two values. -/
def max2 (a b : Nat) : Nat := if a > b then a else b

/-- The formula used for each baseline: bls.pyx 117-175. -/
inductive Conv
  | c256 | c2048 | large | miriad
  deriving DecidableEq, Repr

/-- bls.pyx 195-233: which formula is used, given the largest antenna number in the two arrays. -/
def pickEnc (attempt256 nantsLess2048 miriad : Bool) (mx : Nat) : Conv :=
  let antsLess2048 : Bool := mx < 2048
  if miriad then .miriad
  else if attempt256 then
    if mx < 256 then .c256
    else if antsLess2048 && nantsLess2048 then .c2048
    else .large
  else if antsLess2048 && nantsLess2048 then .c2048
  else .large

/-- bls.pyx 117-129 (large), 131-143 (2048), 145-160 (Miriad), 162-175 (256), all in uint64. -/
def encOne : Conv → Nat → Nat → Nat
  | .large, a, b => u64 (u64 (u64 (2147483648 * a) + b) + (2 ^ 16 + 2 ^ 22))
  | .c2048, a, b => u64 (u64 (u64 (2048 * a) + b) + 2 ^ 16)
  | .miriad, a, b =>
      if b > 255 then u64 (u64 (u64 (2048 * a) + b) + 2 ^ 16)
      else u64 (u64 (256 * a) + b)
  | .c256, a, b => u64 (u64 (256 * a) + b)

/-- bls.pyx 177-235 `antnums_to_baseline` on uint64 arrays. -/
def encArrays (attempt256 nantsLess2048 miriad : Bool) : List Nat → List Nat → Except Err (List Nat)
  | a :: as, b :: bs =>
      if as.length = bs.length then
        let mx := max2 (arrayMax a as) (arrayMax b bs)
        let c := pickEnc attempt256 nantsLess2048 miriad mx
        .ok (List.zipWith (encOne c) (a :: as) (b :: bs))
      else .error .undefined
  | _, _ => .error .undefined

/-- bls.py 52-120 `antnums_to_baseline`.  Scalars are one-element lists (bls.py 109-120). The check on
the concatenation of the two `np.unique` arrays is the same as a check on every element.  The conversion to
`uint64` (bls.py 111-112) is exact because negative numbers have been rejected. -/
def antnumsToBaseline (nants : Option Nat) (attempt256 miriad : Bool) (a1 a2 : List Int) :
    Except Err (List Nat) :=
  if nants.any (fun n => n > 2147483648) then .error .nants
  else if (a1 ++ a2).any (fun a => a ≥ 2147483648) then .error .antBig
  else if (a1 ++ a2).any (fun a => a < 0) then .error .antNeg
  else
    let nantsLess2048 : Bool := !(nants.any (fun n => n > 2048))
    encArrays attempt256 nantsLess2048 miriad (a1.map Int.toNat) (a2.map Int.toNat)

/-- bls.pyx 109-114: which formula the decoder uses, given the smallest number in the array. -/
def pickDec (mn : Nat) : Conv :=
  if mn ≥ 2 ^ 16 + 2 ^ 22 then .large
  else if mn ≥ 2 ^ 16 then .c2048
  else .c256

/-- uint64 subtraction. -/
def sub64 (a b : Nat) : Nat := u64 (a + 2 ^ 64 - u64 b)

/-- bls.pyx 52-62, 66-75 and 85-94: one baseline number to its two antennas. -/
def decOne : Conv → Nat → Nat × Nat
  | .large, bl =>
      let a2 := (sub64 bl (2 ^ 16 + 2 ^ 22)) % 2147483648
      ((sub64 (sub64 bl (2 ^ 16 + 2 ^ 22)) a2) / 2147483648, a2)
  | .c2048, bl =>
      let a2 := (sub64 bl (2 ^ 16)) % 2048
      ((sub64 (sub64 bl (2 ^ 16)) a2) / 2048, a2)
  | .c256, bl | .miriad, bl =>   -- `.miriad` is never chosen by `pickDec`
      let a2 := bl % 256
      ((sub64 bl a2) / 256, a2)

/-- bls.pyx 99-115 `baseline_to_antnums` on a uint64 array. -/
def decArray : List Nat → Except Err (List (Nat × Nat))
  | b :: bs => .ok ((b :: bs).map (decOne (pickDec (arrayMin b bs))))
  | [] => .error .undefined

/-- bls.py 16-49 `baseline_to_antnums`; the result is converted to signed integers (bls.py 47). -/
def baselineToAntnums (nants : Nat) (bls : List Int) : Except Err (List Int × List Int) :=
  if nants > 2147483648 then .error .nants
  else if bls.any (fun b => b < 0) then .error .blNeg
  else if bls.any (fun b => b > 4611686018498691072) then .error .blBig
  else
    match decArray (bls.map Int.toNat) with
    | .error e => .error e
    | .ok ps => .ok (ps.map (fun p => (p.1 : Int)), ps.map (fun p => (p.2 : Int)))

/-- bls.py 123-126 `baseline_index_flip`. -/
def baselineIndexFlip (nants : Nat) (bls : List Int) : Except Err (List Nat) :=
  match baselineToAntnums nants bls with
  | .error e => .error e
  | .ok (a1, a2) => antnumsToBaseline (some nants) false false a2 a1

end Verif.Baseline
