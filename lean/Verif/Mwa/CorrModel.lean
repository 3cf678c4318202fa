import Mathlib.Algebra.Order.Field.Basic
import Mathlib.Algebra.Order.BigOperators.Group.List
import Verif.Np

/-!
# Corrections of MWA data

Model of `van_vleck_crosses_int`, `van_vleck_crosses_cheby`, `van_vleck_correction`, `_flag_small_auto_ants`,
`_correct_coarse_band`, `_apply_corrections`, `correct_cable_length` and the end of `read_mwa_corr_fits`
(`src/pyuvdata/uvdata/mwa_corr_fits.py` 361-531, 775-1294, 1753-1848) and of `_get_cheby_coeff`, `van_vleck_cheby` and
`get_cable_len_diffs` (`src/pyuvdata/uvdata/corr_fits.pyx` 154-196, 288-395).

Numbers are exact. The equation solved by Newton's method is a parameter: `solve k s1 s2` is what the loop ends with for a positive `k`.
Rounding to integers, time and the reading of coefficient files are left out.
-/

namespace Verif.Mwa
open Verif.Np

section
variable {K : Type} [Field K] [LinearOrder K]

/-- `van_vleck_crosses_int` (387-412), which works in place on one array. Entries are the value and both sigmas. -/
def crossesInt (solve : K → K → K → K) (l : List (K × K × K)) : List K :=
  if l.any (fun x => decide (x.1 ≠ 0 ∧ x.2.1 ≠ 0 ∧ x.2.2 ≠ 0)) then
    l.map (fun x =>
      let y := if x.1 ≠ 0 ∧ x.2.1 ≠ 0 ∧ x.2.2 ≠ 0 then solve |x.1| x.2.1 x.2.2 * x.2.1 * x.2.2 else x.1
      if x.1 < 0 then -y else y)
  else l.map (fun x => x.1)

/-- `np.searchsorted` on the grid of sigmas. -/
def searchLeft (grid : List K) (s : K) : Nat := grid.countP (fun g => decide (g < s))

/-- `_get_cheby_coeff` for one coefficient, with `h` for 0.01 and `1e4` as `1 / h²`. -/
def chebCoeff (h : K) (coef : Nat → Nat → K) (i j : Nat) (d1 d2 : K) : K :=
  1 / (h * h) * (coef (i - 1) (j - 1) * d1 * d2 + coef (i - 1) j * d1 * (h - d2) + coef i (j - 1) * (h - d1) * d2 +
    coef i j * (h - d1) * (h - d2))

/-- `van_vleck_cheby` for one number. -/
def chebPoly (t0 t1 t2 x : K) : K := x * (t0 - 3 * t1 + 5 * t2) + x ^ 3 * (4 * t1 - 20 * t2) + x ^ 5 * (16 * t2)

/-- `in_inds` (848), `none` if outside of the range. -/
def gridPlace (lo hi : K) (grid : List K) (s : K) : Option (Nat × K) :=
  if lo < s ∧ s ≤ hi then (grid[searchLeft grid s]?).map (fun g => (searchLeft grid s, g - s)) else none

/-- `van_vleck_crosses_cheby` for one real or imaginary part where both sigmas are in range (469-473). -/
def chebCross (lo hi h : K) (grid : List K) (coef : Fin 3 → Nat → Nat → K) (k s1 s2 : K) : Option K :=
  match gridPlace lo hi grid s1, gridPlace lo hi grid s2 with
  | some (i, d1), some (j, d2) =>
    some (chebPoly (chebCoeff h (coef 0) i j d1 d2) (chebCoeff h (coef 1) i j d1 d2) (chebCoeff h (coef 2) i j d1 d2) k * (s1 * s2))
  | _, _ => none

/-! ## Polarizations -/

/-- `pol_dict` (857-862): for a polarization number those of the sigmas of both antennas. -/
def sigPols (p : Int) : Option (Int × Int) :=
  if p = -6 then some (-6, -6)
  else if p = -8 then some (-6, -5)
  else if p = -7 then some (-5, -6)
  else if p = -5 then some (-5, -5)
  else none

/-! ## Small autos -/

/-- `autos <= threshold` and not zero (1054-1059), with `nsamples`. -/
def small (nsamples a : K) : Bool := decide (a ≠ 0) && decide (a ≤ 1 / 4 * nsamples)

/-- State: flags by time, baseline and channel, indices of flagged antennas. -/
structure FlagState where
  flag : Nat → Nat → Nat → Bool
  ants : List Nat

/-- `_flag_small_auto_ants` (1053-1085). `auto t a f p` for the two polarizations. -/
def flagSmall (whole : Bool) (nsamples : K) (auto : Nat → Nat → Nat → Bool → K) (nt na nf : Nat) (ant1 ant2 : Nat → Nat) (s : FlagState) : FlagState :=
  if whole then
    { s with ants := s.ants ++ ((List.range na).filter (fun a => (List.range nt).any (fun t => (List.range nf).any (fun f =>
        small nsamples (auto t a f false) || small nsamples (auto t a f true))))).filter (fun a => !isin a s.ants) }
  else
    { s with flag := fun t bl f => s.flag t bl f ||
        ((small nsamples (auto t (ant1 bl) f false) || small nsamples (auto t (ant1 bl) f true)) ||
         (small nsamples (auto t (ant2 bl) f false) || small nsamples (auto t (ant2 bl) f true))) }

/-- Antennas that remain after `remove_flagged_ants` (1844-1848). -/
def kept (remove : Bool) (na : Nat) (s : FlagState) : List Nat :=
  if remove then (List.range na).filter (fun a => !isin a s.ants) else List.range na

/-! ## Gains, bandpass and cables -/

/-- `_correct_coarse_band` (1171-1187) with `dig_gains[:, spw_inds] / 64` (1269), for block `b` and fine channel `j`. -/
def bandCorr (gains : Nat → Nat → K) (cb : Nat → K) (spw : List Nat) (a1 a2 b j : Nat) (v : K) : Option K :=
  (spw[b]?).map (fun s => v / (gains a1 s / 64) / (gains a2 s / 64) / cb j)

/-- A cable: its length in metres, and whether it begins with "EL". -/
def cableLen (v : K) (x : Bool × K) : K := if x.1 then x.2 else x.2 * v

/-- `correct_cable_length` (524-531); `E x` is `exp(2 π i x)`. -/
def cableCorr {C : Type} [Mul C] (E : K → C) (v c : K) (cable : Nat → Bool × K) (freq : K) (a1 a2 : Nat) (d : C) : C :=
  d * E (-((cableLen v (cable a2) - cableLen v (cable a1)) / c * freq))

end

end Verif.Mwa
