import Mathlib.Algebra.Order.Floor.Ring
import Mathlib.Algebra.Order.Field.Basic
import Mathlib.Algebra.BigOperators.Group.List.Basic
import Mathlib.Algebra.Module.Basic
import Mathlib.Data.List.Dedup

/-!
Model of `UVData.upsample_in_time`, uvdata.py 7394–7634, and `UVData.downsample_in_time`, uvdata.py 7636–8109.

* A row is one baseline-time with its cells; `ι` are the positions along frequency and polarization. Times are in days,
  integration times in seconds, both exact numbers of an ordered field; visibilities are vectors over that field.
* The arrays of new rows, which the code allocates at full size and fills from a running position, are lists here.
* Left out: phasing and unphasing of driftscan and unprojected data (7472–7495, 7588–7618 and the like), uvws, LSTs and
  apparent coordinates, which are calculated anew from times and antennas (`_harmonize_resample_arrays`, 7369–7390),
  `reorder_blts` at the end, `check`, warnings, history, objects without data.
-/
namespace Verif.Resample

variable {K V ι : Type} [Field K] [LinearOrder K]

structure Row (K V ι : Type) where
  bl : Int
  time : K
  integ : K
  pc : Int
  data : ι → V
  flag : ι → Bool
  nsample : ι → K

/-- `np.isclose`. -/
def isclose (rtol atol a b : K) : Bool := decide (|a - b| ≤ atol + rtol * |b|)

/-- Tolerances of the integration time parameter, and those of `np.isclose`. -/
structure Tols (K : Type) where
  rInt : K
  aInt : K
  r : K
  a : K

/-- `np.amin` (`np.amax` with `max`) of a nonempty list. -/
def extremum (op : K → K → K) : List K → K
  | [] => 0
  | x :: l => l.foldl op x

/-! ### Upsampling -/

/-- Lines 7454–7464. -/
def tooLong (t : Tols K) (maxInt : K) (r : Row K V ι) : Bool :=
  decide (maxInt < r.integ) && !isclose t.rInt t.aInt r.integ maxInt

section up
variable [FloorRing K] [AddCommGroup V] [Module K V]

/-- Lines 7499–7505. -/
def nNew (t : Tols K) (maxInt integ : K) : Nat :=
  let x := integ / maxInt
  if isclose t.r t.a x (⌊x⌋ : K) then ⌊x⌋.toNat else ⌈x⌉.toNat

/-- Lines 7550–7568: the time of piece `ii` of `n`. -/
def pieceTime (t0 dt : K) (n ii : Nat) : K :=
  let offset : K := 1 / 2 + 1 / 2 * ((n % 2 : Nat) : K)
  let n2 := n / 2
  let idx2 : K := ii + offset + n2 - n
  t0 + dt * idx2 / 86400

/-- Lines 7532–7572. -/
def pieces (t : Tols K) (maxInt : K) (summing : Bool) (r : Row K V ι) : List (Row K V ι) :=
  let n := nNew t maxInt r.integ
  let dt := r.integ / n
  (List.range n).map (fun ii =>
    { r with
      data := fun c => if summing then (n : K)⁻¹ • r.data c else r.data c
      time := pieceTime r.time dt n ii
      integ := dt })

/-- `upsample_in_time`; `none` is `ValueError`. The rows kept are selected anew in line 7575. -/
def upsample (t : Tols K) (maxInt : K) (summing : Bool) (rows : List (Row K V ι)) : Option (List (Row K V ι)) :=
  if maxInt < 1 / 100 * extremum min (rows.map Row.integ) then none                        -- 7444–7451
  else
    let long := rows.filter (tooLong t maxInt)
    if long.isEmpty then some rows                                                         -- 7465–7470
    else some (rows.filter (fun r => decide (r.integ ≤ maxInt)) ++ long.flatMap (pieces t maxInt summing))

end up

/-! ### Downsampling -/

/-- `min_int_time` or `n_times_to_avg`. -/
inductive Mode (K : Type) where
  | minInt (m : K)
  | nTimes (n : Nat)

/-- Lines 7732–7742. -/
def tooShort (t : Tols K) (m : K) (r : Row K V ι) : Bool :=
  decide (r.integ < m) && !isclose t.rInt t.aInt r.integ m

/-- Lines 7908–7916: enough has been added up. -/
def enough (t : Tols K) (mode : Mode K) (running : K) (nSum : Nat) : Bool :=
  match mode with
  | .minInt m => decide (m < running) || isclose t.rInt t.aInt running m
  | .nTimes n => decide (n ≤ nSum)

/-- Counters of the loop 7905–8027. -/
structure FillSt (α K : Type) where
  running : K
  summing : Nat
  nSum : Nat
  out : List (List α × K)

/-- Lines 7905–8027: one integration of a baseline; `rows` are all its rows. A window is stored with the running sum of
integration times. -/
def fillStep {α : Type} (over : K → Nat → Bool) (keep : Bool) (rows : List α) (st : FillSt α K) (p : K × Nat) : FillSt α K :=
  let running := st.running + p.1
  let nSum := st.nSum + 1
  let ov := over running nSum
  let last := decide (p.2 + 1 = rows.length)
  if ov || last then
    if last && !(ov || keep) then { st with running := running, nSum := nSum }
    else
      { running := 0, summing := st.summing + nSum, nSum := 0,
        out := st.out ++ [((rows.drop st.summing).take nSum, running)] }
  else { st with running := running, nSum := nSum }

/-- The windows of one baseline. -/
def fill {α : Type} (over : K → Nat → Bool) (keep : Bool) (int : α → K) (rows : List α) : List (List α × K) :=
  (((rows.map int).zipIdx).foldl (fillStep over keep rows) ⟨0, 0, 0, []⟩).out

/-- Lines 7780–7798: one integration. -/
def countStep (t : Tols K) (m : K) (keep : Bool) (len : Nat) (st : K × Nat) (p : K × Nat) : K × Nat :=
  let running := st.1 + p.1
  let ov := decide (m < running) || isclose t.rInt t.aInt running m
  let last := decide (p.2 + 1 = len)
  if ov || last then
    if last && !(ov || keep) then (running, st.2) else (0, st.2 + 1)
  else (running, st.2)

section down
variable [FloorRing K] [AddCommGroup V] [Module K V]

/-- Lines 7776–7805: number of new samples of a baseline. -/
def count (t : Tols K) (mode : Mode K) (keep : Bool) (ints : List K) : Nat :=
  match mode with
  | .minInt m => (ints.zipIdx.foldl (countStep t m keep ints.length) (0, 0)).2
  | .nTimes n =>
    let q : K := (ints.length : K) / n
    if keep && !isclose t.r t.a q (⌊q⌋ : K) then ⌈q⌉.toNat else ⌊q⌋.toNat

inductive Err where
  | notSensible | phaseCenters | wrongNumber
deriving DecidableEq

/-- The mask of a cell, lines 7966–7975: flags, or nothing if all are flagged. -/
def masked (w : List (Row K V ι)) (c : ι) (r : Row K V ι) : Bool := r.flag c && !w.all (fun r => r.flag c)

/-- Sum over the entries of a cell that are not masked. -/
def msum {α : Type} [AddCommMonoid α] (w : List (Row K V ι)) (c : ι) (f : Row K V ι → α) : α :=
  ((w.filter (fun r => !masked w c r)).map f).sum

/-- Weighted mean; division of masked arrays leaves the numerator where the denominator is zero. -/
def wmean (num : V) (den : K) : V := if den = 0 then num else den⁻¹ • num

/-- Lines 7942–8022: the row made of a window. -/
def average (summing : Bool) (b : Int) (w : List (Row K V ι)) (running : K) : Row K V ι :=
  let total := (w.map Row.integ).sum
  { bl := b
    time := (w.map (fun r => r.time * r.integ)).sum / total
    integ := running
    pc := (w.head?.map Row.pc).getD 0
    flag := fun c => w.all (fun r => r.flag c)
    data := fun c =>
      if summing then msum w c (fun r => r.data c)
      else wmean (msum w c (fun r => (r.nsample c * r.integ) • r.data c)) (msum w c (fun r => r.nsample c * r.integ))
    nsample := fun c => msum w c (fun r => r.nsample c * r.integ) / total }

/-- Lines 7900–8027 for one baseline. The phase centers are looked at only if the catalog has several. -/
def downBaseline (t : Tols K) (mode : Mode K) (keep summing : Bool) (nphase : Nat) (rows : List (Row K V ι)) (b : Int) :
    Except Err (List (Row K V ι)) :=
  let ws := fill (enough t mode) keep Row.integ (rows.filter (fun r => decide (r.bl = b)))
  if ws.any (fun w => decide (1 < nphase) && decide (1 < (w.1.map Row.pc).dedup.length)) then .error .phaseCenters
  else .ok (ws.map (fun w => average summing b w.1 w.2))

/-- Baselines to be worked on, lines 7758–7771, in some order (`np.unique` sorts them). -/
def toDown (t : Tols K) (mode : Mode K) (rows : List (Row K V ι)) : List Int :=
  match mode with
  | .minInt m => ((rows.filter (tooShort t m)).map Row.bl).dedup
  | .nTimes _ => (rows.map Row.bl).dedup

/-- Lines 7720–7729. -/
def sensible (mode : Mode K) (rows : List (Row K V ι)) : Bool :=
  match mode with
  | .minInt m => !decide (100 * extremum max (rows.map Row.integ) < m)
  | .nTimes _ => true

/-- Lines 7774–8055, after the rows have been sorted. -/
def downsampleSorted (t : Tols K) (mode : Mode K) (keep summing : Bool) (nphase : Nat) (rows : List (Row K V ι)) :
    Except Err (List (Row K V ι)) :=
  let bls := toDown t mode rows
  let n := (bls.map (fun b => count t mode keep ((rows.filter (fun r => decide (r.bl = b))).map Row.integ))).sum
  match bls.mapM (downBaseline t mode keep summing nphase rows) with
  | .error e => .error e
  | .ok new =>
    if new.flatten.length ≠ n then .error .wrongNumber                                     -- 8030
    else
      let rest := (rows.map Row.bl).dedup.filter (fun b => !bls.contains b)                -- 8038
      .ok (rest.flatMap (fun b => rows.filter (fun r => decide (r.bl = b))) ++ new.flatten)

/-- `downsample_in_time` from line 7720 on; `sort` is `reorder_blts` (7756), by baseline and then time. With nothing to do the
object is returned as it is. -/
def downsample (t : Tols K) (mode : Mode K) (keep summing : Bool) (nphase : Nat) (sort : List (Row K V ι) → List (Row K V ι))
    (rows : List (Row K V ι)) : Except Err (List (Row K V ι)) :=
  if !sensible mode rows then .error .notSensible
  else if (toDown t mode rows).isEmpty then .ok rows
  else downsampleSorted t mode keep summing nphase (sort rows)

end down

end Verif.Resample
