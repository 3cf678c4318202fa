import Verif.AntPair.Model
import Verif.Slices.Spec
import Verif.Pol.Model
import Mathlib.Algebra.Order.Field.Basic
import Mathlib.Algebra.Order.Group.Unbundled.Abs

/-!
Model of `uvcalibrate` (src/pyuvdata/utils/uvcalibrate.py 13–593) for calibrations of type "gain" that are not
wide-band, with the `UVCal` lookups it uses (uvcal/uvcal.py 1805–1989) and the part of `UVCal.select` it uses (uvcal.py
4045–4058, 4141–4188, 4302–4375).

Labels are lists; the four-dimensional gain arrays and the three-dimensional visibility arrays are functions of their
indices.  Numbers: `R` (times, frequencies) is an ordered field, `V` (gains, visibilities) a field with a conjugation
`cj` and a test `near0` for `np.isclose(·, 0)`.  The tolerances of the time and frequency arrays are absolute, as they are
by default.  Not modelled: delay-type calibrations (`convert_to_gain`), `d_term_cal` (always raises), the object checks at
255–256, the history, warnings.  Errors keep the object as it is at that moment, because the default is to work in place.
-/
namespace Verif.Calib
open Verif.Np Verif.Slices
open Verif.AntPair (antpair2ind getAntpairs)
open Verif.Pol (Str polnum2str polstr2num jnum2str jstr2num parseJpolstr polToFeed)

/-- `pol_convention`; other strings are rejected, uvcalibrate.py 78–85. -/
inductive Conv | sum | avg
  deriving DecidableEq

/-- The exceptions, in the order of the code. -/
inductive Err
  | stokes | scale | uvcConv | uvdConv | calibrated | antIndex | ants | ranges | fewTimes | times | time | freq | polName
  | feed | spacing | pairs | rows | shape
  deriving DecidableEq

/-- `telescope.antenna_numbers` and `telescope.antenna_names`. -/
structure Tel where
  numbers : List Nat
  names : List Str

/-- A `UVCal` object. -/
structure Cal (R V : Type) where
  tel : Tel
  /-- `ant_array` -/
  ants : List Nat
  /-- `jones_array` -/
  jones : List Int
  xo : Option Str
  freqs : List R
  /-- `flex_spw_id_array` -/
  ids : List Int
  /-- `time_array` -/
  times : List R
  /-- `time_range` -/
  ranges : Option (List (R × R))
  /-- `gain_array`, axes antenna, frequency, time, Jones term -/
  gain : Nat → Nat → Nat → Nat → V
  /-- `flag_array` -/
  gflag : Nat → Nat → Nat → Nat → Bool
  /-- `gain_convention == "multiply"` -/
  mult : Bool
  /-- `gain_scale` -/
  scale : Option Str
  conv : Option Conv

/-- `Ntimes` of a `UVCal`. -/
def Cal.ntimes {R V : Type} (c : Cal R V) : Nat :=
  match c.ranges with
  | some r => r.length
  | none => c.times.length

/-- A `UVData` object. -/
structure Dat (R V : Type) where
  blts : AntPair.Obj
  tel : Tel
  xo : Option Str
  times : List R
  freqs : List R
  pols : List Int
  /-- `data_array`, axes row, channel, polarization -/
  vis : Nat → Nat → Nat → V
  /-- `flag_array` -/
  flag : Nat → Nat → Nat → Bool
  /-- `vis_units` -/
  units : Str
  conv : Option Conv

/-- The keywords, uvcalibrate.py 140–155. -/
structure Opts where
  propFlags : Bool := true
  flip : Bool := false
  undo : Bool := false
  timeCheck : Bool := true
  antCheck : Bool := true
  uvc : Option Conv := none
  uvd : Option Conv := none

/-- Arithmetic left open: conjugation, closeness to zero, tolerances of times and frequencies. -/
structure Env (R V : Type) where
  cj : V → V
  near0 : V → Bool
  tolT : R
  tolF : R

variable {R V : Type} [Field R] [LinearOrder R] [Field V]

/-- Lines 20–39: the convention of the calibration. -/
def uvcOf (o : Opts) (c : Cal R V) (d : Dat R V) : Except Err (Option Conv) :=
  match o.uvc, c.conv with
  | none, none => .ok (o.uvd.or d.conv)
  | none, some b => .ok (some b)
  | some a, none => .ok (some a)
  | some a, some b => if a = b then .ok (some a) else .error .uvcConv

/-- Lines 41–76: the convention of the data. -/
def uvdOf (o : Opts) (d : Dat R V) (uvc : Option Conv) : Except Err (Option Conv) :=
  if o.undo then
    match o.uvd, d.conv with
    | none, none => .ok uvc
    | none, some b => .ok (some b)
    | some a, none => .ok (some a)
    | some a, some b => if a = b then .ok (some a) else .error .uvdConv
  else
    match d.conv with
    | some _ => .error .calibrated
    | none => .ok (o.uvd.or uvc)

/-- `antenna_names[np.where(antenna_numbers == n)][0]`, lines 264–266 and 274–276. -/
def nameOf (t : Tel) (n : Nat) : Option Str := ((t.numbers.zip t.names).find? (fun p => decide (p.1 = n))).map Prod.snd

/-- Lines 260–279: the names of the antennas in use. -/
def usedNames (t : Tel) (nums : List Nat) : Option (List Str) := (unique nums).mapM (nameOf t)

/-- Lines 281–319: with `ant_check`, antennas with data must have solutions. -/
def antStage (o : Opts) (c : Cal R V) (d : Dat R V) : Except Err Unit :=
  match usedNames d.tel (d.blts.ant1 ++ d.blts.ant2), usedNames c.tel c.ants with
  | some u, some v => if u ≠ v ∧ (u.any fun s => !v.contains s) ∧ o.antCheck then .error .ants else .ok ()
  | _, _ => .error .antIndex

/-- `np.isclose(a - b, 0)` with an absolute tolerance. -/
def close (tol a b : R) : Bool := decide (|a - b| ≤ tol)

/-- `np.allclose(a, b)` with numpy broadcasting; the `ValueError` for unequal shapes counts as False (lines 364–372,
412–420). -/
def allclose (tol : R) (a b : List R) : Bool :=
  if a.length = b.length then (a.zip b).all (fun p => close tol p.1 p.2)
  else
    match a, b with
    | [x], b => b.all (fun y => close tol x y)
    | a, [y] => a.all (fun x => close tol x y)
    | _, _ => false

/-- Lines 348–354 seen from one row: the last time range that contains its time. -/
def rangeOf (rs : List (R × R)) (t : R) : Option Nat :=
  rs.zipIdx.foldl (fun acc p => if p.1.1 ≤ t ∧ t ≤ p.1.2 then some p.2 else acc) none

/-- Lines 325–327: some time is before every range or after every range (`np.min(a) < np.min(b)` for non-empty `a`,
`b`). -/
def uncovered (rs : List (R × R)) (ts : List R) : Bool :=
  (ts.any fun t => rs.all fun r => decide (t < r.1)) || (ts.any fun t => rs.all fun r => decide (r.2 < t))

/-- The outcome of the time checks: the time index for each row (`trange_ind_arr`), and the times to keep. -/
structure TimePlan (R : Type) where
  ind : Option (List Nat)
  keep : Option (List R)

/-- Lines 324–356. -/
def rangeStage (o : Opts) (rs : List (R × R)) (ts : List R) : Except Err (TimePlan R) :=
  if uncovered rs ts ∧ ¬(o.timeCheck = false ∧ rs.length = 1) then .error .ranges
  else if 1 < rs.length then
    match ts.mapM (rangeOf rs) with
    | some l => .ok ⟨some l, none⟩
    | none => .error .ranges
  else .ok ⟨none, none⟩

/-- Lines 357–406. -/
def instantStage (e : Env R V) (o : Opts) (ct ts : List R) : Except Err (TimePlan R) :=
  if 1 < ct.length ∧ ct.length < (unique ts).length then .error .fewTimes
  else if allclose e.tolT (unique ct) (unique ts) then .ok ⟨none, none⟩
  else if ct.length = 1 then if o.timeCheck then .error .times else .ok ⟨none, none⟩
  else
    match (unique ts).mapM (fun t => ct.find? (fun x => close e.tolT x t)) with
    | none => .error .time
    | some keep => .ok ⟨none, if keep.length < ct.length then some keep else none⟩

/-- Lines 321–406. -/
def timeStage (e : Env R V) (o : Opts) (c : Cal R V) (d : Dat R V) : Except Err (TimePlan R) :=
  match c.ranges with
  | some rs => rangeStage o rs d.times
  | none => instantStage e o c.times d.times

/-- `np.sort`. -/
def sort (l : List R) : List R := l.insertionSort (· ≤ ·)

/-- Lines 408–441: the frequencies to keep. -/
def freqStage (e : Env R V) (c : Cal R V) (d : Dat R V) : Except Err (Option (List R)) :=
  if allclose e.tolF (sort c.freqs) (sort d.freqs) then .ok none
  else
    match d.freqs.mapM (fun f => c.freqs.find? (fun x => close e.tolF x f)) with
    | none => .error .freq
    | some keep => .ok (if keep.length < c.freqs.length then some keep else none)

/-- `POL_TO_FEED_DICT[pol]` of all polarizations, lines 453–459. -/
def feedsOf (xo : Option Str) (pols : List Int) : Option (List Str) :=
  (pols.mapM fun p => (polnum2str xo p).bind polToFeed.get).map (fun l => l.flatMap fun f => [f.1, f.2])

/-- Lines 443–466: every feed of the data has a Jones term. -/
def feedStage (c : Cal R V) (d : Dat R V) : Except Err Unit :=
  match feedsOf (d.xo.or c.xo) d.pols, c.jones.mapM (jnum2str c.xo) with
  | some fs, some js =>
    if fs.all (fun f => (parseJpolstr c.xo f).any (fun j => js.contains j)) then .ok () else .error .feed
  | _, _ => .error .polName

/-- `take` of the indices kept on one axis. -/
def sub (l : Option (List Nat)) (i : Nat) : Nat :=
  match l with
  | none => i
  | some l => l.getD i 0

/-- The entries kept. -/
def pick {α : Type} (l : Option (List Nat)) (xs : List α) : List α :=
  match l with
  | none => xs
  | some l => l.filterMap (fun i => xs[i]?)

/-- `UVCal.select` by indices, uvcal.py 4302–4375. -/
def Cal.byIndex (c : Cal R V) (ti fi : Option (List Nat)) : Cal R V :=
  { c with
    times := pick ti c.times
    freqs := pick fi c.freqs
    ids := pick fi c.ids
    gain := fun a f t j => c.gain a (sub fi f) (sub ti t) j
    gflag := fun a f t j => c.gflag a (sub fi f) (sub ti t) j }

/-- uvcal.py 4169–4181: `np.min` of an empty array raises if several channels are kept, no two neighbours of which are
in one window. -/
def badSpacing (ids : List Int) (l : List Nat) : Bool :=
  decide (1 < l.length) && ((l.zip l.tail).all fun p => ids[p.1]? != ids[p.2]?)

/-- `UVCal.select(times=…, frequencies=…)`, uvcal.py 4045–4058 (times match within the tolerance) and 4141–4188. -/
def Cal.select (e : Env R V) (c : Cal R V) (times freqs : Option (List R)) : Except Err (Cal R V) :=
  let ti := times.map fun ts => whereIdx (fun x => ts.any (fun t => close e.tolT x t)) c.times
  let fi := freqs.map fun fs => whereIdx (fun x => fs.contains x) c.freqs
  if fi.any (badSpacing c.ids) then .error .spacing else .ok (c.byIndex ti fi)

/-- `np.argmin(np.abs(l - n))`, uvcal.py 1850, 1872 and uvcalibrate.py 523–525. -/
def argminAbs : List Int → Int → Nat
  | [], _ => 0
  | [_], _ => 0
  | x :: y :: l, n =>
    let k := argminAbs (y :: l) n
    if |x - n| ≤ |(y :: l).getD k 0 - n| then 0 else k + 1

/-- `uvcal_ant_dict[uvdata_ant_dict[n]]`, lines 511–517 and 532–539: later entries replace earlier ones. -/
def calAnt (dt ct : Tel) (n : Nat) : Option Nat :=
  (((dt.numbers.zip dt.names).reverse.find? (fun p => decide (p.1 = n))).map Prod.snd).bind fun s =>
    ((ct.names.zip ct.numbers).reverse.find? (fun p => decide (p.1 = s))).map Prod.snd

/-- What one pass of the loop does: the rows and the polarization index it touches, and the new values for the `i`-th
of these rows and channel `ch`. -/
structure Plan (V : Type) where
  rows : List Nat
  col : Nat
  vis : Nat → Nat → V → V
  flag : Nat → Nat → Bool → Bool

/-- `a[rows, :, col] = f …`. -/
def setCells {α : Type} (rows : List Nat) (col : Nat) (f : Nat → Nat → α → α) (a : Nat → Nat → Nat → α) : Nat → Nat → Nat → α :=
  fun r ch k => if k = col ∧ r ∈ rows then f (rows.idxOf r) ch (a r ch k) else a r ch k

/-- The in-place assignments of one pass. -/
def Plan.apply (p : Plan V) (d : Dat R V) : Dat R V :=
  { d with vis := setCells p.rows p.col p.vis d.vis, flag := setCells p.rows p.col p.flag d.flag }

/-- Lines 566–579 for a pass with gains `g` and gain flags `w` (indexed by row of the key and channel). -/
def gainPlan (e : Env R V) (o : Opts) (mult : Bool) (rows : List Nat) (col : Nat) (g : Nat → Nat → V) (w : Nat → Nat → Bool) :
    Plan V where
  rows := rows
  col := col
  vis := fun i ch x =>
    let u := if o.propFlags ∧ (e.near0 (g i ch) ∨ w i ch) then 1 else g i ch        -- 567–569
    if xor mult o.undo then x * u else x / u                                          -- 573–579
  flag := fun i ch b => if o.propFlags then b || (e.near0 (g i ch) || w i ch) else b  -- 570

/-- Broadcasting of the gains (time, frequency) to the rows and channels of a key, lines 562–564, 570, 577 and 579.  `none` is the `ValueError` for shapes that do not fit. -/
def timeIndex (nt : Nat) (ind : Option (List Nat)) (rows : List Nat) : Option (Nat → Nat) :=
  match ind with
  | some l => some (fun i => l.getD (rows.getD i 0) 0)
  | none => if nt = 1 then some (fun _ => 0) else if nt = rows.length then some id else none

def freqIndex (nf n : Nat) : Option (Nat → Nat) :=
  if nf = 1 then some (fun _ => 0) else if nf = n then some id else none

/-- Lines 541–579 once the rows, the polarization index and the feeds are known. -/
def passWith (e : Env R V) (o : Opts) (c : Cal R V) (ind : Option (List Nat)) (d : Dat R V) (rows : List Nat) (col : Nat)
    (n1 n2 : Option Nat) (j1 j2 : Int) : Except Err (Plan V) :=
  match n1, n2 with
  | some n1, some n2 =>
    if n1 ∈ c.ants ∧ j1 ∈ c.jones ∧ n2 ∈ c.ants ∧ j2 ∈ c.jones then
      match timeIndex c.ntimes ind rows, freqIndex c.freqs.length d.freqs.length with
      | some ti, some fi =>
        let a1 := argminAbs (c.ants.map Int.ofNat) n1
        let a2 := argminAbs (c.ants.map Int.ofNat) n2
        let k1 := argminAbs c.jones j1
        let k2 := argminAbs c.jones j2
        let g := fun i ch =>
          if o.flip then e.cj (c.gain a1 (fi ch) (ti i) k1) * c.gain a2 (fi ch) (ti i) k2
          else c.gain a1 (fi ch) (ti i) k1 * e.cj (c.gain a2 (fi ch) (ti i) k2)
        let w := fun i ch => c.gflag a1 (fi ch) (ti i) k1 || c.gflag a2 (fi ch) (ti i) k2
        .ok (gainPlan e o c.mult rows col g w)
      | _, _ => .error .shape
    else .ok ⟨rows, col, fun _ _ x => x, fun _ _ _ => true⟩                       -- 541–546
  | _, _ => .ok ⟨rows, col, fun _ _ x => x, fun _ _ _ => true⟩

/-- One pass of the loop, lines 520–579, for the key (ant1, ant2, pol). -/
def pass (e : Env R V) (o : Opts) (c : Cal R V) (ind : Option (List Nat)) (d : Dat R V) (key : (Nat × Nat) × Str) :
    Except Err (Plan V) :=
  match antpair2ind d.blts key.1.1 key.1.2 true with
  | .error _ => .error .rows
  | .ok r =>
    match r.picks d.blts.nblts, polstr2num (d.xo.or c.xo) key.2, polToFeed.get key.2 with
    | some rows, some n, some (f1, f2) =>
      match jstr2num c.xo f1, jstr2num c.xo f2 with
      | some j1, some j2 =>
        passWith e o c ind d rows (argminAbs d.pols n) (calAnt d.tel c.tel key.1.1) (calAnt d.tel c.tel key.1.2) j1 j2
      | _, _ => .error .polName
    | none, _, _ => .error .rows
    | _, _, _ => .error .polName

/-- The loop, lines 520–579: an error leaves the passes before it done. -/
def loop (e : Env R V) (o : Opts) (c : Cal R V) (ind : Option (List Nat)) :
    List ((Nat × Nat) × Str) → Dat R V → Dat R V × Option Err
  | [], d => (d, none)
  | key :: ks, d =>
    match pass e o c ind d key with
    | .error err => (d, some err)
    | .ok p => loop e o c ind ks (p.apply d)

/-- `get_antpairpols`, uvdata.py 2968–2981. -/
def keys (d : Dat R V) : Except Err (List ((Nat × Nat) × Str)) :=
  match getAntpairs d.blts, d.pols.mapM (polnum2str d.xo) with
  | .ok ps, some ss => .ok (ps.flatMap fun p => ss.map fun s => (p, s))
  | _, _ => .error .pairs

/-- The factor of lines 124–135. -/
def factor (undo : Bool) (uvc uvd : Option Conv) : V :=
  if uvd = uvc then 1
  else
    let a : V := if undo then 1 / (1 / 2) else 1 / 2
    if uvc = some .sum then 1 / a else a

/-- `vis_units` of data without calibration, line 584. -/
def uncalib : Str := ['u', 'n', 'c', 'a', 'l', 'i', 'b']

/-- Lines 581–593 and 124–137. -/
def finish (o : Opts) (c : Cal R V) (uvc uvd : Option Conv) (d : Dat R V) : Dat R V :=
  { d with
    units := if o.undo then uncalib else c.scale.getD d.units
    vis := if c.scale.isSome then fun r ch k => d.vis r ch k * factor o.undo uvc uvd else d.vis
    conv := if c.scale.isSome then (if o.undo then none else uvd) else d.conv }

/-- Everything decided before the loop, lines 224–482: the two conventions, the calibration used, the time index of
each row, and the keys. -/
def prepare (e : Env R V) (o : Opts) (c : Cal R V) (d : Dat R V) :
    Except Err (Option Conv × Option Conv × Cal R V × Option (List Nat) × List ((Nat × Nat) × Str)) := do
  if d.pols.any (fun p => decide (0 < p)) then .error .stokes else                                    -- 224–231
  if o.undo ∧ c.scale.any (fun s => decide (s ≠ d.units)) then .error .scale else do                  -- 233–246
  let uvc ← uvcOf o c d
  let uvd ← uvdOf o d uvc
  antStage o c d
  let tp ← timeStage e o c d
  let fp ← freqStage e c d
  feedStage c d
  let c' ← c.select e tp.keep fp                                                                       -- 468–482
  let ks ← keys d
  .ok (uvc, uvd, c', tp.ind, ks)

/-- `uvcalibrate` working in place: the object afterwards, and the exception if there is one. -/
def calibrate (e : Env R V) (o : Opts) (c : Cal R V) (d : Dat R V) : Dat R V × Option Err :=
  match prepare e o c d with
  | .error err => (d, some err)
  | .ok (uvc, uvd, c', ind, ks) =>
    match loop e o c' ind ks d with
    | (d', none) => (finish o c uvc uvd d', none)
    | (d', some err) => (d', some err)

end Verif.Calib
