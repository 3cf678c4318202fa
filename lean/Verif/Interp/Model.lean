import Mathlib.Data.List.MinMax
import Mathlib.Algebra.Order.Field.Basic
import Mathlib.Algebra.Order.Ring.Abs

/-!
Model of the interpolation of beams, `UVBeam.interp`, `src/pyuvdata/uvbeam/uvbeam.py` lines 1766–2114, with `_interp_freq`, lines 1204–1302,
and `_interp_az_za_rect_spline`, lines 1304–1574. The part for healpix maps, lines 1576–1764, is modelled only in its check of the order of pixels.

What scipy does is a parameter (`Lib`): `interp1d` along the frequency axis and `RectBivariateSpline` over the grid, applied to the real and
imaginary parts by the code, here to values of any type. Arrays are functions of positions, coordinates are lists over an ordered field, and
there is no rounding; `np.isclose` is the comparison with its tolerances, the number 2π a parameter. Polarizations are given by number.
Left out: phased arrays and their coupling matrix, the choice of an interpolation function, the change between grids and healpix maps, arrays
that a new object loses (lines 2023–2036), the history, the final `check`, and warnings.
-/
namespace Verif.Interp

variable {K V O : Type}

/-- `freq_interp_kind`. -/
inductive Kind where
  | nearest | other (name : Nat)
deriving DecidableEq

/-- The functions of scipy the code relies on: one-dimensional interpolation of values and of the bandpass, and splines over a grid with
options. -/
structure Lib (K V O : Type) where
  freq : Nat → List K → (Nat → V) → K → V
  band : Nat → List K → (Nat → K) → K → K
  spline : O → List K → List K → (Nat → Nat → V) → K → K → V

inductive IErr where
  | empty | oneFreq | range | grid | newObject | assert | basis | pol | domain | shape | index
deriving DecidableEq

/-- The attributes that are read or set. `data` takes an axis of the vectors, a feed or polarization, a channel, and positions along axis2
(zenith angle) and axis1 (azimuth); `basis` an axis, a component and the two positions. -/
structure IBeam (K V : Type) where
  power : Bool
  pols : List Int
  npols : Nat
  nvec : Nat
  freqs : List K
  az : List K
  za : List K
  data : Nat → Nat → Nat → Nat → Nat → V
  band : Nat → K
  basis : Option (Nat → Nat → Nat → Nat → K)

/-- The arguments of the call. -/
structure Req (K O : Type) where
  az : Option (List K)
  za : Option (List K)
  grid : Bool
  freqs : Option (List K)
  kind : Kind
  tol : K
  pols : Option (List Int)
  opts : O
  reuse : Bool
  check : Bool

/-- Where the values for one requested frequency come from: a channel of the beam, or interpolation at the frequency. -/
inductive Pick (K : Type) where
  | chan (i : Nat) | at (f : K)

section
variable [Field K] [LinearOrder K]

/-- `np.argmin` of a list: the first position of the smallest entry. -/
def argmin : List K → Nat
  | [] => 0
  | [_] => 0
  | a :: b :: l => if (b :: l).getD (argmin (b :: l)) a < a then argmin (b :: l) + 1 else 0

/-- `np.abs(self.freq_array - f)`, lines 1234 and 1928. -/
def dists (freqs : List K) (f : K) : List K := freqs.map (fun x => |x - f|)

/-- The kind after lines 1926–1934: the nearest channel if every requested frequency is closer to a channel than the tolerance. -/
def kindUsed (freqs req : List K) (tol : K) (kind : Kind) : Kind :=
  if req.any (fun f => (dists freqs f).all (fun d => decide (tol ≤ d))) then kind else .nearest

/-- `_interp_freq`, lines 1229–1296: what to take for each requested frequency. -/
def picks (freqs req : List K) (kind : Kind) : Except IErr (List (Pick K)) :=
  match kind with
  | .nearest => .ok (req.map fun f => .chan (argmin (dists freqs f)))
  | .other _ =>
    if freqs.length = 1 then .error .oneFreq
    else if req = [] then .error .empty
    else if req.any (fun f => freqs.all (fun x => decide (f < x)) || freqs.all (fun x => decide (x < f))) then .error .range
    else .ok (req.map .at)

/-- The value for one pick of an array along the frequency axis, lines 1236–1239 and 1284. -/
def pickVal {W : Type} (lut : Nat → List K → (Nat → W) → K → W) (freqs : List K) (kind : Kind) (d : Nat → W) : Pick K → W
  | .chan i => d i
  | .at f => lut (match kind with | .other n => n | .nearest => 0) freqs d f

/-- Lines 1366–1384: picks for the frequencies of the output, and those frequencies. Without a request these are the channels. -/
def freqPlan (o : IBeam K V) (q : Req K O) : Except IErr (List (Pick K) × List K × Kind) :=
  match q.freqs with
  | none => .ok ((List.range o.freqs.length).map .chan, o.freqs, q.kind)
  | some req =>
    match picks o.freqs req (kindUsed o.freqs req q.tol q.kind) with
    | .error e => .error e
    | .ok l => .ok (l, req, kindUsed o.freqs req q.tol q.kind)

/-- The bandpass returned, lines 1239, 1284 and 1382: without requested frequencies it is the entry of the first channel. -/
def bandOut (lib : Lib K V O) (o : IBeam K V) (q : Req K O) (plan : List (Pick K) × List K × Kind) : List K :=
  match q.freqs with
  | none => [o.band 0]
  | some _ => plan.1.map (pickVal lib.band o.freqs plan.2.2 o.band)

/-- Three entries before and after, lines 1417–1431, for the positions whose values are used. -/
def extend3 {α : Type} (l : List α) : List α := l.drop (l.length - 3) ++ l ++ l.take 3

/-- Whether the azimuths go around, lines 1403 and 1415, with `d` the first step: `np.isclose(phi_length, 2π, atol=d)`. -/
def wraps (twoPi rtol : K) (az : List K) (d : K) : Bool :=
  decide (|(|az.getD 0 0 - az.getD (az.length - 1) 0| + d) - twoPi| ≤ d + rtol * |twoPi|)

/-- `phi_use`, lines 1418–1424 and 1433. -/
def phiUse (wrap : Bool) (az : List K) (d : K) : List K :=
  if wrap then
    [az.getD 0 0 - 3 * d, az.getD 0 0 - 2 * d, az.getD 0 0 - d] ++ az ++
      [az.getD (az.length - 1) 0 + d, az.getD (az.length - 1) 0 + 2 * d, az.getD (az.length - 1) 0 + 3 * d]
  else az

/-- The azimuth positions whose values are used, lines 1426–1434. -/
def srcUse (wrap : Bool) (az : List K) : List Nat := if wrap then extend3 (List.range az.length) else List.range az.length

/-- Lines 1439–1460: whether the basis vectors are taken to be those of the coordinates. -/
def basisAccepted (o : IBeam K V) : Bool :=
  match o.basis with
  | none => true
  | some b => (List.range o.za.length).all fun j => (List.range o.az.length).all fun i =>
      !(decide (0 < b 0 1 j i)) && !(decide (0 < b 1 0 j i))

/-- The basis vectors of the output, lines 1454–1460. -/
def basisOut (o : IBeam K V) : Option (Nat → Nat → K) :=
  o.basis.map fun _ => fun a c => if a = c ∧ a < 2 then 1 else 0

/-- `pol_inds`, lines 1471–1495. -/
def polInds (o : IBeam K V) (pols : Option (List Int)) : Except IErr (List Nat) :=
  if o.power then
    match pols with
    | none => .ok (List.range o.npols)
    | some l => if l.all (fun p => o.pols.contains p) then .ok (l.map fun p => o.pols.idxOf p) else .error .pol
  else .ok (List.range o.npols)

/-- The smallest squared distance to a list of coordinates, lines 1504–1505. -/
def minSq (l : List K) (x : K) : Option K := (l.map fun t => (t - x) ^ 2).min?

/-- The same as computed when there are many points, lines 1498–1515: from infinity (`none`) downwards. -/
def minSqFold (l : List K) (x : K) : Option K :=
  l.foldl (fun acc t => match acc with
    | none => some ((x - t) ^ 2)
    | some a => if (x - t) ^ 2 < a then some ((x - t) ^ 2) else some a) none

/-- `np.sqrt(az_sq_dist + za_sq_dist) > (max_axis_diff * 2.0)` for one point, line 1517, without the root. -/
def tooFar (m : K) (a b : Option K) : Bool :=
  match a, b with
  | some a, some b => decide (m < 0) || decide ((m * 2) ^ 2 < a + b)
  | _, _ => true

/-- Lines 1497–1521: whether a point is too far from the grid. -/
def outside (za phi : List K) (m : K) (pts : List (K × K)) : Bool :=
  if pts.length < za.length + phi.length then pts.any fun p => tooFar m (minSq phi p.1) (minSq za p.2)
  else pts.any fun p => tooFar m (minSqFold phi p.1) (minSqFold za p.2)

/-- The points, azimuth first, lines 1936–1947 and 1392–1395. `none`: no interpolation over the sky. -/
def points (q : Req K O) : Except IErr (Option (List (K × K))) :=
  if q.grid then
    match q.az, q.za with
    | some az, some za => .ok (some (za.flatMap fun z => az.map fun a => (a, z)))
    | _, _ => .error .grid
  else
    match q.az, q.za with
    | some az, some za => if az.length = za.length then .ok (some (az.zip za)) else .error .assert
    | _, _ => .ok none

/-- A saved function and what it is saved under: the frequency, the feed or polarization, the axis. -/
abbrev Cache (K V : Type) := List ((K × Nat × Nat) × (K → K → V))

/-- One value of the loops of lines 1531–1534. -/
structure Job (K : Type) where
  freq : K
  pick : Pick K
  pol : Nat
  axis : Nat

/-- The loops of lines 1531–1534, in order. -/
def jobs (plan : List (Pick K) × List K × Kind) (nvec : Nat) (pols : List Nat) : List (Job K) :=
  (plan.1.zip plan.2.1).flatMap fun pf => (List.range nvec).flatMap fun a => pols.map fun p => ⟨pf.2, pf.1, p, a⟩

/-- The spline for one job, lines 1543–1563. -/
def fresh (lib : Lib K V O) (o : IBeam K V) (opts : O) (kind : Kind) (phi : List K) (src : List Nat) (j : Job K) : K → K → V :=
  lib.spline opts o.za phi fun z k => pickVal lib.freq o.freqs kind (fun i => o.data j.axis j.pol i z (src.getD k 0)) j.pick

variable [DecidableEq K]

/-- Lines 1535–1565: the function for one job and the saved functions after it. -/
def runJob (make : Job K → K → K → V) (reuse : Bool) (c : Cache K V) (j : Job K) : (K → K → V) × Cache K V :=
  if reuse then
    match c.find? (fun e => decide (e.1 = (j.freq, j.pol, j.axis))) with
    | some e => (e.2, c)
    | none => (make j, c ++ [((j.freq, j.pol, j.axis), make j)])
  else (make j, c)

/-- All jobs in order. -/
def runJobs (make : Job K → K → K → V) (reuse : Bool) : Cache K V → List (Job K) → List (K → K → V) × Cache K V
  | c, [] => ([], c)
  | c, j :: js =>
    let r := runJob make reuse c j
    let s := runJobs make reuse r.2 js
    (r.1 :: s.1, s.2)

/-- What is returned: for each job, in the order of the loops, its values at the points; the basis vectors; the bandpass. Without points, the
values of the beam at the frequencies of the output. -/
inductive Out (K V : Type) where
  | sky (jobs : List (Job K)) (vals : List (List V)) (basis : Option (Nat → Nat → K)) (band : List K) (pts : List (K × K))
  | freq (data : Nat → Nat → Nat → Nat → Nat → V) (band : List K)

/-- `_interp_az_za_rect_spline`, lines 1360–1574, with lines 1926–1947 before it. The saved functions are returned as well. -/
def interp (lib : Lib K V O) (twoPi rtol : K) (o : IBeam K V) (q : Req K O) (c : Cache K V) : Except IErr (Out K V) × Cache K V :=
  match points q with
  | .error e => (.error e, c)
  | .ok pts =>
    match freqPlan o q with
    | .error e => (.error e, c)
    | .ok plan =>
      match pts with
      | none =>
        (.ok (.freq (fun a p i z k => match plan.1[i]? with
            | some pk => pickVal lib.freq o.freqs plan.2.2 (fun i => o.data a p i z k) pk
            | none => o.data a p i z k) (bandOut lib o q plan)), c)
      | some pts =>
        if o.az.length < 2 ∨ o.za.length < 2 then (.error .index, c)
        else
          let d1 := o.az.getD 1 0 - o.az.getD 0 0
          let d2 := o.za.getD 1 0 - o.za.getD 0 0
          let wrap := wraps twoPi rtol o.az d1
          if !basisAccepted o then (.error .basis, c)
          else
            match polInds o q.pols with
            | .error e => (.error e, c)
            | .ok inds =>
              if q.check && outside o.za (phiUse wrap o.az d1) (max d1 d2) pts then (.error .domain, c)
              else if (phiUse wrap o.az d1).length ≠ (srcUse wrap o.az).length then (.error .shape, c)
              else
                let js := jobs plan o.nvec inds
                let r := runJobs (fresh lib o q.opts plan.2.2 (phiUse wrap o.az d1) (srcUse wrap o.az)) q.reuse c js
                (.ok (.sky js (r.1.map fun g => pts.map fun p => g p.2 p.1) (basisOut o) (bandOut lib o q plan) pts), r.2)

end

end Verif.Interp
