import Mathlib.Data.Int.Log
import Mathlib.Algebra.Order.Floor.Ring
import Mathlib.Data.List.Sort

/-!
# Visibilities of MIR files

Model of `MirParser._convert_raw_to_vis` (934-983), `_convert_vis_to_raw` (986-1054), `apply_tsys` (1364-1500), `load_data` (1627-1783),
`unload_data` (1785-1823), `_rechunk_data` (2437-2550), `_rechunk_raw` (2553-2628) and the loops of `rechunk` (2630-2718) in
`src/pyuvdata/uvdata/mir_parser.py`.

Arithmetic is exact, so 32 bit numbers that overflow or lose digits are left out; multiplying by powers of two is exact for them as well.
A spectrum is a list of channels with the two parts of the value, the flag and the weight.
-/

namespace Verif.MirData

/-- One channel. -/
structure Chan (K : Type) where
  re : K
  im : K
  flag : Bool
  wt : K
deriving DecidableEq

/-- A packed spectrum: the common exponent and pairs of 16 bit integers. -/
structure Raw where
  scale : Int
  data : List (Int × Int)
deriving DecidableEq

section
variable {K : Type} [Field K] [LinearOrder K] [IsStrictOrderedRing K] [FloorRing K]

/-- `_convert_raw_to_vis` for one spectrum (972-981). -/
def rawToVis (r : Raw) : List (Chan K) :=
  r.data.map fun p =>
    if p.1 = -32768 then ⟨0, 0, true, 0⟩
    else ⟨(2 : K) ^ r.scale * (p.1 : K), (2 : K) ^ r.scale * (p.2 : K), false, 1⟩

/-- The largest size of a part, but at least 2 ** -52 (1020-1026); flagged channels count as well. -/
def maxPart (v : List (Chan K)) : K :=
  v.foldl (fun m c => max m (max |c.re| |c.im|)) ((2 : K) ^ (-52 : Int))

/-- The common exponent: `np.frexp(...)[1] - 15` (1020-1027). -/
def scaleOf (v : List (Chan K)) : Int := Int.log 2 (maxPart v) + 1 - 15

/-- `astype(np.int16)` drops the fraction. -/
def trunc (x : K) : Int := if 0 ≤ x then ⌊x⌋ else ⌈x⌉

/-- `_convert_vis_to_raw` for one spectrum (1040-1052). -/
def visToRaw (v : List (Chan K)) : Raw :=
  ⟨scaleOf v, v.map fun c =>
    if c.flag then (-32768, -32768) else (trunc (c.re * (2 : K) ^ (-scaleOf v)), trunc (c.im * (2 : K) ^ (-scaleOf v)))⟩

/-- The channels that are not flagged, with their weights (2498-2508). -/
def sumWt (g : List (Chan K)) : K := ((g.filter (fun c => !c.flag)).map (fun c => c.wt)).sum

def sumRe (g : List (Chan K)) : K := ((g.filter (fun c => !c.flag)).map (fun c => c.re * c.wt)).sum

def sumIm (g : List (Chan K)) : K := ((g.filter (fun c => !c.flag)).map (fun c => c.im * c.wt)).sum

/-- One new channel (2504-2510, 2531-2548), with `weight_data=True`. -/
def avg (norm : Bool) (a : Nat) (g : List (Chan K)) : Chan K :=
  let w := sumWt g
  let w' := if norm then w * (1 / (a : K)) else w
  ⟨if w ≠ 0 then sumRe g / w else sumRe g, if w ≠ 0 then sumIm g / w else sumIm g, decide (w' = 0), w'⟩

/-- `_rechunk_data` for one spectrum (2486-2548); `none` if the reshape fails. -/
def rechunk (norm : Bool) (a : Nat) (v : List (Chan K)) : Option (List (Chan K)) :=
  if a = 1 then some v
  else if v.length % a = 0 then some ((List.range (v.length / a)).map fun i => avg norm a ((v.drop (i * a)).take a))
  else none

/-- `_rechunk_raw` for one spectrum (2597-2625). -/
def rechunkRaw (a : Nat) (r : Raw) : Option Raw :=
  if a = 1 then some r else (rechunk true a (rawToVis (K := K) r)).map visToRaw

/-- The loop of `_rechunk_data` over spectra (2486): factors go with records by their order. -/
def rechunkAll (norm : Bool) (as : List Nat) (d : List (Nat × List (Chan K))) : Option (List (Nat × List (Chan K))) :=
  (List.zip as d).mapM fun x => (rechunk norm x.1 x.2.2).map fun v => (x.2.1, v)

/-- `rechunk` of the loaded data (2708-2715): the factors are those of the records of the table `sp`, in its order; the records of the data
must be the same, in any order (`_check_data_index`). -/
def rechunkLoaded (factor : Nat → Nat) (sp : List Nat) (norm : Bool) (d : List (Nat × List (Chan K))) :
    Option (List (Nat × List (Chan K))) :=
  if (sp.insertionSort (· ≤ ·)) = ((d.map (fun x => x.1)).insertionSort (· ≤ ·)) then rechunkAll norm (sp.map factor) d else none

/-! ## System temperatures -/

/-- Values of one record are multiplied (1492-1498): `nv` for the data, `wv` for the weights. -/
def scaleRec (nv wv : K) (v : List (Chan K)) : List (Chan K) :=
  if nv = 0 then v.map fun c => { c with flag := true }
  else v.map fun c => { c with re := c.re * nv, im := c.im * nv, wt := c.wt * wv }

/-- `np.reciprocal(..., where=x != 0, out=x)`. -/
def recip (x : K) : K := if x ≠ 0 then 1 / x else x

/-- `apply_tsys` from the weights in the header (1466-1498); `sqrt` is the square root, `wt`, `fres` and `rinteg` are those of the record. -/
def tsysWt (sqrt : K → K) (jypk : K) (invert : Bool) (wt fres rinteg : K) (v : List (Chan K)) : List (Chan K) :=
  let w := wt * |fres| * (1000000 * (1 / (jypk * 2) ^ 2))
  let n := jypk * 2 * sqrt ((if w ≠ 0 then 1 / wt else 0) * rinteg)
  if invert then scaleRec (recip n) (recip w) v else scaleRec n w v

/-- `apply_tsys` from the continuum detectors (1437-1459): `t` is the product of the roots of both temperatures, `none` if one is missing. -/
def tsysDet (jypk : K) (invert : Bool) (t : Option K) (fres rinteg : K) (v : List (Chan K)) : List (Chan K) :=
  match t with
  | none => v.map fun c => { c with flag := true }
  | some t =>
    let n := 2 * jypk * t
    let n := if invert then recip n else n
    let s := |fres * 1000000| * rinteg
    scaleRec n (if invert then n ^ 2 / s else s / n ^ 2) v

/-- The root of a temperature that is used (1409, 1414). -/
def root (sqrt : K → K) (t : K) : K := if 0 < t ∧ t < 100000 then sqrt t else 0

/-- The factor of a baseline from the temperatures of both antennas (1424-1435); `none` if one is not in the table. -/
def pairRoot (sqrt : K → K) (t1 t2 : Option K) : Option K :=
  match t1, t2 with
  | some t1, some t2 => some (root sqrt t1 * root sqrt t2)
  | _, _ => none

end

/-- The checks of `apply_tsys` and the new state (1391-1401, 1500); `none` if it is refused. -/
def tsysCmd (applied invert force : Bool) : Option Bool :=
  if (applied && !invert) && !force then none
  else if (!applied && invert) && !force then none
  else some (!invert)

/-! ## Loading -/

/-- What is loaded: visibilities, packed data, whether visibilities are scaled by system temperatures. -/
structure St (R V : Type) where
  vis : Option (List (Nat × V))
  raw : Option (List (Nat × R))
  tsys : Bool

section
variable {R V : Type}

/-- Values of the records that are asked for; `none` if one is missing (1598-1606). -/
def choose {W : Type} (ids : List Nat) (d : List (Nat × W)) : Option (List (Nat × W)) :=
  ids.mapM fun i => (d.lookup i).map fun w => (i, w)

/-- `apply_tsys`, as used by `load_data`: records of the table (1391-1401, 1492-1500). -/
def applyTsys (tsysOf : Nat → V → V) (ids : List Nat) (d : List (Nat × V)) : List (Nat × V) :=
  d.map fun x => if x.1 ∈ ids then (x.1, tsysOf x.1 x.2) else x

/-- Packed data that are loaded are converted, if all records of the table are among them (1713-1729). -/
def convStep (conv : R → V) (tsysOf : Nat → V → V) (ids : List Nat) (loadRaw useTsys : Bool) (allowConv : Option Bool) (s : St R V) : St R V :=
  match s.raw with
  | none => s
  | some r =>
    if allowConv ≠ some false ∧ loadRaw = false ∧ ∀ i ∈ ids, i ∈ r.map (fun (x : Nat × R) => x.1) then
      ⟨some (if useTsys then applyTsys tsysOf ids (r.map fun x => (x.1, conv x.2)) else r.map fun x => (x.1, conv x.2)), some r, useTsys⟩
    else s

/-- What is not asked for is unloaded (1732-1734, 1805-1817). -/
def unload (loadRaw : Bool) (s : St R V) : St R V := if loadRaw then ⟨none, s.raw, false⟩ else ⟨s.vis, none, s.tsys⟩

/-- What is loaded is used, if all records are there (1738-1747). -/
def keepStep (ids : List Nat) (loadRaw : Bool) (allowDown : Option Bool) (s : St R V) : Option (St R V) :=
  if allowDown = some false then none
  else if loadRaw then (s.raw.bind (choose ids)).map fun r => { s with raw := some r }
  else (s.vis.bind (choose ids)).map fun v => { s with vis := some v }

/-- Data are read (1760-1774); `cal` applies the COMPASS solution, if there is one (1202-1204). -/
def readStep (disk : Nat → R) (conv : R → V) (cal tsysOf : Nat → V → V) (ids : List Nat) (loadRaw useTsys : Bool) (s : St R V) : St R V :=
  if loadRaw then { s with raw := some (ids.map fun i => (i, disk i)) }
  else
    let v := ids.map fun i => (i, cal i (conv (disk i)))
    { s with vis := some (if useTsys then applyTsys tsysOf ids v else v), tsys := useTsys }

/-- `load_data` for cross-correlations. `ids` are the records of the table, `disk` the packed data, `conv` is `_convert_raw_to_vis`.
No averaging was asked for. -/
def load (disk : Nat → R) (conv : R → V) (cal tsysOf : Nat → V → V) (ids : List Nat) (loadRaw useTsys : Bool) (allowDown allowConv : Option Bool)
    (s : St R V) : St R V :=
  let s := unload loadRaw (convStep conv tsysOf ids loadRaw useTsys allowConv s)
  (keepStep ids loadRaw allowDown s).getD (readStep disk conv cal tsysOf ids loadRaw useTsys s)

end

end Verif.MirData
