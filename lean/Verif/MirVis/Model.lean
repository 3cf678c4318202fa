import Mathlib.Algebra.Field.Basic
import Mathlib.Data.Prod.Lex
import Mathlib.Data.List.Sort
import Verif.Np

/-!
# MIR records become visibilities

Model of `Mir._init_from_mir_parser` (`src/pyuvdata/uvdata/mir.py` 266-822) with `_prep_and_insert_data` (187-264).

* Records of baselines (`Bl`) and spectra (`Sp`) are lists; each spectrum carries the record of its baseline and each baseline that of its
  integration, found by `_index_query` with header keys that are unique (lines 290-297; see C182). The dictionary `blhid_blt_order` (397-400) is
  then the row of the record.
* The code of a polarization is looked up by `codes` (356-366), a number of the data gives its number in UVData.
* Windows are made in the order of a python set (410): `order`, any list of the same keys.
* Visibilities are loaded with their flags and weights (232-237; C178, C179, C191-C196).
* Left out: warnings, sidereal times (C214), antenna positions and the catalog (C19-C21, C66), the rotation of coordinates by the position angle (754-759; C69).
-/

namespace Verif.MirVis
open Verif.Np

inductive Err
  | pol | shape
  deriving DecidableEq

structure In (K : Type) where
  inhid : Nat
  mjd : K
  rinteg : K
  isource : Nat
  ara : K
  adec : K
  deriving DecidableEq

structure Bl (K : Type) where
  int : In K
  a1 : Nat
  a2 : Nat
  rx1 : Nat
  rx2 : Nat
  ipol : Int
  isb : Nat
  u : K
  v : K
  w : K
  deriving DecidableEq

structure Vis (V K : Type) where
  data : V
  flag : Bool
  weight : K
  deriving DecidableEq

structure Sp (V K : Type) where
  bl : Bl K
  chunk : Nat
  fsky : K
  fres : K
  nch : Nat
  vis : List (Vis V K)
  deriving DecidableEq

structure Key where
  chunk : Nat
  isb : Nat
  pol : Int
  deriving DecidableEq

/-- An integration and two antennas, ordered one after the other. -/
abbrev Row := Nat ×ₗ Nat ×ₗ Nat

structure Dat (V K : Type) where
  conj : V → V
  codes : Int → Option Int
  ncodes : Nat
  allow : Bool
  order : List Key
  /-- 139648.4375 -/
  off : K
  /-- is nothing loaded yet -/
  fresh : Bool
  ins : List Nat
  bls : List (Bl K)
  sps : List (Sp V K)

structure Meta (K : Type) where
  a1 : Nat
  a2 : Nat
  mjd : K
  integ : K
  source : Nat
  ra : K
  dec : K
  u : K
  v : K
  w : K
  deriving DecidableEq

structure Obj (V K : Type) where
  rows : List (Meta K)
  pols : List Int
  flexPol : Option (List Int)
  spws : List Int
  chanSpw : List Int
  freqs : List K
  widths : List K
  nbls : Nat
  data : Nat → Nat → Nat → Vis V K

variable {V K : Type}

/-- Lines 382-385. -/
def Bl.row (b : Bl K) : Row := toLex (b.int.inhid, toLex (b.a1, b.a2))

/-- Lines 308-311. -/
def rxPol (rx1 rx2 : Nat) : Int := if rx1 = 0 then (if rx2 = 0 then 0 else 2) else (if rx2 = 0 then 3 else 1)

/-- Line 299. -/
def Dat.single (d : Dat V K) : Bool := decide ((unique (d.bls.map Bl.ipol)).length = 1 ∧ d.ncodes = 4)

/-- Lines 306-315. -/
def Dat.pol (d : Dat V K) (s : Sp V K) : Int := if d.single then rxPol s.bl.rx1 s.bl.rx2 else s.bl.ipol

/-- Lines 319-326. -/
def Dat.key (d : Dat V K) (s : Sp V K) : Key := ⟨s.chunk, s.bl.isb, d.pol s⟩

/-- Line 332. -/
def Dat.pols (d : Dat V K) : List Int := unique (d.sps.map d.pol)

/-- The median, `np.median`. -/
def med {α : Type} [LinearOrder α] (half : α → α → α) (dflt : α) (l : List α) : α :=
  let s := l.insertionSort (· ≤ ·)
  if l.length % 2 = 1 then s.getD (l.length / 2) dflt else half (s.getD (l.length / 2 - 1) dflt) (s.getD (l.length / 2) dflt)

/-- Lines 389-394: rows in order. -/
def Dat.rowKeys (d : Dat V K) : List Row := unique (d.bls.map Bl.row)

def Dat.rowOf (d : Dat V K) (s : Sp V K) : Nat := d.rowKeys.idxOf s.bl.row

/-- Lines 417-419. -/
def spwId (split : Bool) (k : Key) : Int :=
  (if k.chunk = 0 then 255 else (k.chunk : Int)) * (-1) ^ (1 + k.isb) + (if split && decide (k.pol = 1) then 512 else 0)

/-- Lines 626-652 and 692: what the last record of the row says; coordinates change their signs. -/
def Bl.info [Neg K] (b : Bl K) : Meta K :=
  { a1 := b.a1, a2 := b.a2, mjd := b.int.mjd, integ := b.int.rinteg, source := b.int.isource, ra := b.int.ara, dec := b.int.adec,
    u := -b.u, v := -b.v, w := -b.w }

/-- Lines 598-652. -/
def Dat.rows [Neg K] (d : Dat V K) : List (Meta K) :=
  d.rowKeys.filterMap (fun r => ((d.bls.filter (fun b => decide (b.row = r))).getLast?).map Bl.info)

/-- Lines 790-799: integrations are loaded in blocks. -/
def blocks (ins : List Nat) (step : Nat) : List (List Nat) :=
  (List.range ((ins.length + step - 1) / step)).map (fun i => (ins.drop (i * step)).take step)

/-- Lines 249 and 786-816: the spectra in the order in which they are put into the arrays. -/
def Dat.visited (d : Dat V K) : List (Sp V K) :=
  if d.fresh then (blocks d.ins (d.ins.length / 8 + 1)).flatMap (fun b => d.sps.filter (fun s => decide (s.bl.int.inhid ∈ b))) else d.sps

section
variable [Field K] [LinearOrder K]

/-- Lines 334-353. -/
def Dat.split (d : Dat V K) : Bool :=
  let rxa := d.sps.filter (fun s => decide (s.bl.rx1 = 0 ∧ s.bl.rx2 = 0))
  let rxb := d.sps.filter (fun s => decide (s.bl.rx1 ≠ 0 ∧ s.bl.rx2 ≠ 0))
  let loa : List (K × Nat) := rxa.map (fun s => (s.fsky, s.chunk))
  let lob : List (K × Nat) := rxb.map (fun s => (s.fsky, s.chunk))
  decide (d.pols.length = 2) && !rxa.isEmpty && !rxb.isEmpty && !(loa.all (fun x => decide (x ∈ lob)) || lob.all (fun x => decide (x ∈ loa)))

/-- Lines 410-480: the last key of the set with the number of the window. -/
def Dat.winKey (d : Dat V K) (id : Int) : Option Key := (d.order.filter (fun k => decide (spwId d.split k = id))).getLast?

/-- Line 421. -/
def Dat.recs (d : Dat V K) (id : Int) : List (Sp V K) := d.sps.filter (fun s => decide (some (d.key s) = d.winKey id))

/-- Lines 424-443. -/
def Dat.nchan (d : Dat V K) (id : Int) : Nat := med (fun a b => (a + b) / 2) 0 ((d.recs id).map Sp.nch)
def Dat.fsky (d : Dat V K) (id : Int) : K := med (fun a b => (a + b) / 2) 0 ((d.recs id).map Sp.fsky) * 10 ^ 9
def Dat.fres (d : Dat V K) (id : Int) : K := med (fun a b => (a + b) / 2) 0 ((d.recs id).map Sp.fres) * 10 ^ 6

/-- `np.sign`. -/
def sgn (x : K) : K := if x < 0 then -1 else if x = 0 then 0 else 1

/-- Lines 456-460. -/
def chanFreq (off fsky fres : K) (n k : Nat) : K := fsky - sgn fres * off + fres * ((k : K) + 1 / 2 - (n : K) / 2)

/-- Line 482. -/
def Dat.ids (d : Dat V K) : List Int := unique (d.order.map (spwId d.split))

/-- Lines 483-487. -/
def Dat.start (d : Dat V K) (id : Int) : Nat := ((d.ids.take (d.ids.idxOf id)).map d.nchan).sum

/-- Lines 464-469. -/
def Dat.polIdx (d : Dat V K) (s : Sp V K) : Nat := if d.split && d.allow then 0 else d.pols.idxOf (d.pol s)

def Dat.id (d : Dat V K) (s : Sp V K) : Int := spwId d.split (d.key s)

/-- Lines 259-261: a spectrum of one channel is repeated. -/
def Dat.value [Zero V] (d : Dat V K) (s : Sp V K) (k : Nat) : Vis V K :=
  let x := s.vis.getD (if s.vis.length = 1 then 0 else k) ⟨0, true, 0⟩
  ⟨d.conj x.data, x.flag, x.weight⟩

def Dat.hits (d : Dat V K) (s : Sp V K) (r j c : Nat) : Bool :=
  decide (d.rowOf s = r ∧ d.polIdx s = j ∧ d.start (d.id s) ≤ c ∧ c < d.start (d.id s) + d.nchan (d.id s))

def Dat.put [Zero V] (d : Dat V K) (a : Nat → Nat → Nat → Vis V K) (s : Sp V K) : Nat → Nat → Nat → Vis V K :=
  fun r j c => if d.hits s r j c then d.value s (c - d.start (d.id s)) else a r j c

/-- Lines 513-519. -/
def Dat.nbls (d : Dat V K) : Nat :=
  let n := (unique (d.bls.map Bl.a1 ++ d.bls.map Bl.a2)).length
  n * (n - 1) / 2

/-- Lines 367-379 and 482-822: the object. -/
def Dat.obj [Zero V] (d : Dat V K) : Obj V K :=
  { rows := d.rows
    pols := if d.split && d.allow then [0] else d.pols.map (fun p => (d.codes p).getD 0)                         -- 367-379
    flexPol := if d.split then some (d.ids.map (fun i => ((d.winKey i).bind (fun k => d.codes k.pol)).getD 0)) else none   -- 493-501
    spws := d.ids
    chanSpw := d.ids.flatMap (fun i => List.replicate (d.nchan i) i)
    freqs := d.ids.flatMap (fun i => (List.range (d.nchan i)).map (chanFreq d.off (d.fsky i) (d.fres i) (d.nchan i)))
    widths := d.ids.flatMap (fun i => List.replicate (d.nchan i) (max (d.fres i) (-d.fres i)))
    nbls := d.nbls
    data := d.visited.foldl d.put (fun _ _ _ => ⟨0, true, 0⟩) }                                                  -- 774-776

/-- `_init_from_mir_parser`. -/
def Dat.read [Zero V] (d : Dat V K) : Except Err (Obj V K) :=
  if d.pols.any (fun p => decide (d.codes p = none)) then .error .pol                                              -- 379, 479
  else if d.sps.any (fun s => decide (s.vis.length ≠ d.nchan (d.id s) ∧ s.vis.length ≠ 1)) then .error .shape      -- 259
  else .ok d.obj

end
end Verif.MirVis
