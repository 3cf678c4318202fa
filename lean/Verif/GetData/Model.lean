import Verif.AntPair.Model
import Verif.Slices.Spec
import Verif.Pol.Model

/-!
Model of `UVData._key2inds` (src/pyuvdata/uvdata/uvdata.py 2679–2836), `_smart_slicing` (2838–2905) and the
`get_data` family built on them (3056–3113).

The frequency axis is never indexed by these functions: a visibility here is the whole spectrum `V` of one
baseline-time and polarization, `cj` its complex conjugate.  Results have axes (blt, pol); dropping an axis of
length one ("squeeze") and the read-only marking of views are not modelled.  Cache lookups are modelled in
`Verif.Cache`.
-/
namespace Verif.GetData
open Verif.Np Verif.Slices
open Verif.AntPair (antpair2ind)
open Verif.Baseline (baselineToAntnums)
open Verif.Pol (Str polstr2num conjNum reorderConjPols)

/-- The attributes read by `_key2inds`. -/
structure Obj where
  pairs : AntPair.Obj
  /-- `polarization_array` -/
  pols : List Int
  /-- `telescope.x_orientation` -/
  xo : Option Str

/-- A polarization inside a key: a name or a number, uvdata.py 2776–2783. -/
inductive PolArg
  | name (s : Str)
  | num (n : Int)
  deriving DecidableEq

/-- The forms of a key, uvdata.py 2720–2761. -/
inductive Key
  | polName (s : Str)
  | int (n : Int)
  | pair (a b : Nat)
  | pairPol (a b : Nat) (p : PolArg)
  deriving DecidableEq

/-- The exceptions: unknown polarization name or number, polarization absent (2741, 2756, 2830), pair absent
(2771–2774), conjugate polarizations absent (2808), baseline number (2759), arrays of different shape in
`np.append` (2888), index out of range. -/
inductive Err | unknownPol | noPol | noPair | noConjPols | number | shape | index
  deriving DecidableEq

/-- `(blt_ind1, blt_ind2, (pol_ind1, pol_ind2))`, uvdata.py 2836. -/
structure Inds where
  blt1 : SlicifyOut
  blt2 : SlicifyOut
  pol1 : SlicifyOut
  pol2 : SlicifyOut
  deriving DecidableEq

/-- `slice(None)` on an axis of length `n`, uvdata.py 2736, 2751, 2789. -/
def allOf (n : Nat) : SlicifyOut := .slice ⟨0, n, none⟩

/-- `np.where(self.polarization_array == p)[0]`, uvdata.py 2731, 2749, 2791, 2816. -/
def polWhere (pols : List Int) (p : Int) : List Nat := whereIdx (fun q => decide (q = p)) pols

/-- Polarization-only keys, uvdata.py 2729–2756. -/
def byPol (o : Obj) (p : Int) : Except Err Inds :=
  if (polWhere o.pols p).length > 0 then
    .ok { blt1 := allOf o.pairs.nblts, blt2 := .none, pol1 := slicify (polWhere o.pols p), pol2 := .none }
  else .error .noPol

/-- The polarization number of a key, uvdata.py 2778–2783. -/
def PolArg.number (xo : Option Str) : PolArg → Option Int
  | .name s => polstr2num xo s
  | .num n => some n

/-- `pol_ind2` for a key with a polarization, uvdata.py 2815–2820. -/
def conjInd (pols : List Int) (p : Int) : Except Err SlicifyOut :=
  match conjNum p with
  | none => .error .unknownPol
  | some q => .ok (slicify (polWhere pols q))

/-- Lines 2822–2833 for a key with a polarization. -/
def finishPol (b1 b2 p1 p2 : SlicifyOut) : Except Err Inds :=
  if (b1 = .none ∨ p1 = .none) ∧ (b2 = .none ∨ p2 = .none) then .error .noPol
  else .ok ⟨b1, b2, p1, p2⟩

/-- Keys (ant1, ant2, pol) once the rows are known, uvdata.py 2776–2833. -/
def withPol (o : Obj) (b1 b2 : SlicifyOut) (p : Int) : Except Err Inds :=
  let p1 := if b1 = .none then .none else slicify (polWhere o.pols p)         -- 2785–2793
  if b2 = .none then finishPol b1 b2 p1 .none                                  -- 2795–2796
  else
    match conjInd o.pols p with
    | .error e => .error e
    | .ok p2 => finishPol b1 b2 p1 p2

/-- Keys (ant1, ant2) once the rows are known, uvdata.py 2785–2833. -/
def allPols (o : Obj) (b1 b2 : SlicifyOut) : Except Err Inds :=
  let p1 := if b1 = .none then .none else allOf o.pols.length                  -- 2785–2789
  if b2 = .none then .ok ⟨b1, .none, p1, .none⟩
  else
    match reorderConjPols o.pols with                                          -- 2798–2814
    | none => if b1 = .none then .error .noConjPols else .ok ⟨b1, .none, p1, .none⟩
    | some r => .ok ⟨b1, b2, p1, slicify r⟩

/-- Keys with an antenna pair once both row lookups have been made, uvdata.py 2769–2833. -/
def combine (o : Obj) (p : Option PolArg) (b1 b2 : SlicifyOut) : Except Err Inds :=
  if b1 = .none ∧ b2 = .none then .error .noPair                               -- 2769–2774
  else
    match p with
    | none => allPols o b1 b2
    | some p =>
      match p.number o.xo with
      | none => .error .unknownPol
      | some n => withPol o b1 b2 n

/-- Keys with an antenna pair, uvdata.py 2761–2833. -/
def byPair (o : Obj) (a b : Nat) (p : Option PolArg) : Except Err Inds :=
  match antpair2ind o.pairs a b true, (if a = b then .ok .none else antpair2ind o.pairs b a true) with   -- 2763–2767
  | .ok b1, .ok b2 => combine o p b1 b2
  | _, _ => .error .number

/-- `_key2inds`, uvdata.py 2720–2836, cache aside. -/
def key2inds (o : Obj) : Key → Except Err Inds
  | .polName s =>
    match polstr2num o.xo s with
    | none => .error .unknownPol
    | some p => byPol o p
  | .int n =>
    if n < 5 then byPol o n                                                    -- 2747–2756
    else
      match baselineToAntnums o.pairs.nants [n] with                           -- 2757–2759
      | .ok ([a], [b]) => byPair o a.toNat b.toNat none
      | _ => .error .number
  | .pair a b => byPair o a b none
  | .pairPol a b p => byPair o a b (some p)

/-- `data[ind][..., indp]`, uvdata.py 2879–2882, 2889. -/
def cut {V : Type} (data : List (List V)) (npols : Nat) (ind indp : SlicifyOut) : Option (List (List V)) := do
  let is ← ind.picks data.length
  let ks ← indp.picks npols
  let rows ← take? data is
  rows.mapM (fun r => take? r ks)

/-- `_smart_slicing`, uvdata.py 2875–2890.  With both orientations present, a `None` polarization index adds an
axis and makes `np.append` fail. -/
def smartSlice {V : Type} (cj : V → V) (data : List (List V)) (npols : Nat) (i : Inds) : Except Err (List (List V)) :=
  if i.blt1 = .none ∨ i.blt2 = .none then
    match cut data npols (if i.blt2 = .none then i.blt1 else i.blt2) (if i.blt2 = .none then i.pol1 else i.pol2) with
    | none => .error .index
    | some out => .ok (if i.blt1 = .none then out.map (List.map cj) else out)
  else if i.pol1 = .none ∨ i.pol2 = .none then .error .shape
  else
    match cut data npols i.blt1 i.pol1, cut data npols i.blt2 i.pol2 with
    | some x, some y =>
      if (x ++ y).all (fun r => (x ++ y).all (fun s => decide (r.length = s.length))) then .ok (x ++ y.map (List.map cj))
      else .error .shape
    | _, _ => .error .index

/-- `get_data`, uvdata.py 3056–3113 (`get_flags` and `get_nsamples` are the same with another array; conjugating
a real or boolean array changes nothing). -/
def getData {V : Type} (cj : V → V) (o : Obj) (data : List (List V)) (key : Key) : Except Err (List (List V)) :=
  match key2inds o key with
  | .error e => .error e
  | .ok i => smartSlice cj data o.pols.length i

end Verif.GetData
