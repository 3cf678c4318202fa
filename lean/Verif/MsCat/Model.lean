import Mathlib.Algebra.Order.Field.Basic
import Verif.Np

/-!
# The catalog of phase centers in measurement sets

Model of `write_ms_field`, `write_ms_source`, `read_ms_field`, `read_ms_source`, `_parse_pyuvdata_frame_ref` and
`_parse_casa_frame_ref` (`src/pyuvdata/utils/io/ms.py` 121-174, 219-273, 565-817, 1455-1638) and of the lines of `MS.read_ms` that
put the two tables together (`src/pyuvdata/uvdata/ms.py` 995-1019).

A catalog is a list of numbers with entries, in its order. Entries are sidereal (a point) or an ephemeris (a list of times with
points); the other types have frames without a name in CASA and are refused with them. Numbers are exact; conversions of times are
left out. Proper motions of an ephemeris are one pair of numbers here, in the code an array after reading. The warning for
samples of the same time is left out.
-/

namespace Verif.MsCat
open Verif.Np

/-- Errors: `ValueError`, an unbound name, an `IndexError`. -/
inductive Err
  | value | unbound | index
deriving DecidableEq

variable {K : Type}

inductive Place (K : Type)
  | point (lon lat : K)
  /-- times, longitudes and latitudes -/
  | path (l : List (K × K × K))

structure Entry (K : Type) where
  name : String
  place : Place K
  frame : String
  epoch : Option K
  pmRa : Option K
  pmDec : Option K
  vrad : Option K
  dist : Option K

abbrev Cat (K : Type) := List (Int × Entry K)

structure FieldRow (K : Type) where
  id : Int
  name : String
  lon : K
  lat : K

structure Samp (K : Type) where
  time : K
  lon : K
  lat : K
  pm0 : K
  pm1 : K

structure File (K : Type) where
  /-- `Ref` -/
  ref : String
  /-- the frames of rows, if there is a column for them -/
  refs : Option (List String)
  fields : List (FieldRow K)
  srcs : List (Int × Samp K)

section
variable [Field K] [LinearOrder K]

/-- The entries of `COORD_PYUVDATA2CASA_DICT` (80-105) that are supported. -/
def frames : List (String × String × K) :=
  [("J2000", "fk5", 2000), ("APP", "gcrs", 2000), ("B1950", "fk4", 1950), ("B1950_VLA", "fk4", 1979), ("ICRS", "icrs", 2000)]

/-- `_parse_pyuvdata_frame_ref`; `none` is an error. -/
def refOf (frame : String) (epoch : Option K) : Option String :=
  ((frames (K := K)).find? (fun x => decide (x.2.1 = frame) && decide (x.2.2 = epoch.getD 2000))).map (fun x => x.1)

/-- `_parse_casa_frame_ref`; `none` is an error. -/
def frameOf (ref : String) : Option (String × K) := ((frames (K := K)).find? (fun x => decide (x.1 = ref))).map (fun x => x.2)

/-- 740-750: not all entries have the frame and epoch of the first. -/
def varRef (e : Entry K) (l : Cat K) : Bool := l.any (fun x => decide (e.frame ≠ x.2.frame) || decide (e.epoch ≠ x.2.epoch))

/-- The direction in the table of fields (797-799): medians for an ephemeris. -/
def fieldRow (med : List K → K) (x : Int × Entry K) : FieldRow K :=
  match x.2.place with
  | .point lon lat => ⟨x.1, x.2.name, lon, lat⟩
  | .path l => ⟨x.1, x.2.name, med (l.map (fun s => s.2.1)), med (l.map (fun s => s.2.2))⟩

/-- The proper motion (1604-1608): that in right ascension twice, zero if there is none. -/
def pmVec (e : Entry K) : K × K :=
  match e.pmRa with
  | some a => (a, a)
  | none => (0, 0)

/-- Rows in the table of sources (1610-1638). -/
def srcRows (now : K) (x : Int × Entry K) : List (Int × Samp K) :=
  match x.2.place with
  | .point lon lat => [(x.1, ⟨now, lon, lat, (pmVec x.2).1, (pmVec x.2).2⟩)]
  | .path l => l.map (fun s => (x.1, ⟨s.1, s.2.1, s.2.2, (pmVec x.2).1, (pmVec x.2).2⟩))

/-- `write_ms_field` and `write_ms_source`. -/
def write (med : List K → K) (now : K) : Cat K → Except Err (File K)
  | [] => .error .unbound
  | x :: l => match refOf x.2.frame x.2.epoch with
    | none => .error .value
    | some r =>
      if varRef x.2 l then match (x :: l).mapM (fun y => refOf y.2.frame y.2.epoch) with
        | none => .error .value
        | some rs => .ok ⟨r, some rs, (x :: l).map (fieldRow med), (x :: l).flatMap (srcRows now)⟩
      else .ok ⟨r, none, (x :: l).map (fieldRow med), (x :: l).flatMap (srcRows now)⟩

/-- Samples at the positions found are taken out one after the other, positions are not moved (1492-1514). -/
def popAll : List (Samp K) → List Nat → Except Err (List (Samp K))
  | l, [] => .ok l
  | l, i :: is => if i < l.length then popAll (l.eraseIdx i) is else .error .index

/-- Another sample of a source (1491-1519). -/
def addSamp (tol : K) (l : List (Samp K)) (s : Samp K) : Except Err (List (Samp K)) :=
  match popAll l (whereIdx (fun t => decide (|t.time - s.time| ≤ tol)) l) with
  | .error e => .error e
  | .ok l' => .ok (l' ++ [s])

/-- The samples of each source (1486-1527); a source without any has no entry in the dict. -/
def readSrc (tol : K) : (Int → List (Samp K)) → List (Int × Samp K) → Except Err (Int → List (Samp K))
  | d, [] => .ok d
  | d, x :: l => match addSamp tol (d x.1) x.2 with
    | .error e => .error e
    | .ok s => readSrc tol (fun i => if i = x.1 then s else d i) l

/-- Both proper motions are close to zero (1545-1547); `eps` is the tolerance of `np.allclose`. -/
def noMotion (eps : K) (l : List (Samp K)) : Bool := l.all (fun s => decide (|s.pm0| ≤ eps)) && l.all (fun s => decide (|s.pm1| ≤ eps))

/-- The entry for a row of the table of fields (669-682). -/
def baseEntry (r : FieldRow K) (frame : String × K) : Entry K := ⟨r.name, .point r.lon r.lat, frame.1, some frame.2, none, none, none, none⟩

/-- The entry updated by samples (1529-1547 and ms.py 1011-1012). -/
def update (eps : K) (e : Entry K) (l : List (Samp K)) : Entry K :=
  match l with
  | [] => e
  | [s] => { e with
      place := .point s.lon s.lat
      pmRa := if noMotion eps l then none else some s.pm0
      pmDec := if noMotion eps l then none else some s.pm1 }
  | s :: _ => { e with
      place := .path (l.map (fun t => (t.time, t.lon, t.lat)))
      pmRa := if noMotion eps l then none else some s.pm0
      pmDec := if noMotion eps l then none else some s.pm1 }

/-- The names of frames of rows. -/
def refsOf (f : File K) : List String :=
  match f.refs with
  | some l => l
  | none => List.replicate f.fields.length f.ref

/-- `read_ms_field`, `read_ms_source` and what is made of them. -/
def read (tol eps : K) (f : File K) : Except Err (Cat K) :=
  match (refsOf f).mapM (frameOf (K := K)) with
  | none => .error .value
  | some fr => match readSrc tol (fun _ => []) f.srcs with
    | .error e => .error e
    | .ok d =>
      if f.fields.all (fun r => decide (0 ≤ r.id)) then
        .ok ((f.fields.zip fr).map (fun x => (x.1.id, update eps (baseEntry x.1 x.2) (d x.1.id))))
      else .ok ((f.fields.zip fr).zipIdx.map (fun x => ((x.2 : Int), baseEntry x.1.1 x.1.2)))

end

end Verif.MsCat
