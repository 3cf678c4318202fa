import Mathlib.Data.List.Sort
import Mathlib.Data.Prod.Lex

/-!
# Packed files of MIR data

Model of `MirMetaData.group_by` (`src/pyuvdata/uvdata/mir_meta_data.py` 1747-1876), `_recalc_dataoff` (2419-2470), `_generate_recpos_dict`
(2472-2596), and of `MirParser._scan_int_headers` (`src/pyuvdata/uvdata/mir_parser.py` 443-563), `_read_packdata` (620-829), `_make_packdata`
(832-931), the slices of `_read_data` (1169-1192) and `_write_cross_data` (1226-1302).

Only the newer format of cross-correlations is modelled: headers of two 4 byte integers, values of two bytes, all with the lowest byte first.
-/

namespace Verif.MirPack

/-! ## Groups -/

/-- `np.lexsort` of rows `0, ..., n - 1` (1827): it is stable. `key` holds the fields, compared from the last one. -/
def lexsort {κ : Type} [LinearOrder κ] (key : Nat → κ) (n : Nat) : List Nat :=
  (List.range n).insertionSort (fun i j => toLex (key i, i) ≤ toLex (key j, j))

/-- `group_by` with `return_index=True` (1827-1876): sorted rows are cut where a field changes. -/
def groupBy {κ : Type} [LinearOrder κ] (key : Nat → κ) (n : Nat) : List (κ × List Nat) :=
  ((lexsort key n).splitBy (fun i j => key i = key j)).map fun g => (key (g.headD 0), g)

/-! ## Bytes -/

/-- `<i4`, for numbers that are not negative. -/
def le4 (n : Nat) : List Nat := [n % 256, n / 256 % 256, n / 65536 % 256, n / 16777216 % 256]

def dec4 (b : List Nat) : Int :=
  let n := b.getD 0 0 + 256 * b.getD 1 0 + 65536 * b.getD 2 0 + 16777216 * b.getD 3 0
  if n < 2147483648 then n else (n : Int) - 4294967296

/-- `<i2`. -/
def le2 (x : Int) : List Nat := [(x % 65536).toNat % 256, (x % 65536).toNat / 256]

def dec2 (a b : Nat) : Int := if a + 256 * b < 32768 then ((a + 256 * b : Nat) : Int) else ((a + 256 * b : Nat) : Int) - 65536

/-- `.view("<i2")` (919, 1174). -/
def view : List Nat → List Int
  | a :: b :: l => dec2 a b :: view l
  | _ => []

/-! ## Writing -/

/-- A spectrum: its number, that of its integration, its number of channels in the table, the exponent and the values (real, imaginary, real, ...). -/
structure Row where
  id : Nat
  int : Nat
  nch : Nat
  scale : Int
  data : List Int
deriving DecidableEq

/-- Number of values of a spectrum: `_get_record_size_info` over the size of one value (2413-2415, 2567). -/
def Row.size (r : Row) : Nat := 1 + 2 * r.nch

/-- `np.cumsum(sizes) - sizes` (2462, 2569-2570). -/
def startsFrom : Nat → List Nat → List Nat
  | _, [] => []
  | k, s :: l => k :: startsFrom (k + s) l

def starts (l : List Nat) : List Nat := startsFrom 0 l

/-- Where the record of an integration is: `int_dict` (2589-2593). -/
structure Rec where
  int : Nat
  size : Nat
  start : Nat
deriving DecidableEq

/-- Spectra by integration (2551, 2560-2562). -/
def ints (rows : List Row) : List (Nat × List Row) :=
  (groupBy (fun i => (rows[i]?.map (fun r => r.int)).getD 0) rows.length).map fun g => (g.1, g.2.filterMap fun i => rows[i]?)

/-- Positions of spectra in the record of an integration, when it is written (2569-2579): number, first and last value. -/
def recpos (g : List Row) : List (Nat × Nat × Nat) :=
  List.zipWith (fun r s => (r.id, s, s + r.size)) g (starts (g.map Row.size))

/-- `_recalc_dataoff` (2450-2462) gives the offsets that are in the table of the file, from which positions are made when it is
read (2556, 2572-2573). -/
def readPos (g : List Row) : List (Nat × Nat × Nat) :=
  List.zipWith (fun r off => (r.id, off / 2, off / 2 + r.size)) g (starts (g.map fun r => 2 * r.size))

/-- Bytes of the values of an integration: `eidx_arr.max() * val_size` (2582). -/
def recSize (pos : List (Nat × Nat × Nat)) : Nat := (pos.map (fun x => x.2.2)).foldl max 0 * 2

def headerSize : Nat := 8

/-- `int_dict` (2559-2595), from positions of spectra. -/
def intDict (pos : List Row → List (Nat × Nat × Nat)) (gs : List (Nat × List Row)) : List Rec :=
  List.zipWith (fun g s => ⟨g.1, recSize (pos g.2), s⟩) gs (starts (gs.map fun g => recSize (pos g.2) + headerSize))

/-- An array gets values from position `s` on. -/
def put (a : List Int) (s : Nat) (v : List Int) : List Int := a.take s ++ v ++ a.drop (s + v.length)

/-- The values of an integration (919-927); `junk` is what `np.empty` gives. -/
def fill (junk : List Int) (g : List Row) : List Int :=
  (List.zip g (recpos g)).foldl (fun a x => put (put a x.2.2.1 [x.1.scale]) (x.2.2.1 + 1) x.1.data) junk

/-- One record of the file (902-929, 1302). -/
def record (junk : Nat → List Int) (g : Nat × List Row) : List Nat :=
  le4 g.1 ++ le4 (recSize (recpos g.2)) ++ (fill (junk (recSize (recpos g.2) / 2)) g.2).flatMap le2

/-- `_write_cross_data` (1275-1302): the file. -/
def writeFile (junk : Nat → List Int) (rows : List Row) : List Nat := (ints rows).flatMap (record junk)

/-! ## Scanning -/

inductive Scan where
  | ok (l : List Rec)
  | negative
deriving DecidableEq

/-- The loop of `_scan_int_headers` without `old_int_dict` (515-553); entries in the order of the file. Later ones replace earlier ones
of the same number. `fuel` is more than the number of bytes. -/
def scanLoop (file : List Nat) : Nat → Nat → List Rec → Scan
  | 0, _, acc => .ok acc
  | fuel + 1, start, acc =>
    if start + headerSize < file.length then
      let h := (file.drop start).take headerSize
      let int := dec4 (h.take 4)
      let size := dec4 (h.drop 4)
      if size < 0 then .negative
      else
        let stop := start + headerSize + size.toNat
        let acc := if stop ≤ file.length then acc.filter (fun r => r.int ≠ int.toNat) ++ [⟨int.toNat, size.toNat, start⟩] else acc
        scanLoop file fuel stop acc
    else .ok acc

def scan (file : List Nat) : Scan := scanLoop file (file.length + 1) 0 []

/-! ## Reading -/

/-- One call of `np.fromfile` or `np.memmap` (726-736). -/
structure Read where
  keys : List Nat
  size : Nat
  num : Nat
  del : Int
  start : Nat
deriving DecidableEq

/-- State of the loop (696-703). -/
structure Plan where
  keys : List Nat
  lastOff : Nat
  lastSize : Nat
  num : Nat
  del : Int
  reads : List Read

/-- One turn of the loop, for an integration that is in the file (705-749). -/
def planStep (hdr : Nat) (p : Plan) (r : Rec) : Plan :=
  if r.size ≠ p.lastSize ∨ p.lastOff + (hdr + p.lastSize) * p.num ≠ r.start then
    { keys := [r.int]
      lastOff := r.start
      lastSize := r.size
      num := 1
      del := (r.start : Int) - (p.lastOff + p.num * p.lastSize : Nat)
      reads := if p.num ≠ 0 ∧ p.lastSize ≠ 0 then p.reads ++ [⟨p.keys, p.lastSize, p.num, p.del, p.lastOff⟩] else p.reads }
  else { p with num := p.num + 1, keys := p.keys ++ [r.int] }

/-- All calls; the last is that of the extra key `None` (680, 706-708). -/
def plan (hdr : Nat) (recs : List Rec) : List Read :=
  (planStep hdr (recs.foldl (planStep hdr) ⟨[], 0, 0, 0, 0, []⟩) ⟨0, 0, 0⟩).reads

/-- What the records are read from, with `np.memmap` (756-772): key, first byte, number of bytes. -/
def mmapPos (hdr : Nat) (r : Read) : List (Nat × Nat × Nat) :=
  r.keys.mapIdx fun i k => (k, r.start + i * (hdr + r.size), hdr + r.size)

def mmapAll (hdr : Nat) (recs : List Rec) : List (Nat × Nat × Nat) := (plan hdr recs).flatMap (mmapPos hdr)

/-- The same with `np.fromfile` (774-792): offsets are relative to where the last call ended. -/
def filePos (hdr : Nat) : Int → List Read → List (Nat × Int × Nat)
  | _, [] => []
  | pos, r :: l =>
    (r.keys.mapIdx fun i k => (k, pos + r.del + i * (hdr + r.size), hdr + r.size)) ++
      filePos hdr (pos + r.del + r.num * (hdr + r.size)) l

def fileAll (hdr : Nat) (recs : List Rec) : List (Nat × Int × Nat) := filePos hdr 0 (plan hdr recs)

/-- The bytes. -/
def slice {α : Type} (l : List α) (a n : Nat) : List α := (l.drop a).take n

/-- `_read_data` (1169-1192) with `np.memmap`: number of the spectrum, exponent and values. -/
def readFile (file : List Nat) (gs : List (Nat × List Row)) : List (Nat × Int × List Int) :=
  let packs := (mmapAll headerSize (intDict readPos gs)).map fun x => (x.1, view ((slice file x.2.1 x.2.2).drop headerSize))
  gs.flatMap fun g =>
    let v := (packs.lookup g.1).getD []
    (readPos g.2).map fun x => (x.1, v.getD x.2.1 0, slice v (x.2.1 + 1) (x.2.2 - (x.2.1 + 1)))

end Verif.MirPack
