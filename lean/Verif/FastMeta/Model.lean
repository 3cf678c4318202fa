import Verif.BltAxis.RectProps
import Mathlib.Data.List.Dedup

/-!
# Metadata of uvh5 files read on demand

Model of the class `FastUVH5Meta` of `src/pyuvdata/uvdata/uvh5.py`: `Nbls` (lines 181-204), `blt_order` (206-231),
`blts_are_rectangular` (233-261), `time_axis_faster_than_bls` (263-277), `times` (279-289), `lsts` (291-301),
`unique_antpair_1_array`, `unique_antpair_2_array`, `unique_ants` (328-361), `antpairs` (379-385) and `has_key`
(387-397).

Simplifications.  The arrays of the header are a list of rows, each with its time, antennas and baseline number (the
baseline numbers are computed from the antennas: `antnums_to_baseline`, C01).  The values are those of a file that does
not change, so that the caches of the properties are left out; the side effect of `blts_are_rectangular` on the private
`__time_first` is kept.  The order of `list(set(…))` is not defined by Python; here it is that of the last occurrences.
-/

namespace Verif.FastMeta

open Verif.BltAxis Verif.Np

/-- The header of a file.  `lsts`, `order`, `rect`, `timeFirst` are `none` if the file does not have them. -/
structure Hdr (τ L : Type) where
  rows : List (Row τ)
  lsts : Option (List L)
  nblts : Nat
  ntimes : Nat
  nbls : Nat
  hera : Bool
  order : Option (List Key)
  rect : Option Bool
  timeFirst : Option Bool
  pols : List (List Char)

/-- What can be asked for the order of the rows: nothing, to determine it, or what it is said to be. -/
inductive OrderOpt
  | unset
  | determine
  | given (ks : List Key)
deriving DecidableEq

/-- The arguments of the constructor, uvh5.py 142-158. -/
structure Opts where
  order : OrderOpt := .unset
  rect : Option Bool := none
  timeFirst : Option Bool := none
  recompute : Option Bool := none

variable {τ L : Type} [LinearOrder τ]

/-- `Nbls`, uvh5.py 181-204.  A file of the telescope HERA whose number of baselines is that of the rows is taken to be
an old one with a wrong header. -/
def nbls (o : Opts) (h : Hdr τ L) : Nat :=
  match o.recompute with
  | some true =>
    if o.rect = some true then h.nblts / h.ntimes                            -- 185-186
    else ((h.rows.map Row.bl).dedup).length                                   -- 188
  | none =>
    if h.hera ∧ h.nbls = h.nblts ∧ (o.rect = some true ∨ h.nblts % h.ntimes = 0) then h.nblts / h.ntimes
    else h.nbls                                                               -- 192-202
  | some false => h.nbls                                                      -- 204

/-- `blt_order`, uvh5.py 217-231. -/
def bltOrder (o : Opts) (h : Hdr τ L) : Except Err (Option (List Key)) :=
  match o.order with
  | .given ks => .ok (some ks)
  | .determine =>
    match h.order with
    | some ks => .ok (some ks)
    | none => determineBltOrder h.rows (nbls o h) h.ntimes
  | .unset => .ok h.order

/-- The two orders of uvh5.py 249-252. -/
def isGrid (ord : Option (List Key)) : Bool := ord = some [.time, .baseline] || ord = some [.baseline, .time]

/-- What the arrays say, uvh5.py 255-261. -/
def fromRows (o : Opts) (h : Hdr τ L) : Except Err (Bool × Option Bool) :=
  let r := determineRectangularity (h.rows.map Row.t) (h.rows.map Row.bl) (nbls o h) h.ntimes none
  .ok (r.1, some r.2)

/-- `blts_are_rectangular` and `__time_first` afterwards, uvh5.py 233-261. -/
def rectangular (o : Opts) (h : Hdr τ L) : Except Err (Bool × Option Bool) :=
  match o.rect with
  | some b => .ok (b, o.timeFirst)                                            -- 242-243
  | none =>
    match h.rect with
    | some b => .ok (b, o.timeFirst)                                          -- 246-247
    | none =>
      if h.nblts = h.ntimes * nbls o h then
        match bltOrder o h with
        | .error e => .error e
        | .ok ord => if isGrid ord then .ok (true, o.timeFirst) else fromRows o h     -- 249-253
      else fromRows o h

/-- `time_axis_faster_than_bls`, uvh5.py 263-277. -/
def timeFaster (o : Opts) (h : Hdr τ L) : Except Err Bool :=
  match rectangular o h with
  | .error e => .error e
  | .ok (false, _) => .ok false                                               -- 267-268
  | .ok (true, some b) => .ok b                                               -- 269-270
  | .ok (true, none) =>
    match h.timeFirst with
    | some b => .ok b                                                         -- 271-272
    | none =>
      if h.ntimes = 1 then .ok false                                          -- 273-274
      else if h.ntimes = h.nblts then .ok true                                -- 275-276
      else .ok (!decide ((h.rows.map Row.t)[1]? = (h.rows.map Row.t)[0]?))    -- 277

/-- `l[::n]` for a positive `n`. -/
def stride {β : Type} (n : Nat) (l : List β) : List β :=
  (List.range ((l.length + n - 1) / n)).filterMap (fun i => l[i * n]?)

/-- `np.unique`. -/
def uniq {β : Type} [LinearOrder β] (l : List β) : List β := l.dedup.insertionSort (· ≤ ·)

/-- `times`, uvh5.py 279-289. -/
def times (o : Opts) (h : Hdr τ L) : Except Err (List τ) :=
  match rectangular o h, timeFaster o h with
  | .error e, _ => .error e
  | _, .error e => .error e
  | .ok (true, _), .ok true => .ok ((h.rows.map Row.t).take h.ntimes)
  | .ok (true, _), .ok false => .ok (stride (nbls o h) (h.rows.map Row.t))
  | .ok (false, _), _ => .ok (uniq (h.rows.map Row.t))

/-- `lsts`, uvh5.py 291-301; `lstOf` computes the sidereal time of a time, uvh5.py 303-315. -/
def lsts [LinearOrder L] (lstOf : τ → L) (o : Opts) (h : Hdr τ L) : Except Err (List L) :=
  match h.lsts with
  | some l =>
    match rectangular o h, timeFaster o h with
    | .error e, _ => .error e
    | _, .error e => .error e
    | .ok (true, _), .ok true => .ok (l.take h.ntimes)
    | .ok (true, _), .ok false => .ok (stride (nbls o h) l)
    | .ok (false, _), _ => .ok (uniq l)
  | none => .ok (uniq (h.rows.map (fun r => lstOf r.t)))

/-- The antennas of a row. -/
def pair (r : Row τ) : Nat × Nat := (r.a, r.b)

/-- `antpairs`, uvh5.py 379-385, with the two arrays of lines 328-350. -/
def antpairs (o : Opts) (h : Hdr τ L) : Except Err (List (Nat × Nat)) :=
  match rectangular o h, timeFaster o h with
  | .error e, _ => .error e
  | _, .error e => .error e
  | .ok (true, _), .ok true => .ok ((stride h.ntimes (h.rows.map Row.a)).zip (stride h.ntimes (h.rows.map Row.b)))
  | .ok (true, _), .ok false =>
    .ok (((h.rows.map Row.a).take (nbls o h)).zip ((h.rows.map Row.b).take (nbls o h)))
  | .ok (false, _), _ => .ok ((h.rows.map pair).dedup)

/-- `unique_ants`, uvh5.py 352-361: a set, given by its elements. -/
def uniqueAnts (o : Opts) (h : Hdr τ L) : Except Err (List Nat) :=
  match antpairs o h with
  | .error e => .error e
  | .ok l => .ok (uniq (l.map Prod.fst ++ l.map Prod.snd))

/-- A key: two antennas, with or without a polarization. -/
structure Key3 where
  a : Nat
  b : Nat
  pol : Option (List Char)

/-- `has_key`, uvh5.py 387-397.  The first condition is parsed as `(len == 2 and key in …) or (reversed in …)`. -/
def hasKey (o : Opts) (h : Hdr τ L) (k : Key3) : Except Err Bool :=
  match antpairs o h with
  | .error e => .error e
  | .ok l =>
    .ok ((k.pol.isNone && l.contains (k.a, k.b)) || l.contains (k.b, k.a) ||
      (match k.pol with
        | none => false
        | some p => (l.contains (k.a, k.b) && h.pols.contains p) ||
            (l.contains (k.b, k.a) && h.pols.contains p.reverse)))

end Verif.FastMeta
