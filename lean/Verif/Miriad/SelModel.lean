import Mathlib.Algebra.Order.Field.Basic
import Verif.Np

/-!
# What a selection on reading a Miriad file keeps

Model of lines 776-938 of `read_miriad` in `src/pyuvdata/uvdata/miriad.py`, of `ij2bl`, `bl2ij` and `uv_selector` in
`src/pyuvdata/uvdata/aipy_extracts.py` (44-93, 201-246, 547-550), of `MKBL`, `GETI`, `GETJ` in
`src/pyuvdata/uvdata/src/miriad_wrap.pyx` (98-105) and of `uvselect_c`, `uvread_select` and `uvbasant_c` in
`src/pyuvdata/uvdata/src/uvio.c` (2259-2540, 3147-3530, 4893-4905).

Texts that name antennas are given after they were parsed (`parse_ants` is a list of items). Antenna numbers are natural numbers. The
table of antenna pairs of a clause is a function of the larger and the smaller number counted from one. Checks of types are left out,
as are the kinds of selection that `read_miriad` does not use.
-/

namespace Verif.Miriad

variable {α : Type} [Field α] [LinearOrder α]

/-- `ij2bl` (aipy_extracts.py 71-93). -/
def ij2bl (i j : Nat) : Nat :=
  let p := if i > j then (j, i) else (i, j)
  if p.2 + 1 < 256 then 256 * (p.1 + 1) + (p.2 + 1) else 2048 * (p.1 + 1) + (p.2 + 1) + 65536

/-- `bl2ij` with the one that `select` adds again (aipy_extracts.py 44-68, 547-549), and `uvbasant_c`: antennas counted from one. -/
def bl2ant (bl : Nat) : Nat × Nat :=
  if bl > 65536 then ((bl - 65536) / 2048, (bl - 65536) % 2048) else (bl / 256, bl % 256)

/-- `MKBL`: the baseline number that is written for a pair of antennas. -/
def mkbl (i j : Nat) : Nat :=
  if i + 1 < 256 ∧ j + 1 < 256 then 256 * (i + 1) + (j + 1) else (i + 1) * 2048 + (j + 1 + 65536)

/-- `GETI` and `GETJ`: the antennas that are read. -/
def getIJ (bl : Nat) : Int × Int := (((bl2ant bl).1 : Int) - 1, ((bl2ant bl).2 : Int) - 1)

/-- A record: baseline number, start of the integration as a Julian date and since the last midnight, length of the integration in
days, polarization. -/
structure Rcd (α : Type) where
  bl : Nat
  time : α
  tod : α
  int : α
  pol : Int

/-- `SELECT`: one clause. The table says what is discarded. -/
structure Clause (α : Type) where
  isAnd : Bool
  ants : Option (Nat → Nat → Bool)
  times : List (Bool × α × α)
  pols : List (Bool × Int)

/-- Calls of `uvselect_c`. -/
inductive Call (α : Type) where
  | opOr
  | opAnd
  | ant (i j : Nat) (incl : Bool)
  | auto (incl : Bool)
  | time (lo hi : α) (incl : Bool)
  | pol (p : Int) (incl : Bool)

/-- A clause without conditions. -/
def Clause.fresh (a : Bool) : Clause α := ⟨a, none, [], []⟩

/-- The table of a clause, made if it is missing (2491-2495, 2500-2504). -/
def Clause.table (c : Clause α) (discard : Bool) : Nat → Nat → Bool := c.ants.getD (fun _ _ => !discard)

/-- 2505-2517: entries of a pair, of an antenna or of all. -/
def setAnts (t : Nat → Nat → Bool) (i1 i2 : Nat) (discard : Bool) : Nat → Nat → Bool := fun x y =>
  if i1 = 0 then discard
  else if i2 = 0 then (if x = i1 ∨ y = i1 then discard else t x y)
  else if x = i1 ∧ y = i2 then discard else t x y

/-- What a call does to the last clause; `none` is a fatal error. -/
def onLast (c : Clause α) : Call α → Option (List (Clause α))
  | .opOr => some [c, Clause.fresh false]
  | .opAnd => some [c, Clause.fresh true]
  | .ant i j incl => if max i j > 2048 then none else some [{ c with ants := some (setAnts (c.table (!incl)) (max i j) (min i j) (!incl)) }]
  | .auto incl => some [{ c with ants := some (fun x y => if x = y then !incl else c.table (!incl) x y) }]
  | .time lo hi incl => if lo ≥ hi then none else some [{ c with times := c.times ++ [(!incl, lo, hi)] }]
  | .pol p incl => some [{ c with pols := c.pols ++ [(!incl, p)] }]

/-- `uvselect_c`. -/
def uvselect (cs : List (Clause α)) (k : Call α) : Option (List (Clause α)) :=
  match cs.getLast?, k with
  | none, .opOr => some []
  | none, .opAnd => some []
  | none, k => onLast (Clause.fresh true) k
  | some c, k => (onLast c k).map (fun l => cs.dropLast ++ l)

/-- Conditions of one kind: the first says what happens to records that meet none of them (for example 3205-3214). -/
def evalOps {β : Type} (hit : β → Bool) (l : List (Bool × β)) : Bool :=
  match l with
  | [] => false
  | o :: r => (o :: r).foldl (fun d x => if hit x.2 then x.1 else d) (!o.1)

/-- Whether a clause discards a record (3163-3450). -/
def discards (c : Clause α) (r : Rcd α) : Bool :=
  let a := bl2ant r.bl
  (match c.ants with
    | none => false
    | some t => if a.1 < 1 ∨ a.2 > 2048 then true else t a.2 a.1) ||
  evalOps (fun x : α × α => decide (x.1 ≤ r.time ∧ r.time ≤ x.2 ∨ x.1 ≤ r.tod ∧ r.tod ≤ x.2)) c.times ||
  evalOps (fun p : Int => decide (p = r.pol)) c.pols

/-- `uvread_select`: whether a record is read. -/
def keeps (cs : List (Clause α)) (r : Rcd α) : Bool :=
  cs.foldl (fun prev c => if (!prev && c.isAnd) || (prev && !c.isAnd) then prev else !discards c r) true

/-- Many calls. -/
def calls (cs : List (Clause α)) (l : List (Call α)) : Option (List (Clause α)) := l.foldlM uvselect cs

/-- What `parse_ants` returns: a baseline number or "auto", whether to include it, a polarization. -/
structure Item where
  bl : Option Nat
  incl : Bool
  pol : Option Int

/-- The calls of `uv_selector` for an item (223-242). -/
def itemCalls (first : Bool) (x : Item) : List (Call α) :=
  (if first then [] else if x.incl then [.opOr] else [.opAnd]) ++
  (match x.bl with
    | none => [.auto x.incl]
    | some b => [.ant (bl2ant b).1 (bl2ant b).2 x.incl]) ++
  (match x.pol with
    | none => []
    | some p => [.pol p true])

/-- `uv_selector`. -/
def selectorCalls : List Item → List (Call α)
  | [] => []
  | x :: r => itemCalls true x ++ r.flatMap (itemCalls false)

/-- The item of a pair "a_b". -/
def pairItem (p : Nat × Nat) : Item := ⟨some (ij2bl p.1 p.2), true, none⟩

/-- `itertools.combinations_with_replacement(nums, 2)` (800-802). -/
def withRepl : List Nat → List (Nat × Nat)
  | [] => []
  | a :: r => (a :: r).map (fun b => (a, b)) ++ withRepl r

/-- What is asked for: antenna numbers, antenna pairs with or without a polarization, a range of times, polarizations. -/
structure Req (α : Type) where
  nums : Option (List Nat)
  bls : Option (List (Nat × Nat × Option Int))
  range : Option (α × α)
  pols : Option (List Int)

/-- 841-847: pairs as they are looked for. -/
def blPairs (l : List (Nat × Nat × Option Int)) : List (Nat × Nat) := l.map (fun x => if x.1 ≤ x.2.1 then (x.1, x.2.1) else (x.2.1, x.1))

/-- 844-849: polarizations of the pairs; `cp` is `conj_pol`. -/
def blPols (cp : Int → Int) (l : List (Nat × Nat × Option Int)) : List Int :=
  l.filterMap (fun x => x.2.2.map (fun p => if x.1 ≤ x.2.1 then p else cp p))

/-- 851-857: the antenna pairs; `inter` is the intersection of sets, as a list in an order that is not known. -/
def pairs (inter : List (Nat × Nat) → List (Nat × Nat) → List (Nat × Nat)) (q : Req α) : Option (List (Nat × Nat)) :=
  match q.nums, q.bls with
  | none, none => none
  | some n, none => some (withRepl n)
  | none, some b => some (blPairs b)
  | some n, some b => some (inter (withRepl n) (blPairs b))

/-- 859-860. -/
def polsOf (cp : Int → Int) (q : Req α) : Option (List Int) :=
  match q.bls with
  | none => q.pols
  | some b => if (blPols cp b).length > 0 then some (blPols cp b) else q.pols

/-- `np.arange(-8, 5)`. -/
def allPols : List Int := [-8, -7, -6, -5, -4, -3, -2, -1, 0, 1, 2, 3, 4]

/-- 893-895; `int0` is the length of the integration of the first record of the file. -/
def timeCalls (int0 : α) (q : Req α) : List (Call α) :=
  match q.range with
  | none => []
  | some x => [.time (x.1 - int0 / 2) (x.2 - int0 / 2) true]

/-- 924-930. -/
def polCalls (cp : Int → Int) (q : Req α) : List (Call α) :=
  match polsOf cp q with
  | none => []
  | some l => (allPols.filter (fun p => decide (p ∉ l))).map (fun p => .pol p false)

/-- All calls of a selection, in order. -/
def readCalls (inter : List (Nat × Nat) → List (Nat × Nat) → List (Nat × Nat)) (cp : Int → Int) (int0 : α) (q : Req α) : List (Call α) :=
  (match pairs inter q with
    | none => []
    | some l => selectorCalls (l.map pairItem)) ++ timeCalls int0 q ++ polCalls cp q

/-- Records of a file that are read; `none` is an error. -/
def readSel (inter : List (Nat × Nat) → List (Nat × Nat) → List (Nat × Nat)) (cp : Int → Int) (q : Req α) (file : List (Rcd α)) :
    Option (List (Rcd α)) :=
  match file with
  | [] => none
  | r :: _ =>
    match (polsOf cp q).map (fun l => allPols.filter (fun p => decide (p ∈ l))) with
    | some [] => none
    | _ => match calls [] (readCalls inter cp r.int q) with
      | none => none
      | some cs => match file.filter (keeps cs) with
        | [] => none
        | l => some l

end Verif.Miriad
