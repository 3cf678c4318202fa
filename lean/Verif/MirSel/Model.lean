import Mathlib.Order.Basic
import Mathlib.Order.Defs.LinearOrder
import Verif.Pol.Model

/-!
# Selections from MIR data

Model of `MirParser.select` (`src/pyuvdata/uvdata/mir_parser.py` 3069-3214) and `MirParser._update_filter` (1825-1924), with
`MirMetaData.where`, `_index_query`, `_generate_mask`, `set_mask` and `_make_key_mask`
(`src/pyuvdata/uvdata/mir_meta_data.py` 931-1183, 1405-1468, 1513-1597, 2598-2705), `MirCodesData.where` (3072-3188), and of the list
of conditions that `Mir.read_mir` makes (`src/pyuvdata/uvdata/mir.py` 117-164).

A table is a list of rows with the bits of its mask; a row gives the values of each field (a list, since some fields of the weather
table have several values). Numbers are any linear order. Pairs of numbers are compared, not their 64-bit ciphers (the two are at most
16 and 32 bits wide, so it is the same). `np.isin(..., assume_unique=True)` is membership, as it is for identifiers that are unique.
A value to compare with is given as the list of its numbers and as the list of their texts, which are used for codes. Texts
for fields that are not codes, and conditions on the columns of the table of codes, are not modelled; nor is the
update of data that are loaded already.
-/

namespace Verif.MirSel
open Verif.Pol (Str)

/-- Names of fields, of codes, and short names that occur in the code; others by their text. -/
inductive Name
  | inhid | blhid | ints | antenna | iant1 | iant2
  | iproject | irefTime | iut | isource | ira | idec | ivrad | igq | ipq | ipol | irec | ipstate | isb | iband | iddsmode
  | project | refTime | ut | source | ra | dec | stype | svtype | vrad | gq | pq | tel1 | tel2 | pol | recv | pstate | sb | band | ddsmode
  | ant | ant1 | ant2
  | mjd | lstRange | blcd | corrchunk | correlator
  | other (s : Str)
deriving DecidableEq

inductive Comp
  | eq | ne | lt | le | gt | ge | between | outside
  | bad
deriving DecidableEq

inductive Err
  | value | index
deriving DecidableEq

variable {S : Type}

abbrev Row (S : Type) := Name → List S

structure Tab (S : Type) where
  /-- `self._data.dtype.names` -/
  has : Name → Bool
  /-- The rows and the mask. -/
  rows : List (Row S × Bool)

/-- `np.all(self._mask)`. -/
def Tab.all (t : Tab S) : Bool := t.rows.all (fun x => x.2)

/-- The rows whose bit is set. -/
def Tab.kept (t : Tab S) : List (Row S) := (t.rows.filter (fun x => x.2)).map (fun x => x.1)

/-- `set_mask` (`mir_meta_data.py` 1585-1597). -/
def Tab.setMask (t : Tab S) (p : Row S → Bool) (reset andMask : Bool) : Tab S :=
  if reset || t.all then { t with rows := t.rows.map (fun x => (x.1, p x.1)) }
  else if andMask then { t with rows := t.rows.map (fun x => (x.1, x.2 && p x.1)) }
  else { t with rows := t.rows.map (fun x => (x.1, x.2 || p x.1)) }

/-- A condition: a field, a comparison, and the value as numbers and as texts. -/
structure Cond (S : Type) where
  field : Name
  comp : Comp
  vals : List S
  texts : List Str

/-- What is in the list of conditions: a condition, or a tuple of so many tuples. -/
inductive Item (S : Type)
  | cond (c : Cond S)
  | nested (n : Nat)

/-- The comparison of one number (`where`, 997-1010). -/
def holds [LinearOrder S] (c : Comp) (vals : List S) (x : S) : Bool :=
  match c, vals with
  | .eq, vals => decide (x ∈ vals)
  | .ne, vals => decide (x ∉ vals)
  | .lt, [v] => decide (x < v)
  | .le, [v] => decide (x ≤ v)
  | .gt, [v] => decide (v < x)
  | .ge, [v] => decide (v ≤ x)
  | .between, a :: b :: _ => decide (a ≤ x) && decide (x ≤ b)
  | .outside, a :: b :: _ => decide (x < a) || decide (b < x)
  | _, _ => false

/-- The error of a comparison, if there is one. -/
def compErr (c : Comp) (vals : List S) : Option Err :=
  match c, vals with
  | .bad, _ => some .value
  | .eq, _ => none
  | .ne, _ => none
  | .between, _ :: _ :: _ => none
  | .between, _ => some .index
  | .outside, _ :: _ :: _ => none
  | .outside, _ => some .index
  | _, [_] => none
  | _, _ => some .value

/-- `where` for one row (1024-1029): one of the values of the field. -/
def test [LinearOrder S] (c : Cond S) (row : Row S) : Bool := (row c.field).any (holds c.comp c.vals)

/-- The loop of `_index_query` (1164-1183): conditions on fields the table does not have are passed over; `none` if it has none. -/
def query [LinearOrder S] (t : Tab S) (andArgs : Bool) : List (Item S) → Except Err (Option (Row S → Bool))
  | [] => .ok none
  | .nested _ :: l => query t andArgs l
  | .cond c :: l =>
    if t.has c.field then
      match compErr c.comp c.vals with
      | some e => .error e
      | none => match query t andArgs l with
        | .error e => .error e
        | .ok none => .ok (some (test c))
        | .ok (some p) => .ok (some (fun row => if andArgs then test c row && p row else test c row || p row))
    else query t andArgs l

/-- `len(item) != 3` (1156); each condition has three parts. -/
def wrongLength : Item S → Bool
  | .nested n => decide (n ≠ 3)
  | .cond _ => false

/-- `_generate_mask` as `select` calls it (3196-3206): all rows if no condition is about the table. -/
def genMask [LinearOrder S] (t : Tab S) (andArgs : Bool) (q : Option (List (Item S))) : Except Err (Row S → Bool) :=
  match q with
  | none => .ok (fun _ => true)
  | some [] => .error .index
  | some l =>
    if l.any wrongLength then .error .value
    else match query t andArgs l with
      | .error e => .error e
      | .ok none => .ok (fun _ => true)
      | .ok (some p) => .ok p

/-- The table of codes: name, text, and number. -/
abbrev Codes (S : Type) := List (Name × Str × S)

/-- `_codes_index_dict` (3001-3022). -/
def codeField : Name → Option Name
  | .project => some .iproject
  | .refTime => some .irefTime
  | .ut => some .iut
  | .source => some .isource
  | .ra => some .ira
  | .dec => some .idec
  | .stype => some .isource
  | .svtype => some .isource
  | .vrad => some .ivrad
  | .gq => some .igq
  | .pq => some .ipq
  | .tel1 => some .iant1
  | .tel2 => some .iant2
  | .pol => some .ipol
  | .recv => some .irec
  | .pstate => some .ipstate
  | .sb => some .isb
  | .band => some .iband
  | .ddsmode => some .iddsmode
  | _ => none

/-- `alias_dict` (`mir_parser.py` 3146). -/
def longName : Name → Name
  | .ant => .antenna
  | .ant1 => .tel1
  | .ant2 => .tel2
  | n => n

/-- The numbers of codes whose text is among those given, or is not (`MirCodesData.where`). -/
def codeVals (codes : Codes S) (n : Name) (neg : Bool) (texts : List Str) : List S :=
  (codes.filter (fun e => decide (e.1 = n) && (if neg then decide (e.2.1 ∉ texts) else decide (e.2.1 ∈ texts)))).map (fun e => e.2.2)

/-- 3155-3179: short names and codes are replaced. -/
def subst (codes : Codes S) (c : Cond S) : Except Err (Cond S) :=
  let n := longName c.field
  match codeField n with
  | none => .ok { c with field := n }
  | some f => match c.comp with
    | .eq => .ok { c with field := f, comp := .eq, vals := codeVals codes n false c.texts }
    | .ne => .ok { c with field := f, comp := .eq, vals := codeVals codes n true c.texts }
    | _ => .error .value

def substItem (codes : Codes S) : Item S → Except Err (Item S)
  | .nested n => .ok (.nested n)
  | .cond c => match subst codes c with
    | .error e => .error e
    | .ok c' => .ok (.cond c')

def substAll (codes : Codes S) : List (Item S) → Except Err (List (Item S))
  | [] => .ok []
  | i :: l => match substItem codes i with
    | .error e => .error e
    | .ok i' => match substAll codes l with
      | .error e => .error e
      | .ok l' => .ok (i' :: l')

/-- The argument `where`: one condition, a list, or a tuple of conditions, which is wrapped in a list (3148-3150). -/
inductive Where (S : Type)
  | one (c : Cond S)
  | list (l : List (Cond S))
  | tuple (l : List (Cond S))

def items : Where S → List (Item S)
  | .one c => [.cond c]
  | .list l => l.map .cond
  | .tuple l => [.nested l.length]

/-- The tables, with the integrations that the files have data of. -/
structure St (S : Type) where
  inn : Tab S
  bl : Tab S
  sp : Tab S
  eng : Tab S
  we : Tab S
  ac : Tab S
  cross : Bool
  auto : Bool
  fileInts : List S
  codes : Codes S

/-- `np.isin` of the fields `fs` of a row and the fields `gs` of other rows (`_make_key_mask`). -/
def keyIn [DecidableEq S] (fs : List Name) (others : List (Row S)) (gs : List Name) (row : Row S) : Bool :=
  others.any (fun o => decide (gs.map o = fs.map row))

/-- 1825-1924. -/
def updateFilter [DecidableEq S] (s : St S) : St S :=
  let bl1 := if s.cross then s.bl.setMask (fun b => (b .inhid).any (fun v => decide (v ∈ s.fileInts))) false true else s.bl
  let bl2 := if s.sp.all then bl1 else bl1.setMask (keyIn [.blhid] s.sp.kept [.blhid]) false true
  let eng1 := if s.auto || !bl2.all then
      s.eng.setMask (fun e => keyIn [.antenna, .inhid] bl2.kept [.iant1, .inhid] e ||
        keyIn [.antenna, .inhid] bl2.kept [.iant2, .inhid] e ||
        (s.auto && keyIn [.antenna, .inhid] s.ac.kept [.antenna, .inhid] e)) false true
    else s.eng
  let in1 := if eng1.all then s.inn else s.inn.setMask (keyIn [.inhid] eng1.kept [.inhid]) false true
  let in2 := if s.we.all then in1 else in1.setMask (keyIn [.ints] s.we.kept [.ints]) false true
  let we1 := s.we.setMask (keyIn [.ints] in2.kept [.ints]) false true
  let bl3 := bl2.setMask (keyIn [.inhid] in2.kept [.inhid]) false true
  let bl4 := bl3.setMask (fun b => keyIn [.iant1, .inhid] eng1.kept [.antenna, .inhid] b &&
    keyIn [.iant2, .inhid] eng1.kept [.antenna, .inhid] b) false true
  let sp1 := s.sp.setMask (keyIn [.blhid] bl4.kept [.blhid]) false true
  let ac1 := if s.auto then s.ac.setMask (keyIn [.antenna, .inhid] eng1.kept [.antenna, .inhid]) false true else s.ac
  { s with inn := in2, bl := bl4, sp := sp1, eng := eng1, we := we1, ac := ac1 }

/-- `select`. -/
def select [LinearOrder S] (s : St S) (w : Option (Where S)) (andArgs andMask reset : Bool) : Except Err (St S) :=
  let q : Except Err (Option (List (Item S))) := match w with
    | none => .ok none
    | some w => match substAll s.codes (items w) with
      | .error e => .error e
      | .ok l => .ok (some l)
  match q with
  | .error e => .error e
  | .ok q => match genMask s.inn andArgs q with
    | .error e => .error e
    | .ok pin => match genMask s.bl andArgs q with
      | .error e => .error e
      | .ok pbl => match genMask s.sp andArgs q with
        | .error e => .error e
        | .ok psp => match genMask s.eng andArgs q with
          | .error e => .error e
          | .ok peng => match genMask s.we andArgs q with
            | .error e => .error e
            | .ok pwe =>
              let pac : Except Err (Row S → Bool) := if s.auto then genMask s.ac andArgs q else .ok (fun _ => true)
              match pac with
              | .error e => .error e
              | .ok pac => .ok (updateFilter { s with
                  inn := s.inn.setMask pin reset andMask
                  bl := s.bl.setMask pbl reset andMask
                  sp := s.sp.setMask psp reset andMask
                  eng := s.eng.setMask peng reset andMask
                  we := s.we.setMask pwe reset andMask
                  ac := if s.auto then s.ac.setMask pac reset andMask else s.ac })

/-- A value of a keyword of `read_mir`: numbers and texts. -/
structure Val (S : Type) where
  vals : List S
  texts : List Str

/-- The keywords of `read_mir` that select. -/
structure MirReq (S : Type) where
  antennaNums : Option (Val S) := none
  antennaNames : Option (Val S) := none
  bls : Option (Val S) := none
  timeRange : Option (Val S) := none
  lstRange : Option (Val S) := none
  polarizations : Option (Val S) := none
  catalogNames : Option (Val S) := none
  receivers : Option (Val S) := none
  sidebands : Option (Val S) := none
  corrchunk : Option (Val S) := none
  pseudoCont : Bool := false
  swarmOnly : Bool := true
  selectWhere : Option (List (Cond S)) := none

def ask (n : Name) (c : Comp) : Option (Val S) → List (Cond S)
  | none => []
  | some v => [⟨n, c, v.vals, v.texts⟩]

/-- `mir.py` 156-159: the chunk asked for, or all but the pseudo-continuum chunk. -/
def chunkConds (r : MirReq S) : List (Cond S) :=
  match r.corrchunk with
  | some v => [⟨.corrchunk, .eq, v.vals, v.texts⟩]
  | none => if r.pseudoCont then [] else [⟨.band, .ne, [], [['c', '1']]⟩]

/-- `mir.py` 124-161; `one` is the number 1 of the correlator. -/
def whereList (one : S) (r : MirReq S) : List (Cond S) :=
  match r.selectWhere with
  | some l => l
  | none => ask .ant .eq r.antennaNums ++ ask .tel1 .eq r.antennaNames ++ ask .tel2 .eq r.antennaNames ++ ask .blcd .eq r.bls ++
      ask .mjd .between r.timeRange ++ ask .lstRange .between r.lstRange ++ ask .pol .eq r.polarizations ++
      ask .source .eq r.catalogNames ++ ask .recv .eq r.receivers ++ ask .sb .eq r.sidebands ++
      chunkConds r ++ (if r.swarmOnly then [⟨.correlator, .eq, [one], []⟩] else [])

/-- The selection in `read_mir` (124-164), after the check of codes. -/
def readMir [LinearOrder S] (s : St S) (one : S) (r : MirReq S) : Except Err (St S) :=
  match whereList one r with
  | [] => .ok s
  | l => select s (some (.list l)) true true false

end Verif.MirSel
