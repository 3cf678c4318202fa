import Mathlib.Data.List.Infix
import Verif.Np

/-!
# Histories in measurement sets

Model of `write_ms_history` and `read_ms_history` (`src/pyuvdata/utils/io/ms.py` 954-1099, 820-951).

* A history is the list of its lines (`splitlines`, 999). A row of the table HISTORY is the list of its nine entries; numbers are kept as text, since they
  are written by `str` and read by `int` and `float`. Messages are single lines.
* The table has the columns APP_PARAMS and CLI_COMMAND (875-884).
* Left out: the version that is appended (943-945; C40), warnings.
-/

namespace Verif.MsHist

abbrev Str := List Char
abbrev Row := List Str

def begins : Str := "Begin measurement set history".toList
def head4 : Str := "APP_PARAMS;CLI_COMMAND;APPLICATION;MESSAGE".toList
def header : Str := head4 ++ ";OBJECT_ID;OBSERVATION_ID;ORIGIN;PRIORITY;TIME".toList
def ends : Str := "End measurement set history.".toList

def isHeader (l : Str) : Bool := decide (head4 <:+: l)
def isEnd (l : Str) : Bool := decide ("End measurement set history".toList <:+: l)
def isBegin (l : Str) : Bool := decide (begins <:+: l)

/-- `line.split(";")`. -/
def split : Str → List Str
  | [] => [[]]
  | c :: t => if c = ';' then [] :: split t else
    match split t with
    | [] => [[c]]
    | h :: r => (c :: h) :: r

/-- `";".join`. -/
def join : List Str → Str
  | [] => []
  | [a] => a
  | a :: t => a ++ ';' :: join t

/-- Lines 1013-1036. -/
def parse (l : Str) : Option Row := if (split l).length = 9 then some (split l) else none

/-- A row of pyuvdata (1045-1065). -/
def ownRow (now l : Str) : Row := [[], [], "pyuvdata".toList, l, "0".toList, "-1".toList, "pyuvdata".toList, "INFO".toList, now]

structure St where
  hdr : Bool
  ended : Bool
  pre : List Str
  rows : List Row
  post : List Str
  ok : Bool

/-- Lines 999-1043. -/
def step (s : St) (l : Str) : St :=
  if !s.ok then s
  else if isHeader l then { s with hdr := true }
  else if isEnd l then { s with ended := true }
  else if s.hdr && !s.ended then
    match parse l with
    | none => { s with pre := [], post := [], ok := false }
    | some r => { s with rows := s.rows ++ [r] }
  else if !s.hdr then (if isBegin l then s else { s with pre := s.pre ++ [l] })
  else { s with post := s.post ++ [l] }

/-- `write_ms_history`. -/
def write (now : Str) (h : List Str) : List Row :=
  if h.any isHeader then
    let s := h.foldl step ⟨false, false, [], [], [], true⟩
    let rows := s.pre.map (ownRow now) ++ s.rows ++ s.post.map (ownRow now)
    if s.ok then rows else rows ++ h.map (ownRow now)
  else h.map (ownRow now)

/-- Line 907. -/
def isOwn (r : Row) : Bool := decide ("pyuvdata".toList <:+: r.getD 2 [])

def message (r : Row) : Str := r.getD 3 []

/-- Lines 910-919. -/
def block (rows : List Row) : List Str := [begins, header] ++ (rows.filter (fun r => !isOwn r)).map join ++ [ends]

/-- Lines 921-931 and 936: rows before the first one that is not of pyuvdata; none if there is no such row. -/
def limit (rows : List Row) : Nat := if rows.all isOwn then 0 else rows.findIdx (fun r => !isOwn r)

/-- `read_ms_history`. -/
def read (rows : List Row) : List Str :=
  if rows = [] then []
  else (List.range rows.length).foldl (fun h i =>
    if isOwn (rows.getD i []) then (if i < limit rows then message (rows.getD i []) :: h else h ++ [message (rows.getD i [])]) else h) (block rows)

end Verif.MsHist
