/-!
# Repaired positions of the integrations of MIR files

Model of `MirParser._fix_int_dict` (mir_parser.py 582–617), for one file.  Dictionaries are lists of pairs with different keys;
`scanned` is what `_scan_int_headers` gives (lines 585–601, see `Verif.MirPack.File`).
-/
set_option linter.unusedSectionVars false

namespace Verif.MirFix

variable {E : Type}

/-- `d[k] = v` -/
def put {α : Type} (d : List (Nat × α)) (k : Nat) (v : α) : List (Nat × α) :=
  d.filter (fun e => !decide (e.1 = k)) ++ [(k, v)]

/-- `del d[k]` -/
def del {α : Type} (d : List (Nat × α)) (k : Nat) : List (Nat × α) := d.filter fun e => !decide (e.1 = k)

/-- Line 607: from the number in the file to the number in the object; `fileId` is `val["inhid"]`. -/
def inhidMap (fileId : E → Nat) (ints : List (Nat × E)) : List (Nat × Nat) :=
  ints.foldl (fun m e => put m (fileId e.2) e.1) []

/-- Lines 610–612: the entries that are left, and the map that is left. -/
def drop (scanned : List (Nat × E)) (imap : List (Nat × Nat)) (ints : List (Nat × E)) : List (Nat × E) :=
  (imap.filter fun p => (scanned.lookup p.1).isNone).foldl (fun d p => del d p.2) ints

/-- Lines 616–617. -/
def update (scanned : List (Nat × E)) (imap : List (Nat × Nat)) (ints : List (Nat × E)) : List (Nat × E) :=
  imap.foldl (fun d p => match scanned.lookup p.1 with | some e => put d p.2 e | none => d) ints

/-- Lines 583–617 for one file. -/
def fix (fileId : E → Nat) (ints scanned : List (Nat × E)) : List (Nat × E) :=
  let imap := inhidMap fileId ints
  update scanned imap (drop scanned imap ints)

end Verif.MirFix
