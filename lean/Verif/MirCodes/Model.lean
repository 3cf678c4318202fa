/-!
# Codes of MIR data

Model of `/repo/src/pyuvdata/uvdata/mir_meta_data.py`, `MirCodesData.get_codes` (lines 3190–3233) with `get_code_names` (3061–3070).

Simplifications: names of codes and codes are of any types with equality, a dictionary is the list of its pairs in the order in which they are put in,
and numbers and codes are never the same key (numbers are integers, codes are strings).
-/
namespace Verif.MirCodes

/-- One record: `v_name`, `code`, `icode`, and whether it is kept by the mask. -/
structure Rec (N C : Type) where
  name : N
  code : C
  icode : Int
  keep : Bool
deriving DecidableEq

/-- Keys and values of the dictionary: codes and numbers. -/
abbrev Key (C : Type) := C ⊕ Int

/-- The value of a key in `dict(pairs)`: later pairs replace earlier ones. -/
def get {C : Type} [DecidableEq C] (d : List (Key C × Key C)) (k : Key C) : Option (Key C) := (d.reverse.find? (fun e => decide (e.1 = k))).map (fun e => e.2)

/-- What is returned: a list of codes, or a dictionary. -/
inductive Out (C : Type)
  | codes (l : List C)
  | dict (d : List (Key C × Key C))
deriving DecidableEq

variable {N C : Type} [DecidableEq N]

/-- Lines 3219–3233; `none` is the `MirMetaError`. `indexed` tells which names are those of indices of other records (`_codes_index_dict`). The names are
those of records kept by the mask, the codes are those of all records. -/
def getCodes (indexed : N → Bool) (name : N) (returnDict : Option Bool) (recs : List (Rec N C)) : Option (Out C) :=
  if (recs.filter (fun r => r.keep)).any (fun r => decide (r.name = name)) then
    let sel := recs.filter (fun r => decide (r.name = name))
    let codes := sel.map (fun r => r.code)
    let index := sel.map (fun r => r.icode)
    if returnDict.getD (decide (sel.length ≠ 1) || indexed name) then
      some (.dict ((codes.map Sum.inl ++ index.map Sum.inr).zip (index.map Sum.inr ++ codes.map Sum.inl)))
    else some (.codes codes)
  else none

end Verif.MirCodes
