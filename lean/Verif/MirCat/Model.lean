import Mathlib.Data.List.Nodup

/-!
# MIR data of different files together

Model of `MirParser.__add__` (`src/pyuvdata/uvdata/mir_parser.py` 2720-3019) for objects of different files, with `_generate_new_header_keys` and
`_update_fields` (`mir_meta_data.py` 1679-1725, 1922-2005), and of where `_read_data` (1126-1176) finds spectra.

* A dictionary is the list of its assignments: the last one of a key counts.
* Integrations and spectra are their header keys (spectra with the key of their integration); other tables, auto-correlations
  and the comparison of tables and times (2861-2904, which may refuse the sum) are left out. Keys are natural numbers. Tables with different keys are added as in `Verif.MirAdd`.
* Files are `F`, where an integration is in its file `R`, where a spectrum is in its integration `P`, spectra that are loaded `V`, scales `J`.
-/

namespace Verif.MirCat

inductive Err
  | scale | partlySame | same
  deriving DecidableEq

variable {F P R V J : Type}

/-- The value of a key. -/
def get (d : List (Nat × V)) (k : Nat) : Option V := ((d.filter (fun p => p.1 == k)).getLast?).map Prod.snd

structure Obj (F P R V J : Type) where
  ints : List Nat
  spectra : List (Nat × Nat)
  spDict : List (Nat × List (Nat × P))
  files : List (F × List (Nat × R))
  vis : Option (List (Nat × V))
  jypk : J
  tsys : Bool

def top (l : List Nat) : Nat := l.foldr max 0

/-- `_generate_new_header_keys`, 1716-1723, and what becomes of a key. -/
def newKey (own other : List Nat) (k : Nat) : Nat := if k ∈ own then top other + 1 + own.idxOf k else k

def sphids (o : Obj F P R V J) : List Nat := o.spectra.map Prod.fst

/-- Lines 2931-2948: keys of data that are loaded. -/
def renameVis (own other : List Nat) (d : List (Nat × V)) : List (Nat × V) :=
  d.filter (fun p => decide (p.1 ∉ own)) ++ (d.filter (fun p => decide (p.1 ∈ own))).map (fun p => (newKey own other p.1, p.2))

/-- Lines 2988-2996: `jypk` is that of `self` at this time, which is that of `other` if it is changed in place (2909). -/
def sumVis [DecidableEq J] (jypk : J) (s o : Obj F P R V J) : Option (List (Nat × V)) :=
  match s.vis, o.vis with
  | some v, some w => if s.tsys ≠ o.tsys ∨ jypk ≠ o.jypk then none else some (v ++ renameVis (sphids o) (sphids s) w)
  | _, _ => none

/-- Lines 2908-3003. -/
def cat [DecidableEq J] (inplace : Bool) (s o : Obj F P R V J) : Obj F P R V J where
  ints := s.ints ++ o.ints.map (newKey o.ints s.ints)
  spectra := s.spectra ++ o.spectra.map (fun p => (newKey (sphids o) (sphids s) p.1, newKey o.ints s.ints p.2))
  spDict := s.spDict ++ o.spDict.map (fun p => (newKey o.ints s.ints p.1, p.2.map (fun q => (newKey (sphids o) (sphids s) q.1, q.2)))) ++ o.spDict
  files := s.files ++ o.files.map (fun p => (p.1, p.2.map (fun q => (newKey o.ints s.ints q.1, q.2))))
  vis := sumVis (if inplace then o.jypk else s.jypk) s o
  jypk := o.jypk
  tsys := match sumVis (if inplace then o.jypk else s.jypk) s o with
    | none => false
    | some _ => s.tsys

/-- `__add__` of objects of different files (2792-2816, with `merge` not true). -/
def add [DecidableEq J] [DecidableEq F] (overwrite inplace : Bool) (s o : Obj F P R V J) : Except Err (Obj F P R V J) :=
  if s.jypk ≠ o.jypk ∧ overwrite = false then .error .scale
  else if o.files.any (fun f => decide (f.1 ∈ s.files.map Prod.fst)) then
    if (∀ f ∈ o.files, f.1 ∈ s.files.map Prod.fst) ∧ (∀ f ∈ s.files, f.1 ∈ o.files.map Prod.fst) then .error .same else .error .partlySame
  else .ok (cat inplace s o)

/-- The file of an integration, and where it is there (`_read_packdata` 698-803: the last file that has it). -/
def whereInt (o : Obj F P R V J) (inhid : Nat) : Option (F × R) :=
  (o.files.filterMap (fun f => (get f.2 inhid).map (fun r => (f.1, r)))).getLast?

/-- Where a spectrum is in its integration. -/
def whereSp (o : Obj F P R V J) (p : Nat × Nat) : Option P := (get o.spDict p.2).bind (fun d => get d p.1)

/-- The place from which a spectrum is read. -/
def place (o : Obj F P R V J) (p : Nat × Nat) : Option (F × R × P) :=
  match whereInt o p.2, whereSp o p with
  | some (f, r), some q => some (f, r, q)
  | _, _ => none

end Verif.MirCat
