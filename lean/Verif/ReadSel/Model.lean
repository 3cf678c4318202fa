import Verif.Pol.Model

/-!
# Selections when files are read, and reading several files

Model of `UVData.read` (`src/pyuvdata/uvdata/uvdata.py` 10437-11246): which keywords are handed to the function that reads the
file, which to `select` afterwards, and how several files are read and put together. The functions that read one file,
`UVData.select`, `UVData.__iadd__` and `UVData.fast_concat` are parameters here; `select`, `__add__` and `fast_concat` are modelled
elsewhere. Of the keywords only those of selections are kept. The auxiliary files of one FHD data set are one value.
The type of the files is known (recognizing it by name is not modelled).
-/

namespace Verif.ReadSel

/-- The keywords of `read` that ask for a part of the data; the last four are for MIR only (`mir_select_where` is the last). -/
inductive Kw
  | antennaNums | antennaNames | antStr | bls | frequencies | freqChans | times | timeRange | lsts | lstRange
  | polarizations | bltInds | phaseCenterIds | catalogNames | corrchunk | receivers | sidebands | selectWhere
deriving DecidableEq

inductive FileType
  | uvfits | uvh5 | miriad | mir | ms | fhd | mwa
deriving DecidableEq

/-- The exceptions; `read` catches the first three (10705-10725, 10837-10863). -/
inductive Err
  | key | value | os | other
deriving DecidableEq

def Err.caught : Err → Bool
  | .other => false
  | _ => true

variable {V F A D : Type}

/-- The values of the keywords, `none` if not given. -/
abbrev Req (V : Type) := Kw → Option V

/-- Only these keywords. -/
def only (l : List Kw) (r : Req V) : Req V := fun k => if k ∈ l then r k else none

/-- All but these keywords. -/
def without (l : List Kw) (r : Req V) : Req V := fun k => if k ∈ l then none else r k

/-- One of these keywords is given. -/
def anyOf (l : List Kw) (r : Req V) : Bool := l.any (fun k => (r k).isSome)

/-- What `read` calls. -/
structure World (V F A D : Type) where
  /-- `read_uvfits`, `read_mir`, ... -/
  reader : FileType → F → Option A → Req V → Except Err D
  /-- `self.select` -/
  select : Req V → D → Except Err D
  /-- `self.__iadd__` -/
  add : D → D → Except Err D
  /-- `self.fast_concat` -/
  concat : D → List D → Except Err D
  /-- `any(len(item) == 3 for item in bls)` -/
  three : V → Bool

/-- The keywords handed to the function that reads the file (11034-11223). -/
def passed : FileType → List Kw
  | .uvfits | .uvh5 => [.antennaNums, .antennaNames, .antStr, .bls, .frequencies, .freqChans, .times, .timeRange, .lsts,
      .lstRange, .polarizations, .bltInds, .phaseCenterIds, .catalogNames]
  | .mir => [.antennaNums, .antennaNames, .bls, .timeRange, .lstRange, .polarizations, .catalogNames, .corrchunk, .receivers,
      .sidebands, .selectWhere]
  | .miriad => [.antennaNums, .antStr, .bls, .polarizations, .timeRange]
  | .ms | .fhd | .mwa => []

/-- 10897-10936. -/
def afterWhole : List Kw := [.antennaNums, .antennaNames, .antStr, .bls, .frequencies, .freqChans, .times, .lsts, .timeRange,
  .lstRange, .polarizations, .bltInds, .phaseCenterIds]

/-- 10940-10947: what makes `read` select after reading a Miriad file. -/
def miriadAsk : List Kw := [.antennaNames, .frequencies, .freqChans, .times, .bltInds, .phaseCenterIds]

/-- 10978-10986: what is then selected. -/
def miriadAfter : List Kw := [.antennaNames, .frequencies, .freqChans, .times, .lsts, .lstRange, .bltInds, .phaseCenterIds]

/-- 11005-11023: what is selected after reading a MIR file, besides baselines. -/
def mirAfter : List Kw := [.frequencies, .freqChans, .bltInds, .phaseCenterIds, .times, .lsts]

/-- 10990-11032: baselines are selected afterwards if one of them has a polarization. -/
def mirReq (three : V → Bool) (r : Req V) : Req V := fun k =>
  match k with
  | .bls => (r .bls).filter (fun v => three v)
  | k => only mirAfter r k

/-- The selection after reading, if there is one (10896-11032, 11226-11246). -/
def after (three : V → Bool) (ft : FileType) (r : Req V) : Option (Req V) :=
  match ft with
  | .fhd | .ms | .mwa => if anyOf afterWhole r then some (only afterWhole r) else none
  | .uvfits | .uvh5 => none
  | .miriad => if anyOf miriadAsk r then some (only miriadAfter r) else none
  | .mir => if anyOf (.bls :: mirAfter) (mirReq three r) then some (mirReq three r) else none

/-- 10521-10531: what is refused at once. -/
def refused (ft : FileType) (aux : Option A) (r : Req V) : Bool :=
  (ft = .fhd && aux.isNone) || ((r .timeRange).isSome && (r .times).isSome)
    || ((r .antennaNames).isSome && (r .antennaNums).isSome)

/-- `read` of one file. -/
def readOne (w : World V F A D) (ft : FileType) (f : F) (aux : Option A) (r : Req V) : Except Err D :=
  if refused ft aux r then .error .value
  else match w.reader ft f aux (only (passed ft) r) with
    | .error e => .error e
    | .ok d => match after w.three ft r with
      | none => .ok d
      | some r' => w.select r' d

/-- The keywords with which the first file is read (10613-10703). -/
def firstReq (r : Req V) : Req V := without [.catalogNames] r

/-- The keywords with which the other files are read (10747-10834). -/
def laterReq (r : Req V) : Req V := without [.corrchunk, .receivers, .sidebands] r

/-- 10611-10725: files are tried until one can be read; its number, the object, and the files left. -/
def firstGood (w : World V F A D) (ft : FileType) (skip : Bool) (aux : Option A) (r : Req V) :
    List F → Nat → Except Err (Option (Nat × D × List F))
  | [], _ => .ok none
  | f :: fs, k => match readOne w ft f aux (firstReq r) with
    | .ok d => .ok (some (k, d, fs))
    | .error e => if e.caught && skip then firstGood w ft skip aux r fs (k + 1) else .error e

/-- 10737-10863: the objects of the other files and the names of those that cannot be read. -/
def others (w : World V F A D) (ft : FileType) (skip : Bool) (aux : Option A) (r : Req V) :
    List F → Except Err (List D × List F)
  | [] => .ok ([], [])
  | f :: fs => match readOne w ft f aux (laterReq r) with
    | .ok d => match others w ft skip aux r fs with
      | .ok (ds, bad) => .ok (d :: ds, bad)
      | .error e => .error e
    | .error e => if e.caught && skip then
        (match others w ft skip aux r fs with
          | .ok (ds, bad) => .ok (ds, f :: bad)
          | .error e => .error e)
      else .error e

/-- 10884-10892: one round, in which every second object is added to the one before. -/
def round (add : D → D → Except Err D) : List D → Except Err (List D)
  | a :: b :: l => match add a b with
    | .error e => .error e
    | .ok c => match round add l with
      | .error e => .error e
      | .ok l' => .ok (c :: l')
  | l => .ok l

/-- 10882-10892: rounds until one object is left; the first argument is a bound on their number. -/
def tree (add : D → D → Except Err D) : Nat → List D → Except Err (Option D)
  | _, [] => .ok none
  | _, [a] => .ok (some a)
  | 0, _ => .ok none
  | n + 1, l => match round add l with
    | .error e => .error e
    | .ok l' => tree add n l'

/-- What `read` of several files leaves. -/
inductive Outcome (D F : Type)
  /-- No file could be read; the object is as it was. -/
  | unread
  /-- The object, and the names of files in the warning. -/
  | read (d : D) (warned : List F)

/-- 10867-10894: the objects are put together along the axis, or added. -/
def merge (w : World V F A D) (axis : Bool) (d : D) (ds : List D) : Except Err D :=
  if axis then w.concat d ds
  else match tree w.add (d :: ds).length (d :: ds) with
    | .error e => .error e
    | .ok (some d') => .ok d'
    | .ok none => .ok d

/-- The auxiliary files of data set `k` (10605-10609, 10738-10743). -/
def auxAt (ft : FileType) (aux : List A) (k : Nat) : Option A := if ft = .fhd then aux[k]? else none

/-- `read` of several files (10524-10531 for all of them, then 10533-10894); `aux` are the auxiliary files of FHD data sets. -/
def readMany (w : World V F A D) (ft : FileType) (skip axis : Bool) (fs : List F) (aux : List A) (r : Req V) :
    Except Err (Outcome D F) :=
  if ((r .timeRange).isSome && (r .times).isSome) || ((r .antennaNames).isSome && (r .antennaNums).isSome) then .error .value
  else if ft = .fhd && aux.length ≠ fs.length then .error .value
  else match firstGood w ft skip (auxAt ft aux 0) r fs 0 with
    | .error e => .error e
    | .ok none => .ok .unread
    | .ok (some (k, d, rest)) => match others w ft skip (auxAt ft aux k) r rest with
      | .error e => .error e
      | .ok (ds, bad) => match merge w axis d ds with
        | .error e => .error e
        | .ok d' => .ok (.read d' (List.replicate k fs.head?.toList |>.flatten |>.append bad))

end Verif.ReadSel
