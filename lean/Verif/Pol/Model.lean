import Verif.Np

/-!
Model of `src/pyuvdata/utils/pol.py`: the tables (34–84), `x_orientation_pol_map` (103–124), `polstr2num`
(148–200), `polnum2str` (204–252), `jstr2num` (256–303), `jnum2str` (307–353), `parse_polstr` (357–391),
`parse_jpolstr` (395–424), `conj_pol` (427–459), `reorder_conj_pols` (462–493), `determine_pol_order`
(496–529), and of `UVData.reorder_pols` (uvdata/uvdata.py 3703–3770).

Strings are lists of characters.  `KeyError`/`IndexError`/`ValueError` are `none`; warnings are dropped.
`str.lower` is modelled on ASCII.  The `lru_cache` wrapper (127–144) is not modelled: the functions are
pure.
-/
namespace Verif.Pol
open Verif.Np

/-- Python strings. -/
abbrev Str := List Char

/-- Python dictionaries in insertion order. -/
abbrev Dict (κ ν : Type) := List (κ × ν)

/-- `d[k]`, `none` is `KeyError`. -/
def Dict.get {κ ν : Type} [DecidableEq κ] (d : Dict κ ν) (k : κ) : Option ν :=
  (List.find? (fun p => decide (p.1 = k)) d).map Prod.snd

/-- `d[k] = v`: overwrite in place or append. -/
def Dict.set {κ ν : Type} [DecidableEq κ] (d : Dict κ ν) (k : κ) (v : ν) : Dict κ ν :=
  if d.any (fun p => decide (p.1 = k)) then d.map (fun p => if p.1 = k then (k, v) else p)
  else d ++ [(k, v)]

/-- `str.lower()` (ASCII). -/
def lower (s : Str) : Str := s.map Char.toLower

/-- `s.replace("x", ex).replace("y", ey)` for single characters, pol.py 186. -/
def renameXY (ex ey : Char) (s : Str) : Str :=
  (s.map (fun c => if c = 'x' then ex else c)).map (fun c => if c = 'y' then ey else c)

/-- `POL_STR2NUM_DICT`, pol.py 34–38. -/
def polStr2Num : Dict Str Int :=
  [(['p','I'], 1), (['p','Q'], 2), (['p','U'], 3), (['p','V'], 4), (['I'], 1), (['Q'], 2),
   (['U'], 3), (['V'], 4), (['r','r'], -1), (['l','l'], -2), (['r','l'], -3), (['l','r'], -4),
   (['x','x'], -5), (['y','y'], -6), (['x','y'], -7), (['y','x'], -8), (['h','h'], -5),
   (['v','v'], -6), (['h','v'], -7), (['v','h'], -8)]

/-- `POL_NUM2STR_DICT`, pol.py 41–43. -/
def polNum2Str : Dict Int Str :=
  [(1, ['p','I']), (2, ['p','Q']), (3, ['p','U']), (4, ['p','V']), (-1, ['r','r']),
   (-2, ['l','l']), (-3, ['r','l']), (-4, ['l','r']), (-5, ['x','x']), (-6, ['y','y']),
   (-7, ['x','y']), (-8, ['y','x'])]

/-- `CONJ_POL_DICT`, pol.py 46–50. -/
def conjTable : Dict Str Str :=
  [(['x','x'], ['x','x']), (['y','y'], ['y','y']), (['x','y'], ['y','x']), (['y','x'], ['x','y']),
   (['e','e'], ['e','e']), (['n','n'], ['n','n']), (['e','n'], ['n','e']), (['n','e'], ['e','n']),
   (['r','r'], ['r','r']), (['l','l'], ['l','l']), (['r','l'], ['l','r']), (['l','r'], ['r','l']),
   (['I'], ['I']), (['Q'], ['Q']), (['U'], ['U']), (['V'], ['V']), (['p','I'], ['p','I']),
   (['p','Q'], ['p','Q']), (['p','U'], ['p','U']), (['p','V'], ['p','V'])]

/-- `JONES_STR2NUM_DICT`, pol.py 54–57. -/
def jonesStr2Num : Dict Str Int :=
  [(['J','x','x'], -5), (['J','y','y'], -6), (['J','x','y'], -7), (['J','y','x'], -8),
   (['x','x'], -5), (['x'], -5), (['y','y'], -6), (['y'], -6), (['x','y'], -7), (['y','x'], -8),
   (['J','r','r'], -1), (['J','l','l'], -2), (['J','r','l'], -3), (['J','l','r'], -4),
   (['r','r'], -1), (['r'], -1), (['l','l'], -2), (['l'], -2), (['r','l'], -3), (['l','r'], -4)]

/-- `JONES_NUM2STR_DICT`, pol.py 59–60. -/
def jonesNum2Str : Dict Int Str :=
  [(-1, ['J','r','r']), (-2, ['J','l','l']), (-3, ['J','r','l']), (-4, ['J','l','r']),
   (-5, ['J','x','x']), (-6, ['J','y','y']), (-7, ['J','x','y']), (-8, ['J','y','x'])]

/-- `POL_TO_FEED_DICT`, pol.py 66–73. -/
def polToFeed : Dict Str (Str × Str) :=
  [(['x','x'], (['x'], ['x'])), (['y','y'], (['y'], ['y'])), (['x','y'], (['x'], ['y'])),
   (['y','x'], (['y'], ['x'])), (['e','e'], (['e'], ['e'])), (['n','n'], (['n'], ['n'])),
   (['e','n'], (['e'], ['n'])), (['n','e'], (['n'], ['e'])), (['r','r'], (['r'], ['r'])),
   (['l','l'], (['l'], ['l'])), (['r','l'], (['r'], ['l'])), (['l','r'], (['l'], ['r'])),
   (['p','I'], (['I'], ['I'])), (['p','Q'], (['Q'], ['Q'])), (['p','U'], (['U'], ['U'])),
   (['p','V'], (['V'], ['V']))]
/-- `XORIENTMAP`, pol.py 77–84 (values: `true` for "east"). -/
def xorientMap : Dict Str Bool :=
  [(['e','a','s','t'], true), (['n','o','r','t','h'], false), (['e'], true), (['n'], false),
   (['e','w'], true), (['n','s'], false)]

/-- `x_orientation_pol_map`, pol.py 103–124: the letters for x and y; `none` is `ValueError`. -/
def xOrientPolMap (xo : Str) : Option (Char × Char) :=
  (xorientMap.get (lower xo)).map (fun east => if east then ('e', 'n') else ('n', 'e'))

/-- The string-keyed dictionary after the x_orientation additions, pol.py 181–189 and 286–294. -/
def addOriented (d : Dict Str Int) (xo : Option Str) : Dict Str Int :=
  match xo.bind xOrientPolMap with
  | some (ex, ey) => d.foldl (fun acc p => Dict.set acc (renameXY ex ey p.1) p.2) d
  | none => d

/-- `{k.lower(): v for k, v in dict_use.items()}`, pol.py 191 and 296. -/
def lowerKeys {ν : Type} (d : Dict Str ν) : Dict Str ν := d.foldl (fun acc p => Dict.set acc (lower p.1) p.2) []

/-- The number-keyed dictionary with oriented names, pol.py 236–244 and 337–345. -/
def orientedNames (d : Dict Int Str) (xo : Option Str) : Dict Int Str :=
  match xo.bind xOrientPolMap with
  | some (ex, ey) => d.foldl (fun acc p => Dict.set acc p.1 (renameXY ex ey p.2)) d
  | none => d

/-- `polstr2num` of one string, pol.py 181–193. -/
def polstr2num (xo : Option Str) (s : Str) : Option Int :=
  (lowerKeys (addOriented polStr2Num xo)).get (lower s)

/-- `polnum2str` of one number, pol.py 236–247. -/
def polnum2str (xo : Option Str) (n : Int) : Option Str := (orientedNames polNum2Str xo).get n

/-- `jstr2num` of one string, pol.py 286–298. -/
def jstr2num (xo : Option Str) (s : Str) : Option Int :=
  (lowerKeys (addOriented jonesStr2Num xo)).get (lower s)

/-- `jnum2str` of one number, pol.py 337–348. -/
def jnum2str (xo : Option Str) (n : Int) : Option Str := (orientedNames jonesNum2Str xo).get n

/-- List arguments of the four conversions, pol.py 194–195, 248–249, 299–300, 349–350: element by
element, raising if any element raises. -/
def onList {β γ : Type} (f : β → Option γ) (l : List β) : Option (List γ) := l.mapM f

/-- `parse_polstr`, pol.py 357–391. -/
def parsePolstr (xo : Option Str) (s : Str) : Option Str := (polstr2num xo s).bind (polnum2str xo)

/-- `parse_jpolstr`, pol.py 395–424. -/
def parseJpolstr (xo : Option Str) (s : Str) : Option Str := (jstr2num xo s).bind (jnum2str xo)

/-- `conj_pol` of a string, pol.py 449–452. -/
def conjStr (s : Str) : Option Str := (lowerKeys conjTable).get (lower s)

/-- `conj_pol` of a number, pol.py 455–456. -/
def conjNum (n : Int) : Option Int :=
  (polnum2str none n).bind fun s => ((lowerKeys conjTable).get (lower s)).bind fun c => polstr2num none c

/-- `np.where(xs == p)[0][0]`, `none` when absent. -/
def firstIdx (xs : List Int) (p : Int) : Option Nat := xs.findIdx? (fun x => decide (x = p))

/-- `reorder_conj_pols` of a list of numbers, pol.py 487–493. -/
def reorderConjPols (pols : List Int) : Option (List Nat) := do
  let cpols ← pols.mapM conjNum                       -- 487
  pols.mapM (fun p => firstIdx cpols p)               -- 488–492: any absent one raises

/-- `casa_order`, pol.py 521. -/
def casaOrder : List Int := [1, 2, 3, 4, -1, -3, -4, -2, -5, -7, -8, -6, 0]

/-- Requested order of `reorder_pols`: "AIPS", "CASA" or an index array. -/
inductive PolOrder where
  | aips
  | casa
  | index (l : List Nat)

/-- `determine_pol_order`, pol.py 518–529, as a relation because `np.argsort` may break ties either way. -/
def PolOrderResult (pols : List Int) : PolOrder → List Nat → Prop
  | .aips, idx => IsArgsort (pols.map Int.natAbs) idx
  | .casa, idx => ∃ ranks, pols.mapM (firstIdx casaOrder) = some ranks ∧ IsArgsort ranks idx
  | .index l, idx => idx = l ∧ l.length = pols.length ∧ ∀ i ∈ l, i < pols.length   -- uvdata.py 3742–3754

/-- The part of a `UVData` object `reorder_pols` touches.  Arrays with a polarization axis are lists of
polarization slabs (`β`: one `[:, :, p]` slab of data, flags or nsamples). -/
structure PolObj (β : Type) where
  pols : List Int
  arrays : Option (List β × List β × List β)   -- data, nsamples, flags; `none` is metadata_only

/-- `reorder_pols` once the index array is known, uvdata.py 3765–3770. -/
def applyPolIndex {β : Type} (o : PolObj β) (idx : List Nat) : Option (PolObj β) := do
  let pols ← take? o.pols idx
  match o.arrays with
  | none => some { pols := pols, arrays := none }
  | some (d, n, f) =>
    let d' ← take? d idx
    let n' ← take? n idx
    let f' ← take? f idx
    some { pols := pols, arrays := some (d', n', f') }

end Verif.Pol
