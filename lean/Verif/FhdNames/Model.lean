/-!
# Names of the files of an FHD run

Model of `/repo/src/pyuvdata/utils/io/fhd.py`, `fhd_filenames` (lines 17–118), and of `os.path.split` for paths with `/`.

Simplifications: names are lists of characters, and each of the seven arguments is `None` or a list of names (a single name is a list of one).
-/
namespace Verif.FhdNames

abbrev Path := List Char

/-- The types of files, lines 54–66. -/
inductive Kind
  | vis | cal | flags | layout | obs | params | settings
deriving DecidableEq

/-- The order of the dictionary. -/
def kinds : List Kind := [.vis, .cal, .flags, .layout, .obs, .params, .settings]

/-- `"suffix"`: an underscore and the rest. -/
def suffix : Kind → Path
  | .vis => '_' :: ['v', 'i', 's']
  | .cal => '_' :: ['c', 'a', 'l']
  | .flags => '_' :: ['f', 'l', 'a', 'g', 's']
  | .layout => '_' :: ['l', 'a', 'y', 'o', 'u', 't']
  | .obs => '_' :: ['o', 'b', 's']
  | .params => '_' :: ['p', 'a', 'r', 'a', 'm', 's']
  | .settings => '_' :: ['s', 'e', 't', 't', 'i', 'n', 'g', 's']

/-- `"sub_folder"`. -/
def subFolder : Kind → Path
  | .vis => ['v', 'i', 's', '_', 'd', 'a', 't', 'a']
  | .flags => ['v', 'i', 's', '_', 'd', 'a', 't', 'a']
  | .cal => ['c', 'a', 'l', 'i', 'b', 'r', 'a', 't', 'i', 'o', 'n']
  | _ => ['m', 'e', 't', 'a', 'd', 'a', 't', 'a']

/-- `os.path.split`: what is after the last `/`, and what is before it, without `/` at its end unless there is nothing else. -/
def split (p : Path) : Path × Path :=
  let head := (p.reverse.dropWhile (· != '/')).reverse
  (if head.all (· == '/') then head else (head.reverse.dropWhile (· == '/')).reverse, (p.reverse.takeWhile (· != '/')).reverse)

/-- `s[:s.find(pat)]`, and `none` if `pat not in s` (lines 84–88). -/
def before (pat : Path) : Path → Option Path
  | [] => if pat.isPrefixOf [] then some [] else none
  | c :: t => if pat.isPrefixOf (c :: t) then some [] else (before pat t).map (c :: ·)

/-- The names in the order of the loops, lines 73–81. -/
def given (args : Kind → Option (List Path)) : List (Kind × Path) :=
  kinds.flatMap (fun k => ((args k).getD []).map (fun f => (k, f)))

/-- Lines 84–86. -/
def prefixOf (f : Kind × Path) : Option Path := before (suffix f.1) (split f.2).2

/-- Lines 89–93. -/
def folderOf (f : Kind × Path) : Option Path :=
  let d := split (split f.2).1
  if d.2 = subFolder f.1 then some d.1 else none

/-- `np.unique(l).size > 1`. -/
def several (l : List Path) : Bool :=
  match l with
  | [] => false
  | a :: t => t.any (fun b => b != a)

/-- The list that is returned and the four warnings (lines 95–118). -/
structure Out where
  names : List Path
  missingSuffix : List Kind
  missingSub : List Kind
  prefixes : Bool
  folders : Bool
deriving DecidableEq

def fhdFilenames (args : Kind → Option (List Path)) : Out :=
  let l := given args
  { names := l.map (fun f => (split f.2).2)
    missingSuffix := (l.filter (fun f => (prefixOf f).isNone)).map Prod.fst
    missingSub := (l.filter (fun f => (folderOf f).isNone)).map Prod.fst
    prefixes := several (l.filterMap prefixOf)
    folders := several (l.filterMap folderOf) }

end Verif.FhdNames
