/-!
# Online flags and receivers of MIR files

Model of `/repo/src/pyuvdata/uvdata/mir_parser.py`, `MirParser.apply_flags` (lines 1502–1520) and the part of `_make_v3_compliant` that fills the
receivers of the antennas (lines 4188–4200).

Simplifications: `vis_data` is a list of pairs of key and record in place of a dictionary, no two records share one array, and the arrays `sphid` and
`flags` are those of the records of `sp_data` that are not masked. Values are integers without bounds.
-/
namespace Verif.MirOnline

/-- One record of `vis_data`: `"data"` and `"flags"`. -/
structure Vis (D : Type) where
  data : D
  flags : List Bool
deriving DecidableEq

inductive Err
  /-- Line 1516: `vis_data` are not loaded. -/
  | notLoaded
  /-- Line 1520: `KeyError` of the dictionary. -/
  | key (k : Int)
deriving DecidableEq

variable {D : Type}

/-- Line 1520: all flags of the record with key `k` are set; `none` is the `KeyError`. -/
def setAll (d : List (Int × Vis D)) (k : Int) : Option (List (Int × Vis D)) :=
  if d.any (fun e => e.1 == k) then
    some (d.map (fun e => if e.1 = k then (e.1, { e.2 with flags := e.2.flags.map (fun _ => true) }) else e))
  else none

/-- Lines 1518–1520. The records are changed in place: what was set before an exception stays. -/
def loop : List (Int × Int) → List (Int × Vis D) → List (Int × Vis D) × Option Err
  | [], d => (d, none)
  | (k, f) :: t, d =>
    if f ≠ 0 then
      match setAll d k with
      | none => (d, some (.key k))
      | some d' => loop t d'
    else loop t d

/-- Lines 1515–1520, with `vis_data` after the call. -/
def applyFlags (sphid flags : List Int) (vis : Option (List (Int × Vis D))) : Option (List (Int × Vis D)) × Option Err :=
  match vis with
  | none => (none, some .notLoaded)
  | some d => let r := loop (sphid.zip flags) d; (some r.1, r.2)

/-- `np.isin(codes, l).astype("<i2")`. -/
def isin (codes l : List Int) : List Int := codes.map (fun c => if l.contains c then 1 else 0)

/-- Lines 4191–4200: `ant1rx` and `ant2rx` after the call. -/
def fillRx (rx1 rx2 ipol irec : List Int) : List Int × List Int :=
  if rx1.all (· == 0) || rx2.all (· == 0) then
    let pol := ipol.any (· != 0)
    let checklist := if pol then ipol else irec
    (isin checklist (if pol then [1, 2] else [2, 3]), isin checklist (if pol then [1, 3] else [2, 3]))
  else (rx1, rx2)

end Verif.MirOnline
