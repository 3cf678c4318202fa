import Verif.Select.Model
import Verif.TimeSel.Props

/-! What a selection is supposed to keep. -/
namespace Verif.Select
open Verif.Np Verif.TimeSel
open Verif.Pol (Str)

variable {K D R C : Type} [Field K] [LinearOrder K] [IsStrictOrderedRing K]

/-- One baseline-time row with everything that belongs to it. -/
structure Row (K D R : Type) where
  ant1 : Int
  ant2 : Int
  bl : Int
  time : K
  lst : K
  pc : Int
  rest : R
  plane : Option (List (List D))

/-- `rows` are the rows of the object `o`. -/
structure IsTable (o : Obj K D R C) (rows : List (Row K D R)) : Prop where
  ant1 : o.ant1 = rows.map (·.ant1)
  ant2 : o.ant2 = rows.map (·.ant2)
  bl : o.bl = rows.map (·.bl)
  times : o.times = rows.map (·.time)
  lsts : o.lsts = rows.map (·.lst)
  pc : o.pc = rows.map (·.pc)
  rest : o.rest = rows.map (·.rest)
  vis : (o.vis = none ∧ ∀ r ∈ rows, r.plane = none) ∨ ∃ v, o.vis = some v ∧ rows.map (·.plane) = v.map some
  nblts : o.nblts = rows.length

/-- The row belongs to a requested phase center. -/
def PcOk (c : Ctx K) (q : Req K) (r : Row K D R) : Prop :=
  (∀ l, q.pcIds = some l → r.pc ∈ l) ∧ (∀ l, q.catNames = some l → ∃ nm ∈ l, (r.pc, nm) ∈ c.catalog)

/-- The number of the antenna with a given name. -/
def NamedAnt (c : Ctx K) (s : Str) (n : Int) : Prop := c.antNames.lookup s = some n

/-- Both antennas of the row are requested. -/
def AntOk (c : Ctx K) (q : Req K) (r : Row K D R) : Prop :=
  (∀ l, q.antNums = some l → r.ant1 ∈ l ∧ r.ant2 ∈ l) ∧
  (∀ l, q.antNames = some l → (∃ s ∈ l, NamedAnt c s r.ant1) ∧ ∃ s ∈ l, NamedAnt c s r.ant2)

/-- The row belongs to a requested antenna pair, in the requested direction, or in the other direction if there is no
row in the requested one. -/
def PairOk (rows : List (Row K D R)) (a b : Int) (r : Row K D R) : Prop :=
  (r.ant1 = a ∧ r.ant2 = b) ∨ ((r.ant1 = b ∧ r.ant2 = a) ∧ ∀ r' ∈ rows, ¬(r'.ant1 = a ∧ r'.ant2 = b))

def BlOk (c : Ctx K) (rows : List (Row K D R)) (q : Req K) (r : Row K D R) : Prop :=
  (∀ l, q.bls = some (.tuples l) → ∃ t ∈ l, PairOk rows t.1 t.2.1 r) ∧
  (∀ l, q.bls = some (.nums l) → ∃ n ∈ l, PairOk rows (c.decode n).1 (c.decode n).2 r)

/-- The row is at a requested time or local sidereal time. -/
def TimeOk (c : Ctx K) (q : Req K) (r : Row K D R) : Prop :=
  (∀ ts, q.times.times = some ts → ∃ t ∈ ts, |r.time - t| ≤ c.timeTols.2 + c.timeTols.1 * |t|) ∧
  (∀ lo hi, q.times.timeRange = some [lo, hi] → lo ≤ r.time ∧ r.time ≤ hi) ∧
  (∀ ls, q.times.lsts = some ls → ∃ t ∈ ls, |r.lst - t| ≤ c.lstTols.2 + c.lstTols.1 * |t|) ∧
  (∀ lo hi, q.times.lstRange = some [lo, hi] → OnArc c.P lo hi r.lst)

/-- Row `r` at position `i` meets every row criterion. -/
def Meets (c : Ctx K) (rows : List (Row K D R)) (q : Req K) (i : Nat) (r : Row K D R) : Prop :=
  (∀ l, q.bltInds = some l → (i : Int) ∈ l) ∧ PcOk c q r ∧ AntOk c q r ∧ BlOk c rows q r ∧ TimeOk c q r

/-- LSTs are angles in `[0, 2π)`, in the object and in a requested range. -/
def Angles (c : Ctx K) (rows : List (Row K D R)) (q : Req K) : Prop :=
  ∀ lo hi, q.times.lstRange = some [lo, hi] →
    (0 ≤ lo ∧ lo < c.P) ∧ (0 ≤ hi ∧ hi < c.P) ∧ ∀ r ∈ rows, 0 ≤ r.lst ∧ r.lst < c.P

/-- No row criterion is given. -/
def NoRowCriterion (q : Req K) : Prop :=
  q.bltInds = none ∧ q.pcIds = none ∧ q.catNames = none ∧ q.antNums = none ∧ q.antNames = none ∧ q.bls = none ∧
    q.times.times = none ∧ q.times.timeRange = none ∧ q.times.lsts = none ∧ q.times.lstRange = none

/-- The frequency is asked for, as a value or as the frequency of a channel number. -/
def WantedFreq (o : Obj K D R C) (q : Req K) (f : K) : Prop :=
  (∃ l, q.freqs = some l ∧ f ∈ l) ∨
  ∃ ch, q.chans = some ch ∧ ∃ k ∈ ch, o.freqs[(if k < 0 then k + o.freqs.length else k).toNat]? = some f

/-- Polarization `n` is asked for. -/
def WantedPol (c : Ctx K) (ps : List PolReq) (n : Int) : Prop :=
  PolReq.num n ∈ ps ∨ ∃ s, PolReq.str s ∈ ps ∧ c.polNum s = some n

/-- Channel `i` belongs to a window whose polarization is `n`. -/
def ChanPol (o : Obj K D R C) (i : Nat) (n : Int) : Prop :=
  ∃ (w : Int) (k : Nat) (fp : List Int), o.ids[i]? = some w ∧ o.spws[k]? = some w ∧ o.flexPol = some fp ∧ fp[k]? = some n

/-- The request is about a polarization that only windows have. -/
def AsksWindow (c : Ctx K) (o : Obj K D R C) (ps : List PolReq) : Prop := ∃ n, WantedPol c ps n ∧ n ∉ o.pols

/-- Each antenna pair occurs in one direction only. -/
def OneWay (rows : List (Row K D R)) : Prop :=
  ∀ r ∈ rows, ∀ r' ∈ rows, r.ant1 = r'.ant2 → r.ant2 = r'.ant1 → r.ant1 = r.ant2

/-- The request only has criteria on rows. -/
structure RowReq (q : Req K) : Prop where
  freqs : q.freqs = none
  chans : q.chans = none
  pols : q.pols = none
  bls : ∀ l, q.bls = some (.tuples l) → ∀ t ∈ l, t.2.2 = none

/-- The request only has criteria on the values of the rows. -/
structure RowOnly (q : Req K) : Prop extends RowReq q where
  inds : q.bltInds = none

/-- Two requests in one. -/
def both (q q' : Req K) : Req K where
  bltInds := q.bltInds.or q'.bltInds
  pcIds := q.pcIds.or q'.pcIds
  catNames := q.catNames.or q'.catNames
  antNums := q.antNums.or q'.antNums
  antNames := q.antNames.or q'.antNames
  bls := q.bls.or q'.bls
  times := ⟨q.times.times.or q'.times.times, q.times.timeRange.or q'.times.timeRange, q.times.lsts.or q'.times.lsts,
    q.times.lstRange.or q'.times.lstRange⟩
  freqs := q.freqs.or q'.freqs
  chans := q.chans.or q'.chans
  pols := q.pols.or q'.pols

/-- No keyword is used in both requests. -/
structure Disjoint (q q' : Req K) : Prop where
  pcIds : q.pcIds = none ∨ q'.pcIds = none
  catNames : q.catNames = none ∨ q'.catNames = none
  antNums : q.antNums = none ∨ q'.antNums = none
  antNames : q.antNames = none ∨ q'.antNames = none
  bls : q.bls = none ∨ q'.bls = none
  times : q.times.times = none ∨ q'.times.times = none
  timeRange : q.times.timeRange = none ∨ q'.times.timeRange = none
  lsts : q.times.lsts = none ∨ q'.times.lsts = none
  lstRange : q.times.lstRange = none ∨ q'.times.lstRange = none

end Verif.Select
