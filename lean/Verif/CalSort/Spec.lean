import Verif.CalSort.Model

/-! What a user expects of reordering a calibration object, without reference to how it is done. -/
namespace Verif.CalSort
open Verif.FreqSort

variable {K V N : Type} [Field K] [LinearOrder K] [LinearOrder N]

/-- A value in an array. -/
def get3 {α : Type} (a : Arr3 α) (k t j : Nat) : Option α := ((a[k]?).bind (fun x => x[t]?)).bind (fun x => x[j]?)
def get4 {α : Type} (a : Arr4 α) (i k t j : Nat) : Option α := (a[i]?).bind (fun x => get3 x k t j)

/-- An array has the given number of entries along each axis. -/
def Shape3 {α : Type} (a : Arr3 α) (nf nt nj : Nat) : Prop := a.length = nf ∧ ∀ x ∈ a, x.length = nt ∧ ∀ y ∈ x, y.length = nj
def Shape4 {α : Type} (a : Arr4 α) (na nf nt nj : Nat) : Prop := a.length = na ∧ ∀ x ∈ a, Shape3 x nf nt nj

/-- Length of the second axis: windows or channels. -/
def nchan (c : Cal K V) : Nat := if c.wide then c.spws.length else c.freqs.length

/-- An optional column has the right length. -/
def ColLen {α : Type} (o : Option (List α)) (n : Nat) : Prop := ∀ l, o = some l → l.length = n

/-- A consistent object: what `check` asks of shapes and of the list of windows. -/
structure Good (c : Cal K V) : Prop where
  chans : c.wide = false → Valid c.freqs c.spws c.ids ∧ c.widths.length = c.freqs.length
  wides : c.wide = true → c.ranges.length = c.spws.length ∧ c.spws.Nodup
  flex : ColLen c.flexJones c.spws.length
  time : ColLen c.times.time c.times.integ.length
  timeRange : ColLen c.times.timeRange c.times.integ.length
  lst : ColLen c.times.lst c.times.integ.length
  lstRange : ColLen c.times.lstRange c.times.integ.length
  center : ColLen c.times.center c.times.integ.length
  ref : ColLen c.times.ref c.times.integ.length
  main : Shape4 c.main c.ants.length (nchan c) c.times.integ.length c.jones.length
  flags : Shape4 c.flags c.ants.length (nchan c) c.times.integ.length c.jones.length
  quality : ∀ q, c.quality = some q → Shape4 q c.ants.length (nchan c) c.times.integ.length c.jones.length
  total : ∀ q, c.total = some q → Shape3 q (nchan c) c.times.integ.length c.jones.length

/-- The Jones component of a spectral window, if there is one per window. -/
def jonesOf (c : Cal K V) (w : Int) : Option Int := c.flexJones.bind (fun l => l[c.spws.idxOf w]?)

/-- Everything said about position `k` of the second axis: frequency, width, window, range, Jones component of the window. -/
structure Chan (K : Type) where
  freq : Option K
  width : Option K
  window : Option Int
  range : Option (K × K)
  jones : Option Int
deriving DecidableEq

def chanAt (c : Cal K V) (k : Nat) : Chan K :=
  if c.wide then ⟨none, none, c.spws[k]?, c.ranges[k]?, (c.spws[k]?).bind (jonesOf c)⟩
  else ⟨c.freqs[k]?, c.widths[k]?, c.ids[k]?, none, (c.ids[k]?).bind (jonesOf c)⟩

def chanList (c : Cal K V) : List (Chan K) := (List.range (nchan c)).map (chanAt c)

/-- Everything said about position `t` of the time axis. -/
structure When (K : Type) where
  time : Option K
  timeRange : Option (K × K)
  lst : Option K
  lstRange : Option (K × K)
  center : Option Int
  ref : Option Int
  integ : Option K
deriving DecidableEq

def whenAt (t : Times K) (k : Nat) : When K :=
  ⟨t.time.bind (·[k]?), t.timeRange.bind (·[k]?), t.lst.bind (·[k]?), t.lstRange.bind (·[k]?), t.center.bind (·[k]?), t.ref.bind (·[k]?),
    t.integ[k]?⟩

def whenList (c : Cal K V) : List (When K) := (List.range c.times.integ.length).map (whenAt c.times)

/-- What is stored at a position of the four axes. -/
structure Solution (K V : Type) where
  main : Option V
  flag : Option Bool
  quality : Option K

def solution (c : Cal K V) (i k t j : Nat) : Solution K V :=
  ⟨get4 c.main i k t j, get4 c.flags i k t j, c.quality.bind (fun q => get4 q i k t j)⟩

/-- The same antennas, channels, times and Jones components are there, each as often as before, and whatever is stored under an antenna,
a channel, a time and a Jones component is what was stored under them before. -/
structure SameSolutions (c c' : Cal K V) : Prop where
  ants : c'.ants.Perm c.ants
  chans : (chanList c').Perm (chanList c)
  times : (whenList c').Perm (whenList c)
  jones : c'.jones.Perm c.jones
  windows : c'.spws.Perm c.spws
  sols : ∀ i k t j i' k' t' j', i' < c'.ants.length → k' < nchan c' → t' < c'.times.integ.length → j' < c'.jones.length →
    c'.ants[i']? = c.ants[i]? → chanAt c' k' = chanAt c k → whenAt c'.times t' = whenAt c.times t → c'.jones[j']? = c.jones[j]? →
    solution c' i' k' t' j' = solution c i k t j
  total : ∀ k t j k' t' j', k' < nchan c' → t' < c'.times.integ.length → j' < c'.jones.length →
    chanAt c' k' = chanAt c k → whenAt c'.times t' = whenAt c.times t → c'.jones[j']? = c.jones[j]? →
    c'.total.bind (fun q => get3 q k' t' j') = c.total.bind (fun q => get3 q k t j)

/-- Nothing occurs twice along an axis. -/
structure DistinctLabels (c : Cal K V) : Prop where
  ants : c.ants.Nodup
  chans : (chanList c).Nodup
  times : (whenList c).Nodup
  jones : c.jones.Nodup

/-- Keys of the entries are non-decreasing, or non-increasing if asked for. -/
def SortedBy {α β : Type} [LE β] (down : Bool) (key : α → β) (l : List α) : Prop :=
  if down then l.Pairwise (fun a b => key b ≤ key a) else l.Pairwise (fun a b => key a ≤ key b)

end Verif.CalSort
