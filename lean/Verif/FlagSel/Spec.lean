import Verif.FlagSel.Model
import Verif.CalSelect.Props

/-! What a selection from a flag object is supposed to keep, and when it is possible. -/

namespace Verif.FlagSel
open Verif.Np Verif.FreqSort
open Verif.Pol (Str)
open Verif.Select (PolReq)
open Verif.CalSelect (via Picks)

variable {K V : Type} [LinearOrder K]

/-- The pairs and polarizations asked for, in lists or as an antenna string. -/
def asked (c : Ctx) (q : Req K) : Option (List Pair) × Option (List PolReq) :=
  match q.antStr with
  | none => (q.bls, q.pols)
  | some s => match c.parse s with
    | .ok r => r
    | .error _ => (none, none)

/-- There is a row with these antennas in this order. -/
def There (o : Obj K V) (a b : Int) : Prop := ∃ r ∈ o.rows, r.ant1 = a ∧ r.ant2 = b

/-- The row has these antennas in this order, or in the other order if no row has them in this order. -/
def PairOk (o : Obj K V) (a b : Int) (r : Row K) : Prop :=
  (r.ant1 = a ∧ r.ant2 = b) ∨ (r.ant1 = b ∧ r.ant2 = a ∧ ¬ There o a b)

/-- Row `r` at position `i` meets every criterion for rows. -/
structure RowOk (c : Ctx) (o : Obj K V) (q : Req K) (i : Nat) (r : Row K) : Prop where
  inds : ∀ l, q.bltInds = some l → (i : Int) ∈ l
  ants : o.ty = .baseline → ∀ l, q.antNums = some l → r.ant1 ∈ l ∧ r.ant2 ∈ l
  pairs : ∀ l, (asked c q).1 = some l → ∃ t ∈ l, PairOk o t.1 t.2.1 r
  times : ∀ l, q.times = some l → r.time ∈ l

/-- The name of a polarization that a pair asks for: the other one if the pair is in the other order. -/
def PairPol (c : Ctx) (o : Obj K V) (q : Req K) (s' : Str) : Prop :=
  ∃ l, (asked c q).1 = some l ∧ ∃ t ∈ l, ∃ s, t.2.2 = some s ∧
    ((There o t.1 t.2.1 ∧ s' = s) ∨ (¬ There o t.1 t.2.1 ∧ c.conjPol s = some s'))

/-- A polarization that is asked for; if pairs have polarizations, these count and no others. -/
def WantedPol (c : Ctx) (o : Obj K V) (q : Req K) (p : PolReq) : Prop :=
  (∃ s, PairPol c o q s ∧ p = .str s) ∨ ((¬ ∃ s, PairPol c o q s) ∧ ∃ ps, (asked c q).2 = some ps ∧ p ∈ ps)

/-- The number of a polarization. -/
def IsPol (c : Ctx) (p : PolReq) (n : Int) : Prop := p = .num n ∨ ∃ s, p = .str s ∧ c.polNum s = some n

def PolsAsked (c : Ctx) (o : Obj K V) (q : Req K) : Prop := (∃ s, PairPol c o q s) ∨ (asked c q).2 ≠ none

def PolOk (c : Ctx) (o : Obj K V) (q : Req K) (j : Nat) : Prop :=
  PolsAsked c o q → ∃ p n, WantedPol c o q p ∧ IsPol c p n ∧ o.pols[j]? = some (.num n)

/-- A position that may be counted from the end. -/
def At (n : Nat) (k : Int) (i : Nat) : Prop := i < n ∧ (k = i ∨ k + n = i)

/-- A frequency is asked for, by its value or by the position of a channel that has it. -/
def WantedFreq (o : Obj K V) (q : Req K) (f : K) : Prop :=
  (∃ l, q.freqs = some l ∧ f ∈ l) ∨ ∃ l, q.chans = some l ∧ ∃ k ∈ l, ∃ i, At o.freq.length k i ∧ o.freq[i]? = some f

def ChanOk (o : Obj K V) (q : Req K) (i : Nat) : Prop :=
  q.freqs ≠ none ∨ q.chans ≠ none → ∃ f, WantedFreq o q f ∧ o.freq[i]? = some f

/-- An antenna that is kept on the antenna axis. -/
structure AntOk (o : Obj K V) (q : Req K) (i : Nat) : Prop where
  nums : ∀ l, q.antNums = some l → ∃ x ∈ l, o.ants[i]? = some x
  inds : q.antNums = none → ∀ l, q.antInds = some l → ∃ k ∈ l, At o.ants.length k i

/-- Criteria for rows other than their positions. -/
def OtherRows (c : Ctx) (o : Obj K V) (q : Req K) : Prop :=
  (o.ty = .baseline ∧ q.antNums ≠ none) ∨ (asked c q).1 ≠ none ∨ q.times ≠ none

/-- Everything asked for is there. -/
structure Fits (c : Ctx) (o : Obj K V) (q : Req K) : Prop where
  wf : o.ty = .waterfall → q.antNums = none ∧ q.bls = none
  str : ∀ s, q.antStr = some s → q.antNums = none ∧ q.bls = none ∧ q.pols = none ∧ o.ty = .baseline ∧
    ∃ r, c.parse s = .ok r ∧ r.1 ≠ some []
  ants : ∀ l, q.antNums = some l → ∀ a ∈ l,
    (o.ty = .baseline → ∃ r ∈ o.rows, r.ant1 = a ∨ r.ant2 = a) ∧ (o.ty ≠ .baseline → a ∈ o.ants)
  pairs : ∀ l, (asked c q).1 = some l → o.ty = .baseline ∧ ((∀ t ∈ l, t.2.2 ≠ none) → (asked c q).2 = none) ∧
    ∀ t ∈ l, There o t.1 t.2.1 ∨ (There o t.2.1 t.1 ∧ ∀ s, t.2.2 = some s → c.conjPol s ≠ none)
  times : ∀ l, q.times = some l → ∀ t ∈ l, ∃ r ∈ o.rows, r.time = t
  rows : q.bltInds ≠ none ∨ OtherRows c o q → ∃ i r, o.rows[i]? = some r ∧ RowOk c o q i r
  inds : ∀ l, q.bltInds = some l → ¬ OtherRows c o q → ∀ i ∈ l, 0 ≤ i ∧ i < o.rows.length
  chans : ∀ l, q.chans = some l → o.freq.length ≠ 1 ∧ ∀ k ∈ l, ∃ i, At o.freq.length k i
  freqs : ∀ l, q.freqs = some l → ∀ f ∈ l, f ∈ o.freq
  pols : ∀ p, WantedPol c o q p → ∃ n, IsPol c p n ∧ PolReq.num n ∈ o.pols
  antInds : o.ty = .antenna → q.antNums = none → ∀ l, q.antInds = some l → ∀ k ∈ l, ∃ i, At o.ants.length k i

/-- `o'` is `o` at the positions `la`, `lr`, `lf`, `lp` of antennas, rows, channels and polarizations. -/
structure Cut (o o' : Obj K V) (la lr lf lp : List Nat) : Prop where
  ty : o'.ty = o.ty
  rows : o'.rows = fancy o.rows lr
  ants : o'.ants = fancy o.ants la
  freq : o'.freq = fancy o.freq lf
  width : o'.width = o.width.map (fun w => fancy w lf)
  ids : o'.ids = o.ids.map (fun w => fancy w lf)
  pols : o'.pols = fancy o.pols lp
  arrays : o'.data.length = o.data.length
  data : ∀ (k : Nat) x y, o.data[k]? = some x → o'.data[k]? = some y →
    ∀ a r f p, (a < la.length ∨ o.ty ≠ .antenna) → r < lr.length → f < lf.length → p < lp.length →
      y a r f p = x (if o.ty = .antenna then via la a else a) (via lr r) (via lf f) (via lp p)

/-- The windows that have channels left. -/
structure Windows (o o' : Obj K V) : Prop where
  order : o'.spws.Sublist o.spws
  mem : 1 < o.nspws → ∀ w, w ∈ o'.spws ↔ w ∈ o.spws ∧ ∃ v, o'.ids = some v ∧ w ∈ v
  one : ¬ 1 < o.nspws → o'.spws = o.spws

/-- The numbers of the object are those of its arrays. -/
structure Counts (o : Obj K V) : Prop where
  width : ∀ w, o.width = some w → w.length = o.freq.length
  ids : ∀ w, o.ids = some w → w.length = o.freq.length
  nblts : o.ty = .baseline → o.nblts = o.rows.length
  nbls : o.ty = .baseline → o.nbls = (o.rows.map (·.bl)).dedup.length
  nantsB : o.ty = .baseline → o.nants = (o.rows.map (·.ant1) ++ o.rows.map (·.ant2)).dedup.length
  nantsA : o.ty = .antenna → o.nants = o.ants.length
  ntimes : o.ntimes = (o.rows.map (·.time)).dedup.length
  nfreqs : o.nfreqs = o.freq.length
  npols : o.npols = o.pols.length
  nspws : o.nspws = o.spws.length
  windows : 1 < o.nspws → o.spws.Nodup ∧ ∃ w, o.ids = some w ∧ ∀ x, x ∈ w ↔ x ∈ o.spws

end Verif.FlagSel
