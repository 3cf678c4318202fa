import Verif.FlagMet.Model

/-! Averages with weights of values that may be infinite, apart from how the code computes them. -/

namespace Verif.FlagMet
open Verif.Np
open Verif.Pol (Str)
open Verif.Collapse (Val)

variable {K : Type} [Field K] [LinearOrder K]

/-- A weight and a value. -/
abbrev Entry (K : Type) := K × Val K

/-- The weight of an entry: infinite ones do not count. -/
def wt (e : Entry K) : K :=
  match e.2 with
  | .fin _ => e.1
  | _ => 0

def wx (e : Entry K) : K :=
  match e.2 with
  | .fin x => e.1 * x
  | _ => 0

def tot (l : List (Entry K)) : K := (l.map wt).sum
def dot (l : List (Entry K)) : K := (l.map wx).sum

/-- Less than this is no weight. -/
def thr : K := 1 / 10 ^ 10

/-- `v` is the average with weights of the entries and `w` their weight; without weight the average is infinite. -/
def IsMean (l : List (Entry K)) (v : Val K) (w : K) : Prop :=
  w = tot l ∧ (thr < tot l → v = .fin (dot l / tot l)) ∧ (¬ thr < tot l → v = .inf false)

/-- What is averaged: the values, their absolute values or their squares. -/
def pre (m : Method) (v : Val K) : Val K :=
  match m, v with
  | .absmean, .fin x => .fin |x|
  | .absmean, .inf _ => .inf false
  | .quadmean, .fin x => .fin (x * x)
  | .quadmean, .inf _ => .inf false
  | _, v => v

/-- The average, or the root of the average of squares. -/
def Post (m : Method) (s v : Val K) : Prop :=
  match m, s with
  | .quadmean, .fin x => ∃ y, v = .fin y ∧ 0 ≤ y ∧ y * y = x
  | _, s => v = s

/-- `v` is the average of the entries by the method, `w` their weight. -/
def Avg (m : Method) (l : List (Entry K)) (v : Val K) (w : K) : Prop :=
  ∃ s, IsMean (l.map (fun e => (e.1, pre m e.2))) s w ∧ Post m s v

/-- The sum of the squares of the weights that count. -/
def totSq (l : List (Entry K)) : K := (l.map (fun e => wt e ^ 2)).sum

def Numeric (m : Method) : Prop := m = .mean ∨ m = .absmean ∨ m = .quadmean

/-- Entries that can be averaged in steps: no NaN, no negative weights. -/
def Plain (l : List (Entry K)) : Prop := ∀ e ∈ l, e.2 ≠ .nan ∧ 0 ≤ e.1

/-- No weight at all, or more than the threshold. -/
def Clear (l : List (Entry K)) : Prop := tot l = 0 ∨ thr < tot l

/-- Metric and weight of an object at a position. -/
def At (o : Obj K) (i r f p : Nat) (e : Entry K) : Prop :=
  ∃ v w, o.data = .metric v w ∧ e = (w i r f p, v i r f p)

/-- The antennas and rows that belong to a time, each once. -/
structure Sources (o : Obj K) (t : K) (l : List (Nat × Nat)) : Prop where
  once : l.Nodup
  mem : ∀ i r, (i, r) ∈ l ↔ o.times[r]? = some t ∧ (if o.ty = .antenna then i < o.nants else i = 0)

/-- Metric and weight at a position. -/
def ent (v : Arr (Val K)) (w : Arr K) (f p : Nat) (s : Nat × Nat) : Entry K := (w s.1 s.2 f p, v s.1 s.2 f p)

/-- The names of polarizations with commas between them. -/
inductive Joined : List Str → Str → Prop
  | one (s : Str) : Joined [s] s
  | more (s : Str) (l : List Str) (t : Str) : Joined l t → Joined (s :: l) (s ++ ',' :: t)

/-- Everything but metric and weights is the same. -/
structure SameMeta (o o' : Obj K) : Prop where
  ty : o'.ty = o.ty
  times : o'.times = o.times
  lsts : o'.lsts = o.lsts
  nants : o'.nants = o.nants
  nf : o'.nf = o.nf
  pols : o'.pols = o.pols

end Verif.FlagMet
