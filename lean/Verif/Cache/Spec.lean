import Verif.Cache.Model
import Verif.AntPair.Spec

/-!
Histories of queries and assignments.
-/
namespace Verif.Cache
open Verif.GetData
open Verif.AntPair (Numbered LaidOut)

/-- States reachable from an object with empty caches by any number of queries and of assignments to the
antenna and polarization arrays. -/
inductive History : St → Prop
  | fresh (o : Obj) : History ⟨o, [], []⟩
  | pair {s} (a b : Nat) (ordered : Bool) : History s → History (askPair s a b ordered).1
  | key {s} (k : Key) : History s → History (askKey s k).1
  | ant1 {s} (l : List Nat) : History s → History (setAnt1 s l)
  | ant2 {s} (l : List Nat) : History s → History (setAnt2 s l)
  | pols {s} (l : List Int) : History s → History (setPols s l)

/-- The same with arbitrary changes to the layout attributes in between, provided that at the time of each
query the baseline numbers and the rectangularity claims are truthful. -/
inductive TruthfulHistory : St → Prop
  | fresh (o : Obj) : TruthfulHistory ⟨o, [], []⟩
  | pair {s} (a b : Nat) (ordered : Bool) : TruthfulHistory s → Numbered s.o.pairs → LaidOut s.o.pairs →
      TruthfulHistory (askPair s a b ordered).1
  | key {s} (k : Key) : TruthfulHistory s → Numbered s.o.pairs → LaidOut s.o.pairs → TruthfulHistory (askKey s k).1
  | ant1 {s} (l : List Nat) : TruthfulHistory s → TruthfulHistory (setAnt1 s l)
  | ant2 {s} (l : List Nat) : TruthfulHistory s → TruthfulHistory (setAnt2 s l)
  | pols {s} (l : List Int) : TruthfulHistory s → TruthfulHistory (setPols s l)
  | layout {s} (bl : List Nat) (nbls ntimes nants : Nat) (rect timeFaster : Bool) : TruthfulHistory s →
      TruthfulHistory (setLayout s bl nbls ntimes nants rect timeFaster)

end Verif.Cache
