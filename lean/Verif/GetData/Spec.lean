import Verif.GetData.Model
import Verif.AntPair.Spec

/-!
What a user asks for with a key: the rows of the pair in order, then the rows of the reversed pair in order,
conjugated and read at the conjugate polarization.
-/
namespace Verif.GetData
open Verif.AntPair (IsRowsOf Numbered LaidOut)
open Verif.Pol (conjNum)

/-- The stored visibility of row `i` for polarization number `p`. -/
def stored {V : Type} (o : Obj) (data : List (List V)) (i : Nat) (p : Int) : Option V :=
  (data[i]?).bind (fun r => (o.pols.findIdx? (fun q => decide (q = p))).bind (fun k => r[k]?))

/-- The object is consistent and the array has one row per baseline-time and one column per polarization, the
polarizations being distinct. -/
structure Good {V : Type} (o : Obj) (data : List (List V)) : Prop where
  numbered : Numbered o.pairs
  laidOut : LaidOut o.pairs
  nodup : o.pols.Nodup
  rows : data.length = o.pairs.nblts
  cols : ∀ r ∈ data, r.length = o.pols.length

/-- `out` lists, for the rows `l` and then the rows `k`, the visibilities of the polarizations `ps`; those of
`k` conjugated and taken at the conjugate polarization. -/
def Answers {V : Type} (cj : V → V) (o : Obj) (data : List (List V)) (l k : List Nat) (ps : List Int)
    (out : List (List V)) : Prop :=
  ∃ x y, out = x ++ y ∧
    x.map (List.map some) = l.map (fun i => ps.map (stored o data i)) ∧
    y.map (List.map some) = k.map (fun i => ps.map (fun p =>
      (conjNum p).bind (fun q => (stored o data i q).map cj)))

end Verif.GetData
