import Verif.FlexJones.Model

/-! What is said about calibration solutions by an object, whichever way Jones components are stored. -/
namespace Verif.FlexJones
open Verif.FlexPol

variable {L V : Type}

/-- The Jones component of a window in an object that has one per window. -/
def jonesOf (o : Obj L V) (w : Int) : Option Int := o.flexJones.bind (fun fj => fj[o.spws.idxOf w]?)

/-- There is a channel `l` in window `w` with the values `pl`. -/
def HasChan (o : Obj L V) (w : Int) (l : L) (pl : Plane V) : Prop :=
  ∃ k : Nat, o.ids[k]? = some w ∧ o.lab[k]? = some l ∧ o.planes[k]? = some pl

/-- The object says that antenna `i` at time `t` has the value `v` in channel `l` of window `w` for Jones component `j`. -/
def Says (o : Obj L V) (i t : Nat) (w : Int) (l : L) (j : Int) (v : V) : Prop :=
  ∃ pl, HasChan o w l pl ∧
    match o.flexJones with
    | none => ∃ p : Nat, o.jones[p]? = some j ∧ v = pl i t p
    | some _ => jonesOf o w = some j ∧ v = pl i t 0

/-- A consistent object. -/
structure Good (o : Obj L V) : Prop where
  lab : o.lab.length = o.ids.length
  planes : o.planes.length = o.ids.length
  nodup : o.spws.Nodup
  listed : ∀ w ∈ o.ids, w ∈ o.spws
  used : ∀ w ∈ o.spws, w ∈ o.ids
  jones : o.jones.Nodup
  flex : ∀ fj, o.flexJones = some fj → fj.length = o.spws.length ∧ o.jones.length = 1

/-- The channels of a window, in order. -/
def chansOf (o : Obj L V) (w : Int) : List L := ofWin o.ids o.lab w

/-- No window has the same channel twice. -/
def DistinctChans (o : Obj L V) : Prop := ∀ w ∈ o.spws, (chansOf o w).Nodup

end Verif.FlexJones
