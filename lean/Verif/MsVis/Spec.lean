import Verif.MsVis.Model

/-! What it means that visibilities survive, without reference to positions. -/

namespace Verif.MsVis

variable {T K U C E : Type}

/-- All that a visibility is labelled with. -/
structure Label (T K U E : Type) where
  time : T
  a1 : Nat
  a2 : Nat
  int : K
  uvw : U
  scan : Int
  /-- The entry of the catalog of phase centers. -/
  entry : E
  spw : Int
  freq : K
  width : K
  pol : Int

/-- The polarization at position `p` of a channel; it is that of the window if there is one polarization for each window. -/
def polAt (o : Obj T K U C E) (c : Chan K) (p : Nat) : Option Int :=
  match o.flexPol with
  | none => o.pols[p]?
  | some l => if p = 0 then l[o.spws.idxOf c.spw]? else none

/-- The object has this visibility (with flag and weight) under this label. -/
def Has (o : Obj T K U C E) (L : Label T K U E) (v : Vis C K) : Prop :=
  ∃ (r f p : Nat) (row : Row T K U) (c : Chan K), o.rows[r]? = some row ∧ o.chans[f]? = some c ∧ polAt o c p = some L.pol ∧
    row.time = L.time ∧ row.a1 = L.a1 ∧ row.a2 = L.a2 ∧ row.int = L.int ∧ row.uvw = L.uvw ∧ row.scan = L.scan ∧
    (row.pc, L.entry) ∈ o.cats ∧ c.spw = L.spw ∧ c.freq = L.freq ∧ c.width = L.width ∧ o.data r f p = v

/-- The label with the opposite vector, if conjugated. -/
def flipL (w : Ops T K U C) (flip : Bool) (L : Label T K U E) : Label T K U E := { L with uvw := w.flipU flip L.uvw }

/-- A consistent object. -/
structure Good (o : Obj T K U C E) : Prop where
  projected : o.unproj = false
  rows : o.rows ≠ []
  spws : o.spws.Nodup
  chans : ∀ c ∈ o.chans, c.spw ∈ o.spws
  windows : o.spws ≠ []
  filled : ∀ s ∈ o.spws, ∃ c ∈ o.chans, c.spw = s
  cats : (o.cats.map (fun c => c.1)).Nodup
  pcs : ∀ r ∈ o.rows, r.pc ∈ o.cats.map (fun c => c.1)
  pols : o.pols.Nodup
  polsSome : o.pols ≠ []
  flex : ∀ l, o.flexPol = some l → l.length = o.spws.length ∧ o.pols.length = 1

/-- The numbers of the polarizations of visibilities: those of the object or of its windows. -/
def polsOf (o : Obj T K U C E) : List Int := o.flexPol.getD o.pols

/-- No two rows have the same time and antennas. -/
def Apart (o : Obj T K U C E) : Prop := (o.rows.map (fun r => (r.time, r.a1, r.a2))).Nodup

/-- Every window has more than one channel. -/
def NoSingle (o : Obj T K U C E) : Prop := ∀ s ∈ o.spws, (o.chans.filter (fun c => decide (c.spw = s))).length ≠ 1

end Verif.MsVis
