import Verif.AntPair.Model
import Verif.Slices.Spec
import Verif.Baseline.Spec

/-!
When an object is consistent, and which rows belong to an antenna pair.
-/
namespace Verif.AntPair

/-- `l` is the increasing list of all rows whose antennas are exactly (a, b). -/
def IsRowsOf (o : Obj) (a b : Nat) (l : List Nat) : Prop :=
  l.Pairwise (· < ·) ∧ ∀ i, i ∈ l ↔ o.ant1[i]? = some a ∧ o.ant2[i]? = some b

/-- The baseline array numbers the antenna pairs (any of the non-Miriad conventions). -/
def Numbered (o : Obj) : Prop :=
  ∃ att : Bool, Verif.Baseline.antnumsToBaseline (some o.nants) att false
    (o.ant1.map (fun n : Nat => (n : Int))) (o.ant2.map (fun n : Nat => (n : Int))) = .ok o.bl

/-- If the object says it is rectangular, its baseline array really is laid out that way: baseline by baseline
(`Nbls` distinct baselines, each repeated over `Ntimes` consecutive rows), or the same sequence of `Nbls`
distinct baselines for each of `Ntimes` times. -/
def LaidOut (o : Obj) : Prop :=
  o.rect = true → 0 < o.ntimes ∧ 0 < o.nbls ∧ ∃ B : List Nat, B.Nodup ∧ B.length = o.nbls ∧
    o.bl = if o.timeFaster then B.flatMap (fun b => List.replicate o.ntimes b)
      else (List.replicate o.ntimes B).flatten

end Verif.AntPair
