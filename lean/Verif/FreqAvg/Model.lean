import Mathlib.Algebra.Order.Field.Basic
import Mathlib.Algebra.BigOperators.Group.List.Basic
import Mathlib.Algebra.Module.Basic

/-!
Model of `UVData.frequency_average`, uvdata.py 8212–8522.

* `κ` are the positions along the baseline-time and polarization axes, `cells` lists them; a channel carries all its cells.
* Numbers are exact (an ordered field); `int(np.floor(n / k))` and `int(np.ceil(n / k))` are the whole quotients.
* The preallocated arrays are filled window by window from consecutive positions, so the result is the concatenation of the
  windows.
* Left out: `eq_coeffs`, warnings, objects without data, data types.
-/
namespace Verif.FreqAvg

variable {K V κ : Type} [Field K] [AddCommGroup V] [Module K V]

structure Chan (K V κ : Type) where
  freq : K
  width : K
  spw : Int
  data : κ → V
  flag : κ → Bool
  nsample : κ → K

inductive Err where
  | indexError
deriving DecidableEq

/-- Lines 8300–8303. -/
def finalCount (k : Nat) (keep : Bool) (n : Nat) : Nat := if keep then (n + k - 1) / k else n / k

/-- `reshape((n_final_chan_reg, n_chan_to_avg))` of the regular channels, lines 8344, 8355–8357. -/
def regular (k : Nat) (l : List (Chan K V κ)) : List (List (Chan K V κ)) :=
  (List.range (l.length / k)).map (fun i => (l.drop (i * k)).take k)

/-- Lines 8397–8413. -/
def finalFlag (propagate : Bool) (g : List (Chan K V κ)) (c : κ) : Bool :=
  if propagate then g.any (fun h => h.flag c) else g.all (fun h => h.flag c)

/-- The mask of the regular channels: new channel, cell, place in the group. -/
abbrev Mask (κ : Type) := Nat → κ → Nat → Bool

/-- Line 8391. -/
def flagMask (gs : List (List (Chan K V κ))) : Mask κ :=
  fun i c j => ((gs[i]?.bind (fun g => g[j]?)).map (fun h => h.flag c)).getD false

/-- Lines 8430–8436: the mask is cleared for new channel `i` where all of it is set. -/
def clear (k : Nat) (sel : κ → Bool) (i : Nat) (m : Mask κ) : Mask κ :=
  fun i' c j => if i' = i ∧ sel c = true ∧ (List.range k).all (m i c) = true then false else m i' c j

/-- Lines 8421–8436: the channel number among all new channels, `offset + ci`, is used in a mask with the channels of this window
only. -/
def maskStep (k : Nat) (cells : List κ) (propagate : Bool) (offset : Nat) (gs : List (List (Chan K V κ))) (m : Mask κ)
    (ci : Nat) : Except Err (Mask κ) :=
  let sel := finalFlag propagate ((gs[ci]?).getD [])
  if cells.any sel then
    if offset + ci < gs.length then .ok (clear k sel (offset + ci) m) else .error .indexError
  else .ok m

/-- Sum over the channels of a group that are not masked. -/
def msum {α : Type} [AddCommMonoid α] (g : List (Chan K V κ)) (m : Nat → Bool) (f : Chan K V κ → α) : α :=
  ((g.zipIdx.filter (fun p => !m p.2)).map (fun p => f p.1)).sum

variable [DecidableEq K]

/-- Division of masked arrays leaves the numerator where the denominator is zero. -/
def wmean (num : V) (den : K) : V := if den = 0 then num else den⁻¹ • num

/-- Lines 8355–8373 and 8475–8507: a new channel. -/
def combine (summing propagate : Bool) (spw : Int) (g : List (Chan K V κ)) (m : κ → Nat → Bool) : Chan K V κ :=
  { freq := (g.map Chan.freq).sum / g.length
    width := (g.map Chan.width).sum
    spw := spw
    flag := finalFlag propagate g
    data := fun c =>
      if summing then msum g (m c) (fun h => h.data c)
      else wmean (msum g (m c) (fun h => h.nsample c • h.data c)) (msum g (m c) (fun h => h.nsample c))
    nsample := fun c => msum g (m c) (fun h => h.nsample c) / g.length }

/-- The mask of the ragged channel, lines 8437–8443. -/
def ragMask (propagate : Bool) (g : List (Chan K V κ)) : κ → Nat → Bool :=
  fun c j => if finalFlag propagate g c && g.all (fun h => h.flag c) then false else ((g[j]?).map (fun h => h.flag c)).getD false

/-- Lines 8327–8507 for one window whose first new channel is at `offset`. -/
def averageSpw (k : Nat) (cells : List κ) (summing propagate keep : Bool) (spw : Int) (offset : Nat) (l : List (Chan K V κ)) :
    Except Err (List (Chan K V κ)) :=
  let gs := regular k l
  match (List.range gs.length).foldlM (maskStep k cells propagate offset gs) (flagMask gs) with
  | .error e => .error e
  | .ok m =>
    let reg := gs.zipIdx.map (fun p => combine summing propagate spw p.1 (m p.2))
    let rest := l.drop (l.length / k * k)
    if l.length % k ≠ 0 ∧ keep = true then .ok (reg ++ [combine summing propagate spw rest (ragMask propagate rest)])
    else .ok reg

/-- The windows one after the other; `offset` is the number of new channels so far (8304–8307). -/
def averageSpws (k : Nat) (cells : List κ) (summing propagate keep : Bool) (chans : List (Chan K V κ)) :
    Nat → List Int → Except Err (List (Chan K V κ))
  | _, [] => .ok []
  | offset, s :: spws =>
    let l := chans.filter (fun h => decide (h.spw = s))
    match averageSpw k cells summing propagate keep s offset l with
    | .error e => .error e
    | .ok new =>
      match averageSpws k cells summing propagate keep chans (offset + finalCount k keep l.length) spws with
      | .error e => .error e
      | .ok rest => .ok (new ++ rest)

/-- `frequency_average`. Without `respect_spws` everything becomes one window (8258–8262). -/
def frequencyAverage (k : Nat) (cells : List κ) (summing propagate respect keep : Bool) (spws : List Int) (chans : List (Chan K V κ)) :
    Except Err (List (Chan K V κ)) :=
  if decide (1 < spws.length) && !respect then
    averageSpws k cells summing propagate keep (chans.map (fun h => { h with spw := 0 })) 0 [0]
  else averageSpws k cells summing propagate keep chans 0 spws

end Verif.FreqAvg
