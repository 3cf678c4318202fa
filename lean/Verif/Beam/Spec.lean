import Verif.Beam.Model

/-! What a beam object says, by labels and not by positions. -/
namespace Verif.Beam

variable {K V B C X : Type}

/-- The object has the value `v` for polarization or feed `p`, frequency `f`, and the pixel at `y`, `x`. -/
def Has (o : Obj K V B C X) (p : Int) (f y x : K) (v : V) : Prop :=
  ∃ i j k l : Nat, o.pols[i]? = some p ∧ o.freqs[j]? = some f ∧ o.ax2[k]? = some y ∧ o.ax1[l]? = some x ∧ o.data i j k l = v

def HasBand (o : Obj K V B C X) (f b : K) : Prop := ∃ j : Nat, o.freqs[j]? = some f ∧ o.bandpass j = b

def HasExtra (o : Obj K V B C X) (f : K) (e : X) : Prop := ∃ g, o.extra = some g ∧ ∃ j : Nat, o.freqs[j]? = some f ∧ g j = e

def HasBasis (o : Obj K V B C X) (y x : K) (b : B) : Prop :=
  ∃ g, o.basis = some g ∧ ∃ k l : Nat, o.ax2[k]? = some y ∧ o.ax1[l]? = some x ∧ g.2.2 k l = b

def HasCoupling (o : Obj K V B C X) (p p' : Int) (f : K) (c : C) : Prop :=
  ∃ g, o.coupling = some g ∧ ∃ i i' j : Nat, o.pols[i]? = some p ∧ o.pols[i']? = some p' ∧ o.freqs[j]? = some f ∧ g i i' j = c

/-- No label occurs twice. -/
structure Distinct (o : Obj K V B C X) : Prop where
  pols : o.pols.Nodup
  freqs : o.freqs.Nodup
  ax2 : o.ax2.Nodup
  ax1 : o.ax1.Nodup

/-- `r` is the part of `o` with the polarizations, frequencies and pixels that satisfy the conditions, in the order of `o`. -/
structure Part (o r : Obj K V B C X) (SP : Int → Prop) (SF S2 S1 : K → Prop) : Prop where
  power : r.power = o.power
  healpix : r.healpix = o.healpix
  pols : r.pols.Sublist o.pols ∧ ∀ p, p ∈ r.pols ↔ p ∈ o.pols ∧ SP p
  freqs : r.freqs.Sublist o.freqs ∧ ∀ f, f ∈ r.freqs ↔ f ∈ o.freqs ∧ SF f
  ax2 : r.ax2.Sublist o.ax2 ∧ ∀ y, y ∈ r.ax2 ↔ y ∈ o.ax2 ∧ S2 y
  ax1 : r.ax1.Sublist o.ax1 ∧ ∀ x, x ∈ r.ax1 ↔ x ∈ o.ax1 ∧ S1 x
  data : ∀ p f y x v, Has r p f y x v ↔ Has o p f y x v ∧ SP p ∧ SF f ∧ S2 y ∧ S1 x
  band : ∀ f b, HasBand r f b ↔ HasBand o f b ∧ SF f
  extra : ∀ f e, HasExtra r f e ↔ HasExtra o f e ∧ SF f
  basis : o.power = false → ∀ y x b, HasBasis r y x b ↔ HasBasis o y x b ∧ S2 y ∧ S1 x
  present : r.extra.isSome = o.extra.isSome ∧ r.basis.isSome = o.basis.isSome ∧ r.coupling.isSome = o.coupling.isSome
  coupling : ∀ p p' f c, HasCoupling r p p' f c ↔ HasCoupling o p p' f c ∧ SP p ∧ SP p' ∧ SF f

/-! What a selection asks for. -/

/-- `xs[i]` of Python is `x`. -/
def PyAt {α : Type} (xs : List α) (i : Int) (x : α) : Prop :=
  (0 ≤ i ∧ xs[i.toNat]? = some x) ∨ (i < 0 ∧ 0 ≤ i + xs.length ∧ xs[(i + xs.length).toNat]? = some x)

def Want1 (q : Req K) (o : Obj K V B C X) (x : K) : Prop :=
  (∀ l, q.ax1 = some l → ∃ i ∈ l, 0 ≤ i ∧ o.ax1[i.toNat]? = some x) ∧ (∀ l, q.pixels = some l → x ∈ l)

def Want2 (q : Req K) (o : Obj K V B C X) (y : K) : Prop := ∀ l, q.ax2 = some l → ∃ i ∈ l, 0 ≤ i ∧ o.ax2[i.toNat]? = some y

/-- Frequencies and channels together are one list. -/
def WantF (q : Req K) (o : Obj K V B C X) (f : K) : Prop :=
  (q.chans = none ∧ q.freqs = none) ∨ (∃ l, q.freqs = some l ∧ f ∈ l) ∨ (∃ c, q.chans = some c ∧ ∃ i ∈ c, PyAt o.freqs i f)

/-- `f` names the feed `p`, itself or by its direction. -/
def Names (names : List (Int × Int)) (o : Obj K V B C X) (f p : Int) : Prop :=
  (f ∈ o.pols ∧ p = f) ∨ (f ∉ o.pols ∧ ∃ a, names.find? (fun a => decide (a.1 = f)) = some a ∧ p = a.2)

def WantP (names : List (Int × Int)) (q : Req K) (o : Obj K V B C X) (p : Int) : Prop :=
  (∀ l, q.feeds = some l → ∃ f ∈ l, Names names o f p) ∧ (∀ l, q.pols = some l → p ∈ l)

end Verif.Beam
