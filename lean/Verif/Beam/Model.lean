import Verif.FreqSort.Lemmas

/-!
Model of `UVBeam` objects and of `UVBeam.select`, `src/pyuvdata/uvbeam/uvbeam.py` lines 2890–3262.

* An array is a function of positions; its shape is that of the label lists. Where the code can leave an array with another shape, the length in
  question is kept (`npol`, the lengths in `basis`).
* `data i j k l` is what `data_array[:, i, j, k, l]` has, over `Naxes_vec`; `basis k l` is `basis_vector_array[:, :, k, l]`; `coupling i i' j` is
  `coupling_matrix[:, :, i, i', j]`.
* Feeds are single letters and stand for their code points, so that `pols` is `polarization_array` or `feed_array`.
* For a HEALPix object `ax1` is `pixel_array` and `ax2` has one element.
* `extra` stands for `receiver_temperature_array`, `loss_array`, `mismatch_array` and `s_parameters`, which are treated alike.
* A method that works in place gives the object as it is afterwards, also if an exception is raised.
* Of `check` only the comparison of shapes is modelled, which is what can fail after a selection. Left out: history, warnings, the counts, the change
  of the type of `data_array` from complex to real (3237–3250). Selected polarizations are given as numbers.
-/
namespace Verif.Beam
open Verif.Np Verif.FreqSort

structure Obj (K V B C X : Type) where
  power : Bool
  healpix : Bool
  pols : List Int
  npol : Nat
  freqs : List K
  ax2 : List K
  ax1 : List K
  data : Nat → Nat → Nat → Nat → V
  bandpass : Nat → K
  extra : Option (Nat → X)
  basis : Option (Nat × Nat × (Nat → Nat → B))
  coupling : Option (Nat → Nat → Nat → C)

inductive Err where
  | healpix | empty | index | missing | kind | shape
deriving DecidableEq

variable {K V B C X : Type} [LinearOrder K]

/-- Lines 2970–2972, 3004–3006. -/
def axisInds (n : Nat) (l : List Int) : Except Err (List Nat) :=
  if l = [] then .error .empty
  else if l.any (fun i => decide (i < 0) || decide ((n : Int) ≤ i)) then .error .index
  else .ok (unique (l.map Int.toNat))

/-- Lines 3035–3046, 3074–3084, 3150–3166, 3198–3212: positions of the labels that are wanted, one label after the other. -/
def findInds {κ : Type} [DecidableEq κ] (labels wanted : List κ) : Except Err (List Nat) :=
  if wanted.any (fun w => !labels.contains w) then .error .missing
  else .ok (wanted.flatMap (fun w => whereIdx (fun x => decide (x = w)) labels))

def Obj.takeAx1 (o : Obj K V B C X) (inds : List Nat) : Obj K V B C X :=
  { o with
    ax1 := fancy o.ax1 inds
    data := fun i j k l => o.data i j k (inds.getD l 0)
    basis := if o.power then o.basis else o.basis.map (fun b => (b.1, inds.length, fun k l => b.2.2 k (inds.getD l 0))) }

def Obj.takeAx2 (o : Obj K V B C X) (inds : List Nat) : Obj K V B C X :=
  { o with
    ax2 := fancy o.ax2 inds
    data := fun i j k l => o.data i j (inds.getD k 0) l
    basis := if o.power then o.basis else o.basis.map (fun b => (inds.length, b.2.1, fun k l => b.2.2 (inds.getD k 0) l)) }

def Obj.takeFreqs (o : Obj K V B C X) (inds : List Nat) : Obj K V B C X :=
  { o with
    freqs := fancy o.freqs inds
    bandpass := fun j => o.bandpass (inds.getD j 0)
    extra := o.extra.map (fun e j => e (inds.getD j 0))
    data := fun i j k l => o.data i (inds.getD j 0) k l
    coupling := o.coupling.map (fun c i i' j => c i i' (inds.getD j 0)) }

/-- Lines 2961–2990. -/
def selAx1 (l : List Int) (o : Obj K V B C X) : Except Err (Obj K V B C X) :=
  if o.healpix then .error .healpix
  else (axisInds o.ax1.length l).map o.takeAx1

/-- Lines 2992–3024. -/
def selAx2 (l : List Int) (o : Obj K V B C X) : Except Err (Obj K V B C X) :=
  if o.healpix then .error .healpix
  else (axisInds o.ax2.length l).map o.takeAx2

/-- Lines 3026–3054. -/
def selPixels (l : List K) (o : Obj K V B C X) : Except Err (Obj K V B C X) :=
  if o.healpix then (findInds o.ax1 l).map (fun inds => o.takeAx1 (unique inds))
  else .error .healpix

/-- `xs[inds]` where negative indices count from the end. -/
def pyTake {α : Type} (xs : List α) (inds : List Int) : Except Err (List α) :=
  if inds.any (fun i : Int => decide (i < -(xs.length : Int)) || decide ((xs.length : Int) ≤ i)) then .error .index
  else .ok (fancy xs (inds.map (fun i : Int => Int.toNat (if i < 0 then i + xs.length else i))))

/-- Lines 3056–3064. -/
def wantedFreqs (o : Obj K V B C X) (chans : Option (List Int)) (freqs : Option (List K)) : Except Err (Option (List K)) :=
  match chans with
  | none => .ok freqs
  | some c => (pyTake o.freqs c).map (fun l => some (match freqs with
    | none => l
    | some f => unique (f ++ l)))

/-- Lines 3056–3121. -/
def selFreqs (chans : Option (List Int)) (freqs : Option (List K)) (o : Obj K V B C X) : Except Err (Obj K V B C X) :=
  match wantedFreqs o chans freqs with
  | .error e => .error e
  | .ok none => .ok o
  | .ok (some l) => (findInds o.freqs l).map (fun inds => o.takeFreqs (unique inds))

/-- Lines 3134–3164: `names` is the dictionary from the names of directions to feeds. -/
def feedOf (names : List (Int × Int)) (feeds : List Int) (f : Int) : Int :=
  if feeds.contains f then f
  else match names.find? (fun a => decide (a.1 = f)) with
    | some a => a.2
    | none => f

/-- Lines 3123–3182. -/
def selFeeds (names : List (Int × Int)) (l : List Int) (o : Obj K V B C X) : Except Err (Obj K V B C X) :=
  if o.power then .error .kind
  else (findInds o.pols (l.map (feedOf names o.pols))).map (fun inds =>
    { o with
      pols := fancy o.pols (unique inds)
      npol := (unique inds).length
      data := fun i j k l => o.data ((unique inds).getD i 0) j k l
      coupling := o.coupling.map (fun c i i' j => c ((unique inds).getD i 0) ((unique inds).getD i' 0) j) })

/-- Lines 3184–3235: `polarization_array` is taken before the positions are sorted (3215), `data_array` afterwards. -/
def selPols (l : List Int) (o : Obj K V B C X) : Except Err (Obj K V B C X) :=
  if o.power then (findInds o.pols l).map (fun inds =>
    { o with
      pols := fancy o.pols inds
      npol := (unique inds).length
      data := fun i j k l => o.data ((unique inds).getD i 0) j k l })
  else .error .kind

structure Req (K : Type) where
  ax1 : Option (List Int) := none
  ax2 : Option (List Int) := none
  pixels : Option (List K) := none
  chans : Option (List Int) := none
  freqs : Option (List K) := none
  feeds : Option (List Int) := none
  pols : Option (List Int) := none

def opt {α : Type} (f : α → Obj K V B C X → Except Err (Obj K V B C X)) (a : Option α) (o : Obj K V B C X) : Except Err (Obj K V B C X) :=
  match a with
  | none => .ok o
  | some x => f x o

/-- One statement after the other, until one raises. -/
def runAll (o : Obj K V B C X) : List (Obj K V B C X → Except Err (Obj K V B C X)) → Obj K V B C X × Option Err
  | [] => (o, none)
  | s :: ss => match s o with
    | .error e => (o, some e)
    | .ok o' => runAll o' ss

/-- The shapes agree with the labels. -/
def Obj.shapes (o : Obj K V B C X) : Bool :=
  decide (o.npol = o.pols.length) &&
    match o.basis with
    | none => true
    | some b => decide (b.1 = o.ax2.length) && decide (b.2.1 = o.ax1.length)

/-- Lines 3255–3259. -/
def checkStep (runCheck : Bool) (o : Obj K V B C X) : Except Err (Obj K V B C X) := if runCheck && !o.shapes then .error .shape else .ok o

/-- `select`. -/
def select (names : List (Int × Int)) (q : Req K) (runCheck : Bool) (o : Obj K V B C X) : Obj K V B C X × Option Err :=
  runAll o [opt selAx1 q.ax1, opt selAx2 q.ax2, opt selPixels q.pixels, selFreqs q.chans q.freqs, opt (selFeeds names) q.feeds, opt selPols q.pols,
    checkStep runCheck]

end Verif.Beam
