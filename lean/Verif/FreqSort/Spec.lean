import Verif.FreqSort.Model

/-! What is asked of a channel ordering, without reference to how it is computed. -/
namespace Verif.FreqSort

variable {K : Type} [Field K] [LinearOrder K]

/-- A consistent frequency axis: every channel belongs to a listed window, windows are listed once, none is empty. -/
structure Valid (freqs : List K) (spws ids : List Int) : Prop where
  len : ids.length = freqs.length
  nodup : spws.Nodup
  listed : ∀ w ∈ ids, w ∈ spws
  used : ∀ w ∈ spws, w ∈ ids
  nonempty : spws ≠ []

/-- The arrangement a result stands for: `None` leaves the channels where they are. -/
def arrangement (n : Nat) (r : Option (List Nat)) : List Nat := r.getD (List.range n)

/-- The channels of window `w`, in the order of the arrangement `idx`. -/
def chans (ids : List Int) (w : Int) (idx : List Nat) : List Nat := idx.filter (fun i => ids[i]? == some w)

/-- Channel `i` has a frequency no larger than that of channel `j`. -/
def FreqLe (freqs : List K) (i j : Nat) : Prop := ∀ x y, freqs[i]? = some x → freqs[j]? = some y → x ≤ y

/-- `m` is the median of `l`. -/
def IsMedian (l : List K) (m : K) : Prop :=
  ∃ s : List K, s.Perm l ∧ s.Pairwise (· ≤ ·) ∧ ∃ a b, s[(l.length - 1) / 2]? = some a ∧ s[l.length / 2]? = some b ∧
    m = (a + b) / 2

/-- The frequencies of the channels of window `w`. -/
def windowFreqs (freqs : List K) (ids : List Int) (w : Int) : List K :=
  ((List.zip ids freqs).filter (fun p => p.1 == w)).map (·.2)

/-- Window `v` has a median frequency no larger than that of window `w`. -/
def MedianLe (freqs : List K) (ids : List Int) (v w : Int) : Prop :=
  ∀ a b, IsMedian (windowFreqs freqs ids v) a → IsMedian (windowFreqs freqs ids w) b → a ≤ b

/-- `ord` is an order of the windows as requested by the keyword `so`. -/
def Requested (freqs : List K) (spws ids : List Int) (so : Order) (ord : List Int) : Prop :=
  ord.Perm spws ∧
  (∀ l, so = .idx l → ord.map some = l.map (fun i => spws[i.toNat]?)) ∧
  (so = .str "number".toList → ord.Pairwise (· < ·)) ∧
  (so = .str "-number".toList → ord.Pairwise (· > ·)) ∧
  (so = .str "freq".toList → ord.Pairwise (MedianLe freqs ids)) ∧
  (so = .str "-freq".toList → ord.Pairwise (fun v w => MedianLe freqs ids w v))

/-- Within window `w` the channels are in the requested frequency order. -/
def ChannelsSorted (freqs : List K) (co : Order) (l : List Nat) : Prop :=
  (co = .str "freq".toList → l.Pairwise (FreqLe freqs)) ∧
  (co = .str "-freq".toList → l.Pairwise (fun i j => FreqLe freqs j i))

end Verif.FreqSort
