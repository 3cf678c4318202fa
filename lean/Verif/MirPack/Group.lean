import Mathlib.Data.List.SplitBy
import Mathlib.Data.List.Dedup
import Mathlib.Data.List.Chain
import Verif.MirPack.Model

/-!
# Groups of rows
-/

namespace Verif.MirPack

variable {κ : Type} [LinearOrder κ]

/-- Rows with a key, in order. -/
def rowsOf (key : Nat → κ) (n : Nat) (k : κ) : List Nat := (List.range n).filter (fun i => key i = k)

def keysOf (key : Nat → κ) (n : Nat) : List κ := ((List.range n).map key).dedup.insertionSort (· ≤ ·)

theorem keysOf_lt (key : Nat → κ) (n : Nat) : (keysOf key n).Pairwise (· < ·) := by
  have h1 : (keysOf key n).Pairwise (· ≤ ·) := List.pairwise_insertionSort _ _
  have h2 : (keysOf key n).Nodup := (List.perm_insertionSort _ _).symm.nodup (List.nodup_dedup _)
  exact List.Pairwise.imp₂ (fun a b h1 h2 => lt_of_le_of_ne h1 h2) h1 h2

theorem mem_keysOf (key : Nat → κ) (n : Nat) (k : κ) : k ∈ keysOf key n ↔ ∃ i < n, key i = k := by
  unfold keysOf
  rw [List.mem_insertionSort, List.mem_dedup, List.mem_map]
  simp

theorem mem_rowsOf (key : Nat → κ) (n : Nat) (k : κ) (i : Nat) : i ∈ rowsOf key n k ↔ i < n ∧ key i = k := by
  unfold rowsOf
  rw [List.mem_filter, List.mem_range]
  simp

theorem blocks_pairwise (key : Nat → κ) (n : Nat) (ks : List κ) (h : ks.Pairwise (· < ·)) :
    ((ks.map (rowsOf key n)).flatten).Pairwise (fun i j => toLex (key i, i) < toLex (key j, j)) := by
  rw [List.pairwise_flatten]
  constructor
  · intro l hl
    obtain ⟨k, _, rfl⟩ := List.mem_map.mp hl
    have : (rowsOf key n k).Pairwise (· < ·) := List.Pairwise.filter _ List.pairwise_lt_range
    refine List.Pairwise.imp_of_mem ?_ this
    intro a b ha hb hab
    rw [mem_rowsOf] at ha hb
    rw [Prod.Lex.toLex_lt_toLex]
    exact Or.inr ⟨ha.2.trans hb.2.symm, hab⟩
  · rw [List.pairwise_map]
    refine List.Pairwise.imp ?_ h
    intro k k' hk a ha b hb
    rw [mem_rowsOf] at ha hb
    rw [Prod.Lex.toLex_lt_toLex]
    left
    show key a < key b
    rw [ha.2, hb.2]
    exact hk

theorem lexsort_eq (key : Nat → κ) (n : Nat) : lexsort key n = ((keysOf key n).map (rowsOf key n)).flatten := by
  have hp := blocks_pairwise key n _ (keysOf_lt key n)
  have hnd : ((keysOf key n).map (rowsOf key n)).flatten.Nodup := by
    refine List.Pairwise.imp ?_ hp
    intro a b h e
    subst e
    exact lt_irrefl _ h
  have hperm : (List.range n).Perm ((keysOf key n).map (rowsOf key n)).flatten := by
    rw [List.perm_ext_iff_of_nodup List.nodup_range hnd]
    intro i
    rw [List.mem_range, List.mem_flatten]
    constructor
    · intro hi
      exact ⟨_, List.mem_map.mpr ⟨key i, (mem_keysOf _ _ _).mpr ⟨i, hi, rfl⟩, rfl⟩, (mem_rowsOf _ _ _ _).mpr ⟨hi, rfl⟩⟩
    · rintro ⟨l, hl, hi⟩
      obtain ⟨k, _, rfl⟩ := List.mem_map.mp hl
      exact ((mem_rowsOf _ _ _ _).mp hi).1
  unfold lexsort
  have : Std.Total (fun i j : Nat => toLex (key i, i) ≤ toLex (key j, j)) := ⟨fun a b => le_total (toLex (key a, a)) (toLex (key b, b))⟩
  have : IsTrans Nat (fun i j : Nat => toLex (key i, i) ≤ toLex (key j, j)) := ⟨fun a b c h1 h2 => le_trans h1 h2⟩
  have : Std.Antisymm (fun i j : Nat => toLex (key i, i) ≤ toLex (key j, j)) := ⟨fun a b h1 h2 => by
    have := le_antisymm h1 h2
    have h := congrArg (fun x => (ofLex x).2) this
    exact h⟩
  refine ((List.perm_insertionSort _ _).trans hperm).eq_of_pairwise ?_ (List.pairwise_insertionSort _ _) (hp.imp fun h => h.le)
  intro a b _ _ h1 h2
  exact Std.Antisymm.antisymm (r := fun i j : Nat => toLex (key i, i) ≤ toLex (key j, j)) a b h1 h2

/-- Groups: one for each key, from lower to higher keys; each holds the rows with the key, in the order of the table. -/
theorem groupBy_eq (key : Nat → κ) (n : Nat) : groupBy key n = (keysOf key n).map fun k => (k, rowsOf key n k) := by
  have hne : ∀ k ∈ keysOf key n, rowsOf key n k ≠ [] := by
    intro k hk
    obtain ⟨i, hi, he⟩ := (mem_keysOf key n k).mp hk
    exact List.ne_nil_of_mem ((mem_rowsOf key n k i).mpr ⟨hi, he⟩)
  have hs : (lexsort key n).splitBy (fun i j => key i = key j) = (keysOf key n).map (rowsOf key n) := by
    rw [List.splitBy_eq_iff]
    refine ⟨lexsort_eq key n, ?_, ?_, ?_⟩
    · intro h
      obtain ⟨k, hk, he⟩ := List.mem_map.mp h
      exact hne k hk he
    · intro m hm
      obtain ⟨k, hk, rfl⟩ := List.mem_map.mp hm
      apply List.Pairwise.isChain
      rw [List.pairwise_iff_forall_sublist]
      intro a b hab
      have ha := (mem_rowsOf key n k a).mp (hab.subset (by simp))
      have hb := (mem_rowsOf key n k b).mp (hab.subset (by simp))
      simp [ha.2, hb.2]
    · apply List.Pairwise.isChain
      rw [List.pairwise_map]
      refine List.Pairwise.imp_of_mem ?_ (keysOf_lt key n)
      intro k k' hk hk' hlt
      refine ⟨hne k hk, hne k' hk', ?_⟩
      have ha := (mem_rowsOf key n k _).mp (List.getLast_mem (hne k hk))
      have hb := (mem_rowsOf key n k' _).mp (List.head_mem (hne k' hk'))
      rw [decide_eq_false_iff_not, ha.2, hb.2]
      exact hlt.ne
  unfold groupBy
  rw [hs, List.map_map]
  apply List.map_congr_left
  intro k hk
  have hh : (rowsOf key n k).headD 0 ∈ rowsOf key n k := by
    have := hne k hk
    cases h : rowsOf key n k with
    | nil => exact absurd h this
    | cons a l => simp
  simp only [Function.comp]
  rw [((mem_rowsOf key n k _).mp hh).2]

/-- Keys of groups increase, so no key occurs twice. -/
theorem groupBy_keys (key : Nat → κ) (n : Nat) : ((groupBy key n).map fun g => g.1).Pairwise (· < ·) := by
  rw [groupBy_eq, List.map_map]
  have : ((fun g : κ × List Nat => g.1) ∘ fun k => (k, rowsOf key n k)) = id := rfl
  rw [this, List.map_id]
  exact keysOf_lt key n

/-- Every group that is there, and what is in it. -/
theorem groupBy_mem (key : Nat → κ) (n : Nat) (k : κ) (g : List Nat) :
    (k, g) ∈ groupBy key n ↔ (∃ i < n, key i = k) ∧ g = (List.range n).filter (fun i => key i = k) := by
  rw [groupBy_eq, List.mem_map]
  constructor
  · rintro ⟨k', hk, he⟩
    cases he
    exact ⟨(mem_keysOf key n k).mp hk, rfl⟩
  · rintro ⟨hk, rfl⟩
    exact ⟨k, (mem_keysOf key n k).mpr hk, rfl⟩

end Verif.MirPack
