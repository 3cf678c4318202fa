import Verif.Compress.Mean
import Verif.Redund.Examples
import Mathlib.Algebra.Module.Prod

/-! C130, C131: cases that meet the hypotheses, and what averaging over redundant baselines does not keep. -/
namespace Verif.Compress
open Verif.Np

/-- Complex numbers with rational parts. -/
abbrev C := ℚ × ℚ

def cconj : C →ₗ[ℚ] C where
  toFun z := (z.1, -z.2)
  map_add' a b := by ext <;> simp [add_comm]
  map_smul' c a := by ext <;> simp

theorem cconj_conj (v : C) : cconj (cconj v) = v := by ext <;> simp [cconj]

/-- Sorting of times. -/
def sortOrder (ts : List ℚ) : List Nat := (List.range ts.length).insertionSort (fun i j => ts.getD i 0 ≤ ts.getD j 0)

theorem sortOrder_argsort (ts : List ℚ) : IsArgsort ts (sortOrder ts) := by
  refine ⟨List.perm_insertionSort _ _, ?_⟩
  have : Std.Total (fun i j : Nat => ts.getD i 0 ≤ ts.getD j 0) := ⟨fun a b => le_total _ _⟩
  have : IsTrans Nat (fun i j : Nat => ts.getD i 0 ≤ ts.getD j 0) := ⟨fun a b c h1 h2 => le_trans h1 h2⟩
  refine (List.pairwise_insertionSort (fun i j : Nat => ts.getD i 0 ≤ ts.getD j 0) (List.range ts.length)).imp ?_
  intro i j h x y hx hy
  rw [List.getD_eq_getElem?_getD, List.getD_eq_getElem?_getD, hx, hy] at h
  exact h

def cl (tol : ℚ) : List ℚ → List (List Nat) := timeClusters Redund.hash1 sortOrder (fun _ => 1) tol

theorem cl_splits (tol : ℚ) (ht : 0 < tol) (ts : List ℚ) (hne : ts ≠ []) (ha : Apart tol ts) : Splits ts (cl tol ts) :=
  clusters_split Redund.hash1 sortOrder (fun _ => 1) tol ht ts ha Redund.hash1_inj ⟨Nat.one_pos, List.length_pos_iff.2 hne⟩ (sortOrder_argsort ts)

/-- Baseline 1 and baseline 2, which points the other way, at two times; baseline 3 by itself. -/
def sample : Obj ℚ C where
  bl := [1, 2, 3, 1, 2]
  time r := [0, 0, 0, 1, 1].getD r 0
  nf := 2
  np := 1
  data r f _ := [(3, 1), (5, -3), (7, 7), (2, (f : ℚ)), (2, -(f : ℚ))].getD r 0
  ns r _ _ := [1, 3, 2, 1, 1].getD r 0
  flag r f _ := r == 1 && f == 1

def sampleGps : List (List Int) := [[1, 2], [3]]

theorem sample_ok : Ok (cl (1 / 10)) sample (1 / 10) sampleGps where
  tolPos := by norm_num
  ne := by decide
  nodup := by decide
  once := by
    have : ∀ r < sample.bl.length, ∀ s < sample.bl.length, blOf sample r = blOf sample s → sample.time r = sample.time s → r = s := by decide +kernel
    exact fun r s hr hs => this r hr s hs
  apart := by
    have : ∀ r < sample.bl.length, ∀ s < sample.bl.length, sample.time r = sample.time s ∨ (1 / 10 : ℚ) ≤ |sample.time r - sample.time s| := by decide +kernel
    exact fun r s hr hs => this r hr s hs
  clusters := fun ts hne ha => cl_splits (1 / 10) (by norm_num) ts hne ha

/-- What there is in the rows, for two channels and two polarizations. -/
structure View where
  row : Nat
  data : List C
  ns : List ℚ
  flag : List Bool
  deriving DecidableEq

def cells : List (Nat × Nat) := [(0, 0), (0, 1), (1, 0), (1, 1)]

def view (e : Nat × Out ℚ C) : View :=
  ⟨e.1, cells.map (fun c => e.2.data c.1 c.2), cells.map (fun c => e.2.ns c.1 c.2), cells.map (fun c => e.2.flag c.1 c.2)⟩

/-- In the first channel the mean of 3 + i and three times 5 + 3i is kept, in the second, where one is flagged, 3 + i. -/
example : (compress cconj (cl (1 / 10)) sample (1 / 10) [2] sampleGps).map view =
    [⟨0, [(9 / 2, 5 / 2), (9 / 2, 5 / 2), (3, 1), (3, 1)], [4, 4, 1, 1], [false, false, false, false]⟩,
     ⟨2, [(7, 7), (7, 7), (7, 7), (7, 7)], [2, 2, 2, 2], [false, false, false, false]⟩,
     ⟨3, [(2, 0), (2, 0), (2, 1), (2, 1)], [2, 2, 2, 2], [false, false, false, false]⟩] := by
  decide +kernel

example := averaged_partial (conjs := [2]) cconj cconj_conj sample_ok [1, 2] List.mem_cons_self 0 (by decide) (by decide)

/-- The two rows at the second time see the same. -/
example (x : Out ℚ C) (hx : (3, x) ∈ compress cconj (cl (1 / 10)) sample (1 / 10) [2] sampleGps) : x.data 1 0 = ((2, 1) : C) :=
  redundant_kept_partial cconj cconj_conj sample_ok [1, 2] List.mem_cons_self 3 (by decide) (by decide) x hx 1 0 _ (by decide +kernel) (by decide +kernel)

example (f p : Nat) := samples_conserved_partial (conjs := [2]) cconj cconj_conj sample_ok
  (by
    have : ∀ s < sample.bl.length, ∃ gp ∈ sampleGps, blOf sample s ∈ gp ∧ ∃ r < sample.bl.length, blOf sample r = gp.headD 0 ∧ sample.time r = sample.time s := by
      decide +kernel
    exact this)
  (by
    have : ∀ gp ∈ sampleGps, ∀ r < sample.bl.length, blOf sample r ∈ gp →
        ∃ s ∈ groupAt sample gp (sample.time r), ∃ f < sample.nf, ∃ p < sample.np, sample.flag s f p = false := by decide +kernel
    exact this) f p

/-- Two directions of the same baseline with polarizations xy and yx: what one sees as xy the other sees as the conjugate of yx. -/
def crossPols : Obj ℚ C where
  bl := [1, 2]
  time _ := 0
  nf := 1
  np := 2
  data r _ p := ([[((1, 2) : C), (3, 4)], [(3, -4), (1, -2)]].getD r []).getD p 0
  ns _ _ _ := 1
  flag _ _ _ := false

/-- C131 fails for cross polarizations: the polarizations of conjugated baselines are not swapped, so that xy is averaged with yx. -/
theorem cross_pols_counterexample :
    (∀ p < 2, crossPols.data 1 0 p = cconj (crossPols.data 0 0 (1 - p))) ∧
    (compress cconj (cl (1 / 10)) crossPols (1 / 10) [2] [[1, 2]]).map (fun e => (e.1, e.2.data 0 0, e.2.data 0 1)) = [(0, (2, 3), (2, 3))] := by
  decide +kernel

/-- The first baseline lacks the second time. -/
def lacking : Obj ℚ C where
  bl := [1, 2, 2]
  time r := [0, 0, 1].getD r 0
  nf := 1
  np := 1
  data _ _ _ := (1, 0)
  ns _ _ _ := 1
  flag _ _ _ := false

/-- C131 fails if the first baseline of the group lacks a time: the samples of the others at that time are lost. -/
theorem lacking_counterexample :
    ((compress cconj (cl (1 / 10)) lacking (1 / 10) [] [[1, 2]]).map (fun e => e.2.ns 0 0)).sum = 2 ∧
    ((List.range 3).map (fun s => lacking.ns s 0 0)).sum = 3 := by
  decide +kernel

/-- Three baselines with times that are close to the next one but not to the one after. -/
def chain : Obj ℚ C where
  bl := [1, 2, 3]
  time r := [0, 2 / 3, 4 / 3].getD r 0
  nf := 1
  np := 1
  data _ _ _ := (1, 0)
  ns _ _ _ := 1
  flag _ _ _ := false

/-- C130 fails if times differ by less than the tolerance without being equal: times in a chain are in no cluster, and the row is left with visibility zero and
not flagged. -/
theorem chain_counterexample :
    (compress cconj (cl 1) chain 1 [] [[1, 2, 3]]).map (fun e => (e.1, e.2.data 0 0, e.2.ns 0 0, e.2.flag 0 0)) = [(0, (0, 0), 0, false)] ∧
    chain.flag 0 0 0 = false ∧ chain.data 0 0 0 = (1, 0) := by
  decide +kernel

/-- One baseline with a channel that is flagged, and the same with all channels flagged. -/
def flagged (all : Bool) : Obj ℚ C where
  bl := [1]
  time _ := 0
  nf := 2
  np := 1
  data _ _ _ := (1, 0)
  ns _ _ _ := 1
  flag _ f _ := all || f == 0

/-- A flagged channel of a baseline that is redundant with no other comes back as zero with no samples, unless everything is flagged. -/
theorem flagged_counterexample :
    (compress cconj (cl 1) (flagged false) 1 [] [[1]]).map (fun e => (e.2.data 0 0, e.2.ns 0 0, e.2.flag 0 0)) = [((0, 0), 0, true)] ∧
    (compress cconj (cl 1) (flagged true) 1 [] [[1]]).map (fun e => (e.2.data 0 0, e.2.ns 0 0, e.2.flag 0 0)) = [((1, 0), 1, true)] := by
  decide +kernel

end Verif.Compress
