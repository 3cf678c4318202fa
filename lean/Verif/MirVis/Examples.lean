import Mathlib.Data.Rat.Defs
import Mathlib.Algebra.Order.Ring.Rat
import Verif.MirVis.Counter

/-! Concrete cases of the theorems about visibilities made of MIR records. -/

namespace Verif.MirVis

def int1 : In ℚ := ⟨7, 100, 30, 4, 1, 2⟩
def int2 : In ℚ := ⟨9, 101, 30, 5, 3, 4⟩

/-- A baseline of an integration, receiver and sideband. -/
def bl (i : In ℚ) (a b rx : Nat) (isb : Nat) : Bl ℚ := ⟨i, a, b, rx, rx, 0, isb, a, b, i.inhid⟩

def vis (x : Int) : Vis Int ℚ := ⟨x, false, 2⟩

/-- Spectra of two channels. -/
def sp (i : In ℚ) (a b rx isb chunk : Nat) (f : ℚ) (x : Int) : Sp Int ℚ := ⟨bl i a b rx isb, chunk, f, if isb = 0 then -1 else 1, 2, [vis x, vis (x + 1)]⟩

/-- Two receivers with the same tuning, two sidebands, not all baselines in each integration. -/
def sps : List (Sp Int ℚ) :=
  [sp int2 1 3 0 1 1 10 100, sp int2 1 3 1 1 1 10 110, sp int1 1 2 0 1 1 10 120, sp int1 1 2 0 0 1 8 130, sp int1 2 3 1 0 1 8 140, sp int1 1 2 0 1 2 7 150]

def codes (p : Int) : Option Int := if p = 0 then some (-5) else if p = 1 then some (-6) else if p = 2 then some (-7) else if p = 3 then some (-8) else none

def mk (l : List (Sp Int ℚ)) (codes : Int → Option Int) (n : Nat) (allow fresh : Bool) : Dat Int ℚ :=
  let d : Dat Int ℚ := ⟨fun x => -x, codes, n, allow, [], 139648, fresh, [7, 9], l.map Sp.bl, l⟩
  { d with order := (l.map d.key).reverse }

def dat : Dat Int ℚ := mk sps codes 4 true true

theorem good_mk {l : List (Sp Int ℚ)} {codes : Int → Option Int} {n : Nat} {allow fresh : Bool} (k : Key) :
    k ∈ (mk l codes n allow fresh).order ↔ ∃ s ∈ (mk l codes n allow fresh).sps, (mk l codes n allow fresh).key s = k := by
  show k ∈ (l.map _).reverse ↔ _
  rw [List.mem_reverse, List.mem_map]
  exact Iff.rfl

theorem dat_good : Good dat where
  set := good_mk
  code := by decide +kernel
  base := fun s hs => List.mem_map.2 ⟨s, hs, rfl⟩
  int := by decide +kernel
  chunk := by decide +kernel
  isb := by decide +kernel
  tuned := by decide +kernel
  size := by decide +kernel
  one := by decide +kernel
  once := by decide +kernel
  same := by decide +kernel

example := placed_partial dat_good
example := unfilled_partial dat_good
example : dat.split = false ∧ dat.ids = [-1, 1, 2] ∧ dat.rows.map (fun m => (m.a1, m.a2, m.mjd)) = [(1, 2, 100), (2, 3, 100), (1, 3, 101)] := by decide +kernel
example : dat.obj.pols = [-5, -6] ∧ dat.obj.chanSpw = [-1, -1, 1, 1, 2, 2] := by decide +kernel
example : (dat.obj.data 2 1 2).data = -110 ∧ (dat.obj.data 0 0 1).data = -131 ∧ dat.obj.data 2 1 1 = ⟨0, true, 0⟩ := by decide +kernel

/-- Receivers with different tunings. -/
def sps2 : List (Sp Int ℚ) := [sp int1 1 2 0 1 1 10 100, sp int1 1 2 1 1 1 20 110, sp int2 1 3 1 1 1 20 120]

def dat2 : Dat Int ℚ := mk sps2 codes 4 true false

theorem dat2_good : Good dat2 where
  set := good_mk
  code := by decide +kernel
  base := fun s hs => List.mem_map.2 ⟨s, hs, rfl⟩
  int := by decide +kernel
  chunk := by decide +kernel
  isb := by decide +kernel
  tuned := by decide +kernel
  size := by decide +kernel
  one := by decide +kernel
  once := by decide +kernel
  same := by decide +kernel

example := placed_partial dat2_good
example : dat2.split = true ∧ dat2.ids = [1, 513] ∧ dat2.obj.flexPol = some [-5, -6] ∧ dat2.obj.pols = [0] := by decide +kernel

example : spwId true ⟨0, 0, 1⟩ ≠ spwId true ⟨0, 1, 1⟩ := by
  rw [Ne, window_ids true (by decide) (by decide) (by decide) (by decide)]
  decide

example : chanFreq 3 1000 (-2) 8 5 - chanFreq 3 1000 (-2) 8 4 = (-2 : ℚ) := (freq_even 3 1000 (-2) 8 4).1
example : dat.rowKeys.Pairwise (· < ·) := (rows_sorted dat).1

example : dat.pol (sp int1 1 2 1 1 1 10 5) = 1 := ((pol_receivers dat _).1 ⟨⟨0, by intro q; simp [dat, mk, sps, sp, bl, eq_comm]⟩, rfl⟩).2.1.2 (by decide)
example : dat2.split = true := (split_iff dat2).2 ⟨by decide +kernel, ⟨sp int1 1 2 0 1 1 10 100, by decide +kernel, by decide +kernel, by decide +kernel⟩,
  ⟨sp int1 1 2 1 1 1 20 110, by decide +kernel, by decide +kernel, by decide +kernel⟩⟩
example : dat.obj.spws.Pairwise (· < ·) := windows_sorted (read_ok dat_good)

/-- The codes of polarizations are those of the records, none is 1. -/
def pol (p : Int) (s : Sp Int ℚ) : Sp Int ℚ := { s with bl := { s.bl with ipol := p } }

def sps3 : List (Sp Int ℚ) := [pol 2 (sp int1 1 2 0 1 1 10 100), pol 3 (sp int1 1 2 1 1 1 20 110)]
def dat3 : Dat Int ℚ := mk sps3 codes 4 true false

example : dat3.obj.data = [pol 3 (sp int1 1 2 1 1 1 20 110)].foldl dat3.put (fun _ _ _ => ⟨0, true, 0⟩) :=
  codes_counterexample (d := dat3) (a := []) (b := []) (e := []) (s := pol 2 (sp int1 1 2 0 1 1 10 100)) (t := pol 3 (sp int1 1 2 1 1 1 20 110))
    (by decide +kernel) rfl rfl rfl rfl rfl rfl (by decide +kernel) (by decide +kernel)

def dat4 : Dat Int ℚ := mk sps2 codes 4 false false
example : dat4.split = true := by decide +kernel
example : ∃ o, dat4.read = .ok o ∧ o.flexPol ≠ none ∧ o.pols.length = 2 := by
  have h : dat4.read = .ok dat4.obj := by
    unfold Dat.read
    rw [if_neg (by decide +kernel), if_neg (by decide +kernel)]
  exact ⟨_, h, flex_counterexample (by decide +kernel) rfl h⟩

-- All pairs of three antennas; the pair (2, 3) is missing.
example : dat.nbls = (dat.bls.map (fun b => (b.a1, b.a2))).toFinset.card := by decide +kernel
example : dat2.nbls ≠ (dat2.bls.map (fun b => (b.a1, b.a2))).toFinset.card := by
  rw [Ne, nbls_iff (by decide +kernel)]
  intro h
  obtain ⟨b, hb, e⟩ := h 2 3 ⟨bl int1 1 2 0 1, by decide +kernel, Or.inr rfl⟩ ⟨bl int2 1 3 1 1, by decide +kernel, Or.inr rfl⟩ (by decide)
  have : ∀ b ∈ dat2.bls, ¬ (b.a1 = 2 ∧ b.a2 = 3) := by decide +kernel
  exact this b hb e

end Verif.MirVis
