import Mathlib.Data.Rat.Floor
import Verif.MwaBeam.Use

/-!
# Concrete files of the MWA beam that meet the hypotheses
-/

namespace Verif.MwaBeam

/-- Two feeds, two dipoles of degrees 1 and 2, two frequencies. -/
def exContent : Content ℚ where
  pols := ['X', 'Y']
  dips := [['1'], ['2']]
  freqs := [150, 160]
  top := 2
  deg := fun _ d _ => if d = ['1'] then 1 else 2
  rows := fun p d f => (List.range (if d = ['1'] then 3 else 8)).map fun (k : Nat) =>
    (((k : ℚ) + f, 30), ((k : ℚ) - (if p = 'X' then 1 else 2), 60))

def exFile : File ℚ where
  tables := [("X1_150", 'X', ['1'], 150), ("X1_160", 'X', ['1'], 160), ("X2_150", 'X', ['2'], 150), ("X2_160", 'X', ['2'], 160),
    ("Y1_150", 'Y', ['1'], 150), ("Y1_160", 'Y', ['1'], 160), ("Y2_150", 'Y', ['2'], 150), ("Y2_160", 'Y', ['2'], 160)].map
      (fun x => (x.1.toList, tableOf (exContent.rows x.2.1 x.2.2.1 x.2.2.2))) ++ [("notes".toList, [])]
  modes := modeTable 2

/-- Numbers in place of the functions of numpy. -/
def exEnv : Env ℚ ℚ where
  cos := fun x => 1 - x
  sin := fun x => x
  leg := fun m n x => if n = 1 then (if m = 0 then x else x - 1) else x ^ n + m
  sqrt := fun x => x
  pi := 3
  cis := fun x => 1 + x
  emb := RingHom.id ℚ
  im := 2

theorem exHolds : Holds exFile exContent where
  pol := by decide +kernel
  polS := by decide +kernel
  dipS := by decide +kernel
  freqS := by decide +kernel
  polNe := by decide +kernel
  dipNe := by decide +kernel
  freqNe := by decide +kernel
  under := by decide +kernel
  modes := rfl
  nodup := by decide +kernel
  only := by decide +kernel
  all := by decide +kernel
  degPos := by decide +kernel
  degTop := by decide +kernel
  len := by decide +kernel

/-- The second dipole of the first feed is terminated. -/
def exDelays : List (List Int) := [[3, 32], [0, -1]]

def exAmps : List (List ℚ) := [[1, 2], [1 / 2, 1]]

example : ∃ b, read exEnv exFile (some exDelays) (some exAmps) (1 / 90) (asList (some (155, 160))) = .ok b ∧
    b.feeds = ['x', 'y'] ∧ b.freqs = [160] ∧ b.dips = [['1'], ['2']] := by
  obtain ⟨b, h1, h2, h3, h4, -⟩ := read_field exEnv exHolds (delays := exDelays) (amps := exAmps) (by decide) (by decide)
    (by decide) (ppd := 1 / 90) (by norm_num) (by norm_num [exEnv]) (by norm_num [exEnv]) (range := some (155, 160)) (by decide +kernel)
  exact ⟨b, h1, h2, h3, h4⟩

/-- The first feed at the horizon: only the first dipole counts. -/
example : ∃ b : Beam ℚ ℚ, read exEnv exFile (some exDelays) (some exAmps) (1 / 90) none = .ok b ∧
    b.data 0 0 0 1 0 = exEnv.cis (-(2 * 3 * 150 * (3 * (435 / 10 ^ 12)))) * dipoleT exEnv 0 (3 / 2) 1 (exContent.rows 'X' ['1'] 150) := by
  obtain ⟨b, h1, h2, h3, h4, h5⟩ := read_field exEnv exHolds (delays := exDelays) (amps := exAmps) (by decide) (by decide)
    (by decide) (ppd := 1 / 90) (by norm_num) (by norm_num [exEnv]) (by norm_num [exEnv]) (range := none) (by decide +kernel)
  refine ⟨b, h1, ?_⟩
  have hi := read_inv exEnv h1
  have := (h5 0 0 1 0 'X' 150 (3 / 2) 0 [3, 32] [1, 2] rfl (by rw [h3]; rfl) (by rw [hi.2.2.1]; decide +kernel)
    (by rw [hi.2.1]; decide +kernel) rfl rfl).1
  rw [this]
  simp [exContent, excitation, exEnv]

/-- Reading again adds the field of the terminated dipole, which is not zero. -/
example : ∃ b b', read exEnv exFile (some exDelays) none (1 / 90) none = .ok b ∧
    read exEnv exFile (some b.delays) none (1 / 90) none = .ok b' ∧
    b'.data 0 0 0 1 0 = b.data 0 0 0 1 0 + dipoleT exEnv 0 (3 / 2) 2 (exContent.rows 'X' ['2'] 150) := by
  obtain ⟨b, b', h1, h2, h3⟩ := again_counterexample exEnv exHolds (delays := exDelays) (by decide) (by decide) (ppd := 1 / 90)
    (by norm_num) (by norm_num [exEnv]) (by norm_num [exEnv])
  refine ⟨b, b', h1, h2, ?_⟩
  have hi := read_inv exEnv h1
  have := h3 0 0 1 0 'X' 150 (3 / 2) 0 [3, 32] rfl rfl (by rw [hi.2.2.1]; decide +kernel) (by rw [hi.2.1]; decide +kernel) rfl
  rw [this]
  simp [exContent, exEnv]

example : dipoleT exEnv 0 (3 / 2) 2 (exContent.rows 'X' ['2'] 150) ≠ 0 := by decide +kernel

example (b : Beam ℚ ℚ) : read exEnv exFile (some [[3, 33], [0, 0]]) none 5 none ≠ .ok b :=
  big_refused exEnv (r := [3, 33]) (by decide) (d := 33) (by decide) (by decide) b

example (b : Beam ℚ ℚ) : read exEnv exFile (some [[3, 3]]) (some exAmps) 5 none ≠ .ok b :=
  shape_refused exEnv exHolds (Or.inl (by decide)) b

example (b : Beam ℚ ℚ) : read exEnv exFile none none 5 (some [151, 159]) ≠ .ok b :=
  range_refused exEnv exHolds (Or.inr ⟨151, 159, rfl, by decide +kernel⟩) b

/-- Five pixels in two turns. -/
example : ∀ φ, (phiArr exEnv (1 / 144)).getLast? = some φ → φ + exEnv.pi / 180 / (1 / 144) < 2 * exEnv.pi := by
  obtain ⟨b, h1, -⟩ := read_field exEnv exHolds (delays := exDelays) (amps := exAmps) (by decide) (by decide)
    (by decide) (ppd := 1 / 144) (by norm_num) (by norm_num [exEnv]) (by norm_num [exEnv]) (range := none) (by decide +kernel)
  have := turn_counterexample exEnv h1 (by norm_num) (by norm_num [exEnv]) (fun n h => by
    have h2 : (5 : ℚ) = ((2 * n : Nat) : ℚ) := by push_cast; linarith
    have : 5 = 2 * n := by exact_mod_cast h2
    omega)
  rwa [(read_inv exEnv h1).2.1] at this

example : (phiArr exEnv (1 / 144)).length = 2 := by decide +kernel

/-! A file with sixteen dipoles. -/

def bigContent : Content ℚ where
  pols := ['X']
  dips := [1, 10, 11, 12, 13, 14, 15, 16, 2, 3, 4, 5, 6, 7, 8, 9].map (Nat.toDigits 10)
  freqs := [150]
  top := 1
  deg := fun _ _ _ => 1
  rows := fun _ _ _ => [((1, 0), (2, 0)), ((1, 0), (2, 0)), ((1, 0), (2, 0))]

def bigFile : File ℚ where
  tables := ((List.range' 1 16).map fun n => (fileName 'X' (Nat.toDigits 10 n) 150, tableOf (bigContent.rows 'X' (Nat.toDigits 10 n) 150)))
  modes := modeTable 1

theorem bigHolds : Holds bigFile bigContent where
  pol := by decide +kernel
  polS := by decide +kernel
  dipS := by decide +kernel
  freqS := by decide +kernel
  polNe := by decide +kernel
  dipNe := by decide +kernel
  freqNe := by decide +kernel
  under := by decide +kernel
  modes := rfl
  nodup := by decide +kernel
  only := by decide +kernel
  all := by decide +kernel
  degPos := by decide +kernel
  degTop := by decide +kernel
  len := by decide +kernel

example : bigContent.dips[1]? = some ['1', '0'] := by
  have := (sixteen_counterexample bigHolds (by
    intro d
    constructor
    · intro h
      obtain ⟨n, hn, rfl⟩ := List.mem_map.1 h
      exact ⟨n, by revert n; decide, by revert n; decide, rfl⟩
    · rintro ⟨n, h1, h2, rfl⟩
      refine List.mem_map.2 ⟨n, ?_, rfl⟩
      interval_cases n <;> simp)).1
  rw [this]
  decide +kernel

example : exContent.dips = [1, 2].map (Nat.toDigits 10) :=
  dipoles_in_order_partial exHolds [1, 2] (by decide) 1 (by decide +kernel) (by
    intro d
    simp only [exContent, List.mem_cons, List.not_mem_nil, or_false]
    constructor
    · rintro (rfl | rfl)
      · exact ⟨1, by simp, by decide +kernel⟩
      · exact ⟨2, by simp, by decide +kernel⟩
    · rintro ⟨n, (rfl | rfl), rfl⟩
      · exact Or.inl (by decide +kernel)
      · exact Or.inr (by decide +kernel))

/-- The nadir, with the cosine `1 - x` and the sine `x` of the example. -/
example : (p1sin exEnv 1 2)[(2 : Nat)]? = some (1 : ℚ) ∧ (p1sin exEnv 1 (3 / 2))[(2 : Nat)]? = some (-1 : ℚ) :=
  nadir_counterexample exEnv (by simp [exEnv]) (by simp [exEnv]) (by norm_num [exEnv]) (by norm_num [exEnv])
    (by norm_num [exEnv]) (by norm_num [exEnv])

end Verif.MwaBeam
