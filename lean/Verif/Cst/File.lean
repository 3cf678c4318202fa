import Mathlib.Analysis.SpecialFunctions.Complex.Circle
import Verif.Cst.Grid
import Verif.Cst.Head

/-! # Whole files -/

namespace Verif.Cst

open Verif.Pol (Str)

variable {K α β : Type} [Field K] [LinearOrder K]

omit [Field K] [LinearOrder K] in
theorem fileRows_map {T P : List K} {a b : K → K} {g : K → K → α} :
    fileRows (T.map a) (P.map b) g = (P.flatMap fun p => T.map fun t => (t, p)).map fun x => ⟨a x.1, b x.2, g (a x.1) (b x.2)⟩ := by
  unfold fileRows
  simp only [List.flatMap_map, List.map_flatMap, List.map_map]
  rfl

/-- **C183.** A power beam that is read from a whole file: the columns of angles and of the magnitude are found by their names, angles in degrees are
converted, and values are squared. -/
theorem readPower_file [FloorSemiring K] {t : Tols K} {rad : K → K} {q : K} {rotate : Bool} {line : Str} {h : List (Str × Str)} {it ip ie : Nat}
    {T P : List K} {row : K → K → List K} {v g : K → K → K} (hh : header line = some h) (ht : colOf h "theta".toList = some it)
    (hp : colOf h "phi".toList = some ip) (he : powerCol h = some ie)
    (hrow : ∀ x ∈ T, ∀ y ∈ P, (row x y)[it]? = some x ∧ (row x y)[ip]? = some y ∧ (row x y)[ie]? = some (v x y))
    (hg : ∀ x ∈ T, ∀ y ∈ P, g (if inDeg h it then rad x else x) (if inDeg h ip then rad y else y) = v x y ^ 2) :
    readPower t rad q rotate line (P.flatMap fun y => T.map fun x => row x y) =
      some (readGrid t q rotate (fileRows (T.map fun x => if inDeg h it then rad x else x) (P.map fun y => if inDeg h ip then rad y else y) g)) := by
  unfold readPower
  rw [hh, Option.bind_some, ht, Option.bind_some, hp, Option.bind_some, he, Option.bind_some]
  have e : (P.flatMap fun y => T.map fun x => row x y) = (P.flatMap fun p => T.map fun t => (t, p)).map fun x => row x.1 x.2 := by
    simp only [List.map_flatMap, List.map_map]; rfl
  have hr : rowsOf rad h it ip (fun row => (row[ie]?).map fun v => v ^ 2) (P.flatMap fun y => T.map fun x => row x y) =
      some (fileRows (T.map fun x => if inDeg h it then rad x else x) (P.map fun y => if inDeg h ip then rad y else y) g) := by
    unfold rowsOf
    rw [e, fileRows_map]
    apply mapM_map_some
    intro x hx
    simp only [List.mem_flatMap, List.mem_map] at hx
    obtain ⟨y, hy, z, hz, rfl⟩ := hx
    obtain ⟨h1, h2, h3⟩ := hrow z hz y hy
    simp only [angle, h1, h2, h3, Option.map_some, Option.bind_some, hg z hz y hy]
  rw [hr, Option.map_some]

/-- **C183.** An electric field that is read from a whole file: each component has the magnitude and the phase of its own columns, first the component
along azimuth and then the one along zenith angle, and phases in degrees are converted. -/
theorem readField_file [FloorSemiring K] {t : Tols K} {rad : K → K} {polar : K → K → α} {q : K} {rotate : Bool} {line : Str} {h : List (Str × Str)}
    {it ip mt pt mp pp : Nat} {T P : List K} {row : K → K → List K} {magT phT magP phP : K → K → K} {g : K → K → α × α}
    (hh : header line = some h) (ht : colOf h "theta".toList = some it) (hp : colOf h "phi".toList = some ip)
    (hmt : colOf h "abs(theta)".toList = some mt) (hpt : colOf h "phase(theta)".toList = some pt) (hmp : colOf h "abs(phi)".toList = some mp)
    (hpp : colOf h "phase(phi)".toList = some pp)
    (hrow : ∀ x ∈ T, ∀ y ∈ P, (row x y)[it]? = some x ∧ (row x y)[ip]? = some y ∧ (row x y)[mt]? = some (magT x y) ∧ (row x y)[pt]? = some (phT x y) ∧
      (row x y)[mp]? = some (magP x y) ∧ (row x y)[pp]? = some (phP x y))
    (hg : ∀ x ∈ T, ∀ y ∈ P, g (if inDeg h it then rad x else x) (if inDeg h ip then rad y else y) =
      (polar (magP x y) (if inDeg h pp then rad (phP x y) else phP x y), polar (magT x y) (if inDeg h pt then rad (phT x y) else phT x y))) :
    readField t rad polar q rotate line (P.flatMap fun y => T.map fun x => row x y) =
      some (readGrid t q rotate (fileRows (T.map fun x => if inDeg h it then rad x else x) (P.map fun y => if inDeg h ip then rad y else y) g)) := by
  unfold readField
  rw [hh, Option.bind_some, ht, Option.bind_some, hp, Option.bind_some, hmt, Option.bind_some, hpt, Option.bind_some, hmp, Option.bind_some, hpp,
    Option.bind_some]
  have e : (P.flatMap fun y => T.map fun x => row x y) = (P.flatMap fun p => T.map fun t => (t, p)).map fun x => row x.1 x.2 := by
    simp only [List.map_flatMap, List.map_map]; rfl
  have hr : rowsOf rad h it ip (fun row => (row[mp]?).bind fun a => (angle rad h pp row).bind fun b => (row[mt]?).bind fun c =>
      (angle rad h pt row).map fun d => (polar a b, polar c d)) (P.flatMap fun y => T.map fun x => row x y) =
      some (fileRows (T.map fun x => if inDeg h it then rad x else x) (P.map fun y => if inDeg h ip then rad y else y) g) := by
    unfold rowsOf
    rw [e, fileRows_map]
    apply mapM_map_some
    intro x hx
    simp only [List.mem_flatMap, List.mem_map] at hx
    obtain ⟨y, hy, z, hz, rfl⟩ := hx
    obtain ⟨h1, h2, h3, h4, h5, h6⟩ := hrow z hz y hy
    simp only [angle, h1, h2, h3, h4, h5, h6, Option.map_some, Option.bind_some, hg z hz y hy]
  rw [hr, Option.map_some]

/-! ### Values do not matter for the grid -/

def mapVal (φ : α → β) (r : Row K α) : Row K β := ⟨r.za, r.az, φ r.val⟩

def Beam.map (φ : α → β) (b : Beam K α) : Beam K β :=
  ⟨b.axis1, b.axis2, fun i j => (b.first i j).map φ, b.second.map fun g i j => (g i j).map φ⟩

omit [Field K] [LinearOrder K] in
theorem cell_map {φ : α → β} {rows : List (Row K α)} {n i j : Nat} : cell (rows.map (mapVal φ)) n i j = (cell rows n i j).map (mapVal φ) := by
  unfold cell; simp

omit [Field K] [LinearOrder K] in
theorem vals_map {φ : α → β} {rows : List (Row K α)} {n i j : Nat} : vals (rows.map (mapVal φ)) n i j = (vals rows n i j).map φ := by
  unfold vals; rw [cell_map]; simp [Function.comp_def, mapVal]

theorem rotOk_map {φ : α → β} {t : K × K} {q : K} {rows : List (Row K α)} {n m k : Nat} :
    rotOk t q (rows.map (mapVal φ)) n m k ↔ rotOk t q rows n m k := by
  unfold rotOk
  simp only [cell_map, Option.mem_def, Option.map_eq_some_iff]
  constructor
  · intro h i hi j hj r hr s hs
    exact h i hi j hj _ ⟨r, hr, rfl⟩ _ ⟨s, hs, rfl⟩
  · rintro h i hi j hj _ ⟨r, hr, rfl⟩ _ ⟨s, hs, rfl⟩
    exact h i hi j hj r hr s hs

theorem readGrid_map [FloorSemiring K] {φ : α → β} {t : Tols K} {q : K} {rotate : Bool} {rows : List (Row K α)} :
    readGrid t q rotate (rows.map (mapVal φ)) = (readGrid t q rotate rows).map (Beam.map φ) := by
  unfold readGrid
  have e1 : (rows.map (mapVal φ)).map Row.za = rows.map Row.za := by simp [Function.comp_def, mapVal]
  have e2 : (rows.map (mapVal φ)).map Row.az = rows.map Row.az := by simp [Function.comp_def, mapVal]
  simp only [e1, e2, List.length_map, rotOk_map]
  split
  · rfl
  split
  · rfl
  split
  · rfl
  split
  · split
    · simp only [Except.map, Beam.map, Except.ok.injEq]
      congr 1
      funext i j
      exact vals_map
    · split
      · simp only [Except.map, Beam.map, Except.ok.injEq, Option.map_some]
        congr 1
        · funext i j
          exact vals_map
        · congr 1
          funext i j
          exact vals_map
      · rfl
  · rfl

omit [Field K] [LinearOrder K] in
theorem rowsOf_map {φ : α → β} {rad : K → K} {h : List (Str × Str)} {it ip : Nat} {val : List K → Option α} {val' : List K → Option β} :
    ∀ {data : List (List K)} {rows : List (Row K α)} (_ : ∀ row ∈ data, ∀ x, val row = some x → val' row = some (φ x))
      (_ : rowsOf rad h it ip val data = some rows), rowsOf rad h it ip val' data = some (rows.map (mapVal φ))
  | [], rows, _, e => by
    simp only [rowsOf, List.mapM_nil, Option.pure_def, Option.some.injEq] at e ⊢
    subst e; rfl
  | row :: data, rows, hv, e => by
    unfold rowsOf at e
    simp only [List.mapM_cons, Option.pure_def, Option.bind_eq_bind, Option.bind_eq_some_iff, Option.map_eq_some_iff, Option.some.injEq] at e
    obtain ⟨r, ⟨t, ht, p, hp, v, hv', rfl⟩, rs, hrs, rfl⟩ := e
    have ih := rowsOf_map (fun r hr => hv r (by simp [hr])) hrs
    unfold rowsOf at ih ⊢
    simp only [List.mapM_cons, ht, hp, hv row (by simp) v hv', ih, Option.map_some, Option.bind_some, Option.pure_def, Option.bind_eq_bind]
    rfl

/-- `mag * np.exp(1j * phase)` (353-354). -/
noncomputable def polarC (mag phase : ℝ) : ℂ := mag * Complex.exp (Complex.I * phase)

theorem normSq_polarC (a b : ℝ) : Complex.normSq (polarC a b) = a ^ 2 := by
  unfold polarC
  rw [map_mul, Complex.normSq_ofReal, Complex.normSq_eq_norm_sq, mul_comm Complex.I, Complex.norm_exp_ofReal_mul_I]
  ring

/-- **C183.** If a file is read as an electric field, and its magnitude of the field is that of both components, then reading the file as a power beam
gives the sum of squares of both components, at each point, with the same axes and for the rotated polarization as well. -/
theorem power_of_field {t : Tols ℝ} {rad : ℝ → ℝ} {q : ℝ} {rotate : Bool} {line : Str} {data : List (List ℝ)} {h : List (Str × Str)} {ie mt mp : Nat}
    {x : Except Err (Beam ℝ (ℂ × ℂ))} (hh : header line = some h) (he : powerCol h = some ie) (hmt : colOf h "abs(theta)".toList = some mt)
    (hmp : colOf h "abs(phi)".toList = some mp)
    (hE : ∀ row ∈ data, ∀ a b, row[mp]? = some a → row[mt]? = some b → ∃ e, row[ie]? = some e ∧ e ^ 2 = a ^ 2 + b ^ 2)
    (hx : readField t rad polarC q rotate line data = some x) :
    readPower t rad q rotate line data = some (x.map (Beam.map fun v => Complex.normSq v.1 + Complex.normSq v.2)) := by
  unfold readField at hx
  rw [hh, Option.bind_some] at hx
  simp only [Option.bind_eq_some_iff, Option.map_eq_some_iff] at hx
  obtain ⟨it, hit, ip, hip, mt', hmt', pt, _, mp', hmp', pp, _, rows, hrows, rfl⟩ := hx
  rw [hmt] at hmt'
  rw [hmp] at hmp'
  obtain rfl := Option.some.inj hmt'
  obtain rfl := Option.some.inj hmp'
  unfold readPower
  rw [hh, Option.bind_some, hit, Option.bind_some, hip, Option.bind_some, he, Option.bind_some]
  rw [rowsOf_map (φ := fun v => Complex.normSq v.1 + Complex.normSq v.2) (val' := fun row => (row[ie]?).map fun v => v ^ 2) ?_ hrows,
    Option.map_some, readGrid_map]
  intro row hr v hv
  simp only [Option.bind_eq_some_iff, Option.map_eq_some_iff] at hv
  obtain ⟨a, ha, b, _, c, hc, d, _, rfl⟩ := hv
  obtain ⟨e, he', hsq⟩ := hE row hr a c ha hc
  simp only [he', Option.map_some, hsq, normSq_polarC]

/-! ### Labels -/

/-- **C184.** The second polarization of a power beam has the other feeds: `xx` and `yy`, or `xy` and `yx`, and turning twice gives the same names. -/
theorem rotPol_twice {p r : Str} (h : rotPol p = some r) : rotPol r = some p ∧ r ≠ p := by
  unfold rotPol at h
  split at h
  · rename_i e; subst e; obtain rfl := Option.some.inj h; exact ⟨rfl, by decide⟩
  split at h
  · rename_i e; subst e; obtain rfl := Option.some.inj h; exact ⟨rfl, by decide⟩
  split at h
  · rename_i e; subst e; obtain rfl := Option.some.inj h; exact ⟨rfl, by decide⟩
  split at h
  · rename_i e; subst e; obtain rfl := Option.some.inj h; exact ⟨rfl, by decide⟩
  · exact absurd h (by simp)

/-- **C184.** For feeds `x` and `y` the labels of power beams and of fields belong together, in the order of the data: the feed of the file first. -/
theorem labels_agree {p : Str} (rotate : Bool) (hp : p = "x".toList ∨ p = "y".toList) :
    powerPols p rotate = some ((feeds p rotate).map fun f => f ++ f) ∧ (feeds p rotate).head? = some p := by
  rcases hp with rfl | rfl <;> cases rotate <;> decide

/-- **C184.** Any other name of a feed than `x`, also `xx`, is taken for `y` in electric fields, while power beams with `xx` are labelled `xx`. -/
theorem feeds_counterexample {p : Str} (h : p ≠ "x".toList) (rotate : Bool) : (feeds p rotate).head? = some "y".toList := by
  have h' : p ≠ ['x'] := h
  unfold feeds
  cases rotate <;> simp [h']

end Verif.Cst
