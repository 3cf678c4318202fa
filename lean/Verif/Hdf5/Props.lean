import Verif.Hdf5.Lemmas

/-!
C08, C09: partial reads and writes of datasets touch exactly the selected cells.
-/
namespace Verif.Hdf5
open Verif.Np

theorem fixInds_eq (shape : List Nat) (inds : List AxSel) : fixInds shape inds = normSels shape inds := by
  unfold fixInds normSels
  generalize shape.length = n
  by_cases h4 : n = 4
  · subst h4
    match inds with
    | [] => rfl
    | [_] => rfl
    | [_, _] => rfl
    | [_, _, _] => rfl
    | _ :: _ :: _ :: _ :: l => simp
  · rw [if_neg (fun h => h4 h.1)]
    split
    · exact absurd rfl h4
    · rfl

/-- C08: a partial read succeeds, has the shape of the selection, and its entry at every multi-index is the
dataset entry at the selected position of every axis (in particular no cell is left uninitialised). -/
theorem read_selected {α : Type} (dset : Arr α) (inds : List AxSel) (pss : List (List Nat))
    (hs : Sels .read dset.shape (normSels dset.shape inds) pss)
    (hl : ((normSels dset.shape inds).filter isListSel).length ≤ 1) :
    ∃ out, readDset dset inds = some out ∧ out.shape = pss.map List.length ∧
      ∀ ix r, lookup pss ix = some r → out.get ix = some (dset.get r) := by
  obtain ⟨cells, h1, h2⟩ := hs.cells hl
  unfold readDset
  rw [fixInds_eq]
  simp only [hs.shape, h1, Option.bind_eq_bind, Option.bind_some]
  refine ⟨_, rfl, rfl, ?_⟩
  intro ix r hr
  obtain ⟨hf, hsn⟩ := lookup_pairs hr
  apply foldl_upd_in (fun c : List (Nat × Nat) => c.map Prod.fst)
    (fun c => some (dset.get (c.map Prod.snd)))
  · exact ⟨ix.zip r, (h2 _).2 (by rw [hf, hsn]; exact hr), hf⟩
  · intro c hc he
    have := (h2 c).1 hc
    rw [he, hr] at this
    simp only [Option.some.injEq] at this
    rw [← this]

example : Sels .read [6, 4] (normSels [6, 4] [.slices [⟨some 0, some 5, some 2⟩, ⟨some 5, none, none⟩], .list [3, 1]])
    [[0, 2, 4, 5], [3, 1]] :=
  .cons (Or.inl ⟨by decide, by intro s hs; rcases List.mem_cons.1 hs with rfl | hs
                               · exact ⟨by decide, by decide, by intro e he; cases he; decide⟩
                               · simp at hs; subst hs; exact ⟨by decide, by decide, by intro e he; cases he⟩⟩)
    (by decide) (.cons (Or.inl (by simp [GoodSel])) (by decide) .nil)

/-- Every multi-index inside the returned shape has a selected cell, so C08 covers every entry returned. -/
theorem lookup_total (pss : List (List Nat)) (ix : List Nat)
    (h : List.Forall₂ (fun i ps => i < List.length ps) ix pss) : ∃ r, lookup pss ix = some r := by
  induction h with
  | nil => exact ⟨[], rfl⟩
  | cons h1 _ ih =>
    obtain ⟨r, hr⟩ := ih
    exact ⟨_, by simp only [lookup, List.getElem?_eq_getElem h1, hr]; rfl⟩

example : List.Forall₂ (fun i ps => i < List.length ps) [3, 1] [[0, 2, 4, 5], [3, 1]] := by
  simp

/-- The shape computed before reading is the number of selected positions on every axis. -/
theorem shape_predicted (shape : List Nat) (inds : List AxSel) (pss : List (List Nat))
    (hs : Sels .read shape inds pss) : dsetShape shape inds = some (pss.map List.length) := hs.shape

example : Sels .read [6] [.slice ⟨some 1, some 9, some 2⟩] [[1, 3, 5]] :=
  .cons (Or.inl ⟨by decide, by decide, by intro e he; cases he; decide⟩) (by decide) .nil

theorem lookup_inj {pss : List (List Nat)} (hn : ∀ ps ∈ pss, ps.Nodup) {a b r : List Nat}
    (ha : lookup pss a = some r) (hb : lookup pss b = some r) : a = b := by
  induction pss generalizing a b r with
  | nil => cases a <;> cases b <;> simp [lookup] at ha hb ⊢
  | cons ps pss ih =>
    cases a with
    | nil => simp [lookup] at ha
    | cons i is =>
      cases b with
      | nil => simp [lookup] at hb
      | cons j js =>
        simp only [lookup] at ha hb
        cases h1 : ps[i]? with
        | none => simp [h1] at ha
        | some x =>
          cases h2 : lookup pss is with
          | none => simp [h1, h2] at ha
          | some u =>
            cases h3 : ps[j]? with
            | none => simp [h3] at hb
            | some y =>
              cases h4 : lookup pss js with
              | none => simp [h3, h4] at hb
              | some v =>
                simp [h1, h2] at ha
                simp [h3, h4] at hb
                subst ha
                simp only [List.cons.injEq] at hb
                obtain ⟨rfl, rfl⟩ := hb
                have hil : i < ps.length := (List.getElem?_eq_some_iff.1 h1).1
                have : i = j := (List.getElem?_inj hil (hn ps (by simp))).1 (by rw [h1, h3])
                rw [this, ih (fun q hq => hn q (by simp [hq])) h2 h4]

/-- C09: a partial write of an array with the shape of the selection succeeds, stores every array entry at
its selected cell and changes nothing else. -/
theorem write_selected {α : Type} (dset arr : Arr α) (inds : List AxSel) (pss : List (List Nat))
    (hs : Sels .write dset.shape (normSels dset.shape inds) pss)
    (hl : ((normSels dset.shape inds).filter isListSel).length ≤ 1)
    (hsh : arr.shape = pss.map List.length) (hn : ∀ ps ∈ pss, ps.Nodup) :
    ∃ out, writeDset dset arr inds = some out ∧ out.shape = dset.shape ∧
      (∀ ix r, lookup pss ix = some r → out.get r = arr.get ix) ∧
      (∀ r, (∀ ix, lookup pss ix ≠ some r) → out.get r = dset.get r) := by
  obtain ⟨cells, h1, h2⟩ := hs.cells hl
  have hany : (normSels dset.shape inds).any (fun s => decide (s = .list [] ∨ s = .slices [])) = false := by
    rw [List.any_eq_false]
    intro s hsm
    clear h1 h2 hl hsh
    generalize normSels dset.shape inds = ss at *
    generalize dset.shape = sh at *
    induction hs with
    | nil => simp at hsm
    | cons hg _ _ ih =>
      rcases List.mem_cons.1 hsm with rfl | hsm
      · simp only [decide_eq_true_eq, not_or]
        rcases hg with hg | ⟨_, l, rfl, _⟩
        · constructor
          · rintro rfl; exact hg rfl
          · rintro rfl; exact hg.1 rfl
        · constructor <;> intro h <;> cases h
      · exact ih (fun q hq => hn q (by simp [hq])) hsm
  unfold writeDset
  rw [fixInds_eq]
  simp only [hany, hsh, h1, Option.bind_eq_bind, Option.bind_some, Bool.false_eq_true, if_false]
  refine ⟨_, rfl, rfl, ?_, ?_⟩
  · intro ix r hr
    obtain ⟨hf, hsn⟩ := lookup_pairs hr
    apply foldl_upd_in (fun c : List (Nat × Nat) => c.map Prod.snd) (fun c => arr.get (c.map Prod.fst))
    · exact ⟨ix.zip r, (h2 _).2 (by rw [hf, hsn]; exact hr), hsn⟩
    · intro c hc he
      have := (h2 c).1 hc
      rw [he] at this
      rw [lookup_inj hn this hr]
  · intro r hr
    apply foldl_upd_notin (fun c : List (Nat × Nat) => c.map Prod.snd) (fun c => arr.get (c.map Prod.fst))
    intro c hc he
    have := (h2 c).1 hc
    rw [he] at this
    exact hr _ this

example : Sels .write [5, 3] (normSels [5, 3] [.array [4, 0], .slice {}]) [[4, 0], [0, 1, 2]] :=
  .cons (Or.inr ⟨rfl, [4, 0], rfl, by simp⟩) (by decide)
    (.cons (Or.inl ⟨by decide, by decide, by intro e he; cases he⟩) (by decide) .nil)

/-- C09, read after write: reading the selection just written returns the array written. -/
theorem write_then_read {α : Type} (dset arr : Arr α) (inds : List AxSel) (pss : List (List Nat))
    (hs : Sels .read dset.shape (normSels dset.shape inds) pss)
    (hl : ((normSels dset.shape inds).filter isListSel).length ≤ 1)
    (hsh : arr.shape = pss.map List.length) (hn : ∀ ps ∈ pss, ps.Nodup) :
    ∃ d' out, writeDset dset arr inds = some d' ∧ readDset d' inds = some out ∧ out.shape = arr.shape ∧
      ∀ ix r, lookup pss ix = some r → out.get ix = some (arr.get ix) := by
  have hw : Sels .write dset.shape (normSels dset.shape inds) pss := by
    clear hl hsh
    generalize normSels dset.shape inds = ss at *
    generalize dset.shape = sh at *
    induction hs with
    | nil => exact .nil
    | cons hg hp _ ih =>
      refine .cons ?_ hp (ih (fun q hq => hn q (by simp [hq])))
      rcases hg with hg | ⟨h, _⟩
      · exact Or.inl hg
      · cases h
  obtain ⟨d', h1, h2, h3, _⟩ := write_selected dset arr inds pss hw hl hsh hn
  obtain ⟨out, h4, h5, h6⟩ := read_selected d' inds pss (by rw [h2]; exact hs) (by rw [h2]; exact hl)
  refine ⟨d', out, h1, h4, by rw [h5, hsh], ?_⟩
  intro ix r hr
  rw [h6 ix r hr, h3 ix r hr]

example : Sels .read [5, 3] (normSels [5, 3] [.list [0, 4], .slice ⟨some 1, none, none⟩]) [[0, 4], [1, 2]] :=
  .cons (Or.inl (by simp [GoodSel])) (by decide)
    (.cons (Or.inl ⟨by decide, by decide, by intro e he; cases he⟩) (by decide) .nil)

/-- Integer arrays are not lists for the shape computation: reading one row through an `ndarray` selection
returns as many copies of it as the axis is long. -/
theorem read_ndarray_counterexample :
    ∃ out, readDset (⟨[3], fun ix => ix.headD 0⟩ : Arr Nat) [.array [2]] = some out ∧
      out.shape = [3] ∧ out.get [0] = some 2 ∧ out.get [1] = some 2 ∧ out.get [2] = some 2 :=
  ⟨_, rfl, by decide +kernel, by decide +kernel, by decide +kernel, by decide +kernel⟩

end Verif.Hdf5
