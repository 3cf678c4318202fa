import Verif.Fits.Keywords

/-!
Model of extra keywords in calfits files: `write_calfits`, `src/pyuvdata/uvcal/calfits.py` lines 172–317, and `_get_extra_keywords`,
`src/pyuvdata/utils/io/fits.py` lines 59–117, with the keywords that `read_calfits` takes out before, lines 539–719.

As for uvfits files, a header is a list of keywords and values. Left out: the keyword COMMENT, and values that are lists or dictionaries, which are
refused. C116: which extra keywords a calfits file keeps.
-/
namespace Verif.CalFits

open Verif.Fits

variable {V : Type}

/-- The keywords that are always written, lines 180–294, with those of the file itself. -/
def always : List String :=
  ["SIMPLE", "BITPIX", "NAXIS", "NAXIS1", "NAXIS2", "NAXIS3", "NAXIS4", "NAXIS5", "NAXIS6", "EXTEND", "TELESCOP", "ARRAYX", "ARRAYY", "ARRAYZ", "FRAME",
    "LAT", "LON", "ALT", "GNCONVEN", "CALTYPE", "CALSTYLE", "INTTIME", "CHWIDTH", "XORIENT", "HASQLTY", "CTYPE1", "CUNIT1", "CDELT1", "CRPIX1", "CRVAL1",
    "CTYPE2", "CUNIT2", "CRPIX2", "CRVAL2", "CDELT2", "CTYPE3", "CUNIT3", "CRPIX3", "CRVAL3", "CDELT3", "CTYPE4", "CUNIT4", "CRPIX4", "CRVAL4", "CDELT4",
    "CTYPE5", "CUNIT5", "CRPIX5", "CRVAL5", "CDELT5", "CTYPE6", "CUNIT6", "CRPIX6", "CRVAL6", "CDELT6", "HISTORY"]

/-- The keywords that are written for an object that has them, lines 187, 196–211 and 227–242; the ellipsoid is that of a telescope on the Moon. -/
def sometimes (mcmf : Bool) : List String :=
  ["CATALOG", "REFANT", "NSOURCES", "BL_RANGE", "DIFFUSE", "GNSCALE", "POLCONV", "FRQRANGE", "TMERANGE", "OBSERVER", "INSTRUME", "ORIGCAL", "HASHCAL"] ++
    if mcmf then ["ELLIPSOI"] else []

/-- Lines 80–101 of `fits.py`. -/
def stdBase : List String :=
  ["HISTORY", "SIMPLE", "BITPIX", "EXTEND", "BLOCKED", "GROUPS", "PCOUNT", "GCOUNT", "BSCALE", "BZERO", "NAXIS", "PTYPE", "PSCAL", "PZERO", "CTYPE",
    "CRVAL", "CRPIX", "CDELT", "CROTA", "CUNIT"]

/-- What `read_calfits` takes out of the header, lines 539–719: the width of channels only for gains, line 674, and the ellipsoid only on the Moon. -/
def takenCal (delay mcmf : Bool) : List String :=
  ["TELESCOP", "XORIENT", "ARRAYX", "ARRAYY", "ARRAYZ", "LAT", "LON", "ALT", "FRAME", "GNCONVEN", "GNSCALE", "POLCONV", "CALTYPE", "FRQRANGE", "CALSTYLE",
    "CATALOG", "REFANT", "NSOURCES", "BL_RANGE", "DIFFUSE", "OBSERVER", "INSTRUME", "ORIGCAL", "HASHCAL", "INTTIME", "TMERANGE", "HASQLTY"] ++
    (if delay then [] else ["CHWIDTH"]) ++ (if mcmf then ["ELLIPSOI"] else [])

/-- Keywords that are not read as extra keywords. -/
def skippedCal (delay mcmf : Bool) (k : Str) : Bool :=
  stdBase.any (fun s => within s.toList k) || (takenCal delay mcmf).any (fun s => decide (s.toList = k)) || decide (k = [])

/-- `_get_extra_keywords` with a list of names that are left out. -/
def readBy (skip : Str → Bool) (h : List (Str × V)) : List (Str × V) := h.filter fun p => !skip p.1

theorem look_readBy (skip : Str → Bool) (h : List (Str × V)) (j : Str) : look (readBy skip h) j = if skip j then none else look h j := by
  simp only [look, readBy]
  induction h with
  | nil => simp
  | cons p h ih =>
    rw [List.filter_cons]
    by_cases hp : p.1 = j
    · subst hp
      cases hs : skip p.1 with
      | true =>
        rw [hs] at ih
        simp only [Bool.not_true, Bool.false_eq_true, if_false, if_true] at ih ⊢
        exact ih
      | false => simp
    · split
      · rw [List.find?_cons_of_neg (by simpa using hp), ih, List.find?_cons_of_neg (by simpa using hp)]
      · rw [ih, List.find?_cons_of_neg (by simpa using hp)]

/-- C116: a keyword that is short and in capitals comes back with its value, if no other one is cut to it and its name is not taken. -/
theorem keyword_kept_partial {delay mcmf : Bool} {h extra : List (Str × V)} {p : Str × V} (hp : p ∈ extra) (hc : cut p.1 = p.1)
    (hs : skippedCal delay mcmf p.1 = false) (hu : ∀ q ∈ extra, cut q.1 = p.1 → q = p) :
    look (readBy (skippedCal delay mcmf) (writeKeys h extra)) p.1 = some p.2 := by
  rw [look_readBy, hs]
  have := keyword_replaces (h := h) hp (by rw [hc]; exact hu)
  rw [hc] at this
  exact this

theorem look_mem {h : List (Str × V)} {j : Str} {v : V} (hj : look h j = some v) : (j, v) ∈ h := by
  unfold look at hj
  cases hf : h.find? (fun p => decide (p.1 = j)) with
  | none => rw [hf] at hj; cases hj
  | some p =>
    rw [hf] at hj
    simp only [Option.map_some, Option.some.injEq] at hj
    have h1 := List.find?_some hf
    simp only [decide_eq_true_eq] at h1
    have h2 := List.mem_of_find?_eq_some hf
    rw [← h1, ← hj]
    exact h2

/-- The header of the format has no other names than those that are written. -/
def Header (mcmf : Bool) (h : List (Str × V)) : Prop := ∀ p ∈ h, ∃ s ∈ always ++ sometimes mcmf, p.1 = s.toList

theorem skipped_format (mcmf : Bool) : ∀ s ∈ always ++ sometimes mcmf, skippedCal false mcmf s.toList = true := by
  cases mcmf <;> decide +kernel

theorem skipped_delay (mcmf : Bool) : ∀ s ∈ always ++ sometimes mcmf, s ≠ "CHWIDTH" → skippedCal true mcmf s.toList = true := by
  cases mcmf <;> decide +kernel

/-- C116: from a file of gains no extra keyword is read that was not written as one. -/
theorem keyword_from_gains {mcmf : Bool} {h extra : List (Str × V)} (hh : Header mcmf h) {j : Str} {v : V}
    (hj : look (readBy (skippedCal false mcmf) (writeKeys h extra)) j = some v) : ∃ p ∈ extra, cut p.1 = j ∧ p.2 = v := by
  rw [look_readBy] at hj
  split at hj
  · cases hj
  · rename_i hs
    rw [look_write] at hj
    split at hj
    · rename_i p hp
      have h1 := List.find?_some hp
      exact ⟨p, by simpa using List.mem_of_find?_eq_some hp, by simpa using h1, Option.some.inj hj⟩
    · obtain ⟨s, hs', he⟩ := hh _ (look_mem hj)
      have := skipped_format mcmf s hs'
      rw [← he] at this
      exact absurd this hs

/-- C116: from a file of delays, only the width of channels can be read as an extra keyword that was not written as one; it always is. -/
theorem keyword_from_delays {mcmf : Bool} {h extra : List (Str × V)} (hh : Header mcmf h) {j : Str} {v : V}
    (hj : look (readBy (skippedCal true mcmf) (writeKeys h extra)) j = some v) :
    (∃ p ∈ extra, cut p.1 = j ∧ p.2 = v) ∨ (j = "CHWIDTH".toList ∧ look h j = some v) := by
  rw [look_readBy] at hj
  split at hj
  · cases hj
  · rename_i hs
    rw [look_write] at hj
    split at hj
    · rename_i p hp
      have h1 := List.find?_some hp
      exact Or.inl ⟨p, by simpa using List.mem_of_find?_eq_some hp, by simpa using h1, Option.some.inj hj⟩
    · obtain ⟨s, hs', he⟩ := hh _ (look_mem hj)
      by_cases hc : s = "CHWIDTH"
      · subst hc; exact Or.inr ⟨he, hj⟩
      · have := skipped_delay mcmf s hs' hc
        rw [← he] at this
        exact absurd this hs

/-- C116 is false for delays: the width of channels of the format is read as an extra keyword, whatever the object has. -/
theorem delays_width_counterexample {mcmf : Bool} {h extra : List (Str × V)} {w : V} (hw : look h "CHWIDTH".toList = some w)
    (he : ∀ p ∈ extra, cut p.1 ≠ "CHWIDTH".toList) :
    look (readBy (skippedCal true mcmf) (writeKeys h extra)) "CHWIDTH".toList = some w := by
  have hs : skippedCal true mcmf "CHWIDTH".toList = false := by cases mcmf <;> decide +kernel
  rw [look_readBy, hs, look_write]
  cases hf : extra.reverse.find? (fun p => decide (cut p.1 = "CHWIDTH".toList)) with
  | none => exact hw
  | some p =>
    have h1 := List.find?_some hf
    exact absurd (by simpa using h1) (he p (by simpa using List.mem_of_find?_eq_some hf))

/-- A keyword of the format is what the object has, if no extra keyword is cut to it. -/
theorem format_kept_partial {h extra : List (Str × V)} {j : Str} (he : ∀ p ∈ extra, cut p.1 ≠ j) : look (writeKeys h extra) j = look h j := by
  rw [look_write]
  cases hf : extra.reverse.find? (fun p => decide (cut p.1 = j)) with
  | none => rfl
  | some p =>
    have h1 := List.find?_some hf
    exact absurd (by simpa using h1) (he p (by simpa using List.mem_of_find?_eq_some hf))

/-- C116 is false for a name that is cut to one of the format: the name of an observer's institute replaces the observer, and is not read. -/
theorem observer_counterexample :
    look (writeKeys [("OBSERVER".toList, 1), ("CHWIDTH".toList, 2)] [("observer_institute".toList, 5)]) "OBSERVER".toList = some 5 ∧
    readBy (skippedCal false false) (writeKeys [("OBSERVER".toList, 1), ("CHWIDTH".toList, 2)] [("observer_institute".toList, 5)]) = [] ∧
    readBy (skippedCal true false) (writeKeys [("OBSERVER".toList, 1), ("CHWIDTH".toList, 2)] []) = [("CHWIDTH".toList, 2)] := by
  decide +kernel

example : Header false [("OBSERVER".toList, 1), ("CHWIDTH".toList, 2)] ∧
    look (readBy (skippedCal false false) (writeKeys [("OBSERVER".toList, 1), ("CHWIDTH".toList, 2)] [("GAIN".toList, 5)])) "GAIN".toList = some 5 := by
  refine ⟨?_, by decide +kernel⟩
  intro p hp
  simp only [List.mem_cons, List.not_mem_nil, or_false] at hp
  rcases hp with rfl | rfl
  · exact ⟨"OBSERVER", by decide, rfl⟩
  · exact ⟨"CHWIDTH", by decide, rfl⟩

end Verif.CalFits
