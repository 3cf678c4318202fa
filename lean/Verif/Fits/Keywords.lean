import Mathlib.Data.List.Basic
import Mathlib.Tactic.Common

/-!
Model of extra keywords in uvfits files: `write_uvfits`, `src/pyuvdata/uvdata/uvfits.py` lines 1268–1289, after the keywords of the format, and
`_get_extra_keywords`, `src/pyuvdata/utils/io/fits.py` lines 59–117, with the keywords that `read_uvfits` takes out before, lines 414–512 and 535–546.

A header is a list of keywords and values, in which setting a keyword replaces its value. Letters are changed to capitals as in ASCII. Left out: the
keyword COMMENT, and values that are lists or dictionaries, which are refused. C111: which extra keywords a uvfits file keeps.
-/
namespace Verif.Fits

abbrev Str := List Char

variable {V : Type}

/-- `header[key]`. -/
def look (h : List (Str × V)) (k : Str) : Option V := (h.find? fun p => decide (p.1 = k)).map Prod.snd

/-- `header[key] = value`. -/
def put (h : List (Str × V)) (k : Str) (v : V) : List (Str × V) :=
  if h.any (fun p => decide (p.1 = k)) then h.map fun p => if p.1 = k then (k, v) else p else h ++ [(k, v)]

/-- `key[:8].upper()`, line 1277. -/
def cut (k : Str) : Str := (k.take 8).map Char.toUpper

/-- Lines 1269–1289. -/
def writeKeys (h : List (Str × V)) (extra : List (Str × V)) : List (Str × V) := extra.foldl (fun h p => put h (cut p.1) p.2) h

/-- What is found in the name of a keyword of the format; lines 80–104 of `fits.py` and 537–545 of `uvfits.py`. -/
def standard : List String :=
  ["HISTORY", "SIMPLE", "BITPIX", "EXTEND", "BLOCKED", "GROUPS", "PCOUNT", "GCOUNT", "BSCALE", "BZERO", "NAXIS", "PTYPE", "PSCAL", "PZERO", "CTYPE",
    "CRVAL", "CRPIX", "CDELT", "CROTA", "CUNIT", "DATE-OBS", "EPOCH", "OBJECT", "PHSFRAME", "RADESYS", "RADESYSA", "RADESYSa"]

/-- What has been taken out of the header before; those that are standard too are left out here. -/
def taken : List String := ["TELESCOP", "INSTRUME", "LAT", "LON", "ALT", "XORIENT", "BLTORDER", "BUNIT", "POLCONV"]

/-- `sub in key`. -/
def within (sub : Str) (k : Str) : Bool := k.tails.any fun t => sub.isPrefixOf t

/-- Keywords that are not read. -/
def skipped (k : Str) : Bool := standard.any (fun s => within s.toList k) || taken.any (fun s => decide (s.toList = k)) || decide (k = [])

/-- `_get_extra_keywords`. -/
def readKeys (h : List (Str × V)) : List (Str × V) := h.filter fun p => !skipped p.1

theorem look_put (h : List (Str × V)) (k : Str) (v : V) (j : Str) : look (put h k v) j = if j = k then some v else look h j := by
  unfold put
  split
  · rename_i hk
    induction h with
    | nil => simp at hk
    | cons p h ih =>
      simp only [look] at ih ⊢
      rw [List.map_cons, List.find?_cons, List.find?_cons]
      by_cases hp : p.1 = k
      · subst hp
        simp only [if_true]
        by_cases hj : j = p.1
        · simp [hj]
        · have hj' : ¬ p.1 = j := fun e => hj e.symm
          simp only [hj', hj, decide_false, if_false]
          by_cases hk' : h.any (fun q => decide (q.1 = p.1)) = true
          · have := ih hk'
            rw [if_neg hj] at this
            exact this
          · have hmap : h.map (fun q => if q.1 = p.1 then (p.1, v) else q) = h := by
              conv_rhs => rw [← List.map_id h]
              refine List.map_congr_left fun q hq => ?_
              have : ¬ q.1 = p.1 := fun e => hk' (List.any_eq_true.mpr ⟨q, hq, by simp [e]⟩)
              simp [this]
            rw [hmap]
      · have hk' : h.any (fun q => decide (q.1 = k)) = true := by
          simpa [hp] using hk
        have := ih hk'
        rw [if_neg hp]
        by_cases hj : p.1 = j
        · subst hj; simp [hp]
        · simp only [hj, decide_false]
          exact this
  · rename_i hk
    simp only [look, List.find?_append]
    by_cases hj : j = k
    · subst hj
      have : h.find? (fun p => decide (p.1 = j)) = none := by
        rw [List.find?_eq_none]
        intro p hp he
        exact hk (List.any_eq_true.mpr ⟨p, hp, he⟩)
      simp [this]
    · have : ¬ k = j := fun e => hj e.symm
      simp [hj, this]

theorem find_last {α : Type} (p : α → Bool) : ∀ (l : List α) (x : α), (x :: l).reverse.find? p = (l.reverse.find? p).or (if p x then some x else none) := by
  intro l x
  rw [List.reverse_cons, List.find?_append]
  cases h : l.reverse.find? p with
  | some y => simp
  | none => simp [List.find?_cons]; split <;> simp_all

/-- What is under a keyword of the header: the last extra keyword that is cut to it, or what was there. -/
theorem look_write (h : List (Str × V)) (extra : List (Str × V)) (j : Str) :
    look (writeKeys h extra) j = match extra.reverse.find? (fun p => decide (cut p.1 = j)) with
      | some p => some p.2
      | none => look h j := by
  induction extra generalizing h with
  | nil => rfl
  | cons p extra ih =>
    have e : writeKeys h (p :: extra) = writeKeys (put h (cut p.1) p.2) extra := rfl
    rw [e, ih, find_last]
    cases hf : extra.reverse.find? (fun p => decide (cut p.1 = j)) with
    | some q => simp
    | none =>
      simp only [Option.none_or]
      rw [look_put]
      by_cases hj : cut p.1 = j
      · simp [hj]
      · have : ¬ j = cut p.1 := fun e => hj e.symm
        simp [hj, this]

theorem look_read (h : List (Str × V)) (j : Str) : look (readKeys h) j = if skipped j then none else look h j := by
  simp only [look, readKeys]
  induction h with
  | nil => simp
  | cons p h ih =>
    rw [List.filter_cons]
    by_cases hp : p.1 = j
    · subst hp
      cases hs : skipped p.1 with
      | true =>
        rw [hs] at ih
        simp only [Bool.not_true, Bool.false_eq_true, if_false, if_true] at ih ⊢
        exact ih
      | false => simp
    · split
      · rw [List.find?_cons_of_neg (by simpa using hp), ih, List.find?_cons_of_neg (by simpa using hp)]
      · rw [ih, List.find?_cons_of_neg (by simpa using hp)]

/-- C111: a keyword that is short and in capitals comes back with its value, if no other one is cut to it and its name has no name of the format
in it. -/
theorem keyword_kept_partial {h : List (Str × V)} {extra : List (Str × V)} {p : Str × V} (hp : p ∈ extra) (hc : cut p.1 = p.1) (hs : skipped p.1 = false)
    (hu : ∀ q ∈ extra, cut q.1 = p.1 → q = p) : look (readKeys (writeKeys h extra)) p.1 = some p.2 := by
  rw [look_read, hs, look_write]
  cases hf : extra.reverse.find? (fun q => decide (cut q.1 = p.1)) with
  | none =>
    have := List.find?_eq_none.mp hf p (by simpa using hp)
    simp [hc] at this
  | some q =>
    have h1 := List.find?_some hf
    have h2 := hu q (by simpa using List.mem_of_find?_eq_some hf) (by simpa using h1)
    subst h2
    rfl

/-- C111: nothing comes back that was not there: what is read under a keyword is the value of an extra keyword, or was in the header of the format. -/
theorem keyword_from {h : List (Str × V)} {extra : List (Str × V)} {j : Str} {v : V} (hj : look (readKeys (writeKeys h extra)) j = some v) :
    (∃ p ∈ extra, cut p.1 = j ∧ p.2 = v) ∨ (look h j = some v ∧ skipped j = false) := by
  rw [look_read] at hj
  split at hj
  · cases hj
  · rename_i hs
    rw [look_write] at hj
    split at hj
    · rename_i p hp
      have h1 := List.find?_some hp
      refine Or.inl ⟨p, by simpa using List.mem_of_find?_eq_some hp, by simpa using h1, Option.some.inj hj⟩
    · exact Or.inr ⟨hj, by simpa using hs⟩

/-- C111 is false for a name with a name of the format in it: it is not read. -/
theorem keyword_lost {h : List (Str × V)} {extra : List (Str × V)} {j : Str} (hs : skipped j = true) : look (readKeys (writeKeys h extra)) j = none := by
  rw [look_read, hs]; rfl

/-- C111 is false for the name of a keyword of the format: its value is replaced, without a warning. -/
theorem keyword_replaces {h : List (Str × V)} {extra : List (Str × V)} {p : Str × V} (hp : p ∈ extra) (hu : ∀ q ∈ extra, cut q.1 = cut p.1 → q = p) :
    look (writeKeys h extra) (cut p.1) = some p.2 := by
  rw [look_write]
  cases hf : extra.reverse.find? (fun q => decide (cut q.1 = cut p.1)) with
  | none =>
    have := List.find?_eq_none.mp hf p (by simpa using hp)
    simp at this
  | some q =>
    have h1 := List.find?_some hf
    have h2 := hu q (by simpa using List.mem_of_find?_eq_some hf) (by simpa using h1)
    subst h2
    rfl

/-- Names that are alike up to eight letters and capitals: only the last value is kept. -/
theorem keyword_collide {h : List (Str × V)} {extra : List (Str × V)} {p q : Str × V} (hpq : cut p.1 = cut q.1) :
    look (writeKeys h (extra ++ [p, q])) (cut p.1) = some q.2 := by
  rw [look_write, List.reverse_append]
  simp [hpq]

/-- A keyword is written and read. -/
example : look (readKeys (writeKeys [("BUNIT".toList, 0), ("TELESCOP".toList, 1)] [("observer".toList, 5), ("GAIN".toList, 7)])) "GAIN".toList = some 7 := by
  decide +kernel

/-- C111: an object that keeps the identification of an object under OBJECTID does not get it back. -/
theorem keywords_counterexample :
    look (readKeys (writeKeys [("BUNIT".toList, 0)] [("OBJECTID".toList, 5)])) "OBJECTID".toList = none ∧
    look (writeKeys [("BUNIT".toList, 0)] [("bunit".toList, 5)]) "BUNIT".toList = some 5 ∧
    readKeys (writeKeys [("BUNIT".toList, 0)] [("filter_width_x".toList, 5), ("filter_width_y".toList, 6)]) = [("FILTER_W".toList, 6)] := by
  decide +kernel

end Verif.Fits
