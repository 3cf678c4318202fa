import Mathlib.Algebra.Order.Field.Basic
import Mathlib.Data.List.Sort
import Mathlib.Data.List.Nodup
import Mathlib.Data.List.Dedup
import Mathlib.Data.Nat.Log
import Mathlib.Tactic.Linarith
import Mathlib.Tactic.Ring

/-!
Model of what a uvfits file keeps of the rows, antennas and sources: `write_uvfits`, `src/pyuvdata/uvdata/uvfits.py` lines 1008–1059, 1199–1253,
1303–1314 and 1459–1524, and `_get_parameter_data` lines 56–121 and `read_uvfits` lines 667–690 and 714–763, with `_add_phase_center`,
`src/pyuvdata/uvdata/uvdata.py` lines 792–840.

A parameter of a row is stored in the precision of the data, so numbers of antennas and of sources go through a rounding of integers, `rd`; for
single precision it is `f32`. Columns of tables are integers, and strings cut to the width of the column, which is what astropy does with longer ones.
The transformation of a source to the frame of the file and the comparison of two entries of a catalog are parameters. Left out: apparent
coordinates, positions and diameters of antennas, the telescope and the header. C110: what a uvfits file keeps of times, antennas and sources.
-/
namespace Verif.Fits

/-- The nearest number with 24 binary digits, ties to even. -/
def f32Nat (n : Nat) : Nat :=
  if n < 2 ^ 24 then n
  else
    let s := Nat.log2 n - 23
    let q := n / 2 ^ s
    let r := n % 2 ^ s
    (if r < 2 ^ (s - 1) ∨ (r = 2 ^ (s - 1) ∧ q % 2 = 0) then q else q + 1) * 2 ^ s

def f32 (i : Int) : Int := if 0 ≤ i then f32Nat i.natAbs else -(f32Nat i.natAbs : Int)

/-- An entry of the catalog of sources, all of them fixed on the sky; `motion` are the proper motion, the distance and the velocity. -/
structure Src (K A : Type) where
  name : List Char
  lon : K
  lat : K
  frame : A
  epoch : Option K
  motion : Option (K × K)

/-- What is written: the rows, the antennas and the catalog. -/
structure Par (K A : Type) where
  times : List K
  ant1 : List Int
  ant2 : List Int
  srcIds : List Int
  antNums : List Int
  antNames : List (List Char)
  cat : List (Int × Src K A)

/-- The file: the two parts of times, the rows, the table of antennas, the frame and the table of sources. -/
structure Tab (K A : Type) where
  zero : K
  date1 : List K
  date2 : List K
  ant1 : List Int
  ant2 : List Int
  srcIds : List Int
  antNums : List Int
  antNames : List (List Char)
  frame : A
  srcs : List (Int × Src K A)

section
variable {K A : Type} [Field K] [LinearOrder K] [LinearOrder A]

/-- Lines 1233–1253: the most common frame; `fk5` or `icrs` if it is one of several that are. -/
def fileFrame (fk5 icrs : A) (frames : List A) : Option A :=
  let u := frames.dedup.insertionSort (· ≤ ·)
  let best := u.filter fun a => u.all fun b => decide (frames.count b ≤ frames.count a)
  ([fk5, icrs] ++ best).find? fun a => decide (a ∈ best)

/-- Lines 1058–1059. -/
def offset (cat : List (Int × Src K A)) : Int := if (0 : Int) ∈ cat.map Prod.fst then 1 else 0

/-- Lines 1022–1030: the convention of miriad counts antennas from one. -/
def shift (mir : Bool) (nums : List Int) : Int := if mir = true ∧ nums.min? = some 0 then 1 else 0

/-- One row of the table of sources, lines 1476–1503. -/
def writeSrc (tr : A → A → K × K → K × K) (e0 : K) (off : Int) (fr : A) (p : Int × Src K A) : Int × Src K A :=
  (p.1 + off, { p.2 with
    name := p.2.name.take 20
    lon := (tr p.2.frame fr (p.2.lon, p.2.lat)).1
    lat := (tr p.2.frame fr (p.2.lon, p.2.lat)).2
    frame := fr
    epoch := some (p.2.epoch.getD e0)
    motion := none })

/-- `write_uvfits`; `rdT` is the rounding of times, `mid` the midnight before the first time. Without sources there is nothing to write. -/
def writePar (rdT : K → K) (rd : Int → Int) (tr : A → A → K × K → K × K) (fk5 icrs : A) (e0 mid : K) (mir : Bool) (o : Par K A) : Option (Tab K A) :=
  match fileFrame fk5 icrs (o.cat.map fun p => p.2.frame) with
  | none => none
  | some fr => some {
      zero := mid
      date1 := o.times.map fun t => rdT (t - mid)
      date2 := o.times.map fun t => rdT (t - mid - rdT (t - mid))
      ant1 := o.ant1.map fun a => rd (a + shift mir o.antNums)
      ant2 := o.ant2.map fun a => rd (a + shift mir o.antNums)
      srcIds := o.srcIds.map fun a => rd (a + offset o.cat)
      antNums := o.antNums.map fun a => a + shift mir o.antNums
      antNames := o.antNames.map fun n => n.take 8
      frame := fr
      srcs := o.cat.map (writeSrc tr e0 (offset o.cat) fr) }

/-- Lines 679–684. -/
def cleanName (n : List Char) : List Char := n.filter fun c => decide (c ≠ '\x00') && decide (c ≠ '\x07') && decide (c ≠ '!')

/-- `_add_phase_center` with the id of the file: an entry that is the same as one before is not added. -/
def addSrc (same : Src K A → Src K A → Bool) (cat : List (Int × Src K A)) (p : Int × Src K A) : List (Int × Src K A) :=
  if cat.any (fun q => same p.2 q.2) then cat else cat ++ [p]

/-- `read_uvfits`; `none` is the error of a malformed table of sources. -/
def readPar (same : Src K A → Src K A → Bool) (f : Tab K A) : Option (Par K A) :=
  let cat := f.srcs.foldl (addSrc same) []
  if f.srcIds.all (fun i => (cat.map Prod.fst).contains i) then
    some {
      times := (f.date1.zip f.date2).map fun p => p.1 + p.2 + f.zero
      ant1 := f.ant1, ant2 := f.ant2, srcIds := f.srcIds, antNums := f.antNums
      antNames := f.antNames.map cleanName
      cat := cat }
  else none

end

/-! Integers in single precision. -/

theorem f32Nat_exact {n : Nat} (h : n ≤ 2 ^ 24) : f32Nat n = n := by
  unfold f32Nat
  by_cases h1 : n < 2 ^ 24
  · rw [if_pos h1]
  · have : n = 2 ^ 24 := by omega
    subst this
    decide +kernel

/-- Integers up to `2 ^ 24` are kept. -/
theorem f32_exact {i : Int} (h : |i| ≤ 2 ^ 24) : f32 i = i := by
  unfold f32
  have hn : i.natAbs ≤ 2 ^ 24 := by
    have : ((i.natAbs : Int)) ≤ 2 ^ 24 := by rw [Int.natCast_natAbs]; exact h
    exact_mod_cast this
  rw [f32Nat_exact hn]
  split <;> omega

section
variable {K A : Type} [Field K] [LinearOrder K] [IsStrictOrderedRing K] [LinearOrder A]

/-- C110: times come back with the square of the error of rounding, of the time since midnight. -/
theorem times_kept {rdT : K → K} {u : K} (hu : 0 ≤ u) (hrd : ∀ x, |rdT x - x| ≤ u * |x|) {rd : Int → Int} {tr : A → A → K × K → K × K} {fk5 icrs : A}
    {e0 mid : K} {mir : Bool} {o : Par K A} {f : Tab K A} {same : Src K A → Src K A → Bool} {r : Par K A}
    (hw : writePar rdT rd tr fk5 icrs e0 mid mir o = some f) (hr : readPar same f = some r) :
    r.times.length = o.times.length ∧ ∀ (i : Nat) (t : K), o.times[i]? = some t → ∃ t', r.times[i]? = some t' ∧ |t' - t| ≤ u * u * |t - mid| := by
  unfold writePar at hw
  split at hw
  · cases hw
  · simp only [Option.some.injEq] at hw
    subst hw
    unfold readPar at hr
    simp only at hr
    split at hr
    · simp only [Option.some.injEq] at hr
      subst hr
      refine ⟨by simp, fun i t ht => ?_⟩
      refine ⟨rdT (t - mid) + rdT (t - mid - rdT (t - mid)) + mid, ?_, ?_⟩
      · simp [List.getElem?_map, List.getElem?_zip_eq_some, ht]
      · have h1 := hrd (t - mid - rdT (t - mid))
        have h2 := hrd (t - mid)
        have e : rdT (t - mid) + rdT (t - mid - rdT (t - mid)) + mid - t = rdT (t - mid - rdT (t - mid)) - (t - mid - rdT (t - mid)) := by ring
        rw [e]
        refine h1.trans ?_
        rw [mul_assoc]
        refine mul_le_mul_of_nonneg_left ?_ hu
        rw [abs_sub_comm]
        exact h2
    · cases hr

omit [IsStrictOrderedRing K] [Field K] [LinearOrder K] [LinearOrder A] in
theorem idxOf_shift (s : Int) (l : List Int) (a : Int) : (l.map (· + s)).idxOf (a + s) = l.idxOf a := by
  induction l with
  | nil => simp
  | cons x l ih => by_cases h : x = a <;> simp [List.idxOf_cons, h, ih]

/-- The name of the antenna with a number. -/
def antName (nums : List Int) (names : List (List Char)) (a : Int) : Option (List Char) := names[nums.idxOf a]?

omit [IsStrictOrderedRing K] in
/-- C110: if the numbers of antennas are kept by the precision of the file, each row has the antennas that it had; their names are cut and cleaned. -/
theorem antennas_kept {rdT : K → K} {rd : Int → Int} {tr : A → A → K × K → K × K} {fk5 icrs : A}
    {e0 mid : K} {mir : Bool} {o : Par K A} {f : Tab K A} {same : Src K A → Src K A → Bool} {r : Par K A}
    (hw : writePar rdT rd tr fk5 icrs e0 mid mir o = some f) (hr : readPar same f = some r)
    (hrd : ∀ a ∈ o.antNums, rd (a + shift mir o.antNums) = a + shift mir o.antNums) (h1 : ∀ a ∈ o.ant1, a ∈ o.antNums) (h2 : ∀ a ∈ o.ant2, a ∈ o.antNums) :
    ∃ s : Int, (s = 0 ∨ s = 1 ∧ mir = true ∧ o.antNums.min? = some 0) ∧ r.ant1 = o.ant1.map (· + s) ∧ r.ant2 = o.ant2.map (· + s) ∧
      r.antNums = o.antNums.map (· + s) ∧
      ∀ a, antName r.antNums r.antNames (a + s) = (antName o.antNums o.antNames a).map fun n => cleanName (n.take 8) := by
  unfold writePar at hw
  split at hw
  · cases hw
  · simp only [Option.some.injEq] at hw
    subst hw
    unfold readPar at hr
    simp only at hr
    split at hr
    · simp only [Option.some.injEq] at hr
      subst hr
      refine ⟨shift mir o.antNums, ?_, ?_, ?_, rfl, fun a => ?_⟩
      · unfold shift
        split
        · rename_i h; exact Or.inr ⟨rfl, h⟩
        · exact Or.inl rfl
      · exact List.map_congr_left fun a ha => hrd a (h1 a ha)
      · exact List.map_congr_left fun a ha => hrd a (h2 a ha)
      · simp only [antName]
        rw [idxOf_shift]
        simp only [List.getElem?_map, Option.map_map, Function.comp_def]
    · cases hr

/-! Sources. -/

/-- The entry of the catalog with a number. -/
def srcOf (cat : List (Int × Src K A)) (i : Int) : Option (Src K A) := (cat.find? fun p => decide (p.1 = i)).map Prod.snd

omit [IsStrictOrderedRing K] [Field K] [LinearOrder K] [LinearOrder A] in
/-- Entries of which no two are the same are all added. -/
theorem foldl_addSrc {same : Src K A → Src K A → Bool} : ∀ (l acc : List (Int × Src K A)),
    (acc ++ l).Pairwise (fun p q => same q.2 p.2 = false) → l.foldl (addSrc same) acc = acc ++ l := by
  intro l
  induction l with
  | nil => intro acc _; simp
  | cons p l ih =>
    intro acc h
    have hn : acc.any (fun q => same p.2 q.2) = false := by
      rw [List.any_eq_false]
      intro q hq
      have := (List.pairwise_append.mp h).2.2 q hq p (by simp)
      simp [this]
    rw [List.foldl_cons, addSrc, hn]
    simp only [Bool.false_eq_true, if_false]
    rw [ih (acc ++ [p]) (by simpa using h)]
    simp

omit [IsStrictOrderedRing K] [LinearOrder K] in
theorem srcOf_write (tr : A → A → K × K → K × K) (e0 : K) (off : Int) (fr : A) (cat : List (Int × Src K A)) (i : Int) :
    srcOf (cat.map (writeSrc tr e0 off fr)) (i + off) = (srcOf cat i).map fun s => (writeSrc tr e0 off fr (i, s)).2 := by
  induction cat with
  | nil => rfl
  | cons p cat ih =>
    simp only [srcOf] at ih ⊢
    rw [List.map_cons, List.find?_cons, List.find?_cons]
    by_cases h : p.1 = i
    · subst h; simp [writeSrc]
    · have : ¬ (writeSrc tr e0 off fr p).1 = i + off := by simp only [writeSrc]; omega
      simp only [h, this, decide_false]
      exact ih

omit [IsStrictOrderedRing K] in
/-- C110: if no two sources come out the same, the file can be read, and each row has the source that it had, with its name cut to 20 letters, its
place in the frame of the file, and without proper motion. -/
theorem sources_kept_partial {rdT : K → K} {rd : Int → Int} {tr : A → A → K × K → K × K} {fk5 icrs : A}
    {e0 mid : K} {mir : Bool} {o : Par K A} {f : Tab K A} {same : Src K A → Src K A → Bool}
    (hw : writePar rdT rd tr fk5 icrs e0 mid mir o = some f) (hrd : ∀ a ∈ o.srcIds, rd (a + offset o.cat) = a + offset o.cat)
    (hid : ∀ a ∈ o.srcIds, a ∈ o.cat.map Prod.fst) (hs : f.srcs.Pairwise fun p q => same q.2 p.2 = false) :
    ∃ r, readPar same f = some r ∧ ∃ off : Int, (off = 0 ∨ off = 1) ∧ r.srcIds = o.srcIds.map (· + off) ∧
      ∀ i, srcOf r.cat (i + off) = (srcOf o.cat i).map fun s => {
        name := s.name.take 20, lon := (tr s.frame f.frame (s.lon, s.lat)).1, lat := (tr s.frame f.frame (s.lon, s.lat)).2
        frame := f.frame, epoch := some (s.epoch.getD e0), motion := none } := by
  unfold writePar at hw
  split at hw
  · cases hw
  · rename_i fr hfr
    simp only [Option.some.injEq] at hw
    subst hw
    have hcat := foldl_addSrc (o.cat.map (writeSrc tr e0 (offset o.cat) fr)) [] (by simpa using hs)
    rw [List.nil_append] at hcat
    have hrow : o.srcIds.map (fun a => rd (a + offset o.cat)) = o.srcIds.map (· + offset o.cat) := List.map_congr_left fun a ha => hrd a ha
    refine ⟨{
        times := ((o.times.map fun t => rdT (t - mid)).zip (o.times.map fun t => rdT (t - mid - rdT (t - mid)))).map fun p => p.1 + p.2 + mid
        ant1 := o.ant1.map fun a => rd (a + shift mir o.antNums)
        ant2 := o.ant2.map fun a => rd (a + shift mir o.antNums)
        srcIds := o.srcIds.map fun a => rd (a + offset o.cat)
        antNums := o.antNums.map fun a => a + shift mir o.antNums
        antNames := (o.antNames.map fun n => n.take 8).map cleanName
        cat := o.cat.map (writeSrc tr e0 (offset o.cat) fr) }, ?_, offset o.cat, ?_, hrow, fun i => ?_⟩
    · unfold readPar
      simp only [hcat]
      rw [if_pos]
      rw [List.all_eq_true]
      intro x hx
      rw [hrow, List.mem_map] at hx
      obtain ⟨a, ha, rfl⟩ := hx
      rw [List.contains_iff_mem, List.map_map, List.mem_map]
      obtain ⟨p, hp, rfl⟩ := List.mem_map.mp (hid a ha)
      exact ⟨p, hp, rfl⟩
    · unfold offset
      split
      · exact Or.inr rfl
      · exact Or.inl rfl
    · rw [srcOf_write]
      rfl

omit [IsStrictOrderedRing K] [Field K] [LinearOrder K] [LinearOrder A] in
theorem foldl_keys {same : Src K A → Src K A → Bool} : ∀ (l acc : List (Int × Src K A)) (x : Int × Src K A),
    x ∈ l.foldl (addSrc same) acc → x ∈ acc ∨ x ∈ l := by
  intro l
  induction l with
  | nil => intro acc x h; exact Or.inl h
  | cons p l ih =>
    intro acc x h
    rw [List.foldl_cons] at h
    rcases ih _ x h with h' | h'
    · unfold addSrc at h'
      split at h'
      · exact Or.inl h'
      · rcases List.mem_append.mp h' with h'' | h''
        · exact Or.inl h''
        · rw [List.mem_singleton] at h''; exact Or.inr (by simp [h''])
    · exact Or.inr (by simp [h'])

omit [IsStrictOrderedRing K] [Field K] [LinearOrder K] [LinearOrder A] in
theorem foldl_mono {same : Src K A → Src K A → Bool} : ∀ (l acc : List (Int × Src K A)) (x : Int × Src K A),
    x ∈ acc → x ∈ l.foldl (addSrc same) acc := by
  intro l
  induction l with
  | nil => intro acc x h; exact h
  | cons p l ih =>
    intro acc x h
    rw [List.foldl_cons]
    refine ih _ x ?_
    unfold addSrc
    split
    · exact h
    · exact List.mem_append_left _ h

omit [IsStrictOrderedRing K] in
/-- C110 is false if two sources come out the same: the second is not taken into the catalog, and a file in which a row has it cannot be read. -/
theorem sources_refused {same : Src K A → Src K A → Bool} {f : Tab K A} {l₁ l₂ : List (Int × Src K A)} {p q : Int × Src K A}
    (hsrc : f.srcs = l₁ ++ q :: l₂) (hkeys : (f.srcs.map Prod.fst).Nodup) (hp : p ∈ l₁.foldl (addSrc same) []) (hsame : same q.2 p.2 = true)
    (hrow : q.1 ∈ f.srcIds) : readPar same f = none := by
  unfold readPar
  simp only
  rw [if_neg]
  intro h
  have := List.all_eq_true.mp h q.1 hrow
  rw [List.contains_iff_mem, List.mem_map] at this
  obtain ⟨x, hx, hxq⟩ := this
  rw [hsrc, List.foldl_append, List.foldl_cons] at hx
  have hadd : addSrc same (l₁.foldl (addSrc same) []) q = l₁.foldl (addSrc same) [] := by
    unfold addSrc
    rw [if_pos]
    rw [List.any_eq_true]
    exact ⟨p, hp, hsame⟩
  rw [hadd] at hx
  rw [hsrc, List.map_append, List.map_cons, List.nodup_append] at hkeys
  rcases foldl_keys _ _ _ hx with h' | h'
  · rcases foldl_keys _ _ _ h' with h'' | h''
    · cases h''
    · exact hkeys.2.2 x.1 (List.mem_map_of_mem h'') q.1 (by simp) hxq
  · have := (List.nodup_cons.mp hkeys.2.1).1
    exact this (hxq ▸ List.mem_map_of_mem h')

omit [IsStrictOrderedRing K] [Field K] [LinearOrder K] [LinearOrder A] in
theorem exists_max (g : A → Nat) {l : List A} (hne : l ≠ []) : ∃ a ∈ l, ∀ b ∈ l, g b ≤ g a := by
  induction l with
  | nil => exact absurd rfl hne
  | cons x l ih =>
    by_cases hl : l = []
    · subst hl; exact ⟨x, by simp, by simp⟩
    · obtain ⟨a, ha, hmax⟩ := ih hl
      by_cases hx : g x ≤ g a
      · exact ⟨a, by simp [ha], fun b hb => by
          rcases List.mem_cons.mp hb with rfl | hb
          · exact hx
          · exact hmax b hb⟩
      · exact ⟨x, by simp, fun b hb => by
          rcases List.mem_cons.mp hb with rfl | hb
          · exact le_refl _
          · exact (hmax b hb).trans (not_le.mp hx).le⟩

omit [IsStrictOrderedRing K] [Field K] [LinearOrder K] in
/-- The frame of the file is one that no other is more common than; `fk5` if it is such a one, else `icrs` if that is. -/
theorem fileFrame_spec {fk5 icrs : A} {frames : List A} (hne : frames ≠ []) :
    ∃ a, fileFrame fk5 icrs frames = some a ∧ a ∈ frames ∧ (∀ b ∈ frames, frames.count b ≤ frames.count a) ∧
      ((fk5 ∈ frames ∧ ∀ b ∈ frames, frames.count b ≤ frames.count fk5) → a = fk5) ∧
      (¬ (fk5 ∈ frames ∧ ∀ b ∈ frames, frames.count b ≤ frames.count fk5) → (icrs ∈ frames ∧ ∀ b ∈ frames, frames.count b ≤ frames.count icrs) → a = icrs) := by
  unfold fileFrame
  have hu : ∀ a, a ∈ frames.dedup.insertionSort (· ≤ ·) ↔ a ∈ frames := by
    intro a
    rw [(List.perm_insertionSort _ _).mem_iff, List.mem_dedup]
  simp only
  generalize frames.dedup.insertionSort (· ≤ ·) = u at hu ⊢
  have hbest : ∀ a, a ∈ u.filter (fun a => u.all fun b => decide (frames.count b ≤ frames.count a)) ↔
      (a ∈ frames ∧ ∀ b ∈ frames, frames.count b ≤ frames.count a) := by
    intro a
    simp only [List.mem_filter, List.all_eq_true, decide_eq_true_eq, hu]
  generalize u.filter (fun a => u.all fun b => decide (frames.count b ≤ frames.count a)) = best at hbest ⊢
  have hex : ∃ a, a ∈ best := by
    obtain ⟨a, h1, h2⟩ := exists_max frames.count hne
    exact ⟨a, (hbest a).mpr ⟨h1, h2⟩⟩
  by_cases h1 : fk5 ∈ best
  · refine ⟨fk5, by simp [h1], ((hbest _).mp h1).1, ((hbest _).mp h1).2, fun _ => rfl, fun h => absurd ((hbest _).mp h1) h⟩
  · by_cases h2 : icrs ∈ best
    · refine ⟨icrs, by simp [h1, h2], ((hbest _).mp h2).1, ((hbest _).mp h2).2, fun h => absurd ((hbest _).mpr h) h1, fun _ _ => rfl⟩
    · obtain ⟨a, ha⟩ := hex
      cases hb : best with
      | nil => rw [hb] at ha; cases ha
      | cons x l =>
        have hx : x ∈ best := by simp [hb]
        refine ⟨x, ?_, ((hbest _).mp hx).1, ((hbest _).mp hx).2, fun h => absurd ((hbest _).mpr h) h1, fun _ h => absurd ((hbest _).mpr h) h2⟩
        rw [← hb]
        simp only [List.cons_append, List.nil_append]
        rw [List.find?_cons_of_neg (by simpa using h1), List.find?_cons_of_neg (by simpa using h2)]
        rw [hb, List.find?_cons_of_pos (by simp)]

end

end Verif.Fits
