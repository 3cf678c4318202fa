import Verif.MwaBeam.Field

/-!
# Files of the MWA beam

What a file holds, and what the beam read from it is.
-/

namespace Verif.MwaBeam

/-- Name of the table of a feed, dipole and frequency. -/
def fileName (p : Char) (d : Str) (f : Nat) : Str := [p] ++ d ++ ['_'] ++ Nat.toDigits 10 f

/-- What a file holds: feeds, dipoles and frequencies, and for each of them degree and coefficients. -/
structure Content (K : Type) where
  pols : List Char
  dips : List Str
  freqs : List Nat
  top : Nat
  deg : Char → Str → Nat → Nat
  rows : Char → Str → Nat → List ((K × K) × (K × K))

/-- A file with this content: a table for each feed, dipole and frequency, any other tables not beginning with `X` or `Y`. -/
structure Holds {K : Type} (file : File K) (c : Content K) : Prop where
  pol : ∀ p ∈ c.pols, p = 'X' ∨ p = 'Y'
  polS : c.pols.Pairwise (· < ·)
  dipS : c.dips.Pairwise (· < ·)
  freqS : c.freqs.Pairwise (· < ·)
  polNe : c.pols ≠ []
  dipNe : c.dips ≠ []
  freqNe : c.freqs ≠ []
  under : ∀ d ∈ c.dips, '_' ∉ d
  modes : file.modes = modeTable c.top
  nodup : (file.tables.map (·.1)).Nodup
  only : ∀ t ∈ file.tables, (∃ p ∈ c.pols, ∃ d ∈ c.dips, ∃ f ∈ c.freqs, t = (fileName p d f, tableOf (c.rows p d f))) ∨
    (t.1.head? ≠ some 'X' ∧ t.1.head? ≠ some 'Y')
  all : ∀ p ∈ c.pols, ∀ d ∈ c.dips, ∀ f ∈ c.freqs, (fileName p d f, tableOf (c.rows p d f)) ∈ file.tables
  degPos : ∀ p ∈ c.pols, ∀ d ∈ c.dips, ∀ f ∈ c.freqs, 1 ≤ c.deg p d f
  degTop : ∀ p ∈ c.pols, ∀ d ∈ c.dips, ∀ f ∈ c.freqs, c.deg p d f ≤ c.top
  len : ∀ p ∈ c.pols, ∀ d ∈ c.dips, ∀ f ∈ c.freqs, (c.rows p d f).length = c.deg p d f ^ 2 + 2 * c.deg p d f

/-! ## Names -/

theorem int64_digits (f : Nat) : int64 (Nat.toDigits 10 f) = some f := by
  unfold int64
  rw [if_pos, Nat.ofDigitChars_ten_toDigits]
  refine ⟨Nat.toDigits_ne_nil, List.all_eq_true.2 fun c hc => ?_⟩
  exact Nat.isDigit_of_mem_toDigits (by decide) (by decide) hc

theorem tableName_eq (p : Char) (d : Str) (f : Nat) : tableName p d f = fileName p d f := by
  simp [tableName, fileName]

theorem parseName_file {p : Char} (hp : p = 'X' ∨ p = 'Y') {d : Str} (hd : '_' ∉ d) (f : Nat) :
    parseName (fileName p d f) = .ok (some (p, d, f)) := by
  have : fileName p d f = p :: (d ++ '_' :: Nat.toDigits 10 f) := by simp [fileName]
  rw [this]
  unfold parseName
  dsimp only
  rw [if_pos hp, List.splitOn_append_cons_self_of_not_mem hd, List.splitOn_eq_singleton Nat.underscore_not_in_toDigits]
  dsimp only
  rw [int64_digits]

theorem parseName_other {s : Str} (h : s.head? ≠ some 'X' ∧ s.head? ≠ some 'Y') : parseName s = .ok none := by
  match s with
  | [] => rfl
  | c :: r =>
    have : ¬(c = 'X' ∨ c = 'Y') := by
      rintro (rfl | rfl)
      · exact h.1 rfl
      · exact h.2 rfl
    unfold parseName
    dsimp only
    rw [if_neg this]

theorem parsed_ok {names : List Str} (g : Str → Option (Char × Str × Nat)) (h : ∀ s ∈ names, parseName s = .ok (g s)) :
    parsed names = .ok (names.filterMap g) := by
  induction names with
  | nil => rfl
  | cons s l ih =>
    rw [parsed, h s (by simp), ih fun t ht => h t (by simp [ht])]
    cases hg : g s <;> simp [Except.bind, hg]

section
variable {K : Type} {file : File K} {c : Content K}

/-- What the name of a table says. -/
noncomputable def said (c : Content K) (s : Str) : Option (Char × Str × Nat) :=
  open Classical in
  if h : ∃ x : Char × Str × Nat, x.1 ∈ c.pols ∧ x.2.1 ∈ c.dips ∧ x.2.2 ∈ c.freqs ∧ s = fileName x.1 x.2.1 x.2.2 then some h.choose
  else none

theorem Holds.parse (h : Holds file c) : ∃ names, parsed (file.tables.map (·.1)) = .ok names ∧
    ∀ x, x ∈ names ↔ x.1 ∈ c.pols ∧ x.2.1 ∈ c.dips ∧ x.2.2 ∈ c.freqs := by
  have hp : ∀ s ∈ file.tables.map (·.1), parseName s = .ok (said c s) := by
    intro s hs
    obtain ⟨t, ht, rfl⟩ := List.mem_map.1 hs
    rcases h.only t ht with ⟨p, hp, d, hd, f, hf, rfl⟩ | ho
    · have hex : ∃ x : Char × Str × Nat, x.1 ∈ c.pols ∧ x.2.1 ∈ c.dips ∧ x.2.2 ∈ c.freqs ∧
          fileName p d f = fileName x.1 x.2.1 x.2.2 := ⟨(p, d, f), hp, hd, hf, rfl⟩
      have hx := hex.choose_spec
      unfold said
      dsimp only
      rw [dif_pos hex]
      have e := parseName_file (h.pol _ hx.1) (h.under _ hx.2.1) hex.choose.2.2
      rw [← hx.2.2.2] at e
      exact e
    · have : ¬∃ x : Char × Str × Nat, x.1 ∈ c.pols ∧ x.2.1 ∈ c.dips ∧ x.2.2 ∈ c.freqs ∧ t.1 = fileName x.1 x.2.1 x.2.2 := by
        rintro ⟨x, hx, _, _, e⟩
        have : t.1.head? = some x.1 := by rw [e]; simp [fileName]
        rcases h.pol _ hx with e | e <;> rw [e] at this
        · exact ho.1 this
        · exact ho.2 this
      unfold said
      rw [dif_neg this, parseName_other ho]
  refine ⟨_, parsed_ok _ hp, fun x => ?_⟩
  rw [List.mem_filterMap]
  constructor
  · rintro ⟨s, _, e⟩
    unfold said at e
    split at e
    · rename_i hex
      have := hex.choose_spec
      rw [Option.some.injEq] at e
      rw [e] at this
      exact ⟨this.1, this.2.1, this.2.2.1⟩
    · simp at e
  · rintro ⟨h1, h2, h3⟩
    have hm : fileName x.1 x.2.1 x.2.2 ∈ file.tables.map (·.1) := List.mem_map.2 ⟨_, h.all _ h1 _ h2 _ h3, rfl⟩
    refine ⟨_, hm, ?_⟩
    have e := hp _ hm
    rw [parseName_file (h.pol _ h1) (h.under _ h2)] at e
    exact (Except.ok.inj e).symm

theorem Holds.lists (h : Holds file c) : ∃ names, parsed (file.tables.map (·.1)) = .ok names ∧
    Np.unique (names.map (·.1)) = c.pols ∧ Np.unique (names.map (·.2.1)) = c.dips ∧ Np.unique (names.map (·.2.2)) = c.freqs := by
  obtain ⟨names, hn, hx⟩ := h.parse
  obtain ⟨p0, hp0⟩ := List.exists_mem_of_ne_nil _ h.polNe
  obtain ⟨d0, hd0⟩ := List.exists_mem_of_ne_nil _ h.dipNe
  obtain ⟨f0, hf0⟩ := List.exists_mem_of_ne_nil _ h.freqNe
  refine ⟨names, hn, ?_, ?_, ?_⟩
  · refine (Np.unique_sorted _).eq_of_mem_iff h.polS fun {a} => ?_
    rw [Np.mem_unique, List.mem_map]
    exact ⟨fun ⟨x, hm, e⟩ => e ▸ ((hx x).1 hm).1, fun ha => ⟨(a, d0, f0), (hx _).2 ⟨ha, hd0, hf0⟩, rfl⟩⟩
  · refine (Np.unique_sorted _).eq_of_mem_iff h.dipS fun {a} => ?_
    rw [Np.mem_unique, List.mem_map]
    exact ⟨fun ⟨x, hm, e⟩ => e ▸ ((hx x).1 hm).2.1, fun ha => ⟨(p0, a, f0), (hx _).2 ⟨hp0, ha, hf0⟩, rfl⟩⟩
  · refine (Np.unique_sorted _).eq_of_mem_iff h.freqS fun {a} => ?_
    rw [Np.mem_unique, List.mem_map]
    exact ⟨fun ⟨x, hm, e⟩ => e ▸ ((hx x).1 hm).2.2, fun ha => ⟨(p0, d0, a), (hx _).2 ⟨hp0, hd0, ha⟩, rfl⟩⟩

theorem lookup_mem {α : Type} {tables : List (Str × α)} (hn : (tables.map (·.1)).Nodup) {s : Str} {a : α} (h : (s, a) ∈ tables) :
    lookup tables s = some a := by
  unfold lookup
  induction tables with
  | nil => simp at h
  | cons t l ih =>
    rw [List.map_cons, List.nodup_cons] at hn
    by_cases e : t.1 = s
    · rw [List.find?_cons_of_pos (by simpa using e)]
      rcases List.mem_cons.1 h with h | h
      · rw [← h]; rfl
      · exact absurd (List.mem_map.2 ⟨_, h, e.symm⟩) hn.1
    · rw [List.find?_cons_of_neg (by simpa using e)]
      rcases List.mem_cons.1 h with h | h
      · exact absurd (by rw [← h]) e
      · exact ih hn.2 h

theorem Holds.lookup (h : Holds file c) {p : Char} (hp : p ∈ c.pols) {d : Str} (hd : d ∈ c.dips) {f : Nat} (hf : f ∈ c.freqs) :
    lookup file.tables (tableName p d f) = some (tableOf (c.rows p d f)) := by
  rw [tableName_eq]; exact lookup_mem h.nodup (h.all p hp d hd f hf)

theorem Holds.len' (h : Holds file c) {p : Char} (hp : p ∈ c.pols) {d : Str} (hd : d ∈ c.dips) {f : Nat} (hf : f ∈ c.freqs) :
    (c.rows p d f).length = (feko (c.deg p d f)).length := by rw [feko_length]; exact h.len p hp d hd f hf

theorem foldr_max_le {l : List Nat} {n : Nat} (h : ∀ x ∈ l, x ≤ n) : l.foldr max 0 ≤ n := by
  induction l with
  | nil => simp
  | cons a l ih => have := h a (by simp); have := ih (fun x hx => h x (by simp [hx])); simp only [List.foldr_cons]; omega

theorem le_foldr_max {l : List Nat} {n : Nat} (h : n ∈ l) : n ≤ l.foldr max 0 := by
  induction l with
  | nil => simp at h
  | cons a l ih =>
    simp only [List.foldr_cons]
    rcases List.mem_cons.1 h with rfl | h
    · omega
    · have := ih h; omega

/-- Highest degree among the dipoles. -/
def topDeg (c : Content K) (p : Char) (f : Nat) : Nat := (c.dips.map fun d => c.deg p d f).foldr max 0

theorem exists_max {α : Type} (g : α → Nat) {l : List α} (h : l ≠ []) : ∃ x ∈ l, g x = (l.map g).foldr max 0 := by
  induction l with
  | nil => simp at h
  | cons a l ih =>
    simp only [List.map_cons, List.foldr_cons]
    by_cases hl : l = []
    · subst hl; exact ⟨a, by simp, by simp⟩
    · obtain ⟨x, hx, e⟩ := ih hl
      rcases Nat.le_total (g a) ((l.map g).foldr max 0) with hle | hle
      · exact ⟨x, by simp [hx], by omega⟩
      · exact ⟨a, by simp, by omega⟩

theorem sq_mono {a b : Nat} (h : a ≤ b) : a ^ 2 + 2 * a ≤ b ^ 2 + 2 * b := by
  have := Nat.pow_le_pow_left h 2; omega

theorem Holds.maxLength [Field K] (h : Holds file c) {p : Char} (hp : p ∈ c.pols) {f : Nat} (hf : f ∈ c.freqs) :
    maxLength file p f = topDeg c p f ^ 2 + 2 * topDeg c p f := by
  have hlen : ∀ d ∈ c.dips, (tableOf (c.rows p d f)).length / 2 = c.deg p d f ^ 2 + 2 * c.deg p d f := by
    intro d hd; rw [tableOf_length, h.len p hp d hd f hf]; omega
  unfold MwaBeam.maxLength
  apply le_antisymm
  · apply foldr_max_le
    intro x hx
    obtain ⟨t, ht, rfl⟩ := List.mem_map.1 hx
    rw [List.mem_filter] at ht
    rcases h.only t ht.1 with ⟨q, hq, d, hd, g, hg, rfl⟩ | ho
    · have e := ht.2
      dsimp only at e
      rw [parseName_file (h.pol q hq) (h.under d hd)] at e
      dsimp only at e
      obtain ⟨rfl, rfl⟩ := of_decide_eq_true e
      dsimp only
      rw [hlen d hd]
      exact sq_mono (le_foldr_max (List.mem_map.2 ⟨d, hd, rfl⟩))
    · have e := ht.2
      rw [parseName_other ho] at e
      simp at e
  · obtain ⟨d, hd, e⟩ := exists_max (fun d => c.deg p d f) h.dipNe
    apply le_foldr_max
    refine List.mem_map.2 ⟨_, List.mem_filter.2 ⟨h.all p hp d hd f hf, ?_⟩, ?_⟩
    · dsimp only
      rw [parseName_file (h.pol p hp) (h.under d hd)]
      simp
    · dsimp only
      rw [hlen d hd, e]
      rfl

end

/-! ## Sums over dipoles -/

section
variable {K C : Type} [Field K] [CommRing C] {file : File K} {c : Content K}

/-- The dipoles of a feed at a frequency, each with its excitation voltage. -/
def driven (E : Env K C) (c : Content K) (p : Char) (f : Nat) (l : List (Str × Int × K)) : List (Driven K C) :=
  l.map fun x => (volt E f x.2.1 x.2.2, c.deg p x.1 f, c.rows p x.1 f)

theorem sumDipoles_ok (E : Env K C) (h : Holds file c) {p : Char} (hp : p ∈ c.pols) {f : Nat} (hf : f ∈ c.freqs)
    (l : List (Str × Int × K)) (hl : ∀ x ∈ l, x.1 ∈ c.dips) (a : Acc C) (ha : a.mn = feko a.nmax) :
    ∃ a', sumDipoles E file p f a l = .ok a' ∧ a'.mn = feko a'.nmax ∧
      a'.nmax = max a.nmax ((l.map fun x => c.deg p x.1 f).foldr max 0) ∧
      (∀ j, a'.q1 j = a.q1 j + ((driven E c p f l).map fun d => arr (d.2.2.map fun r => polar E r.1) j * d.1).sum) ∧
      (∀ j, a'.q2 j = a.q2 j + ((driven E c p f l).map fun d => arr (d.2.2.map fun r => polar E r.2) j * d.1).sum) := by
  induction l generalizing a with
  | nil => exact ⟨a, rfl, ha, by simp, by simp [driven], by simp [driven]⟩
  | cons x l ih =>
    obtain ⟨d, delay, amp⟩ := x
    have hd : d ∈ c.dips := hl (d, delay, amp) List.mem_cons_self
    rw [sumDipoles]
    rw [h.lookup hp hd hf]
    dsimp only
    rw [h.modes, dipole_read E _ _ (h.degTop p hp d hd f hf) (h.degPos p hp d hd f hf) _ (h.len' hp hd hf)]
    dsimp only
    obtain ⟨a', h1, h2, h3, h4, h5⟩ := ih (fun x hx => hl x (by simp [hx]))
      (addDipole a (feko (c.deg p d f), arr ((c.rows p d f).map fun r => polar E r.1), arr ((c.rows p d f).map fun r => polar E r.2))
        (volt E f delay amp)) (by
          simp only [addDipole, maxN_feko]
          split
          · rfl
          · exact ha)
    refine ⟨a', h1, h2, ?_, ?_, ?_⟩
    · rw [h3]
      simp only [addDipole, maxN_feko, List.map_cons, List.foldr_cons]
      split <;> omega
    · intro j
      rw [h4]
      simp only [addDipole, driven, List.map_cons, List.sum_cons]
      ring
    · intro j
      rw [h5]
      simp only [addDipole, driven, List.map_cons, List.sum_cons]
      ring

/-- What the summed coefficients of a feed and frequency are. -/
def Summed (E : Env K C) (c : Content K) (p : Char) (f : Nat) (l : List (Str × Int × K)) (a : Acc C) : Prop :=
  a.mn = feko (topDeg c p f) ∧
  (∀ j, a.q1 j = ((driven E c p f l).map fun d => arr (d.2.2.map fun r => polar E r.1) j * d.1).sum) ∧
  (∀ j, a.q2 j = ((driven E c p f l).map fun d => arr (d.2.2.map fun r => polar E r.2) j * d.1).sum)

variable [LinearOrder K] [IsStrictOrderedRing K] [FloorRing K]

omit [LinearOrder K] [IsStrictOrderedRing K] [FloorRing K] in
theorem feedModes_ok (E : Env K C) (h : Holds file c) {p : Char} (hp : p ∈ c.pols) {delays : List Int} {amps : List K}
    (h1 : delays.length = c.dips.length) (h2 : amps.length = c.dips.length) (fs : List Nat) (hf : ∀ f ∈ fs, f ∈ c.freqs) :
    ∃ r, feedModes E file c.dips p delays amps fs = .ok r ∧ r.map (·.1) = fs ∧
      ∀ y ∈ r, Summed E c p y.1 (c.dips.zip (delays.zip amps)) y.2 := by
  induction fs with
  | nil => exact ⟨[], rfl, rfl, by simp⟩
  | cons f fs ih =>
    obtain ⟨r, hr1, hr2, hr3⟩ := ih fun g hg => hf g (by simp [hg])
    have hz : (c.dips.zip (delays.zip amps)).map Prod.fst = c.dips := List.map_fst_zip (by simp; omega)
    obtain ⟨a, ha1, ha2, ha3, ha4, ha5⟩ := sumDipoles_ok E h hp (hf f (by simp)) (c.dips.zip (delays.zip amps))
      (fun x hx => by rw [← hz]; exact List.mem_map.2 ⟨x, hx, rfl⟩) ⟨fun _ => 0, fun _ => 0, [], 0⟩ rfl
    refine ⟨(f, a) :: r, ?_, by simp [hr2], ?_⟩
    · rw [feedModes, ha1, hr1]; rfl
    · intro y hy
      rcases List.mem_cons.1 hy with rfl | hy
      · refine ⟨?_, fun j => by simpa using ha4 j, fun j => by simpa using ha5 j⟩
        rw [ha2, ha3]
        dsimp only
        rw [Nat.zero_max]
        unfold topDeg
        conv_rhs => rw [← hz, List.map_map]
        rfl
      · exact hr3 y hy

omit [LinearOrder K] [IsStrictOrderedRing K] [FloorRing K] in
theorem allModes_ok (E : Env K C) (h : Holds file c) (l : List (Char × List Int × List K)) (hl : ∀ x ∈ l, x.1 ∈ c.pols ∧
      x.2.1.length = c.dips.length ∧ x.2.2.length = c.dips.length) :
    ∃ ms, allModes E file c.dips c.freqs l = .ok ms ∧ ms.length = l.length ∧
      ∀ (i : Nat) x r, l[i]? = some x → ms[i]? = some r → r.map (·.1) = c.freqs ∧
        ∀ y ∈ r, Summed E c x.1 y.1 (c.dips.zip (x.2.1.zip x.2.2)) y.2 := by
  induction l with
  | nil => exact ⟨[], rfl, rfl, by simp⟩
  | cons x l ih =>
    obtain ⟨ms, h1, h2, h3⟩ := ih fun y hy => hl y (by simp [hy])
    obtain ⟨p, d, a⟩ := x
    have hx := hl (p, d, a) (by simp)
    obtain ⟨r, hr1, hr2, hr3⟩ := feedModes_ok E h hx.1 hx.2.1 hx.2.2 c.freqs (fun _ hf => hf)
    refine ⟨r :: ms, by rw [allModes, hr1, h1]; rfl, by simp [h2], ?_⟩
    intro i x' r' hi hr
    cases i with
    | zero =>
      simp only [List.getElem?_cons_zero, Option.some.injEq] at hi hr
      subst hi hr
      exact ⟨hr2, hr3⟩
    | succ i =>
      simp only [List.getElem?_cons_succ] at hi hr
      exact h3 i x' r' hi hr

omit [IsStrictOrderedRing K] [FloorRing K] in
theorem summed_response (E : Env K C) (h : Holds file c) {p : Char} (hp : p ∈ c.pols) {f : Nat} (hf : f ∈ c.freqs)
    {l : List (Str × Int × K)} (hl : ∀ x ∈ l, x.1 ∈ c.dips) {a : Acc C} (ha : Summed E c p f l a)
    (φ θ : K) (hπ : θ ≠ E.pi) (h0 : E.cos 0 = 1) :
    response E a φ θ =
      ((l.map fun x => volt E f x.2.1 x.2.2 * dipoleT E φ θ (c.deg p x.1 f) (c.rows p x.1 f)).sum,
        -(l.map fun x => volt E f x.2.1 x.2.2 * dipoleP E φ θ (c.deg p x.1 f) (c.rows p x.1 f)).sum) := by
  rw [response_sum E (driven E c p f l) (topDeg c p f) _ _ a ha.1 ha.2.1 ha.2.2 φ θ hπ h0]
  · simp only [driven, List.map_map]
    rfl
  · intro d hd
    obtain ⟨x, hx, rfl⟩ := List.mem_map.1 hd
    exact le_foldr_max (List.mem_map.2 ⟨x.1, hl x hx, rfl⟩)
  · intro d hd
    obtain ⟨x, hx, rfl⟩ := List.mem_map.1 hd
    exact h.len' hp (hl x hx) hf

omit [LinearOrder K] [IsStrictOrderedRing K] [FloorRing K] in
theorem summed_shapes (E : Env K C) (h : Holds file c) {p : Char} (hp : p ∈ c.pols) {f : Nat} (hf : f ∈ c.freqs)
    {l : List (Str × Int × K)} {a : Acc C} (ha : Summed E c p f l a) : shapesOk a (maxLength file p f) := by
  unfold shapesOk
  rw [ha.1, maxN_feko, feko_length, h.maxLength hp hf]
  refine ⟨?_, rfl, rfl⟩
  intro e
  have e := congrArg List.length e
  rw [feko_length] at e
  obtain ⟨d, hd, e'⟩ := exists_max (fun d => c.deg p d f) h.dipNe
  have := h.degPos p hp d hd f hf
  have : topDeg c p f = c.deg p d f := e'.symm
  simp only [List.length_nil] at e
  omega

end

end Verif.MwaBeam
