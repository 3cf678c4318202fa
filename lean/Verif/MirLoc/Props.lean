import Verif.MirLoc.Model
import Mathlib.Algebra.Order.Field.Basic
import Mathlib.Data.List.Dedup
import Mathlib.Tactic.Abel
import Mathlib.Tactic.Linarith

/-! # C223: where the telescope and antennas of Miriad files are -/
set_option linter.unusedSectionVars false

namespace Verif.MirLoc

variable {K P : Type} [Field K] [LinearOrder K] [AddCommGroup P] [Module K P] [DecidableEq P]
  {env : Env K P} {order : List Nat → List Nat} {f : File K P} {correct : Bool} {g : Got P} {pos out : List P}

/-! ### Specification -/

/-- Lengths are zero for the zero vector only, and positive otherwise. -/
def Lengths (env : Env K P) : Prop := ∀ p, (p = 0 → env.len p = 0) ∧ (p ≠ 0 → 0 < env.len p)

/-- Positions from the middle of the Earth: the mean length of those that are not zero is that of the radius of the Earth. -/
def FromEarth (env : Env K P) (pos : List P) : Prop :=
  ∃ l : List P, l.Sublist pos ∧ l ≠ [] ∧ (∀ p ∈ l, p ≠ 0) ∧ (∀ p, p ≠ 0 → l.count p = pos.count p) ∧
    env.low < (l.map env.len).sum / (l.length : K) ∧ (l.map env.len).sum / (l.length : K) < env.high

/-- Antenna `n` of the object has position `q`. -/
def At (g : Got P) (n : Nat) (q : P) : Prop := ∃ (i : Nat) (l : List P), g.pos = some l ∧ g.nums[i]? = some n ∧ l[i]? = some q

/-! ### Steps -/

theorem load_some (hpos : f.antpos = some pos) (h : load env order f correct = some g) :
    g.loc = (relative env f (some (header env f correct)) pos).1 ∧ g.nums = order (used env pos f.seen) ∧
      ∃ l, g.pos = some l ∧ (order (used env pos f.seen)).mapM (posOf env pos (relative env f (some (header env f correct)) pos).2) = some l := by
  unfold load at h
  rw [hpos] at h
  dsimp only at h
  split at h
  · simp at h
  · rename_i l hl
    simp only [Option.some.injEq] at h
    subst h
    exact ⟨rfl, rfl, l, rfl, hl⟩

theorem mapM_get {α β : Type} {fn : α → Option β} : ∀ {l : List α} {o : List β}, l.mapM fn = some o →
    ∀ (i : Nat) (a : α), l[i]? = some a → ∃ b, o[i]? = some b ∧ fn a = some b
  | [], _, _, i, a, ha => by simp at ha
  | x :: l, o, h, i, a, ha => by
    rw [List.mapM_cons] at h
    cases hx : fn x with
    | none => simp [hx] at h
    | some b =>
      cases hl : l.mapM fn with
      | none => simp [hx, hl] at h
      | some o' =>
        simp [hx, hl] at h
        subst h
        cases i with
        | zero => simp at ha; subst ha; exact ⟨b, by simp, hx⟩
        | succ i => simpa using mapM_get hl i a (by simpa using ha)

theorem at_posOf (hpos : f.antpos = some pos) (h : load env order f correct = some g) {n : Nat} {q : P} (ha : At g n q) :
    posOf env pos (relative env f (some (header env f correct)) pos).2 n = some q := by
  obtain ⟨_, hn, l, hl, hm⟩ := load_some hpos h
  obtain ⟨i, l', hl', hi, hq⟩ := ha
  rw [hl] at hl'
  simp only [Option.some.injEq] at hl'
  subst hl'
  rw [hn] at hi
  obtain ⟨b, hb, hf⟩ := mapM_get hm i n hi
  rw [hb] at hq
  rw [hf, hq]

theorem good_eq (hL : Lengths env) {l : List P} (hs : l.Sublist pos) (hnz : ∀ p ∈ l, p ≠ 0)
    (hc : ∀ p, p ≠ 0 → l.count p = pos.count p) : good env pos = l := by
  have hl : l.filter (fun p => decide (0 < env.len p)) = l := by
    rw [List.filter_eq_self]
    intro p hp
    simpa using (hL p).2 (hnz p hp)
  have hs' : l.Sublist (good env pos) := by
    have := hs.filter (fun p => decide (0 < env.len p))
    rwa [hl] at this
  refine (hs'.eq_of_length_le ?_).symm
  refine List.Perm.length_eq (l₁ := good env pos) (l₂ := l) ?_ |>.le
  rw [List.perm_iff_count]
  intro p
  by_cases hp : p = 0
  · have h1 : l.count p = 0 := List.count_eq_zero.2 fun hm => hnz p hm hp
    have h2 : (good env pos).count p = 0 := List.count_eq_zero.2 fun hm => by
      simp only [good, List.mem_filter, decide_eq_true_eq] at hm
      rw [(hL p).1 hp] at hm
      exact absurd hm.2 (lt_irrefl _)
    rw [h1, h2]
  · rw [hc p hp]
    unfold good
    exact List.count_filter (by simpa using (hL p).2 hp)

theorem absolute_iff (hL : Lengths env) : absolute env pos = true ↔ FromEarth env pos := by
  unfold absolute
  dsimp only
  simp only [Bool.and_eq_true, decide_eq_true_eq]
  constructor
  · rintro ⟨h1, h2, h3⟩
    refine ⟨good env pos, List.filter_sublist, h1, ?_, ?_, h2, h3⟩
    · intro p hp h0
      simp only [good, List.mem_filter, decide_eq_true_eq] at hp
      rw [(hL p).1 h0] at hp
      exact absurd hp.2 (lt_irrefl _)
    · intro p hp
      exact List.count_filter (by simpa using (hL p).2 hp)
  · rintro ⟨l, h1, h2, h3, h4, h5, h6⟩
    rw [good_eq hL h1 h3 h4]
    exact ⟨h2, h5, h6⟩

theorem rel_get_absolute (hA : absolute env pos = true) {loc : P} {n : Nat} {p : P} (hp : pos[n]? = some p) (h0 : env.len p ≠ 0) :
    (relative env f (some loc) pos).2[n]? = some (env.rot f.lon p - (relative env f (some loc) pos).1) := by
  simp [relative, hA, hp, h0]

theorem relative_loc (loc : P) : (relative env f (some loc) pos).1 = loc := by
  unfold relative
  dsimp only
  split <;> rfl

theorem loc_header (h : load env order f correct = some g) : g.loc = header env f correct := by
  cases hpos : f.antpos with
  | some pos => rw [(load_some hpos h).1, relative_loc]
  | none =>
    simp only [load, hpos, Option.some.injEq] at h
    rw [← h]

theorem header_located {l : P} (hl : locate env f correct = some l) : header env f correct = l := by
  unfold header
  dsimp only
  rw [hl]
  cases f.antpos with
  | some pos => exact relative_loc l
  | none => rfl

/-! ### Theorems -/

/-- **C223.** Positions from the middle of the Earth are kept: the location of the telescope and the position of the antenna
together are the position in the file, turned to the longitude of the file. -/
theorem absolute_kept (hL : Lengths env) (hpos : f.antpos = some pos) (hE : FromEarth env pos)
    (h : load env order f correct = some g) {n : Nat} {p q : P} (hp : pos[n]? = some p) (h0 : p ≠ 0) (hq : At g n q) :
    g.loc + q = env.rot f.lon p := by
  have h1 := at_posOf hpos h hq
  have hl : env.len p ≠ 0 := ((hL p).2 h0).ne'
  unfold posOf at h1
  simp only [hp, hl, if_false] at h1
  rw [rel_get_absolute ((absolute_iff hL).2 hE) hp hl] at h1
  simp only [Option.some.injEq] at h1
  rw [(load_some hpos h).1, ← h1]
  abel

/-- **C223.** Other positions are relative to the telescope, wherever it is. -/
theorem relative_kept (hL : Lengths env) (hpos : f.antpos = some pos) (hE : ¬ FromEarth env pos)
    (h : load env order f correct = some g) {n : Nat} {p q : P} (hp : pos[n]? = some p) (h0 : p ≠ 0) (hq : At g n q) :
    q = env.rot f.lon p := by
  have h1 := at_posOf hpos h hq
  have hl : env.len p ≠ 0 := ((hL p).2 h0).ne'
  have hA : absolute env pos = false := by
    rw [Bool.eq_false_iff, ne_eq, absolute_iff hL]
    exact hE
  unfold posOf at h1
  simp only [hp, hl, if_false, relative, hA, Bool.false_eq_true, List.getElem?_map, Option.map_some] at h1
  exact (Option.some.inj h1).symm

/-- **C223.** The antennas are those with a position and those with visibilities, each of them once. -/
theorem antennas (hL : Lengths env) (ho : ∀ l, (order l).Perm l) (hpos : f.antpos = some pos)
    (h : load env order f correct = some g) :
    g.nums.Nodup ∧ (∀ n, n ∈ g.nums ↔ (∃ p, pos[n]? = some p ∧ p ≠ 0) ∨ n ∈ f.seen) ∧ ∀ n ∈ g.nums, ∃ q, At g n q := by
  obtain ⟨_, hn, l, hl, hm⟩ := load_some hpos h
  have hperm := ho (used env pos f.seen)
  refine ⟨?_, ?_, ?_⟩
  · rw [hn, hperm.nodup_iff]
    exact List.nodup_dedup _
  · intro n
    rw [hn, hperm.mem_iff]
    unfold used
    rw [List.mem_dedup, List.mem_append, List.mem_filter, List.mem_range]
    refine or_congr_left ?_
    constructor
    · rintro ⟨_, h2⟩
      cases hp : pos[n]? with
      | none => rw [hp] at h2; simp at h2
      | some p =>
        rw [hp] at h2
        simp only [decide_eq_true_eq] at h2
        exact ⟨p, rfl, fun h0 => absurd h2 (by rw [(hL p).1 h0]; exact lt_irrefl _)⟩
    · rintro ⟨p, hp, h0⟩
      refine ⟨(List.getElem?_eq_some_iff.1 hp).1, ?_⟩
      rw [hp]
      simpa using (hL p).2 h0
  · intro n hnm
    obtain ⟨i, hi⟩ := List.getElem?_of_mem hnm
    rw [hn] at hi
    obtain ⟨b, hb, _⟩ := mapM_get hm i n hi
    exact ⟨b, i, l, hl, by rw [hn]; exact hi, hb⟩

/-- **C223.** Antennas with visibilities and without a position have the position zero, wherever the telescope is. -/
theorem missing_zero (hL : Lengths env) (hpos : f.antpos = some pos) (h : load env order f correct = some g) {n : Nat} {q : P}
    (hp : pos[n]? = some 0) (hq : At g n q) : q = 0 := by
  have h1 := at_posOf hpos h hq
  unfold posOf at h1
  simp only [hp, (hL 0).1 rfl, if_true] at h1
  exact (Option.some.inj h1).symm

/-- **C223.** With an altitude in the file, the telescope is where the file says; longitudes up to a whole turn are fine. -/
theorem location_altitude {a : K} (ha : f.alt = some a) (h : load env order f correct = some g) :
    (f.lon ≤ env.pi → g.loc = env.geo f.lat f.lon a) ∧ (env.pi < f.lon → g.loc = env.geo f.lat (f.lon - 2 * env.pi) a) := by
  have hl : g.loc = env.geo f.lat (wrapped env f.lon) a := by
    rw [loc_header h]
    exact header_located (by simp [locate, ha])
  rw [hl]
  unfold wrapped
  exact ⟨fun h => by rw [if_neg (not_lt.2 h)], fun h => by rw [if_pos h]⟩

/-- **C223.** Without an altitude, known telescopes are where they are known to be, or at the coordinates of the file at the height
that is known. -/
theorem location_known {la lo a : K} (ha : f.alt = none) (hk : f.known = some (la, lo, a))
    (h : load env order f correct = some g) :
    (correct = true → g.loc = env.geo la lo a) ∧
      (correct = false → (f.lon ≤ env.pi → g.loc = env.geo f.lat f.lon a) ∧
        (env.pi < f.lon → g.loc = env.geo f.lat (f.lon - 2 * env.pi) a)) := by
  have hl : g.loc = if correct then env.geo la lo a else env.geo f.lat (wrapped env f.lon) a := by
    rw [loc_header h]
    exact header_located (by simp only [locate, ha, hk]; split <;> rfl)
  constructor
  · rintro rfl
    rw [hl]
    rfl
  · rintro rfl
    rw [hl]
    simp only [Bool.false_eq_true, if_false]
    unfold wrapped
    exact ⟨fun h => by rw [if_neg (not_lt.2 h)], fun h => by rw [if_pos h]⟩

theorem location_guess (ha : f.alt = none) (hk : f.known = none) (hpos : f.antpos = some pos)
    (h : load env order f correct = some g) : g.loc = (guess env f pos).1 := by
  rw [loc_header h]
  simp only [header, hpos, relative, locate, ha, hk]
  split <;> rfl

/-- The mean of the positions that are not zero, turned. -/
def MeanIs (env : Env K P) (lon : K) (pos : List P) (m : P) : Prop :=
  ∃ l : List P, l.Sublist pos ∧ l ≠ [] ∧ (∀ p ∈ l, p ≠ 0) ∧ (∀ p, p ≠ 0 → l.count p = pos.count p) ∧
    m = (1 / (l.length : K)) • (l.map (env.rot lon)).sum

theorem meanPos_eq (hL : Lengths env) {m : P} (hm : MeanIs env f.lon pos m) : meanPos env f pos = some m := by
  obtain ⟨l, h1, h2, h3, h4, rfl⟩ := hm
  unfold meanPos
  dsimp only
  rw [good_eq hL h1 h3 h4, if_neg (by simpa using h2), List.length_map]

/-- **C223.** Unknown telescopes without an altitude whose antennas have a mean at the coordinates of the file have the height of this
mean.  (Longitudes are compared as they are.) -/
theorem location_mean_partial (hL : Lengths env) (ha : f.alt = none) (hk : f.known = none) (hpos : f.antpos = some pos) {m : P}
    (hm : MeanIs env f.lon pos m) (hs : env.low ≤ env.len m ∧ env.len m ≤ env.high)
    (hc : |env.lat m - f.lat| ≤ env.tol ∧ |env.lon m - f.lon| ≤ env.tol)
    (h : load env order f correct = some g) : g.loc = env.geo f.lat f.lon (env.alt m) := by
  rw [location_guess ha hk hpos h]
  unfold guess
  dsimp only
  rw [meanPos_eq hL hm]
  simp [surface, close, meanAlt, hc, not_lt.2 hs.1, not_lt.2 hs.2]

/-- **C223.** They are at sea level if the mean is elsewhere, or there are no positions. -/
theorem location_sea (hL : Lengths env) (ha : f.alt = none) (hk : f.known = none)
    (hc : ∀ pos m, f.antpos = some pos → MeanIs env f.lon pos m → env.low ≤ env.len m → env.len m ≤ env.high →
      ¬ (|env.lat m - f.lat| ≤ env.tol ∧ |env.lon m - f.lon| ≤ env.tol))
    (h : load env order f correct = some g) : g.loc = env.geo f.lat f.lon 0 := by
  cases hpos : f.antpos with
  | none =>
    rw [loc_header h]
    simp [header, hpos, locate, ha, hk]
  | some pos =>
    rw [location_guess ha hk hpos h]
    unfold guess
    dsimp only
    by_cases hg : good env pos = []
    · have : meanPos env f pos = none := by simp [meanPos, hg]
      simp [this, surface, close]
    · have hM : MeanIs env f.lon pos ((1 / ((good env pos).length : K)) • ((good env pos).map (env.rot f.lon)).sum) := by
        refine ⟨good env pos, List.filter_sublist, hg, ?_, ?_, rfl⟩
        · intro p hp h0
          simp only [good, List.mem_filter, decide_eq_true_eq] at hp
          rw [(hL p).1 h0] at hp
          exact absurd hp.2 (lt_irrefl _)
        · intro p hp
          exact List.count_filter (by simpa using (hL p).2 hp)
      have := hc pos _ hpos hM
      rw [meanPos_eq hL hM]
      generalize (1 / ((good env pos).length : K)) • ((good env pos).map (env.rot f.lon)).sum = m at this
      by_cases hs : surface env (some m) = true
      · rw [if_pos hs]
        simp only [surface, Bool.and_eq_true, Bool.not_eq_true', decide_eq_false_iff_not, not_lt] at hs
        have h3 : close env f (some m) = false := by
          have h4 := this hs.1 hs.2
          simp only [close]
          rw [Bool.eq_false_iff]
          simpa only [ne_eq, Bool.and_eq_true, decide_eq_true_eq] using h4
        rw [h3]
        rfl
      · rw [if_neg hs]

/-- **C223 is false** for longitudes that are given between a half and a whole turn (as the files may, lines 274–277): the longitude
of the mean, which is at most half a turn, is never close to it, so the height is never that of the antennas. -/
theorem wrapped_counterexample [IsStrictOrderedRing K] (hL : Lengths env) (ha : f.alt = none) (hk : f.known = none)
    (hr : ∀ p, env.lon p ≤ env.pi) (hw : env.pi + env.tol < f.lon) (h : load env order f correct = some g) :
    g.loc = env.geo f.lat f.lon 0 := by
  refine location_sea hL ha hk (fun pos m _ _ _ _ hc => ?_) h
  have h1 := (abs_le.1 hc.2).1
  have h2 := hr m
  linarith

/-- Reading fails exactly if an antenna with visibilities is not in the list of positions. -/
theorem load_error (ho : ∀ l, (order l).Perm l) :
    load env order f correct = none ↔ ∃ pos, f.antpos = some pos ∧ ∃ n ∈ f.seen, pos.length ≤ n := by
  have key : ∀ pos, f.antpos = some pos → (load env order f correct = none ↔ ∃ n ∈ f.seen, pos.length ≤ n) := by
    intro pos hpos
    have hlen : (relative env f (some (header env f correct)) pos).2.length = pos.length := by
      unfold relative
      dsimp only
      split <;> simp
    have hpo : ∀ n, posOf env pos (relative env f (some (header env f correct)) pos).2 n = none ↔ pos.length ≤ n := by
      intro n
      unfold posOf
      cases hp : pos[n]? with
      | none => simp [List.getElem?_eq_none_iff.1 hp]
      | some p =>
        have hn := (List.getElem?_eq_some_iff.1 hp).1
        dsimp only
        split
        · simp; omega
        · rw [List.getElem?_eq_none_iff, hlen]
    have hmm : ∀ l : List Nat, l.mapM (posOf env pos (relative env f (some (header env f correct)) pos).2) = none ↔
        ∃ n ∈ l, pos.length ≤ n := by
      intro l
      induction l with
      | nil => simp
      | cons x l ih =>
        rw [List.mapM_cons]
        cases hx : posOf env pos (relative env f (some (header env f correct)) pos).2 x with
        | none =>
          have := (hpo x).1 hx
          simp [this]
        | some b =>
          have : ¬ pos.length ≤ x := fun hc => by rw [(hpo x).2 hc] at hx; simp at hx
          cases hl : l.mapM (posOf env pos (relative env f (some (header env f correct)) pos).2) with
          | none => simpa [this] using ih.1 hl
          | some o =>
            rw [hl] at ih
            simpa [this] using ih
    unfold load
    rw [hpos]
    dsimp only
    have h1 := hmm (order (used env pos f.seen))
    have h2 : (∃ n ∈ order (used env pos f.seen), pos.length ≤ n) ↔ ∃ n ∈ f.seen, pos.length ≤ n := by
      constructor
      · rintro ⟨n, hn, hp⟩
        rw [(ho _).mem_iff, used, List.mem_dedup, List.mem_append, List.mem_filter, List.mem_range] at hn
        rcases hn with hn | hn
        · omega
        · exact ⟨n, hn, hp⟩
      · rintro ⟨n, hn, hp⟩
        refine ⟨n, ?_, hp⟩
        rw [(ho _).mem_iff, used, List.mem_dedup, List.mem_append]
        exact Or.inr hn
    rw [← h2, ← h1]
    split
    · rename_i hn; simp [hn]
    · rename_i hn; simp [hn]
  constructor
  · intro h
    cases hpos : f.antpos with
    | none => simp [load, hpos] at h
    | some pos => exact ⟨pos, rfl, (key pos hpos).1 h⟩
  · rintro ⟨pos, hpos, h⟩
    exact (key pos hpos).2 h

end Verif.MirLoc
