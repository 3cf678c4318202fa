import Verif.Phasing.UvwMove

/-!
# Consequences, successes and failures of `calc_uvw`
-/

namespace Verif.Phasing

open Verif.Coord (V3 LLA Ellipsoid enuFromEcef1 xyzFromLla1)

/-! ## Meaning of the coordinates -/

/-- **C69.** The coordinates of `uvw_enu` are differences of local coordinates of the two
antennas. -/
theorem enu_is_difference (e : Ellipsoid) (c : LLA) (p q : V3) :
    diff (enuFromEcef1 e c p) (enuFromEcef1 e c q) = proj c.lon c.lat 0 (diff p q) := by
  ext <;> simp only [diff, enuFromEcef1, proj, dot, eastOf, northOf, toward, Real.cos_zero,
    Real.sin_zero] <;> ring

/-- **C69.** A baseline and its coordinates have the same length. -/
theorem proj_length (lam dec pa : ℝ) (b : V3) : dot (proj lam dec pa b) (proj lam dec pa b) = dot b b :=
  dot_proj lam dec pa b b

/-- **C69.** Exchanging the antennas changes the sign of the coordinates. -/
theorem proj_swap (lam dec pa : ℝ) (p q : V3) :
    proj lam dec pa (diff p q) = diff ⟨0, 0, 0⟩ (proj lam dec pa (diff q p)) := by
  ext <;> simp only [diff, proj, dot] <;> ring

/-- **C69.** The third coordinate is the distance that the wave has still to go to the first
antenna when it reaches the second one; it does not depend on the position angle. -/
theorem proj_w (lam dec pa : ℝ) (p q : V3) :
    (proj lam dec pa (diff q p)).z = dot (toward lam dec) q - dot (toward lam dec) p := by
  simp only [diff, proj, dot]; ring

/-! ## Consequences for moves -/

variable {junk : M3} {a a' : Args} {uvw out out' : List V3}

/-- **C70.** A move to another source and back again gives the coordinates that went in. -/
theorem there_and_back (hu : a.useAntPos = false) (hu' : a'.useAntPos = false)
    (hv : a.uvw = some uvw) (hv' : a'.uvw = some out) (hc : Coherent a) (hc' : Coherent a')
    (h : calcUvw junk a = .ok out) (h' : calcUvw junk a' = .ok out') (i : Nat) (v : V3)
    (hi : uvw[i]? = some v) (ra dec pa ra' dec' pa' : ℝ) (h1 : Was a i ra dec pa)
    (h2 : Becomes a i ra' dec' pa') (h3 : Was a' i ra' dec' pa') (h4 : Becomes a' i ra dec pa) :
    out'[i]? = some v := by
  obtain ⟨b, rfl⟩ := proj_surj (ra - 0) dec pa v
  have e1 := uvw_moved_partial hu hv hc h i ra dec pa ra' dec' pa' 0 b h1 h2 hi
  exact uvw_moved_partial hu' hv' hc' h' i ra' dec' pa' ra dec pa 0 b h3 h4 e1

/-- **C70.** Two moves in a row are one move: the way does not matter. -/
theorem by_way_of {a'' : Args} {out'' : List V3} (hu : a.useAntPos = false)
    (hu' : a'.useAntPos = false) (hu'' : a''.useAntPos = false) (hv : a.uvw = some uvw)
    (hv' : a'.uvw = some out) (hv'' : a''.uvw = some uvw) (hc : Coherent a) (hc' : Coherent a')
    (hc'' : Coherent a'') (h : calcUvw junk a = .ok out) (h' : calcUvw junk a' = .ok out')
    (h'' : calcUvw junk a'' = .ok out'') (i : Nat) (hi : i < uvw.length)
    (ra dec pa ra' dec' pa' r d p : ℝ) (h1 : Was a i ra dec pa) (h2 : Becomes a i ra' dec' pa')
    (h3 : Was a' i ra' dec' pa') (h4 : Becomes a' i r d p) (h5 : Was a'' i ra dec pa)
    (h6 : Becomes a'' i r d p) : out'[i]? = out''[i]? := by
  obtain ⟨b, hb⟩ := proj_surj (ra - 0) dec pa uvw[i]
  have hi' : uvw[i]? = some (proj (ra - 0) dec pa b) := by
    rw [hb]; exact List.getElem?_eq_getElem hi
  have e1 := uvw_moved_partial hu hv hc h i ra dec pa ra' dec' pa' 0 b h1 h2 hi'
  rw [uvw_moved_partial hu' hv' hc' h' i ra' dec' pa' r d p 0 b h3 h4 e1,
    uvw_moved_partial hu'' hv'' hc'' h'' i ra dec pa r d p 0 b h5 h6 hi']

/-- **C70.** The length of a baseline does not change. -/
theorem length_kept (hu : a.useAntPos = false) (hv : a.uvw = some uvw) (hc : Coherent a)
    (h : calcUvw junk a = .ok out) (i : Nat) (v : V3) (hi : uvw[i]? = some v)
    (ra dec pa ra' dec' pa' : ℝ) (h1 : Was a i ra dec pa) (h2 : Becomes a i ra' dec' pa') :
    ∃ v', out[i]? = some v' ∧ dot v' v' = dot v v := by
  obtain ⟨b, rfl⟩ := proj_surj (ra - 0) dec pa v
  exact ⟨_, uvw_moved_partial hu hv hc h i ra dec pa ra' dec' pa' 0 b h1 h2 hi,
    by rw [dot_proj, dot_proj]⟩

/-- **C70.** Old coordinates that were calculated from antenna positions are moved to those that
antenna positions give for the new source: both ways agree. -/
theorem both_ways_agree {pos : List V3} {nums ant1 ant2 : List Int} {lon : ℝ} {n : Nat}
    {lst ra dec : List ℝ} {c : Args} {new : List V3} (hu : a.useAntPos = false)
    (hv : a.uvw = some uvw) (hc : Coherent a) (h : calcUvw junk a = .ok out)
    (hcall : AntCall c pos nums ant1 ant2 lon n) (ht : c.toEnu = false) (hl : c.lst = some lst)
    (hr : c.appRa = some ra) (hd : c.appDec = some dec) (ll : lst.length = n) (lr : ra.length = n)
    (ld : dec.length = n) (lp : ∀ pa, c.framePa = some pa → pa.length = n)
    (hcons : ∀ (pa : List ℝ), c.framePa = some pa → ∀ (i : Nat) (t t' r r' d d' : ℝ),
      lst[i]? = some t → lst[i + 1]? = some t' → ra[i]? = some r → ra[i + 1]? = some r' →
      dec[i]? = some d → dec[i + 1]? = some d' → t - r = t' - r' → d = d' → pa[i]? = pa[i + 1]?)
    (hnew : calcUvw junk c = .ok new)
    (i : Nat) (n1 n2 : Int) (p1 p2 : V3) (t r d p r' d' p' : ℝ) (e1 : ant1[i]? = some n1)
    (e2 : ant2[i]? = some n2) (s1 : StandsAt nums pos n1 p1) (s2 : StandsAt nums pos n2 p2)
    (f1 : lst[i]? = some t) (f2 : ra[i]? = some r') (f3 : dec[i]? = some d')
    (f4 : paAt c.framePa i = some p') (w1 : Was a i r d p) (w2 : Becomes a i r' d' p')
    (hi : uvw[i]? = some (proj (r - (t - lon)) d p (diff p2 p1))) : out[i]? = new[i]? := by
  obtain ⟨new', o1, -, o3⟩ := uvw_from_antennas_partial junk hcall ht hl hr hd ll lr ld lp hcons
  rw [hnew] at o1
  obtain rfl := Except.ok.inj o1
  rw [o3 i n1 n2 p1 p2 t r' d' p' e1 e2 s1 s2 f1 f2 f3 f4,
    uvw_moved_partial hu hv hc h i r d p r' d' p' (t - lon) _ w1 w2 hi]

/-! ## When a move succeeds -/

/-- Everything `calc_uvw` needs for a move: one entry per row for each row array, the old position
unless the coordinates are local ones, the new one unless local ones are wanted, and the position
angles that belong to them. -/
structure MoveCall (a : Args) (uvw : List V3) : Prop where
  use : a.useAntPos = false
  huvw : a.uvw = some uvw
  len : Lengths a uvw.length
  old : a.fromEnu = false → a.oldRa.isSome ∧ a.oldDec.isSome ∧ a.oldPa.isSome
  enu : a.fromEnu = true ∨ a.toEnu = true → a.lst.isSome ∧ a.lat.isSome
  new : a.toEnu = false → a.appRa.isSome ∧ a.appDec.isSome ∧ a.framePa.isSome
  pa : a.toEnu = true → a.framePa.isSome ∨ a.appDec = none ∧ uvw ≠ []

/-- **C70.** A move with complete arguments succeeds and keeps the number of rows. -/
theorem move_succeeds (junk : M3) {a : Args} {uvw : List V3} (h : MoveCall a uvw) :
    ∃ out, calcUvw junk a = .ok out ∧ out.length = uvw.length := by
  obtain ⟨l1, l2, l3, l4, l5, l6, l7⟩ := h.len.get
  unfold calcUvw
  have c1 : ¬ (a.toEnu = true ∧ (a.lst.isNone ∧ a.useAntPos = false ∨ a.lat.isNone)) := by
    rintro ⟨ht, hx⟩
    obtain ⟨h1, h2⟩ := h.enu (.inr ht)
    rw [Option.isSome_iff_exists] at h1 h2
    obtain ⟨x, hx'⟩ := h1
    obtain ⟨y, hy⟩ := h2
    rw [hx', hy] at hx
    simp at hx
  have c2 : ¬ (a.toEnu = false ∧ (a.appRa.isNone ∨ a.appDec.isNone) ∧ a.framePa.isNone) := by
    rintro ⟨ht, -, hx⟩
    obtain ⟨-, -, h3⟩ := h.new ht
    cases hq : a.framePa with
    | none => rw [hq] at h3; simp at h3
    | some l => rw [hq] at hx; simp at hx
  rw [if_neg c1, if_neg c2, if_neg (by simp [h.use])]
  unfold calcFromUvw
  rw [h.huvw]
  simp only
  by_cases hft : a.fromEnu = true ∧ a.toEnu = true
  · rw [if_pos hft]; exact ⟨uvw, rfl, rfl⟩
  rw [if_neg hft]
  have c3 : ¬ (a.fromEnu = true ∧ (a.lat.isNone ∨ a.lst.isNone)) := by
    rintro ⟨hf, hx⟩
    obtain ⟨h1, h2⟩ := h.enu (.inl hf)
    rw [Option.isSome_iff_exists] at h1 h2
    obtain ⟨x, hx'⟩ := h1
    obtain ⟨y, hy⟩ := h2
    rw [hx', hy] at hx
    simp at hx
  have c4 : ¬ (a.fromEnu = false ∧ a.oldPa.isNone ∧ ¬ (a.framePa.isNone ∨ a.toEnu)) := by
    rintro ⟨hf, hx, -⟩
    have := (h.old hf).2.2
    cases hq : a.oldPa <;> simp [hq] at this hx
  have c5 : ¬ (a.fromEnu = false ∧ (a.oldRa.isNone ∧ ¬ (a.appRa.isNone ∨ a.toEnu) ∨
        a.oldDec.isNone ∧ ¬ (a.appDec.isNone ∨ a.toEnu))) := by
    rintro ⟨hf, hx⟩
    obtain ⟨h1, h2, -⟩ := h.old hf
    rcases hx with ⟨hx, -⟩ | ⟨hx, -⟩
    · cases hq : a.oldRa <;> simp [hq] at h1 hx
    · cases hq : a.oldDec <;> simp [hq] at h2 hx
  rw [if_neg c3, if_neg c4, if_neg c5, if_neg (by simpa using h.len)]
  -- the change of hour angle
  have hg : ∃ g : Amount, ghaDelta a = .ok g ∧ g.Fits uvw.length := by
    unfold ghaDelta
    by_cases hn : a.appRa.isNone ∧ a.oldRa.isNone
    · rw [if_pos hn]; exact ⟨_, rfl, trivial⟩
    · rw [if_neg hn]
      have e1 : ∃ l, (if a.fromEnu then a.lst else a.oldRa) = some l ∧ l.length = uvw.length := by
        by_cases hf : a.fromEnu = true
        · rw [if_pos hf]
          obtain ⟨l, hl⟩ := Option.isSome_iff_exists.1 (h.enu (.inl hf)).1
          exact ⟨l, hl, l4 l hl⟩
        · rw [if_neg hf]
          obtain ⟨l, hl⟩ := Option.isSome_iff_exists.1 (h.old (by simpa using hf)).1
          exact ⟨l, hl, l5 l hl⟩
      have e2 : ∃ l, (if a.toEnu then a.lst else a.appRa) = some l ∧ l.length = uvw.length := by
        by_cases hf : a.toEnu = true
        · rw [if_pos hf]
          obtain ⟨l, hl⟩ := Option.isSome_iff_exists.1 (h.enu (.inr hf)).1
          exact ⟨l, hl, l4 l hl⟩
        · rw [if_neg hf]
          obtain ⟨l, hl⟩ := Option.isSome_iff_exists.1 (h.new (by simpa using hf)).1
          exact ⟨l, hl, l1 l hl⟩
      obtain ⟨x, x1, x2⟩ := e1
      obtain ⟨y, y1, y2⟩ := e2
      rw [x1, y1]
      exact ⟨_, rfl, .inr (by rw [List.length_zipWith, x2, y2, min_self])⟩
  obtain ⟨g, g1, g2⟩ := hg
  rw [g1]
  simp only
  split_ifs with hcorner
  · have hfp : ∃ fp, a.framePa = some fp := by
      rw [← Option.isSome_iff_exists]
      by_cases ht : a.toEnu = true
      · rcases h.pa ht with hp | ⟨hp, hne⟩
        · exact hp
        · exfalso
          have hf : a.fromEnu = false := by
            by_contra hf
            exact hft ⟨by simpa using hf, ht⟩
          obtain ⟨l, hl⟩ := Option.isSome_iff_exists.1 (h.old hf).2.1
          have := hcorner.2
          rw [hp, hl] at this
          simp only [AllEq] at this
          have hll := l6 l hl
          rw [this] at hll
          exact hne (List.length_eq_zero_iff.1 hll.symm)
      · exact (h.new (by simpa using ht)).2.2
    obtain ⟨fp, hfp⟩ := hfp
    rw [hfp]
    obtain ⟨out, o1, o2, -⟩ := onlyPa_spec (l3 fp hfp) l7
    exact ⟨out, o1, o2⟩
  · have ht : ∃ tilt, oldTilt a = .ok tilt := by
      unfold oldTilt
      by_cases hf : a.fromEnu = true
      · rw [if_pos hf]
        obtain ⟨l, hl⟩ := Option.isSome_iff_exists.1 (h.enu (.inl hf)).2
        rw [hl]
        exact ⟨_, rfl⟩
      · rw [if_neg hf]
        obtain ⟨l, hl⟩ := Option.isSome_iff_exists.1 (h.old (by simpa using hf)).2.1
        rw [hl]
        exact ⟨_, rfl⟩
    obtain ⟨tilt, t1⟩ := ht
    obtain ⟨out, o1, o2, -⟩ := rotateAll_spec junk h.len g2 t1
    exact ⟨out, o1, o2⟩

/-! ## Where the full statements fail -/

/-- Two rows of the baseline from antenna 0 to antenna 1, which is one metre long and points east
of the source, which has the same place in both rows; only the position angles differ. -/
noncomputable def samePlace (pa0 pa1 : ℝ) : Args :=
  { appRa := some [0, 0], appDec := some [0, 0], framePa := some [pa0, pa1], lst := some [0, 0],
    antPos := some [⟨0, 0, 0⟩, ⟨0, 1, 0⟩], antNums := some [0, 1], ant1 := some [0, 0],
    ant2 := some [1, 1], lon := some 0 }

theorem samePlace_call (pa0 pa1 : ℝ) : AntCall (samePlace pa0 pa1) [⟨0, 0, 0⟩, ⟨0, 1, 0⟩] [0, 1]
    [0, 0] [1, 1] 0 2 :=
  ⟨rfl, rfl, rfl, rfl, rfl, rfl, by decide, rfl, rfl, rfl, by decide, by decide, by decide⟩

/-- The second position angle is not looked at. -/
theorem samePlace_ignores (junk : M3) (pa0 pa1 : ℝ) :
    calcUvw junk (samePlace pa0 pa1) = calcUvw junk (samePlace pa0 pa0) := by
  have hch : changes (zip3 [0, 0] [0, 0] [0, 0]) = [false] := by simp [changes, zip3]
  simp [calcUvw, calcFromAnts, samePlace, antIdxs, antIdx, Except.map, hch, pick]

/-- **C69** is false in general: rows that see their source at the same hour angle and declination
as the row before get the position angle of that row.  Here the second row should be rotated by a
quarter of a turn and is not. -/
theorem position_angle_counterexample (junk : M3) :
    ∃ out, calcUvw junk (samePlace 0 (Real.pi / 2)) = .ok out ∧
      out[1]? = some ⟨1, 0, 0⟩ ∧
      proj (0 - (0 - 0)) 0 (Real.pi / 2) (diff ⟨0, 1, 0⟩ ⟨0, 0, 0⟩) = ⟨0, 1, 0⟩ := by
  obtain ⟨out, o1, -, o3⟩ := uvw_from_antennas_partial junk (lst := [0, 0]) (ra := [0, 0])
    (dec := [0, 0]) (samePlace_call 0 0) rfl rfl rfl rfl rfl rfl rfl
    (by intro pa h; obtain rfl := Option.some.inj h; rfl) (by
      intro pa h i t t' r r' d d' h1 h2 h3 h4 h5 h6 _ _
      obtain rfl := Option.some.inj h
      match i with
      | 0 => rfl
      | 1 => simp at h2
      | i + 2 => simp at h1)
  refine ⟨out, by rw [samePlace_ignores]; exact o1, ?_, ?_⟩
  · have := o3 1 0 1 ⟨0, 0, 0⟩ ⟨0, 1, 0⟩ 0 0 0 0 rfl rfl ⟨0, rfl, rfl⟩ ⟨1, rfl, rfl⟩ rfl rfl rfl rfl
    rw [this]
    simp [proj, dot, diff, eastOf, northOf, toward]
  · simp [proj, dot, diff, eastOf, northOf, toward]

/-- A row whose source is moved from right ascension 1 to `ra`, without position angles. -/
noncomputable def noPa (ra : ℝ) : Args :=
  { useAntPos := false, uvw := some [⟨1, 2, 3⟩], appRa := some [ra], appDec := some [1],
    oldRa := some [1], oldDec := some [1] }

/-- **C70** is false in general: without position angles, a row whose source does not move is an
error (`None - 0.0` is a `TypeError`), while other moves are made. -/
theorem no_position_angle_counterexample (junk : M3) :
    calcUvw junk (noPa 1) = .error .type ∧ ∃ out, calcUvw junk (noPa 2) = .ok out := by
  constructor
  · simp [calcUvw, calcFromUvw, Lengths, ghaDelta, Amount.NoRot, AllEq, onlyPa, noPa]
  · have hL : Lengths (noPa 2) 1 := by simp [Lengths, noPa]
    obtain ⟨out, o1, -⟩ := rotateAll_spec junk (a := noPa 2) (uvw := [⟨1, 2, 3⟩])
      (g := .array [1 - 2]) (tilt := .array [-1]) hL (.inl rfl) (by simp [oldTilt, noPa])
    refine ⟨out, ?_⟩
    rw [← o1]
    have : ¬ ((1 : ℝ) - 2 = 0) := by norm_num
    simp [calcUvw, calcFromUvw, Lengths, ghaDelta, Amount.NoRot, AllEq, this, noPa]

/-- One baseline toward the zenith of the north pole, said to be in local coordinates, to be
projected for a source on the equator that is also named as the old source. -/
noncomputable def enuAtPole : Args :=
  { useAntPos := false, uvw := some [⟨0, 0, 1⟩], appRa := some [0], appDec := some [0],
    framePa := some [0], lst := some [0], oldDec := some [0], oldPa := some [0],
    lat := some (Real.pi / 2), fromEnu := true }

/-- **C70** is false in general: coordinates that are said to be local ones (`from_enu`) are not
rotated at all if the old declination that is passed along happens to be the new one. -/
theorem from_enu_counterexample (junk : M3) :
    calcUvw junk enuAtPole = .ok [⟨0, 0, 1⟩] ∧ Was enuAtPole 0 0 (Real.pi / 2) 0 ∧
    Becomes enuAtPole 0 0 0 0 ∧ proj (0 - 0) (Real.pi / 2) 0 ⟨0, 0, 1⟩ = ⟨0, 0, 1⟩ ∧
    proj (0 - 0) 0 0 ⟨0, 0, 1⟩ = ⟨0, 1, 0⟩ := by
  refine ⟨?_, ?_, ?_, ?_, ?_⟩
  · simp [calcUvw, calcFromUvw, Lengths, ghaDelta, Amount.NoRot, AllEq, onlyPa, rotateOne, paDiff,
      Except.map, dropAxis, toUvw, ofUvw, enuAtPole]
  · simp [Was, enuAtPole, Entry]
  · simp [Becomes, enuAtPole, Entry, paAt]
  · simp [proj, dot, eastOf, northOf, toward]
  · simp [proj, dot, eastOf, northOf, toward]

end Verif.Phasing
