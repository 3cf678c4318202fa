import Verif.Phasing.UvwSpec
import Verif.Phasing.RotProps
import Verif.GetData.Lemmas

/-!
# Baseline coordinates from antenna positions
-/

namespace Verif.Phasing

open Verif.Coord (V3)

/-! ## Lists -/

theorem cumsum_pick {α : Type} : ∀ (m : List Bool) (x : α) (ys : List α) (acc : Nat),
    ys.length = m.length →
    (∀ i : Nat, m[i]? = some false → (x :: ys)[i]? = (x :: ys)[i + 1]?) →
    ∀ i c : Nat, (cumsum acc (false :: m))[i]? = some c →
      acc ≤ c ∧ (x :: pick m ys)[c - acc]? = (x :: ys)[i]? := by
  intro m
  induction m with
  | nil =>
    intro x ys acc hl _ i c hi
    cases ys with
    | cons y ys => simp at hl
    | nil =>
      cases i with
      | zero => simp [cumsum] at hi; subst hi; simp
      | succ i => simp [cumsum] at hi
  | cons b m ih =>
    intro x ys acc hl hs i c hi
    cases ys with
    | nil => simp at hl
    | cons y ys =>
      cases i with
      | zero => simp [cumsum] at hi; subst hi; simp
      | succ i =>
        have hl' : ys.length = m.length := by simpa using hl
        have hs' : ∀ i : Nat, m[i]? = some false → (y :: ys)[i]? = (y :: ys)[i + 1]? := by
          intro i hi
          have := hs (i + 1) (by simpa using hi)
          simpa using this
        cases b with
        | true =>
          have hi' : (cumsum (acc + 1) (false :: m))[i]? = some c := by
            simpa [cumsum] using hi
          obtain ⟨h1, h2⟩ := ih y ys (acc + 1) hl' hs' i c hi'
          refine ⟨by omega, ?_⟩
          have h3 : c - acc = (c - (acc + 1)) + 1 := by omega
          have h4 : pick (true :: m) (y :: ys) = y :: pick m ys := rfl
          rw [h4, h3, List.getElem?_cons_succ, h2, List.getElem?_cons_succ]
        | false =>
          have hxy : x = y := by
            have := hs 0 rfl
            simpa using this
          subst hxy
          have hi' : (cumsum acc (false :: m))[i]? = some c := by
            simpa [cumsum] using hi
          obtain ⟨h1, h2⟩ := ih x ys acc hl' hs' i c hi'
          refine ⟨h1, ?_⟩
          have h4 : pick (false :: m) (x :: ys) = pick m ys := rfl
          rw [h4, h2, List.getElem?_cons_succ]

theorem cumsum_length : ∀ (m : List Bool) (acc : Nat), (cumsum acc m).length = m.length := by
  intro m
  induction m with
  | nil => intro acc; rfl
  | cons b m ih => intro acc; simp [cumsum, ih]

theorem pick_length {α β : Type} : ∀ (m : List Bool) (xs : List α) (ys : List β),
    xs.length = m.length → ys.length = m.length → (pick m xs).length = (pick m ys).length := by
  intro m
  induction m with
  | nil => intro xs ys h1 h2; simp [pick]
  | cons b m ih =>
    intro xs ys h1 h2
    cases xs with
    | nil => simp at h1
    | cons x xs =>
      cases ys with
      | nil => simp at h2
      | cons y ys =>
        have := ih xs ys (by simpa using h1) (by simpa using h2)
        cases b
        · exact this
        · change (x :: pick m xs).length = (y :: pick m ys).length
          simp [this]

theorem flatten_get {α : Type} {N : Nat} : ∀ (rows : List (List α)), (∀ r ∈ rows, r.length = N) →
    ∀ (c k : Nat) (r : List α), rows[c]? = some r → k < N → rows.flatten[c * N + k]? = r[k]? := by
  intro rows
  induction rows with
  | nil => intro _ c k r h; simp at h
  | cons r0 rows ih =>
    intro h c k r hc hk
    have hr0 : r0.length = N := h r0 (by simp)
    cases c with
    | zero =>
      simp only [List.getElem?_cons_zero, Option.some.injEq] at hc
      subst hc
      rw [List.flatten_cons, List.getElem?_append_left (by omega)]
      congr 1; omega
    | succ c =>
      rw [List.flatten_cons, List.getElem?_append_right (by rw [hr0, Nat.succ_mul]; omega), hr0]
      have := ih (fun r hr => h r (by simp [hr])) c k r (by simpa using hc) hk
      rw [← this]
      congr 1
      rw [Nat.succ_mul]; omega

/-! ## The rotated antenna positions -/

/-- What `fromAnts` returns, when every row finds its angles in the shortened lists. -/
theorem fromAnts_spec (junk : M3) {pos : List V3} {G D : List ℝ} {P : Amount} {mask : List Bool}
    {i1 i2 : List Nat} {nU : Nat} (hG : G.length = nU) (hD : D.length = nU) (hP : P.Fits nU)
    (hP' : P.NoRot ∨ P.list.length = nU)
    (hz : (∀ g ∈ G, g = 0) → (∀ d ∈ D, d = 0) → nU = 1) (h1 : i1.length = mask.length)
    (h2 : i2.length = mask.length)
    (hc : ∀ c ∈ cumsum 0 (mask.set 0 false), c < nU)
    (hk1 : ∀ k ∈ i1, k < pos.length) (hk2 : ∀ k ∈ i2, k < pos.length) :
    ∃ out, fromAnts junk pos (.array G) (.array D) P mask i1 i2 = .ok out ∧
      out.length = mask.length ∧
      ∀ (i c k1 k2 : Nat) (p1 p2 : V3) (g d p : ℝ), (cumsum 0 (mask.set 0 false))[i]? = some c →
        i1[i]? = some k1 → i2[i]? = some k2 → pos[k1]? = some p1 → pos[k2]? = some p2 →
        G[c]? = some g → D[c]? = some d → P.at c = some p →
        out[i]? = some (proj (-g) d p (diff p2 p1)) := by
  have hx : (⟨pos.length, [pos]⟩ : Arr).Ok nU := ⟨.inl rfl, by simp⟩
  obtain ⟨y, y1, y2, y3, y4, -, y5, y6⟩ := rotateTwo_spec junk (a1 := .array G) (a2 := .array D) 2 1 hx
    (.inr hG) (.inr hD) (.inr rfl)
  have hy : y.rows.length = nU := by
    by_cases hg : (Amount.array G).NoRot
    · by_cases hd : (Amount.array D).NoRot
      · rw [y5 ⟨hg, hd⟩, hz hg hd]; rfl
      · exact y4 (.inr ⟨hd, hD⟩) (by decide)
    · exact y4 (.inl ⟨hg, hG⟩) (by decide)
  obtain ⟨z, z1, z2, z3, z4, z5, z6⟩ := rotateOne_spec (a := P) 0 y2 hP
    (hP'.imp id fun h => .inr (.inr h))
  have hzl : z.rows.length = nU := by
    by_cases hp : P.NoRot
    · rw [z5 hp, hy]
    · exact z4 (.inl ⟨hp, hP'.resolve_left hp⟩)
  have hzn : z.nVec = pos.length := z3.trans y3
  have hzr : ∀ r ∈ z.rows, r.length = pos.length := fun r hr => (z2.vecs r hr).trans hzn
  -- one rotated antenna position
  have key : ∀ (c k : Nat) (p : V3) (g d q : ℝ), pos[k]? = some p → G[c]? = some g →
      D[c]? = some d → P.at c = some q →
      z.rows.flatten[c * pos.length + k]?
        = some (rotAbout 0 q (rotAbout 1 d (rotAbout 2 g p))) := by
    intro c k p g d q hp hg hd hq
    have hcn : c < nU := by rw [← hG]; exact (List.getElem?_eq_some_iff.1 hg).1
    have hkn : k < pos.length := (List.getElem?_eq_some_iff.1 hp).1
    have e1 := y6 c hcn pos g d (bget_one pos c) (by rw [Amount.at, bget_full hG hcn]; exact hg)
      (by rw [Amount.at, bget_full hD hcn]; exact hd)
    have e2 := z6 c hcn _ q e1 hq
    rw [bget_full hzl hcn] at e2
    rw [flatten_get z.rows hzr c k _ e2 hkn, List.map_map, List.getElem?_map, hp]
    rfl
  have flatLen : ∀ c k, c < nU → k < pos.length → ∃ v, z.rows.flatten[c * pos.length + k]? = some v := by
    intro c k hc hk
    obtain ⟨r, hr⟩ : ∃ r, z.rows[c]? = some r := ⟨_, List.getElem?_eq_getElem (by omega)⟩
    rw [flatten_get z.rows hzr c k r hr hk]
    exact ⟨_, List.getElem?_eq_getElem (by rw [hzr r (List.mem_of_getElem? hr)]; exact hk)⟩
  set cs := cumsum 0 (mask.set 0 false) with hcs
  have hcl : cs.length = mask.length := by rw [hcs, cumsum_length, List.length_set]
  have hmap : ∀ is : List Nat, is.length = mask.length → (∀ k ∈ is, k < pos.length) →
      ∃ vs, ((cs.map (· * pos.length)).zip is).mapM (fun p => z.rows.flatten[p.1 + p.2]?) = some vs ∧
        vs.length = mask.length ∧ ∀ (i c k : Nat), cs[i]? = some c → is[i]? = some k →
          vs[i]? = z.rows.flatten[c * pos.length + k]? := by
    intro is hl hk
    obtain ⟨vs, hvs⟩ := GetData.exists_mapM (fun p : Nat × Nat => z.rows.flatten[p.1 + p.2]?)
      ((cs.map (· * pos.length)).zip is) (by
        intro p hp
        obtain ⟨c, hc', e⟩ := List.mem_map.1 (List.of_mem_zip hp).1
        rw [← e]
        exact flatLen c p.2 (hc c hc') (hk _ (List.of_mem_zip hp).2))
    obtain ⟨l1, l2⟩ := Pol.mapM_getElem? hvs
    refine ⟨vs, hvs, by rw [l1, List.length_zip, List.length_map]; omega, ?_⟩
    intro i c k hci hki
    obtain ⟨b, b1, b2⟩ := l2 i (c * pos.length, k) (List.getElem?_zip_eq_some.2
      ⟨by rw [List.getElem?_map, hci]; rfl, hki⟩)
    rw [b2, ← b1]
  obtain ⟨v2, m2, n2, g2⟩ := hmap i2 h2 hk2
  obtain ⟨v1, m1, n1, g1⟩ := hmap i1 h1 hk1
  refine ⟨List.zipWith (fun a b => toUvw ⟨a.x - b.x, a.y - b.y, a.z - b.z⟩) v2 v1, ?_, ?_, ?_⟩
  · unfold fromAnts
    rw [y1]
    simp only
    rw [z1]
    simp only
    rw [← hcs, m2, m1]
  · rw [List.length_zipWith, n1, n2, min_self]
  · intro i c k1 k2 p1 p2 g d p e1 e2 e3 e4 e5 e6 e7 e8
    rw [List.getElem?_zipWith, g2 i c k2 e1 e3, g1 i c k1 e1 e2, key c k2 p2 g d p e5 e6 e7 e8,
      key c k1 p1 g d p e4 e6 e7 e8]
    simp only [Option.some.injEq]
    rw [← proj_diff, ← proj_rot, ← proj_rot]
    rfl

/-! ## Antenna numbers -/

theorem antIdx_aux (a : Int) : ∀ (nums : List Int) (s : Nat) (d : Option Nat), nums.Nodup →
    (a ∉ nums → (nums.zipIdx s).foldl (fun d p => if p.1 = a then some p.2 else d) d = d) ∧
    ∀ k : Nat, nums[k]? = some a →
      (nums.zipIdx s).foldl (fun d p => if p.1 = a then some p.2 else d) d = some (k + s) := by
  intro nums
  induction nums with
  | nil => intro s d _; simp
  | cons n nums ih =>
    intro s d hn
    rw [List.nodup_cons] at hn
    rw [List.zipIdx_cons, List.foldl_cons]
    refine ⟨?_, ?_⟩
    · intro ha
      simp only [List.mem_cons, not_or] at ha
      rw [if_neg (fun h => ha.1 h.symm)]
      exact (ih (s + 1) d hn.2).1 ha.2
    · intro k hk
      cases k with
      | zero =>
        simp only [List.getElem?_cons_zero, Option.some.injEq] at hk
        subst hk
        rw [if_pos rfl, (ih (s + 1) (some s) hn.2).1 hn.1]
        simp
      | succ k =>
        rw [(ih (s + 1) _ hn.2).2 k (by simpa using hk)]
        congr 1; omega

theorem antIdx_eq {nums : List Int} (hn : nums.Nodup) {a : Int} {k : Nat} (h : nums[k]? = some a) :
    antIdx nums a = some k := by
  have := (antIdx_aux a nums 0 none hn).2 k h
  simpa [antIdx] using this

theorem antIdxs_ok {nums : List Int} (hn : nums.Nodup) : ∀ {ants : List Int}, (∀ a ∈ ants, a ∈ nums) →
    ∃ is, antIdxs nums ants = .ok is ∧ is.length = ants.length ∧ (∀ k ∈ is, k < nums.length) ∧
      ∀ (i : Nat) (a : Int) (k : Nat), ants[i]? = some a → nums[k]? = some a → is[i]? = some k := by
  intro ants
  induction ants with
  | nil => intro _; exact ⟨[], rfl, rfl, by simp, by simp⟩
  | cons a ants ih =>
    intro h
    obtain ⟨is, h1, h2, h3, h4⟩ := ih (fun a ha => h a (by simp [ha]))
    obtain ⟨k, hk⟩ := List.getElem?_of_mem (h a (by simp))
    refine ⟨k :: is, ?_, by simp [h2], ?_, ?_⟩
    · rw [antIdxs, antIdx_eq hn hk]
      simp only
      rw [h1]; rfl
    · intro k' hk'
      rcases List.mem_cons.1 hk' with rfl | hk'
      · exact (List.getElem?_eq_some_iff.1 hk).1
      · exact h3 k' hk'
    · intro i a' k' hi hk'
      cases i with
      | zero =>
        simp only [List.getElem?_cons_zero, Option.some.injEq] at hi
        subst hi
        have e1 := antIdx_eq hn hk
        rw [antIdx_eq hn hk'] at e1
        simpa using e1.symm
      | succ i => exact h4 i a' k' (by simpa using hi) hk'

theorem changes_length : ∀ l : List (ℝ × ℝ), (changes l).length = l.length - 1 := by
  intro l
  induction l with
  | nil => rfl
  | cons p l ih =>
    cases l with
    | nil => rfl
    | cons q l => simp only [changes, List.length_cons] at *; omega

theorem changes_false : ∀ (l : List (ℝ × ℝ)) (i : Nat), (changes l)[i]? = some false →
    l[i]? = l[i + 1]? := by
  intro l
  induction l with
  | nil => intro i h; simp [changes] at h
  | cons p l ih =>
    intro i h
    cases l with
    | nil => simp [changes] at h
    | cons q l =>
      cases i with
      | zero =>
        simp only [changes, List.getElem?_cons_zero, Option.some.injEq, decide_eq_false_iff_not,
          not_or, not_not] at h
        simp only [List.getElem?_cons_zero, zero_add, List.getElem?_cons_succ, Option.some.injEq]
        exact Prod.ext h.1 h.2
      | succ i =>
        have := ih i (by simpa [changes] using h)
        simpa using this

theorem changes_true : ∀ (l : List (ℝ × ℝ)) (i : Nat) (p q : ℝ × ℝ),
    (changes l)[i]? = some true → l[i]? = some p → l[i + 1]? = some q → p ≠ q := by
  intro l
  induction l with
  | nil => intro i p q h; simp [changes] at h
  | cons p0 l ih =>
    intro i p q h hp hq
    cases l with
    | nil => simp [changes] at h
    | cons q0 l =>
      cases i with
      | zero =>
        simp only [changes, List.getElem?_cons_zero, Option.some.injEq, decide_eq_true_eq] at h
        simp only [List.getElem?_cons_zero, zero_add, List.getElem?_cons_succ,
          Option.some.injEq] at hp hq
        subst hp hq
        intro h'
        rw [h'] at h
        simp at h
      | succ i => exact ih i p q (by simpa [changes] using h) (by simpa using hp) (by simpa using hq)

/-- When all picked entries agree, there is only one of them. -/
theorem pick_all_same {l : List (ℝ × ℝ)} {p : ℝ × ℝ} (hl : l ≠ [])
    (h : ∀ q ∈ pick (true :: changes l) l, q = p) : (pick (true :: changes l) l).length = 1 := by
  obtain ⟨x, ys, rfl⟩ := List.exists_cons_of_ne_nil hl
  have hlen : ys.length = (changes (x :: ys)).length := by rw [changes_length]; simp
  have e : pick (true :: changes (x :: ys)) (x :: ys) = x :: pick (changes (x :: ys)) ys := rfl
  rw [e] at h ⊢
  have hget := cumsum_pick (changes (x :: ys)) x ys 0 hlen (changes_false (x :: ys))
  have hall : ∀ q ∈ x :: ys, q = p := by
    intro q hq
    obtain ⟨i, hi⟩ := List.getElem?_of_mem hq
    have hi' : i < (cumsum 0 (false :: changes (x :: ys))).length := by
      rw [cumsum_length, List.length_cons, ← hlen]
      have := (List.getElem?_eq_some_iff.1 hi).1
      simpa using this
    obtain ⟨-, h2⟩ := hget i _ (List.getElem?_eq_getElem hi')
    rw [hi] at h2
    exact h q (List.mem_of_getElem? h2)
  have hf : ∀ b ∈ changes (x :: ys), b = false := by
    intro b hb
    obtain ⟨i, hi⟩ := List.getElem?_of_mem hb
    cases b with
    | false => rfl
    | true =>
      exfalso
      have hi' : i < ys.length := by rw [hlen]; exact (List.getElem?_eq_some_iff.1 hi).1
      have g1 : (x :: ys)[i]? = some ((x :: ys)[i]'(by simp; omega)) := List.getElem?_eq_getElem (by simp; omega)
      have g2 : (x :: ys)[i + 1]? = some ((x :: ys)[i + 1]'(by simp; omega)) := List.getElem?_eq_getElem (by simp; omega)
      refine changes_true (x :: ys) i _ _ hi g1 g2 ?_
      rw [hall _ (List.mem_of_getElem? g1), hall _ (List.mem_of_getElem? g2)]
  have : pick (changes (x :: ys)) ys = [] := by
    unfold pick
    rw [List.map_eq_nil_iff, List.filter_eq_nil_iff]
    intro q hq hq'
    rw [hf q.1 (List.of_mem_zip hq).1] at hq'
    simp at hq'
  rw [this]; rfl

theorem pick_zip {α β : Type} : ∀ (m : List Bool) (xs : List α) (ys : List β),
    xs.length = m.length → ys.length = m.length →
    pick m (xs.zip ys) = (pick m xs).zip (pick m ys) := by
  intro m
  induction m with
  | nil => intro xs ys h1 h2; simp [pick]
  | cons b m ih =>
    intro xs ys h1 h2
    cases xs with
    | nil => simp at h1
    | cons x xs =>
      cases ys with
      | nil => simp at h2
      | cons y ys =>
        have := ih xs ys (by simpa using h1) (by simpa using h2)
        cases b
        · exact this
        · change (x, y) :: pick m (xs.zip ys) = (x :: pick m xs).zip (y :: pick m ys)
          rw [this]; rfl

/-! ## The theorems -/

/-- The position angle asked for in row `i`. -/
def paAt (pa : Option (List ℝ)) (i : Nat) : Option ℝ :=
  match pa with
  | none => some 0
  | some l => l[i]?

/-- Everything `calc_uvw` needs for antenna positions: one entry per row for each row array, and
antenna numbers that are known and not repeated. -/
structure AntCall (a : Args) (pos : List V3) (nums ant1 ant2 : List Int) (lon : ℝ) (n : Nat) :
    Prop where
  use : a.useAntPos = true
  hpos : a.antPos = some pos
  hnums : a.antNums = some nums
  hant1 : a.ant1 = some ant1
  hant2 : a.ant2 = some ant2
  hlon : a.lon = some lon
  nodup : nums.Nodup
  placed : pos.length = nums.length
  len1 : ant1.length = n
  len2 : ant2.length = n
  known1 : ∀ x ∈ ant1, x ∈ nums
  known2 : ∀ x ∈ ant2, x ∈ nums
  rows : 0 < n

/-- **C69.** With antenna positions and a source position per row, each row gets the baseline from
its first to its second antenna, projected on the directions toward, east and north of its source
and turned by its position angle - provided that consecutive rows that see their sources at the
same hour angle and declination have the same position angle. -/
theorem uvw_from_antennas_partial (junk : M3) {a : Args} {pos : List V3} {nums ant1 ant2 : List Int}
    {lon : ℝ} {n : Nat} {lst ra dec : List ℝ} (h : AntCall a pos nums ant1 ant2 lon n)
    (ht : a.toEnu = false) (hl : a.lst = some lst) (hr : a.appRa = some ra)
    (hd : a.appDec = some dec) (ll : lst.length = n) (lr : ra.length = n) (ld : dec.length = n)
    (lp : ∀ pa, a.framePa = some pa → pa.length = n)
    (hcons : ∀ (pa : List ℝ), a.framePa = some pa → ∀ (i : Nat) (t t' r r' d d' : ℝ),
      lst[i]? = some t → lst[i + 1]? = some t' → ra[i]? = some r → ra[i + 1]? = some r' →
      dec[i]? = some d → dec[i + 1]? = some d' → t - r = t' - r' → d = d' → pa[i]? = pa[i + 1]?) :
    ∃ out, calcUvw junk a = .ok out ∧ out.length = n ∧
      ∀ (i : Nat) (n1 n2 : Int) (p1 p2 : V3) (t r d pa : ℝ), ant1[i]? = some n1 →
        ant2[i]? = some n2 → StandsAt nums pos n1 p1 → StandsAt nums pos n2 p2 →
        lst[i]? = some t → ra[i]? = some r → dec[i]? = some d → paAt a.framePa i = some pa →
        out[i]? = some (proj (r - (t - lon)) d pa (diff p2 p1)) := by
  obtain ⟨i1, a1, a2, a3, a4⟩ := antIdxs_ok h.nodup h.known1
  obtain ⟨i2, b1, b2, b3, b4⟩ := antIdxs_ok h.nodup h.known2
  have n0 := h.rows
  have hne : i1 ≠ [] := by
    intro he; rw [he] at a2; simp at a2; have := h.len1; omega
  -- the differences
  set H := List.zipWith (· - ·) lst ra with hH
  have lH : H.length = n := by rw [hH, List.length_zipWith, ll, lr, min_self]
  set ch := changes (zip3 lst ra dec) with hch
  have lz : (zip3 lst ra dec).length = n := by
    unfold zip3; rw [List.length_zip, ← hH, lH, ld, min_self]
  have lch : ch.length + 1 = n := by rw [hch, changes_length, lz]; omega
  -- stability of a row array over unchanged rows
  have stab : ∀ (xs : List ℝ), xs.length = n →
      (∀ i : Nat, ch[i]? = some false → xs[i]? = xs[i + 1]?) →
      ∀ i c : Nat, (cumsum 0 (false :: ch))[i]? = some c →
        (pick (true :: ch) xs)[c]? = xs[i]? := by
    intro xs hx hs i c hc
    cases xs with
    | nil => simp at hx; omega
    | cons x ys =>
      exact (cumsum_pick ch x ys 0 (by simp at hx; omega) hs i c hc).2
  have zget : ∀ i : Nat, (zip3 lst ra dec)[i]? = (zip3 lst ra dec)[i + 1]? → i + 1 < n →
      H[i]? = H[i + 1]? ∧ dec[i]? = dec[i + 1]? := by
    intro i he hi
    have gH : ∀ j, (hj : j < n) → H[j]? = some (H[j]'(by omega)) := fun j hj =>
      List.getElem?_eq_getElem (by omega)
    have gD : ∀ j, (hj : j < n) → dec[j]? = some (dec[j]'(by omega)) := fun j hj =>
      List.getElem?_eq_getElem (by omega)
    have e1 : (zip3 lst ra dec)[i]? = some (H[i], dec[i]) :=
      List.getElem?_zip_eq_some.2 ⟨gH i (by omega), gD i (by omega)⟩
    have e2 : (zip3 lst ra dec)[i + 1]? = some (H[i + 1], dec[i + 1]) :=
      List.getElem?_zip_eq_some.2 ⟨gH (i + 1) hi, gD (i + 1) hi⟩
    rw [e1, e2] at he
    simp only [Option.some.injEq, Prod.mk.injEq] at he
    rw [gH i (by omega), gH (i + 1) hi, gD i (by omega), gD (i + 1) hi, he.1, he.2]
    exact ⟨rfl, rfl⟩
  have chlt : ∀ i : Nat, ch[i]? = some false → i + 1 < n := by
    intro i hi
    have := (List.getElem?_eq_some_iff.1 hi).1
    omega
  have stabH := stab H lH fun i hi => (zget i (changes_false _ i hi) (chlt i hi)).1
  have stabD := stab dec ld fun i hi => (zget i (changes_false _ i hi) (chlt i hi)).2
  have stabP : ∀ pa, a.framePa = .some pa → ∀ i c : Nat, (cumsum 0 (false :: ch))[i]? = .some c →
      (pick (true :: ch) pa)[c]? = pa[i]? := by
    intro pa hpa
    refine stab pa (lp pa hpa) fun i hi => ?_
    have hi' := chlt i hi
    obtain ⟨q1, q2⟩ := zget i (changes_false _ i hi) hi'
    have gl : ∀ j, (hj : j < n) → H[j]? = .some (lst[j]'(by omega) - ra[j]'(by omega)) := by
      intro j hj
      rw [hH, List.getElem?_zipWith, List.getElem?_eq_getElem (by omega),
        List.getElem?_eq_getElem (by omega)]
    rw [gl i (by omega), gl (i + 1) hi'] at q1
    rw [List.getElem?_eq_getElem (by omega), List.getElem?_eq_getElem (by omega)] at q2
    exact hcons pa hpa i _ _ _ _ _ _ (List.getElem?_eq_getElem (by omega))
      (List.getElem?_eq_getElem (by omega)) (List.getElem?_eq_getElem (by omega))
      (List.getElem?_eq_getElem (by omega)) (List.getElem?_eq_getElem (by omega))
      (List.getElem?_eq_getElem (by omega)) (Option.some.inj q1) (Option.some.inj q2)
  set nU := (pick (true :: ch) dec).length with hnU
  have pl : ∀ xs : List ℝ, xs.length = n → (pick (true :: ch) xs).length = nU := fun xs hx =>
    pick_length _ _ _ (by simp [lch, hx]) (by simp [lch, ld])
  have hset : (true :: ch).set 0 false = false :: ch := rfl
  set P : Amount := (match a.framePa with
    | none => .scalar 0
    | .some pa => .array (pick (true :: ch) pa)) with hPdef
  have PF : P.Fits nU ∧ (P.NoRot ∨ P.list.length = nU) ∧
      ∀ (i c : Nat), (cumsum 0 (false :: ch))[i]? = .some c → c < nU → P.at c = paAt a.framePa i := by
    cases hpa : a.framePa with
    | none =>
      have : P = .scalar 0 := by rw [hPdef, hpa]
      rw [this]
      exact ⟨trivial, .inl rfl, fun i c _ _ => rfl⟩
    | some pa =>
      have : P = .array (pick (true :: ch) pa) := by rw [hPdef, hpa]
      rw [this]
      have e := pl pa (lp pa hpa)
      refine ⟨.inr e, .inr e, fun i c hc hcn => ?_⟩
      rw [Amount.at, bget_full e hcn, stabP pa hpa i c hc]; rfl
  obtain ⟨PF1, PF2, PF3⟩ := PF
  have hcb : ∀ c ∈ cumsum 0 ((true :: ch).set 0 false), c < nU := by
    rw [hset]
    intro c hc
    obtain ⟨i, hi⟩ := List.getElem?_of_mem hc
    have h1 := stabD i c hi
    have hi' : i < n := by
      have := (List.getElem?_eq_some_iff.1 hi).1
      rw [cumsum_length, List.length_cons] at this; omega
    rw [List.getElem?_eq_getElem (by omega : i < dec.length)] at h1
    exact (List.getElem?_eq_some_iff.1 h1).1
  have hz : (∀ g ∈ (pick (true :: ch) H).map (· - lon), g = 0) →
      (∀ d ∈ pick (true :: ch) dec, d = 0) → nU = 1 := by
    intro z1 z2
    have hzip := pick_zip (true :: ch) H dec (by simp [lch, lH]) (by simp [lch, ld])
    have hone := pick_all_same (l := zip3 lst ra dec) (p := (lon, 0))
      (by intro he; rw [he] at lz; simp at lz; omega) (by
        intro q hq
        unfold zip3 at hq
        rw [← hH] at hq
        have hq' : q ∈ pick (true :: ch) (H.zip dec) := hq
        rw [hzip] at hq'
        have q1 := z1 _ (List.mem_map.2 ⟨_, (List.of_mem_zip hq').1, rfl⟩)
        have q2 := z2 _ (List.of_mem_zip hq').2
        exact Prod.ext (by simpa [sub_eq_zero] using q1) q2)
    have hone' : (pick (true :: ch) (H.zip dec)).length = 1 := hone
    rw [hzip, List.length_zip, pl H lH, ← hnU, min_self] at hone'
    exact hone'
  obtain ⟨out, o1, o2, o3⟩ := fromAnts_spec junk (pos := pos)
    (G := (pick (true :: ch) H).map (· - lon)) (D := pick (true :: ch) dec) (P := P)
    (mask := true :: ch) (i1 := i1) (i2 := i2) (nU := nU) (by rw [List.length_map]; exact pl H lH) rfl
    PF1 PF2 hz (by simp [a2, h.len1, lch]) (by simp [b2, h.len2, lch]) hcb
    (by rw [h.placed]; exact a3) (by rw [h.placed]; exact b3)
  refine ⟨out, ?_, by rw [o2]; simp [lch], ?_⟩
  · unfold calcUvw
    rw [if_neg (by simp [ht]), if_neg (by simp [hr, hd]), if_pos h.use]
    unfold calcFromAnts
    simp only [h.hpos, h.hant1, h.hant2, h.hnums, h.hlon, a1, b1, hl, hr, hd, ht]
    rw [if_neg (by simp), if_neg (by rw [a2, b2, h.len1, h.len2]; simp), if_neg (by simp),
      if_neg (by
        rw [a2, h.len1]
        rintro (h' | h' | h' | ⟨pa, hp, h'⟩)
        · exact h' ll
        · exact h' lr
        · exact h' ld
        · exact h' (lp pa hp)), if_neg hne]
    exact o1
  · intro i n1 n2 p1 p2 t r d pa e1 e2 ⟨k1, f1, f2⟩ ⟨k2, f3, f4⟩ e3 e4 e5 e6
    have hi : i < n := by rw [← ll]; exact (List.getElem?_eq_some_iff.1 e3).1
    have hc : i < (cumsum 0 (false :: ch)).length := by
      rw [cumsum_length, List.length_cons]; omega
    have hcc := List.getElem?_eq_getElem hc
    set c := (cumsum 0 (false :: ch))[i] with hcdef
    have hHi : H[i]? = .some (t - r) := by rw [hH, List.getElem?_zipWith, e3, e4]
    have hcn := hcb c (by rw [hset]; exact List.mem_of_getElem? hcc)
    rw [o3 i c k1 k2 p1 p2 ((t - r) - lon) d pa (by rw [hset]; exact hcc) (a4 i n1 k1 e1 f1)
      (b4 i n2 k2 e2 f3) f2 f4 (by rw [List.getElem?_map, stabH i c hcc, hHi]; rfl)
      (by rw [stabD i c hcc, e5]) (by rw [PF3 i c hcc hcn, e6])]
    congr 2
    ring

/-- **C69.** With antenna positions and `to_enu`, each row gets its baseline in the east, north and
up directions of the telescope. -/
theorem uvw_enu (junk : M3) {a : Args} {pos : List V3} {nums ant1 ant2 : List Int}
    {lon lat : ℝ} {n : Nat} (h : AntCall a pos nums ant1 ant2 lon n) (ht : a.toEnu = true)
    (hlat : a.lat = some lat) :
    ∃ out, calcUvw junk a = .ok out ∧ out.length = n ∧
      ∀ (i : Nat) (n1 n2 : Int) (p1 p2 : V3), ant1[i]? = some n1 → ant2[i]? = some n2 →
        StandsAt nums pos n1 p1 → StandsAt nums pos n2 p2 →
        out[i]? = some (proj lon lat 0 (diff p2 p1)) := by
  obtain ⟨i1, a1, a2, a3, a4⟩ := antIdxs_ok h.nodup h.known1
  obtain ⟨i2, b1, b2, b3, b4⟩ := antIdxs_ok h.nodup h.known2
  have n0 := h.rows
  have hl1 := h.len1
  have hl2 := h.len2
  have hne : i1 ≠ [] := by
    intro he; rw [he] at a2; simp at a2; omega
  set mask := true :: List.replicate (i1.length - 1) false with hmask
  have hml : mask.length = n := by rw [hmask]; simp; omega
  have hcs : ∀ i : Nat, i < n → (cumsum 0 (mask.set 0 false))[i]? = some 0 := by
    have : mask.set 0 false = List.replicate n false := by
      rw [hmask, List.set_cons_zero, ← List.replicate_succ]
      congr 1; omega
    rw [this]
    clear * -
    induction n with
    | zero => intro i hi; omega
    | succ n ih =>
      intro i hi
      rw [List.replicate_succ]
      cases i with
      | zero => rfl
      | succ i => simpa [cumsum] using ih i (by omega)
  obtain ⟨out, o1, o2, o3⟩ := fromAnts_spec junk (pos := pos) (G := [0 - lon]) (D := [0 + lat])
    (P := .none) (mask := mask) (i1 := i1) (i2 := i2) (nU := 1) rfl rfl trivial (.inl trivial)
    (fun _ _ => rfl) (by omega) (by omega) (by
      intro c hc
      obtain ⟨i, hi⟩ := List.getElem?_of_mem hc
      have hi' : i < n := by
        have := (List.getElem?_eq_some_iff.1 hi).1
        rw [cumsum_length, List.length_set] at this; omega
      rw [hcs i hi'] at hi
      have := Option.some.inj hi
      omega) (by rw [h.placed]; exact a3) (by rw [h.placed]; exact b3)
  refine ⟨out, ?_, by omega, ?_⟩
  · unfold calcUvw
    rw [if_neg (by simp [hlat, h.use]), if_neg (by simp [ht]), if_pos h.use]
    unfold calcFromAnts
    simp only [h.hpos, h.hant1, h.hant2, h.hnums, h.hlon, a1, b1, ht, hlat]
    rw [if_neg (by simp), if_neg (by omega), if_pos (by simp), if_neg hne]
    exact o1
  · intro i n1 n2 p1 p2 e1 e2 ⟨k1, f1, f2⟩ ⟨k2, f3, f4⟩
    have hi : i < n := by rw [← hl1]; exact (List.getElem?_eq_some_iff.1 e1).1
    rw [o3 i 0 k1 k2 p1 p2 (0 - lon) (0 + lat) 0 (hcs i hi) (a4 i n1 k1 e1 f1) (b4 i n2 k2 e2 f3)
      f2 f4 rfl rfl rfl]
    congr 2 <;> ring

end Verif.Phasing
