import Verif.Interp.Props

/-!
C105: the beam that `UVBeam.interp` returns with `new_object=True`, `src/pyuvdata/uvbeam/uvbeam.py` lines 1909–1915 and 2008–2114, for beams on a grid
that stay on a grid; counterexamples for C102–C105.

The number of polarizations is compared with the values as the final `check` does; the rest of the check is left out.
-/
namespace Verif.Interp

variable {K V O : Type} [Field K] [LinearOrder K]

/-- Lines 2014–2018, 2057–2068 and 2101–2103. -/
def newBeam (o : IBeam K V) (q : Req K O) (zero : V) (out : Out K V) : Except IErr (IBeam K V) :=
  let o1 : IBeam K V := match q.freqs with
    | some f => { o with freqs := f }
    | none => o
  match out with
  | .freq data band =>
    .ok { o1 with data := data, band := if q.freqs.isSome then fun i => band.getD i 0 else o.band }
  | .sky _ vals basis band _ =>
    match q.az, q.za, polInds o q.pols with
    | some az, some za, .ok inds =>
      if inds.length = o.npols then
        .ok { o1 with
          az := az, za := za
          data := fun v r k j i => (vals.getD ((k * o.nvec + v) * inds.length + r) []).getD (j * az.length + i) zero
          band := if q.freqs.isSome then fun i => band.getD i 0 else o.band
          basis := match basis with
            | some b => some fun v c _ _ => b v c
            | none => none }
      else .error .shape
    | _, _, _ => .error .assert

/-- `interp` with `new_object=True`. -/
def interpNew [DecidableEq K] (lib : Lib K V O) (twoPi rtol : K) (zero : V) (o : IBeam K V) (q : Req K O) (c : Cache K V) : Except IErr (IBeam K V) :=
  if !q.grid && q.az.isSome then .error .newObject
  else
    match (interp lib twoPi rtol o q c).1 with
    | .error e => .error e
    | .ok out => newBeam o q zero out

variable [IsStrictOrderedRing K]

/-- C105: the labels of the new beam: the frequencies and points asked for, and the polarizations of the old beam. -/
theorem new_labels [DecidableEq K] {lib : Lib K V O} {twoPi rtol : K} {zero : V} {o r : IBeam K V} {q : Req K O} {c : Cache K V}
    (h : interpNew lib twoPi rtol zero o q c = .ok r) : r.freqs = q.freqs.getD o.freqs ∧ r.pols = o.pols ∧ r.npols = o.npols ∧ r.nvec = o.nvec ∧
    ((∃ az za, q.az = some az ∧ q.za = some za ∧ r.az = az ∧ r.za = za) ∨ (q.az = none ∧ r.az = o.az ∧ r.za = o.za)) := by
  unfold interpNew at h
  split at h
  · cases h
  · rename_i hq
    split at h
    · cases h
    · rename_i out ho
      unfold newBeam at h
      cases out with
      | freq data band =>
        simp only [Except.ok.injEq] at h
        obtain ⟨c', hc'⟩ : ∃ c', interp lib twoPi rtol o q c = (.ok (.freq data band), c') := ⟨_, Prod.ext ho rfl⟩
        obtain ⟨plan, hp, -⟩ := interp_freq hc'
        have haz : q.az = none := by
          cases ha : q.az with
          | none => rfl
          | some az =>
            have hg : q.grid = true := by simpa [ha] using hq
            unfold points at hp
            rw [if_pos hg, ha] at hp
            cases hz : q.za <;> simp [hz] at hp
        subst h
        cases hf : q.freqs <;> exact ⟨rfl, rfl, rfl, rfl, Or.inr ⟨haz, rfl, rfl⟩⟩
      | sky js vals basis band pts =>
        simp only at h
        split at h
        · rename_i az za inds haz hza hinds
          split at h
          · simp only [Except.ok.injEq] at h
            subst h
            cases hf : q.freqs <;> exact ⟨rfl, rfl, rfl, rfl, Or.inl ⟨az, za, haz, hza, rfl, rfl⟩⟩
          · cases h
        · cases h

/-- The value of a new beam over a new grid at its position `(k, j, i)` for polarization number `s` is, at a point and frequency of the old beam, the value
of the old beam for the polarization that is requested at number `s`. -/
theorem new_value [DecidableEq K] {lib : Lib K V O} {twoPi rtol : K} {zero : V} {o r : IBeam K V} {q : Req K O} {c : Cache K V}
    (h : interpNew lib twoPi rtol zero o q c = .ok r) (hre : q.reuse = false) (hsp : SplineExact lib q.opts) (hfe : FreqExact lib.freq)
    (hnd : o.freqs.Nodup) (haz : Ascending o.az) (hza : Ascending o.za) (hsky : q.az.isSome) {inds : List Nat}
    (hinds : polInds o q.pols = .ok inds) {k n v s p j i j' i' : Nat} {f a z : K} (hf : r.freqs[k]? = some f) (hn : o.freqs[n]? = some f)
    (hv : v < o.nvec) (hs : inds[s]? = some p) (hj : r.za[j]? = some z) (hj' : o.za[j']? = some z) (hi : r.az[i]? = some a)
    (hi' : o.az[i']? = some a) : r.data v s k j i = o.data v p n j' i' := by
  have hlab := new_labels h
  unfold interpNew at h
  split at h
  · cases h
  · rename_i hq
    have hg : q.grid = true := by
      cases hg : q.grid with
      | true => rfl
      | false => simp [hg, hsky] at hq
    split at h
    · cases h
    · rename_i out ho
      cases out with
      | freq data band =>
        exfalso
        obtain ⟨-, -, -, -, ⟨az, za, h1, h2, -, -⟩ | ⟨h1, -, -⟩⟩ := hlab
        · obtain ⟨plan, hp, -⟩ := interp_freq (c := c) (c' := (interp lib twoPi rtol o q c).2) (Prod.ext ho rfl)
          unfold points at hp
          rw [if_pos hg, h1, h2] at hp
          cases hp
        · rw [h1] at hsky; cases hsky
      | sky js vals basis band pts =>
        have hint : interp lib twoPi rtol o q c = (.ok (.sky js vals basis band pts), (interp lib twoPi rtol o q c).2) := Prod.ext ho rfl
        obtain ⟨plan, inds', wrap, hpts, -, hinds', -⟩ := interp_sky hint
        unfold newBeam at h
        simp only at h
        split at h
        · rename_i az za inds'' haz' hza' hinds''
          rw [hinds] at hinds''; cases hinds''
          split at h
          · rename_i hlen
            simp only [Except.ok.injEq] at h
            have hfr := hlab.1
            have hra : r.az = az := by rw [← h]
            have hrz : r.za = za := by rw [← h]
            rw [hra] at hi
            rw [hrz] at hj
            have hpt : pts[j * az.length + i]? = some (a, z) := by
              unfold points at hpts
              rw [if_pos hg, haz', hza'] at hpts
              simp only [Except.ok.injEq, Option.some.injEq] at hpts
              rw [← hpts]
              exact grid_point hi hj
            rw [hfr] at hf
            obtain ⟨row, h1, h2⟩ := sky_own hint hre hsp hfe hnd haz hza hpt hj' hi' hinds hf hn hv hs
            rw [← h]
            simp only [List.getD_eq_getElem?_getD, h1, Option.getD_some, h2]
          · cases h
        · cases h

/-- C105: without a choice of polarizations, or with all of them in the order of the beam, a new beam has at points and frequencies of the old beam the
values of the old beam, under the same labels. -/
theorem new_object_partial [DecidableEq K] {lib : Lib K V O} {twoPi rtol : K} {zero : V} {o r : IBeam K V} {q : Req K O} {c : Cache K V}
    (h : interpNew lib twoPi rtol zero o q c = .ok r) (hre : q.reuse = false) (hsp : SplineExact lib q.opts) (hfe : FreqExact lib.freq)
    (hnd : o.freqs.Nodup) (haz : Ascending o.az) (hza : Ascending o.za) (hsky : q.az.isSome)
    (hpol : o.power = false ∨ q.pols = none ∨ (q.pols = some o.pols ∧ o.pols.Nodup ∧ o.pols.length = o.npols))
    {k n v s j i j' i' : Nat} {f a z : K} (hf : r.freqs[k]? = some f) (hn : o.freqs[n]? = some f)
    (hv : v < o.nvec) (hs : s < o.npols) (hj : r.za[j]? = some z) (hj' : o.za[j']? = some z) (hi : r.az[i]? = some a)
    (hi' : o.az[i']? = some a) : r.data v s k j i = o.data v s n j' i' := by
  have hinds : polInds o q.pols = .ok (List.range o.npols) := by
    rcases hpol with hp | hp | ⟨hp, hnd, hl⟩
    · simp [polInds, hp]
    · simp [polInds, hp]
    · simp only [polInds, hp]
      split
      · rw [if_pos (by simp)]
        have : o.pols.map (fun p => o.pols.idxOf p) = List.range o.npols := by
          refine List.ext_getElem? fun m => ?_
          rw [List.getElem?_map]
          by_cases hm : m < o.npols
          · rw [List.getElem?_eq_getElem (by omega), List.getElem?_range hm]
            simp only [Option.map_some, Option.some.injEq]
            exact hnd.idxOf_getElem m (by omega)
          · rw [List.getElem?_eq_none (by omega), List.getElem?_eq_none (by simp; omega)]
            rfl
        rw [this]
      · rfl
  exact new_value h hre hsp hfe hnd haz hza hsky hinds hf hn hv (by simp [hs]) hj hj' hi hi'

/-- C105 is false for polarizations in another order: under the label that the beam has at number `s` are then the values of the polarization that was
asked for at number `s`. -/
theorem new_pols_swapped [DecidableEq K] {lib : Lib K V O} {twoPi rtol : K} {zero : V} {o r : IBeam K V} {q : Req K O} {c : Cache K V}
    (h : interpNew lib twoPi rtol zero o q c = .ok r) (hre : q.reuse = false) (hsp : SplineExact lib q.opts) (hfe : FreqExact lib.freq)
    (hnd : o.freqs.Nodup) (haz : Ascending o.az) (hza : Ascending o.za) (hsky : q.az.isSome) (hpow : o.power = true) {l : List Int}
    (hl : q.pols = some l) (hpn : o.pols.Nodup) {s t : Nat} {p p' : Int} (hs : l[s]? = some p') (hs' : r.pols[s]? = some p)
    (ht : o.pols[t]? = some p') {k n v j i j' i' : Nat} {f a z : K} (hf : r.freqs[k]? = some f) (hn : o.freqs[n]? = some f)
    (hv : v < o.nvec) (hj : r.za[j]? = some z) (hj' : o.za[j']? = some z) (hi : r.az[i]? = some a) (hi' : o.az[i']? = some a) :
    o.pols[s]? = some p ∧ r.data v s k j i = o.data v t n j' i' := by
  refine ⟨by rw [← (new_labels h).2.1]; exact hs', ?_⟩
  obtain ⟨inds, hinds⟩ : ∃ inds, polInds o q.pols = .ok inds := by
    have h' := h
    unfold interpNew at h'
    split at h'
    · cases h'
    · rename_i hq
      split at h'
      · cases h'
      · rename_i out ho
        cases out with
        | freq data band =>
          exfalso
          obtain ⟨-, -, -, -, ⟨az, za, h1, h2, -, -⟩ | ⟨h1, -, -⟩⟩ := new_labels h
          · have hg : q.grid = true := by
              cases hg : q.grid with
              | true => rfl
              | false => simp [hg, hsky] at hq
            obtain ⟨plan, hp, -⟩ := interp_freq (c := c) (c' := (interp lib twoPi rtol o q c).2) (Prod.ext ho rfl)
            unfold points at hp
            rw [if_pos hg, h1, h2] at hp
            cases hp
          · rw [h1] at hsky; cases hsky
        | sky js vals basis band pts =>
          obtain ⟨plan, inds', wrap, -, -, hinds', -⟩ := interp_sky (c := c) (c' := (interp lib twoPi rtol o q c).2) (Prod.ext ho rfl)
          exact ⟨inds', hinds'⟩
  obtain ⟨x, hx, hx'⟩ := ((polInds_spec hinds).2 l hpow hl).2 s p' hs
  have hxt : x = t := (List.getElem?_inj (List.getElem?_eq_some_iff.mp hx').1 hpn).mp (hx'.trans ht.symm)
  subst hxt
  exact new_value h hre hsp hfe hnd haz hza hsky hinds hf hn hv hx hj hj' hi hi'

/-- C105: with frequencies only, the choice of polarizations is ignored: the new beam has all of them. -/
theorem new_freq_only [DecidableEq K] {lib : Lib K V O} {twoPi rtol : K} {zero : V} {o r : IBeam K V} {q : Req K O} {c : Cache K V}
    (h : interpNew lib twoPi rtol zero o q c = .ok r) (hfe : FreqExact lib.freq) (hnd : o.freqs.Nodup) (hsky : q.az = none) (hgrid : q.grid = false)
    {k n : Nat} {f : K} (hf : r.freqs[k]? = some f) (hn : o.freqs[n]? = some f) (v s j i : Nat) : r.data v s k j i = o.data v s n j i := by
  have hlab := (new_labels h).1
  unfold interpNew at h
  split at h
  · cases h
  · split at h
    · cases h
    · rename_i out ho
      cases out with
      | freq data band =>
        obtain ⟨plan, hp, hplan, -, -, H⟩ := interp_freq (c := c) (c' := (interp lib twoPi rtol o q c).2) (Prod.ext ho rfl)
        rw [hlab, ← (freq_values hplan (List.ne_nil_of_mem (List.mem_of_getElem? hn))).2.1] at hf
        obtain ⟨pk, hpk, hval⟩ := freq_own hplan hnd hfe hn hf
        unfold newBeam at h
        simp only [Except.ok.injEq] at h
        rw [← h]
        show data v s k j i = _
        rw [H k pk hpk, hval]
      | sky js vals basis band pts =>
        exfalso
        obtain ⟨plan, inds', wrap, hpts, -⟩ := interp_sky (c := c) (c' := (interp lib twoPi rtol o q c).2) (Prod.ext ho rfl)
        unfold points at hpts
        rw [hgrid, hsky] at hpts
        simp at hpts

omit [IsStrictOrderedRing K] in
/-- C102: the basis vectors that are accepted, and those of the output. -/
theorem basis_accepted_iff {o : IBeam K V} {b : Nat → Nat → Nat → Nat → K} (hb : o.basis = some b) :
    basisAccepted o = true ↔ ∀ j i, j < o.za.length → i < o.az.length → b 0 1 j i ≤ 0 ∧ b 1 0 j i ≤ 0 := by
  simp only [basisAccepted, hb, List.all_eq_true, List.mem_range, Bool.and_eq_true, Bool.not_eq_true', decide_eq_false_iff_not, not_lt]
  exact ⟨fun h j i hj hi => h j hj i hi, fun h j hj i hi => h j i hj hi⟩

/-- C102: basis vectors that are those of the coordinates stay so. -/
theorem basis_kept {o : IBeam K V} {b : Nat → Nat → Nat → Nat → K} (hb : o.basis = some b)
    (hid : ∀ v c j i, v < 2 → c < 2 → b v c j i = if v = c then 1 else 0) :
    basisAccepted o = true ∧ ∃ b', basisOut o = some b' ∧ ∀ v c, v < 2 → c < 2 → b' v c = if v = c then 1 else 0 := by
  refine ⟨(basis_accepted_iff hb).mpr fun j i _ _ => ?_, ?_⟩
  · rw [hid 0 1 j i (by omega) (by omega), hid 1 0 j i (by omega) (by omega)]
    simp
  · refine ⟨_, by rw [basisOut, hb]; rfl, fun v c hv hc => ?_⟩
    by_cases h : v = c <;> simp [h]
    omega

end Verif.Interp
