import Verif.MirShift.Interp

/-!
# Shifting all records of a MIR data set
-/

namespace Verif.MirShift

section
variable {K V : Type} [Field K] [AddCommGroup V] [Module K V]

theorem shiftAll_some (adj : Bool) : ∀ (ts : List (Int × Option (List K))) (vis out : List (Nat × List (Chan V K))),
    ts.length = vis.length → shiftAll adj ts vis = some out →
      out.length = vis.length ∧ ∀ (i : Nat) id l t, vis[i]? = some (id, l) → ts[i]? = some t →
        ∃ x, shift t adj l = some x ∧ out[i]? = some (id, x)
  | [], [], out, _, h => by
    simp only [shiftAll, Option.some.injEq] at h; subst h; simp
  | t :: ts, r :: vis, out, hl, h => by
    simp only [shiftAll] at h
    cases hx : shift t adj r.2 with
    | none => rw [hx] at h; simp at h
    | some x =>
      rw [hx] at h
      cases hy : shiftAll adj ts vis with
      | none => rw [hy] at h; simp at h
      | some ys =>
        rw [hy] at h
        simp only [Option.bind_some, Option.map_some, Option.some.injEq] at h
        subst h
        obtain ⟨h1, h2⟩ := shiftAll_some adj ts vis ys (by simpa using hl) hy
        refine ⟨by simp [h1], fun i id l t' hi ht => ?_⟩
        cases i with
        | zero =>
          simp only [List.getElem?_cons_zero, Option.some.injEq] at hi ht
          subst hi; subst ht
          exact ⟨x, hx, rfl⟩
        | succ i =>
          simp only [List.getElem?_cons_succ] at hi ht ⊢
          exact h2 i id l t' hi ht
  | [], _ :: _, _, hl, _ => by simp at hl
  | _ :: _, [], _, hl, _ => by simp at hl

theorem shiftAll_ok (adj : Bool) : ∀ (ts : List (Int × Option (List K))) (vis : List (Nat × List (Chan V K))),
    (∀ t ∈ ts, t.2 = none) → ∃ out, shiftAll adj ts vis = some out
  | [], _, _ => ⟨[], by unfold shiftAll; rfl⟩
  | _ :: _, [], _ => ⟨[], by unfold shiftAll; rfl⟩
  | (c, q) :: ts, r :: vis, h => by
    obtain rfl : q = none := h (c, q) (by simp)
    obtain ⟨x, hx, -⟩ := whole_moves c adj r.2
    obtain ⟨out, ho⟩ := shiftAll_ok adj ts vis fun t ht => h t (by simp [ht])
    exact ⟨(r.1, x) :: out, by simp [shiftAll, hx, ho]⟩

end

section
variable {K V : Type} [Field K] [LinearOrder K] [IsStrictOrderedRing K] [FloorRing K] [AddCommGroup V] [Module K V]

omit [IsStrictOrderedRing K] in
theorem mapM_get {α β : Type} (F : α → Option β) : ∀ (z : List α) (ys : List β), z.mapM F = some ys →
    ys.length = z.length ∧ ∀ (i : Nat) x, z[i]? = some x → ∃ y, F x = some y ∧ ys[i]? = some y
  | [], ys, h => by
    simp only [List.mapM_nil, Option.pure_def, Option.some.injEq] at h; subst h; simp
  | x :: z, ys, h => by
    rw [List.mapM_cons] at h
    cases hx : F x with
    | none => rw [hx] at h; simp at h
    | some y =>
      cases hz : z.mapM F with
      | none => rw [hx, hz] at h; simp at h
      | some ys' =>
        rw [hx, hz] at h
        simp only [Option.bind_eq_bind, Option.bind_some, Option.pure_def, Option.some.injEq] at h
        subst h
        obtain ⟨h1, h2⟩ := mapM_get F z ys' hz
        refine ⟨by simp [h1], fun i x' hi => ?_⟩
        cases i with
        | zero =>
          simp only [List.getElem?_cons_zero, Option.some.injEq] at hi
          subst hi
          exact ⟨y, hx, rfl⟩
        | succ i =>
          simp only [List.getElem?_cons_succ] at hi ⊢
          exact h2 i x' hi

omit [IsStrictOrderedRing K] in
/-- Every record is shifted by its own frequency shift and channel width, in the order of the records, and keeps its number. -/
theorem redoppler_each (fs fres : List K) (kind : Kind) (tol : K) (adj : Bool) (vis out : List (Nat × List (Chan V K)))
    (h1 : fs.length = vis.length) (h2 : fres.length = vis.length) (h : redoppler fs fres kind tol adj vis = some out) :
    out.length = vis.length ∧ ∀ (i : Nat) id l q r, vis[i]? = some (id, l) → fs[i]? = some q → fres[i]? = some r →
      ∃ t x, genKernel (-(1000 * q / r)) kind (-1 / 2) tol = some t ∧ shift t adj l = some x ∧ out[i]? = some (id, x) := by
  unfold redoppler at h
  rw [Option.bind_eq_some_iff] at h
  obtain ⟨ts, ht, hs⟩ := h
  obtain ⟨t1, t2⟩ := mapM_get _ _ _ ht
  rw [List.length_zip] at t1
  obtain ⟨s1, s2⟩ := shiftAll_some adj ts vis out (by omega) hs
  refine ⟨s1, fun i id l q r hi hq hr => ?_⟩
  obtain ⟨t, ht1, ht2⟩ := t2 i (q, r) (List.getElem?_zip_eq_some.2 ⟨hq, hr⟩)
  obtain ⟨x, hx1, hx2⟩ := s2 i id l t hi ht2
  have e : -q / (r / 1000) = -(1000 * q / r) := by rw [div_div_eq_mul_div]; ring
  exact ⟨t, x, by rw [← e]; exact ht1, hx1, hx2⟩

/-- When each frequency shift is a whole number of channels, channel `k` of the result holds what was seen at the frequency of channel `k` plus the
frequency shift, whatever the kernel; nothing is interpolated. -/
theorem redoppler_whole (fs fres : List K) (kind : Kind) (tol : K) (h0 : 0 ≤ tol) (ht : tol ≤ 1 / 2) (adj : Bool) (vis : List (Nat × List (Chan V K)))
    (h1 : fs.length = vis.length) (h2 : fres.length = vis.length) (hr : ∀ r ∈ fres, r ≠ 0)
    (hw : ∀ (i : Nat) q r, fs[i]? = some q → fres[i]? = some r → ∃ m : Int, q = m * (r / 1000)) :
    ∃ out, redoppler fs fres kind tol adj vis = some out ∧ out.length = vis.length ∧
      ∀ (i : Nat) id l q r (nu0 : K), vis[i]? = some (id, l) → fs[i]? = some q → fres[i]? = some r →
        ∃ x, out[i]? = some (id, x) ∧ x.length = l.length ∧
          ∀ k < l.length, ∀ p : Int, (nu0 + (p : K) * (r / 1000) = nu0 + (k : K) * (r / 1000) + q) →
            x[k]? = some ((at? l p).getD ⟨0, true, 0⟩) := by
  have hgen : ∀ x ∈ fs.zip fres, ∃ m : Int, genKernel (-x.1 / (x.2 / 1000)) kind (-1 / 2) tol = some (m, none) ∧ x.1 = -m * (x.2 / 1000) := by
    intro x hx
    obtain ⟨i, hi⟩ := List.mem_iff_getElem?.1 hx
    obtain ⟨hq, hr'⟩ := List.getElem?_zip_eq_some.1 hi
    obtain ⟨m, hm⟩ := hw i _ _ hq hr'
    have hne : x.2 ≠ 0 := hr _ (List.mem_of_getElem? hr')
    refine ⟨-m, ?_, by rw [hm]; push_cast; ring⟩
    have : -x.1 / (x.2 / 1000) = ((-m : Int) : K) := by
      rw [hm]; push_cast; field_simp
    rw [this]
    exact whole_exact _ _ _ _ h0 ht
  obtain ⟨ts, hts⟩ : ∃ ts, (fs.zip fres).mapM (fun x => genKernel (-x.1 / (x.2 / 1000)) kind (-1 / 2) tol) = some ts := by
    cases hc : (fs.zip fres).mapM (fun x => genKernel (-x.1 / (x.2 / 1000)) kind (-1 / 2) tol) with
    | some ts => exact ⟨ts, rfl⟩
    | none =>
      obtain ⟨x, hx, hn⟩ := (mapM_none _ _).1 hc
      obtain ⟨m, hm, -⟩ := hgen x hx
      rw [hm] at hn; cases hn
  obtain ⟨t1, t2⟩ := mapM_get _ _ _ hts
  have hnone : ∀ t ∈ ts, t.2 = none := by
    intro t ht'
    obtain ⟨i, hi⟩ := List.mem_iff_getElem?.1 ht'
    have hlt : i < (fs.zip fres).length := by
      rw [← t1]; exact (List.getElem?_eq_some_iff.1 hi).1
    obtain ⟨y, hy1, hy2⟩ := t2 i _ (List.getElem?_eq_getElem hlt)
    obtain ⟨m, hm, -⟩ := hgen _ (List.getElem_mem hlt)
    rw [hm] at hy1
    rw [hy2] at hi
    cases hi; cases hy1; rfl
  obtain ⟨out, hout⟩ := shiftAll_ok adj ts vis hnone
  rw [List.length_zip] at t1
  obtain ⟨s1, s2⟩ := shiftAll_some adj ts vis out (by omega) hout
  refine ⟨out, by unfold redoppler; rw [hts]; exact hout, s1, ?_⟩
  intro i id l q r nu0 hi hq hr'
  have hz : (fs.zip fres)[i]? = some (q, r) := List.getElem?_zip_eq_some.2 ⟨hq, hr'⟩
  obtain ⟨t, ht1, ht2⟩ := t2 i (q, r) hz
  obtain ⟨m, hm, hm2⟩ := hgen (q, r) (List.mem_of_getElem? hz)
  rw [hm] at ht1
  simp only [Option.some.injEq] at ht1
  subst ht1
  obtain ⟨x, hx1, hx2⟩ := s2 i id l _ hi ht2
  obtain ⟨x', hx', hlen, hmove⟩ := whole_moves m adj l
  rw [hx1] at hx'
  simp only [Option.some.injEq] at hx'
  subst hx'
  refine ⟨x, hx2, hlen, fun k hk p hp => ?_⟩
  have hne : r ≠ 0 := hr _ (List.mem_of_getElem? hr')
  have hpk : (p : K) = ((k : Int) - m : Int) := by
    simp only at hm2
    rw [hm2] at hp
    have h5 : ((p : K) - (k - m)) * (r / 1000) = 0 := by linear_combination hp
    rcases mul_eq_zero.1 h5 with h5 | h5
    · push_cast; linarith
    · exact absurd h5 (div_ne_zero hne (by norm_num))
  rw [hmove k hk, Int.cast_injective hpk]

end

end Verif.MirShift
