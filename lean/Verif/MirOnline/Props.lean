import Verif.MirOnline.Model
import Mathlib.Data.List.Basic

/-!
# What online flags do to MIR visibilities, and which receivers old files have (C228, C229)
-/
namespace Verif.MirOnline

variable {D : Type}

/-! ### The specification -/

/-- The record with key `k` has an online flag. -/
def Online (recs : List (Int × Int)) (k : Int) : Prop := ∃ f, f ≠ 0 ∧ (k, f) ∈ recs

/-- `b` is `a` with all flags of the records with an online flag set, and nothing else changed. -/
structure Marked (recs : List (Int × Int)) (a b : List (Int × Vis D)) : Prop where
  keys : b.map Prod.fst = a.map Prod.fst
  data : b.map (fun e => e.2.data) = a.map (fun e => e.2.data)
  size : b.map (fun e => e.2.flags.length) = a.map (fun e => e.2.flags.length)
  flag : ∀ (i : Nat) (x y : Int × Vis D), a[i]? = some x → b[i]? = some y → ∀ j, j < x.2.flags.length →
    (y.2.flags[j]? = some true ↔ Online recs x.1 ∨ x.2.flags[j]? = some true)

/-! ### The loop -/

/-- One record. -/
def mark (recs : List (Int × Int)) (e : Int × Vis D) : Int × Vis D :=
  if recs.any (fun r => r.1 == e.1 && r.2 != 0) then (e.1, { e.2 with flags := e.2.flags.map (fun _ => true) }) else e

theorem mark_iff (recs : List (Int × Int)) (k : Int) : recs.any (fun r => r.1 == k && r.2 != 0) = true ↔ Online recs k := by
  simp only [List.any_eq_true, Bool.and_eq_true, beq_iff_eq, bne_iff_ne, Online]
  constructor
  · rintro ⟨⟨a, f⟩, hm, h1, h2⟩
    simp only at h1 h2
    subst h1
    exact ⟨f, h2, hm⟩
  · rintro ⟨f, h2, hm⟩
    exact ⟨(k, f), hm, rfl, h2⟩

theorem mark_nil (d : List (Int × Vis D)) : d.map (mark []) = d := by
  have : (mark [] : Int × Vis D → Int × Vis D) = id := by funext e; simp [mark]
  rw [this, List.map_id]

theorem mark_fst (recs : List (Int × Int)) (e : Int × Vis D) : (mark recs e).1 = e.1 := by unfold mark; split <;> rfl

theorem marked_map (recs : List (Int × Int)) (d : List (Int × Vis D)) : Marked recs d (d.map (mark recs)) := by
  refine ⟨?_, ?_, ?_, ?_⟩
  · rw [List.map_map]; exact List.map_congr_left (fun e _ => mark_fst recs e)
  · rw [List.map_map]
    refine List.map_congr_left (fun e _ => ?_)
    simp only [Function.comp, mark]
    split <;> rfl
  · rw [List.map_map]
    refine List.map_congr_left (fun e _ => ?_)
    simp only [Function.comp, mark]
    split <;> simp
  · intro i x y hx hy j hj
    rw [List.getElem?_map, hx] at hy
    simp only [Option.map_some, Option.some.injEq] at hy
    subst hy
    unfold mark
    split
    · rename_i h
      rw [mark_iff] at h
      simp [h, hj]
    · rename_i h
      rw [mark_iff] at h
      simp [h]

theorem setAll_some {d d' : List (Int × Vis D)} {k : Int} (h : setAll d k = some d') {f : Int} (hf : f ≠ 0) : d' = d.map (mark [(k, f)]) := by
  unfold setAll at h
  split at h
  · simp only [Option.some.injEq] at h
    rw [← h]
    refine List.map_congr_left (fun e _ => ?_)
    by_cases he : e.1 = k
    · simp [mark, he, hf]
    · have hk : ¬ k = e.1 := fun h => he h.symm
      simp [mark, he, hk]
  · simp at h

theorem setAll_none {d : List (Int × Vis D)} {k : Int} : setAll d k = none ↔ k ∉ d.map Prod.fst := by
  unfold setAll
  split
  · rename_i h
    simp only [List.any_eq_true, beq_iff_eq] at h
    obtain ⟨e, h1, h2⟩ := h
    simp only [reduceCtorEq, List.mem_map, false_iff, not_not]
    exact ⟨e, h1, h2⟩
  · rename_i h
    simp only [List.any_eq_true, beq_iff_eq] at h
    simp only [List.mem_map, true_iff]
    exact h

theorem mark_mark (r s : List (Int × Int)) (e : Int × Vis D) : mark s (mark r e) = mark (r ++ s) e := by
  unfold mark
  by_cases h1 : r.any (fun r => r.1 == e.1 && r.2 != 0) <;> by_cases h2 : s.any (fun r => r.1 == e.1 && r.2 != 0) <;>
    simp [h1, h2]

theorem map_mark_keys (r : List (Int × Int)) (d : List (Int × Vis D)) : (d.map (mark r)).map Prod.fst = d.map Prod.fst := (marked_map r d).keys

/-- What the loop does: it ends at the first record with an online flag that is not loaded. -/
theorem loop_spec (recs : List (Int × Int)) (d : List (Int × Vis D)) :
    ((loop recs d).2 = none ∧ (loop recs d).1 = d.map (mark recs) ∧ ∀ k, Online recs k → k ∈ d.map Prod.fst) ∨
    ∃ pre k f post, recs = pre ++ (k, f) :: post ∧ f ≠ 0 ∧ k ∉ d.map Prod.fst ∧ (∀ k', Online pre k' → k' ∈ d.map Prod.fst) ∧
      (loop recs d).2 = some (.key k) ∧ (loop recs d).1 = d.map (mark pre) := by
  induction recs generalizing d with
  | nil => exact .inl ⟨rfl, (mark_nil d).symm, by rintro k ⟨f, _, hm⟩; simp at hm⟩
  | cons r t ih =>
    obtain ⟨k, f⟩ := r
    by_cases hf : f ≠ 0
    · cases hs : setAll d k with
      | none =>
        have hl : loop ((k, f) :: t) d = (d, some (.key k)) := by simp only [loop, if_pos hf, hs]
        refine .inr ⟨[], k, f, t, rfl, hf, setAll_none.mp hs, by rintro k' ⟨f', _, hm⟩; simp at hm, ?_⟩
        rw [hl, mark_nil]
        exact ⟨rfl, rfl⟩
      | some d' =>
        have hl : loop ((k, f) :: t) d = loop t d' := by simp only [loop, if_pos hf, hs]
        have hd := setAll_some hs hf
        have hk : k ∈ d.map Prod.fst := by
          by_contra hn
          rw [setAll_none.mpr hn] at hs
          simp at hs
        have hmm : ∀ s, d'.map (mark s) = d.map (mark ((k, f) :: s)) := by
          intro s
          rw [hd, List.map_map]
          exact List.map_congr_left (fun e _ => mark_mark [(k, f)] s e)
        have hkeys : d'.map Prod.fst = d.map Prod.fst := by rw [hd]; exact map_mark_keys _ d
        have hon : ∀ (s : List (Int × Int)), (∀ k', Online s k' → k' ∈ d.map Prod.fst) → ∀ k', Online ((k, f) :: s) k' → k' ∈ d.map Prod.fst := by
          rintro s h k' ⟨f', h1, hm⟩
          rcases List.mem_cons.mp hm with he | he
          · simp only [Prod.mk.injEq] at he; rw [he.1]; exact hk
          · exact h k' ⟨f', h1, he⟩
        rw [hl]
        rcases ih d' with ⟨h1, h2, h3⟩ | ⟨pre, k2, f2, post, h1, h2, h3, h4, h5, h6⟩
        · rw [hkeys] at h3
          exact .inl ⟨h1, by rw [h2, hmm], hon t h3⟩
        · rw [hkeys] at h3 h4
          exact .inr ⟨(k, f) :: pre, k2, f2, post, by rw [h1]; rfl, h2, h3, hon pre h4, h5, by rw [h6, hmm]⟩
    · have hl : loop ((k, f) :: t) d = loop t d := by simp only [loop, if_neg hf]
      have hmm : ∀ s, d.map (mark ((k, f) :: s)) = d.map (mark s) := by
        intro s
        refine List.map_congr_left (fun e _ => ?_)
        have : f = 0 := not_not.mp hf
        subst this
        simp only [mark, List.any_cons, bne_self_eq_false, Bool.and_false, Bool.false_or]
      have hon : ∀ (s : List (Int × Int)), (∀ k', Online s k' → k' ∈ d.map Prod.fst) → ∀ k', Online ((k, f) :: s) k' → k' ∈ d.map Prod.fst := by
        rintro s h k' ⟨f', h1, hm⟩
        rcases List.mem_cons.mp hm with he | he
        · simp only [Prod.mk.injEq] at he; exact absurd (he.2 ▸ h1) hf
        · exact h k' ⟨f', h1, he⟩
      rw [hl]
      rcases ih d with ⟨h1, h2, h3⟩ | ⟨pre, k2, f2, post, h1, h2, h3, h4, h5, h6⟩
      · exact .inl ⟨h1, by rw [h2, hmm], hon t h3⟩
      · exact .inr ⟨(k, f) :: pre, k2, f2, post, by rw [h1]; rfl, h2, h3, hon pre h4, h5, by rw [h6, hmm]⟩

/-! ### C228 -/

/-- **C228**: the call returns exactly if data are loaded for every record with an online flag. -/
theorem apply_returns (sphid flags : List Int) (vis : Option (List (Int × Vis D))) :
    (applyFlags sphid flags vis).2 = none ↔ ∃ d, vis = some d ∧ ∀ k, Online (sphid.zip flags) k → k ∈ d.map Prod.fst := by
  cases vis with
  | none => simp [applyFlags]
  | some d =>
    simp only [applyFlags, Option.some.injEq, exists_eq_left']
    rcases loop_spec (sphid.zip flags) d with ⟨h1, _, h3⟩ | ⟨pre, k, f, post, h1, h2, h3, _, h5, _⟩
    · exact ⟨fun _ => h3, fun _ => h1⟩
    · rw [h5]
      simp only [reduceCtorEq, false_iff]
      intro h
      exact h3 (h k ⟨f, h2, by rw [h1]; simp⟩)

/-- **C228**: then exactly the flags of the records with an online flag are set, in addition to those there were. -/
theorem apply_marked {sphid flags : List Int} {d : List (Int × Vis D)} {v : Option (List (Int × Vis D))}
    (h : applyFlags sphid flags (some d) = (v, none)) : ∃ b, v = some b ∧ Marked (sphid.zip flags) d b := by
  simp only [applyFlags, Prod.mk.injEq] at h
  refine ⟨_, h.1.symm, ?_⟩
  rcases loop_spec (sphid.zip flags) d with ⟨_, h2, _⟩ | ⟨pre, k, f, post, _, _, _, _, h5, _⟩
  · rw [h2]; exact marked_map _ d
  · rw [h5] at h; simp at h

/-- **C228**: an exception names the first record with an online flag that is not loaded; the records before it have been flagged. -/
theorem apply_error {sphid flags : List Int} {d : List (Int × Vis D)} {v : Option (List (Int × Vis D))} {e : Err}
    (h : applyFlags sphid flags (some d) = (v, some e)) :
    ∃ pre k f post b, sphid.zip flags = pre ++ (k, f) :: post ∧ f ≠ 0 ∧ e = .key k ∧ k ∉ d.map Prod.fst ∧
      (∀ k', Online pre k' → k' ∈ d.map Prod.fst) ∧ v = some b ∧ Marked pre d b := by
  simp only [applyFlags, Prod.mk.injEq] at h
  rcases loop_spec (sphid.zip flags) d with ⟨h1, _, _⟩ | ⟨pre, k, f, post, h1, h2, h3, h4, h5, h6⟩
  · rw [h1] at h; simp at h
  · rw [h5] at h
    exact ⟨pre, k, f, post, _, h1, h2, by simpa using h.2.symm, h3, h4, h.1.symm, by rw [h6]; exact marked_map _ d⟩

/-- **C228**: a second call changes nothing, whatever the first one did. -/
theorem apply_twice (sphid flags : List Int) (vis : Option (List (Int × Vis D))) :
    applyFlags sphid flags (applyFlags sphid flags vis).1 = applyFlags sphid flags vis := by
  cases vis with
  | none => rfl
  | some d =>
    have idem : ∀ r (d : List (Int × Vis D)), (d.map (mark r)).map (mark r) = d.map (mark r) := by
      intro r d
      rw [List.map_map]
      refine List.map_congr_left (fun e _ => ?_)
      simp only [Function.comp, mark_mark]
      simp only [mark, List.any_append, Bool.or_self]
    have key : loop (sphid.zip flags) (loop (sphid.zip flags) d).1 = loop (sphid.zip flags) d := by
      generalize sphid.zip flags = recs
      have step : ∀ (recs s : List (Int × Int)) (d : List (Int × Vis D)), (loop recs (d.map (mark s))) = ((loop recs d).1.map (mark s), (loop recs d).2) := by
        intro recs
        induction recs with
        | nil => intro s d; rfl
        | cons r t ih =>
          intro s d
          obtain ⟨k, f⟩ := r
          by_cases hf : f ≠ 0
          · cases hs : setAll d k with
            | none =>
              have hs' : setAll (d.map (mark s)) k = none := by rw [setAll_none, map_mark_keys, ← setAll_none]; exact hs
              simp only [loop, if_pos hf, hs, hs']
            | some d' =>
              cases hs' : setAll (d.map (mark s)) k with
              | none => rw [setAll_none, map_mark_keys, ← setAll_none, hs] at hs'; simp at hs'
              | some d'' =>
                have e : d'' = d'.map (mark s) := by
                  rw [setAll_some hs' hf, setAll_some hs hf, List.map_map, List.map_map]
                  refine List.map_congr_left (fun e _ => ?_)
                  simp only [Function.comp, mark_mark]
                  simp only [mark, List.any_append, Bool.or_comm]
                simp only [loop, if_pos hf, hs, hs']
                rw [e, ih]
          · simp only [loop, if_neg hf]
            exact ih s d
      rcases loop_spec recs d with ⟨_, h2, _⟩ | ⟨pre, k, f, post, _, _, _, _, _, h6⟩
      · rw [h2, step]; refine Prod.ext ?_ rfl; dsimp only; rw [h2, idem]
      · rw [h6, step]; refine Prod.ext ?_ rfl; dsimp only; rw [h6, idem]
    simp only [applyFlags]
    rw [key]

/-! ### C229 -/

/-- The receiver of antenna 1 and antenna 2 for a polarization code: 1 is (1, 1), 2 is (1, 0), 3 is (0, 1), and all others are (0, 0). -/
inductive PolRx : Int → Int × Int → Prop
  | rr : PolRx 1 (1, 1)
  | rl : PolRx 2 (1, 0)
  | lr : PolRx 3 (0, 1)
  | other (c : Int) : c ≠ 1 → c ≠ 2 → c ≠ 3 → PolRx c (0, 0)

/-- The receivers are not recorded. -/
def Unfilled (rx1 rx2 : List Int) : Prop := (∀ x ∈ rx1, x = 0) ∨ ∀ x ∈ rx2, x = 0

theorem unfilled_iff (rx1 rx2 : List Int) : (rx1.all (· == 0) || rx2.all (· == 0)) = true ↔ Unfilled rx1 rx2 := by
  simp [Unfilled]

/-- **C229** (files in which both antennas have a receiver other than 0 somewhere): nothing is changed. -/
theorem fill_kept_partial {rx1 rx2 ipol irec : List Int} (h1 : ∃ x ∈ rx1, x ≠ 0) (h2 : ∃ x ∈ rx2, x ≠ 0) : fillRx rx1 rx2 ipol irec = (rx1, rx2) := by
  unfold fillRx
  rw [if_neg]
  rw [unfilled_iff]
  rintro (h | h)
  · obtain ⟨x, hx, hn⟩ := h1; exact hn (h x hx)
  · obtain ⟨x, hx, hn⟩ := h2; exact hn (h x hx)

/-- **C229**: with polarization codes the receivers follow from them. -/
theorem fill_pol {rx1 rx2 ipol irec : List Int} (h : Unfilled rx1 rx2) (hp : ∃ c ∈ ipol, c ≠ 0) :
    (fillRx rx1 rx2 ipol irec).1.length = ipol.length ∧ (fillRx rx1 rx2 ipol irec).2.length = ipol.length ∧
    ∀ (i : Nat) (c a b : Int), ipol[i]? = some c → (fillRx rx1 rx2 ipol irec).1[i]? = some a → (fillRx rx1 rx2 ipol irec).2[i]? = some b →
      PolRx c (a, b) := by
  have hany : ipol.any (· != 0) = true := by simpa using hp
  have he : fillRx rx1 rx2 ipol irec = (isin ipol [1, 2], isin ipol [1, 3]) := by
    unfold fillRx
    rw [if_pos ((unfilled_iff rx1 rx2).mpr h)]
    simp only [hany, if_true]
  rw [he]
  refine ⟨by simp [isin], by simp [isin], fun i c a b hc ha hb => ?_⟩
  simp only [isin, List.getElem?_map, hc, Option.map_some, Option.some.injEq] at ha hb
  subst ha hb
  by_cases c1 : c = 1
  · subst c1; exact .rr
  · by_cases c2 : c = 2
    · subst c2; exact .rl
    · by_cases c3 : c = 3
      · subst c3; exact .lr
      · have := PolRx.other c c1 c2 c3
        simpa [c1, c2, c3] using this

/-- **C229**: without polarization codes both antennas have receiver 1 for the receiver codes 2 and 3, and 0 for all others. -/
theorem fill_rec {rx1 rx2 ipol irec : List Int} (h : Unfilled rx1 rx2) (hp : ∀ c ∈ ipol, c = 0) :
    (fillRx rx1 rx2 ipol irec).1 = (fillRx rx1 rx2 ipol irec).2 ∧ (fillRx rx1 rx2 ipol irec).1.length = irec.length ∧
    ∀ (i : Nat) (c a : Int), irec[i]? = some c → (fillRx rx1 rx2 ipol irec).1[i]? = some a →
      (a = 1 ∧ (c = 2 ∨ c = 3)) ∨ (a = 0 ∧ c ≠ 2 ∧ c ≠ 3) := by
  have hany : ipol.any (· != 0) = false := by simpa using hp
  have he : fillRx rx1 rx2 ipol irec = (isin irec [2, 3], isin irec [2, 3]) := by
    unfold fillRx
    rw [if_pos ((unfilled_iff rx1 rx2).mpr h)]
    simp [hany]
  rw [he]
  refine ⟨rfl, by simp [isin], fun i c a hc ha => ?_⟩
  simp only [isin, List.getElem?_map, hc, Option.map_some, Option.some.injEq] at ha
  subst ha
  by_cases h2 : c = 2
  · simp [h2]
  · by_cases h3 : c = 3
    · simp [h3]
    · simp [h2, h3]

/-- **C229**: a second conversion changes nothing. -/
theorem fill_twice (rx1 rx2 ipol irec : List Int) :
    fillRx (fillRx rx1 rx2 ipol irec).1 (fillRx rx1 rx2 ipol irec).2 ipol irec = fillRx rx1 rx2 ipol irec := by
  by_cases h : (rx1.all (· == 0) || rx2.all (· == 0)) = true
  · have he : ∀ a b, (a.all (· == 0) || b.all (· == 0)) = true → fillRx a b ipol irec = fillRx rx1 rx2 ipol irec := by
      intro a b hab
      unfold fillRx
      rw [if_pos hab, if_pos h]
    generalize hr : fillRx rx1 rx2 ipol irec = r at he ⊢
    by_cases h' : (r.1.all (· == 0) || r.2.all (· == 0)) = true
    · exact he _ _ h'
    · unfold fillRx; rw [if_neg h']
  · have : fillRx rx1 rx2 ipol irec = (rx1, rx2) := by unfold fillRx; rw [if_neg h]
    rw [this]
    exact this

/-- **C229 is false** in general: receivers recorded for antenna 1 are lost in every file in which antenna 2 has receiver 0 everywhere, and the codes
say receiver 0. -/
theorem fill_counterexample {rx1 rx2 ipol irec : List Int} (h1 : ∃ x ∈ rx1, x ≠ 0) (h2 : ∀ x ∈ rx2, x = 0) (hp : ∀ c ∈ ipol, c = 0)
    (hr : ∀ c ∈ irec, c ≠ 2 ∧ c ≠ 3) : (fillRx rx1 rx2 ipol irec).1 ≠ rx1 ∧ ∀ x ∈ (fillRx rx1 rx2 ipol irec).1, x = 0 := by
  have hz : ∀ x ∈ (fillRx rx1 rx2 ipol irec).1, x = 0 := by
    have hany : ipol.any (· != 0) = false := by simpa using hp
    have he : (fillRx rx1 rx2 ipol irec).1 = isin irec [2, 3] := by
      unfold fillRx
      rw [if_pos ((unfilled_iff rx1 rx2).mpr (.inr h2))]
      simp [hany]
    rw [he]
    intro x hx
    simp only [isin, List.mem_map] at hx
    obtain ⟨c, hc, rfl⟩ := hx
    simp [hr c hc]
  refine ⟨fun he => ?_, hz⟩
  obtain ⟨x, hx, hn⟩ := h1
  rw [he] at hz
  exact hn (hz x hx)

end Verif.MirOnline
