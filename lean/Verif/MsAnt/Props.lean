import Verif.MsAnt.Model

/-! # What becomes of antennas -/

namespace Verif.MsAnt
open Verif.Np

variable {K V : Type} [LinearOrder K] [Zero K] [AddGroup V] [DecidableEq V]

omit [LinearOrder K] [Zero K] [AddGroup V] [DecidableEq V] in
theorem antAt_some {l : List (Ant K V)} {i : Nat} {a : Ant K V} (h : antAt l i = some a) : a ∈ l ∧ a.num = i := by
  have := List.mem_of_getLast? h
  rw [List.mem_filter] at this
  exact ⟨this.1, of_decide_eq_true this.2⟩

omit [LinearOrder K] [Zero K] [AddGroup V] [DecidableEq V] in
theorem antAt_of {l : List (Ant K V)} (hn : (l.map (fun a => a.num)).Nodup) {a : Ant K V} (h : a ∈ l) : antAt l a.num = some a := by
  have hm : a ∈ l.filter (fun b => decide (b.num = a.num)) := List.mem_filter.2 ⟨h, by simp⟩
  have hne := List.ne_nil_of_mem hm
  obtain ⟨b, hb⟩ : ∃ b, antAt l a.num = some b := by
    unfold antAt
    rw [List.getLast?_eq_some_getLast hne]
    exact ⟨_, rfl⟩
  obtain ⟨h1, h2⟩ := antAt_some hb
  rw [hb]
  congr 1
  obtain ⟨i, hi, rfl⟩ := List.mem_iff_getElem.1 h1
  obtain ⟨j, hj, rfl⟩ := List.mem_iff_getElem.1 h
  have : i = j := by
    apply (List.Nodup.getElem_inj_iff hn (hi := by simpa using hi) (hj := by simpa using hj)).1
    simpa using h2
  subst this
  rfl

omit [AddGroup V] [DecidableEq V] in
/-- The diameter that is written for an antenna is its own. -/
theorem diam_eq {t : Tel K V} (hn : (t.ants.map (fun a => a.num)).Nodup) {a : Ant K V} (h : a ∈ t.ants) :
    diamAt t a.num = if t.diams then a.diam else 0 := by
  unfold diamAt
  by_cases hd : t.diams = true
  · rw [if_pos hd, if_pos hd]
    have hm : a.diam ∈ unique (t.ants.map (fun a => a.diam)) := mem_unique.2 (List.mem_map.2 ⟨a, h, rfl⟩)
    split
    · next d hu =>
      rw [hu] at hm
      exact (List.mem_singleton.1 hm).symm
    · rw [antAt_of hn h]
      rfl
  · rw [if_neg hd, if_neg hd]

/-- **Antennas come back** in the order of their numbers, with names, positions and diameters; diameters are set if they were and one
of them is positive. -/
theorem ants_back (imp : Bool) {t : Tel K V} (hn : (t.ants.map (fun a => a.num)).Nodup) (hne : t.ants ≠ [])
    (hp : ∀ a ∈ t.ants, a.pos + t.loc ≠ 0) :
    ∃ f, write t = some f ∧ ((read imp f).ants.map (fun a => a.num)).Pairwise (· < ·) ∧
      (∀ b, b ∈ (read imp f).ants ↔ ∃ a ∈ t.ants, b = { a with diam := if t.diams then a.diam else 0 }) ∧
      ((read imp f).diams = true ↔ t.diams = true ∧ ∃ a ∈ t.ants, 0 < a.diam) ∧
      (read imp f).loc = t.loc ∧ (read imp f).moon = t.moon ∧ (read imp f).name = t.name := by
  obtain ⟨n, hmax⟩ : ∃ n, (t.ants.map (fun a => a.num)).max? = some n := by
    cases h : (t.ants.map (fun a => a.num)).max? with
    | none => exact absurd (by simpa using h) hne
    | some n => exact ⟨n, rfl⟩
  have hle : ∀ a ∈ t.ants, a.num < n + 1 := by
    intro a ha
    have := (List.max?_eq_some_iff.1 hmax).2 a.num (List.mem_map.2 ⟨a, ha, rfl⟩)
    omega
  refine ⟨_, by unfold write; rw [hmax], ?_⟩
  have hgood : ∀ (k : Nat) (r : TabRow K V), (k, r) ∈ good (⟨(List.range (n + 1)).map (rowAt t), t.moon, if t.moon then t.ellipsoid else none,
      t.loc, t.name, t.observer.getD t.name⟩ : File K V) ↔ ∃ a ∈ t.ants, k = a.num ∧
        r = ⟨a.name, a.name, a.pos + t.loc, if t.diams then a.diam else 0⟩ := by
    intro k r
    unfold good
    simp only [List.mem_map, List.mem_filter, decide_eq_true_iff, Prod.exists, Prod.mk.injEq]
    constructor
    · rintro ⟨r', k', ⟨hm, hz⟩, rfl, rfl⟩
      have hm' := List.mem_zipIdx hm
      have hk : k' < n + 1 := by simpa using hm'.2.1
      have hr : r' = rowAt t k' := by
        have := hm'.2.2
        simpa using this
      subst hr
      unfold rowAt at hz ⊢
      cases ha : antAt t.ants k' with
      | none => rw [ha] at hz; exact absurd rfl hz
      | some a =>
        obtain ⟨h1, h2⟩ := antAt_some ha
        refine ⟨a, h1, h2.symm, ?_⟩
        dsimp only
        rw [← h2, diam_eq hn h1]
    · rintro ⟨a, ha, rfl, rfl⟩
      refine ⟨_, _, ⟨?_, hp a ha⟩, rfl, rfl⟩
      rw [List.mem_iff_getElem?]
      refine ⟨a.num, ?_⟩
      rw [List.getElem?_zipIdx, List.getElem?_map, List.getElem?_range (hle a ha)]
      simp only [Option.map_some, Nat.zero_add, Option.some.injEq, Prod.mk.injEq, and_true]
      unfold rowAt
      rw [antAt_of hn ha, diam_eq hn ha]
  refine ⟨?_, ?_, ?_, rfl, rfl, rfl⟩
  · show ((good _).map _ |>.map _).Pairwise _
    rw [List.map_map]
    show ((good _).map (fun x => x.1)).Pairwise _
    unfold good
    rw [List.map_map]
    show (List.map Prod.snd _).Pairwise _
    rw [List.pairwise_map]
    refine List.Pairwise.filter _ ?_
    rw [← List.pairwise_map (f := Prod.snd) (R := (· < ·)), List.zipIdx_map_snd]
    exact List.pairwise_lt_range'
  · intro b
    show b ∈ (good _).map _ ↔ _
    rw [List.mem_map]
    constructor
    · rintro ⟨⟨k, r⟩, hx, rfl⟩
      obtain ⟨a, ha, rfl, rfl⟩ := (hgood k r).1 hx
      refine ⟨a, ha, ?_⟩
      simp
    · rintro ⟨a, ha, rfl⟩
      refine ⟨(a.num, _), (hgood _ _).2 ⟨a, ha, rfl, rfl⟩, ?_⟩
      simp
  · show (good _).any _ = true ↔ _
    rw [List.any_eq_true]
    constructor
    · rintro ⟨⟨k, r⟩, hx, hd⟩
      obtain ⟨a, ha, rfl, rfl⟩ := (hgood k r).1 hx
      have hd := of_decide_eq_true hd
      dsimp only at hd
      by_cases ht : t.diams = true
      · rw [if_pos ht] at hd
        exact ⟨ht, a, ha, hd⟩
      · rw [if_neg ht] at hd
        exact absurd hd (lt_irrefl _)
    · rintro ⟨ht, a, ha, hd⟩
      refine ⟨_, (hgood _ _).2 ⟨a, ha, rfl, rfl⟩, ?_⟩
      dsimp only
      rw [if_pos ht]
      exact decide_eq_true hd

/-- **The name of the instrument is lost**: it is the name of the telescope afterwards. -/
theorem instrument_counterexample (imp : Bool) {t : Tel K V} {f : File K V} (h : write t = some f) :
    (read imp f).instrument = some t.name := by
  unfold write at h
  split at h
  · cases h
  · cases h
    rfl

/-- **An antenna at the center of the earth is lost.** -/
theorem center_counterexample (imp : Bool) {t : Tel K V} {f : File K V} (hn : (t.ants.map (fun a => a.num)).Nodup) (h : write t = some f)
    {a : Ant K V} (ha : a ∈ t.ants) (hp : a.pos + t.loc = 0) : ∀ b ∈ (read imp f).ants, b.num ≠ a.num := by
  unfold write at h
  split at h
  · cases h
  · next n hmax =>
    cases h
    intro b hb
    obtain ⟨⟨k, r⟩, hx, rfl⟩ := List.mem_map.1 hb
    unfold good at hx
    simp only [List.mem_map, List.mem_filter, decide_eq_true_iff, Prod.exists, Prod.mk.injEq] at hx
    obtain ⟨r', k', ⟨hm, hz⟩, rfl, rfl⟩ := hx
    have hm' := List.mem_zipIdx hm
    have hr : r' = rowAt t k' := by
      have := hm'.2.2
      simpa using this
    subst hr
    dsimp only
    rintro rfl
    unfold rowAt at hz
    rw [antAt_of hn ha] at hz
    exact hz hp

/-- The ellipsoid of a telescope on the moon comes back. -/
theorem ellipsoid_back (imp : Bool) {t : Tel K V} {f : File K V} (h : write t = some f) (hm : t.moon = true) {e : String}
    (he : t.ellipsoid = some e) : (read imp f).ellipsoid = some e := by
  unfold write at h
  split at h
  · cases h
  · cases h
    show (if t.moon then some ((if t.moon then t.ellipsoid else none).getD "SPHERE") else none) = _
    rw [if_pos hm, if_pos hm, he]
    rfl

end Verif.MsAnt
