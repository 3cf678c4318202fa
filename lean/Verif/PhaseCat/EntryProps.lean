import Verif.PhaseCat.Lemmas

/-! Properties of new catalog entries and new IDs. -/
namespace Verif.PhaseCat
open Verif.Pol (Str)

theorem reshape_ok {n : Nat} {v w : Option Val} (h : reshape n v = .ok w) :
    HasLength n w ∧ w.isSome = v.isSome ∧ reshape n w = .ok w := by
  rcases v with _ | v
  · simp only [reshape, Except.ok.injEq] at h
    subst h
    exact ⟨fun x hx => by simp at hx, rfl, rfl⟩
  · simp only [reshape] at h
    split at h
    · rename_i hl
      simp only [Except.ok.injEq] at h
      subst h
      refine ⟨fun x hx => ?_, rfl, ?_⟩
      · simp only [Option.some.injEq] at hx
        exact ⟨_, hx.symm, hl⟩
      · exact if_pos hl
    · simp at h

theorem reshape_id {n : Nat} {v : Option Val} (h : HasLength n v) : reshape n v = .ok v := by
  rcases v with _ | v
  · rfl
  · obtain ⟨l, rfl, hl⟩ := h v rfl
    simp [reshape, flat, hl]

theorem toFloat_ok {v w : Option Val} (h : toFloat v = .ok w) : w = v ∧ IsScalar v := by
  rcases v with _ | (x | l)
  · simp only [toFloat, Except.ok.injEq] at h
    exact ⟨h.symm, fun l hl => by simp at hl⟩
  · simp only [toFloat, Except.ok.injEq] at h
    exact ⟨h.symm, fun l hl => by simp at hl⟩
  · simp [toFloat] at h

theorem toFloat_id {v : Option Val} (h : IsScalar v) : toFloat v = .ok v := by
  rcases v with _ | (x | l)
  · rfl
  · rfl
  · exact absurd rfl (h l)

theorem entryErr_none {c : Consts} {e : Entry} : entryErr c e = none ↔
    (e.type = sidereal ∨ e.type = ephem ∨ e.type = unprojected ∨ e.type = driftscan) ∧
    e.pmRa.isNone = e.pmDec.isNone ∧ ¬(e.times.isNone ∧ e.type = ephem) ∧ ¬(e.times.isSome ∧ e.type ≠ ephem) ∧
    ¬(e.lon.isNone ∧ (e.type = sidereal ∨ e.type = ephem)) ∧ ¬(e.lat.isNone ∧ (e.type = sidereal ∨ e.type = ephem)) ∧
    ¬(e.frame.isNone ∧ (e.type = sidereal ∨ e.type = ephem)) ∧
    ¬(e.frame ≠ some altaz ∧ (e.type = driftscan ∨ e.type = unprojected)) ∧
    ¬(e.type = unprojected ∧ e.lon ≠ some (.scalar 0)) ∧ ¬(e.type = unprojected ∧ e.lat ≠ some (.scalar c.halfPi)) ∧
    ¬(e.type ≠ sidereal ∧ (e.pmRa.isSome ∨ e.pmDec.isSome)) := by
  unfold entryErr
  constructor
  · intro h
    repeat' split at h
    all_goals first
      | (simp only [reduceCtorEq] at h; done)
      | (rename_i h1 h2 h3 h4 h5 h6 h7 h8 h9 h10 h11
         exact ⟨not_not.1 h1, not_not.1 h2, h3, h4, h5, h6, h7, h8, h9, h10, h11⟩)
  · rintro ⟨h1, h2, h3, h4, h5, h6, h7, h8, h9, h10, h11⟩
    rw [if_neg (not_not.2 h1), if_neg (not_not.2 h2), if_neg h3, if_neg h4, if_neg h5, if_neg h6, if_neg h7, if_neg h8,
      if_neg h9, if_neg h10, if_neg h11]

theorem isSome_not_isNone {α : Type} (o : Option α) : o.isSome = true ↔ ¬o.isNone = true := by cases o <;> simp

theorem withDefaults_type (c : Consts) (e : Entry) : (withDefaults c e).type = e.type := by
  unfold withDefaults; split <;> rfl

theorem withDefaults_coords (c : Consts) (e : Entry) (h : e.type = unprojected ∨ e.type = driftscan) :
    (withDefaults c e).lon.isSome ∧ (withDefaults c e).lat.isSome ∧ (withDefaults c e).frame.isSome := by
  unfold withDefaults; rw [if_pos h]; simp

theorem withDefaults_id {c : Consts} {e : Entry} (h : WellFormed c e) : withDefaults c e = e := by
  unfold withDefaults
  split
  · obtain ⟨a, ha⟩ := Option.isSome_iff_exists.1 h.lon
    obtain ⟨b, hb⟩ := Option.isSome_iff_exists.1 h.lat
    obtain ⟨d, hd⟩ := Option.isSome_iff_exists.1 h.frame
    cases e
    simp only at ha hb hd
    subst ha hb hd
    rfl
  · rfl

theorem wf_entryErr {c : Consts} {e : Entry} (h : WellFormed c e) : entryErr c e = none := by
  rw [entryErr_none]
  have hl := (isSome_not_isNone _).1 h.lon
  have ht := (isSome_not_isNone _).1 h.lat
  have hf := (isSome_not_isNone _).1 h.frame
  refine ⟨h.type, ?_, ?_, ?_, fun k => hl k.1, fun k => ht k.1, fun k => hf k.1, ?_, ?_, ?_, ?_⟩
  · have := h.pm.1
    cases hp : e.pmRa <;> cases hq : e.pmDec <;> simp_all
  · rintro ⟨a, b⟩
    exact (isSome_not_isNone _).1 (h.times.2 b) a
  · rintro ⟨a, b⟩
    exact b (h.times.1 a)
  · rintro ⟨a, b⟩
    exact a (h.horizontal b.symm)
  · rintro ⟨a, b⟩
    exact b (h.zenith a).1
  · rintro ⟨a, b⟩
    exact b (h.zenith a).2
  · rintro ⟨a, b⟩
    rcases b with b | b
    · exact a (h.pm.2 b)
    · exact a (h.pm.2 (by rw [h.pm.1]; exact b))

theorem bind_ok {ε α β : Type} {x : Except ε α} {f : α → Except ε β} {r : β} :
    (x >>= f) = .ok r ↔ ∃ a, x = .ok a ∧ f a = .ok r := by
  cases x with
  | error e => simp [bind, Except.bind]
  | ok a => simp [bind, Except.bind]

/-- C44: an entry that is accepted obeys the documented rules. -/
theorem entry_wellformed (c : Consts) (raw e : Entry) (h : genEntry c raw = .ok e) : WellFormed c e := by
  unfold genEntry at h
  split at h
  · simp at h
  rename_i herr
  rw [entryErr_none] at herr
  obtain ⟨h1, h2, h3, h4, h5, h6, h7, h8, h9, h10, h11⟩ := herr
  have hcoord : (withDefaults c raw).lon.isSome ∧ (withDefaults c raw).lat.isSome ∧ (withDefaults c raw).frame.isSome := by
    rcases h1 with k | k | k | k
    · refine ⟨(isSome_not_isNone _).2 fun a => h5 ⟨a, Or.inl k⟩, (isSome_not_isNone _).2 fun a => h6 ⟨a, Or.inl k⟩,
        (isSome_not_isNone _).2 fun a => h7 ⟨a, Or.inl k⟩⟩
    · refine ⟨(isSome_not_isNone _).2 fun a => h5 ⟨a, Or.inr k⟩, (isSome_not_isNone _).2 fun a => h6 ⟨a, Or.inr k⟩,
        (isSome_not_isNone _).2 fun a => h7 ⟨a, Or.inr k⟩⟩
    · exact withDefaults_coords c raw (Or.inl (by rw [← withDefaults_type c raw]; exact k))
    · exact withDefaults_coords c raw (Or.inr (by rw [← withDefaults_type c raw]; exact k))
  generalize withDefaults c raw = d at *
  have hpm : d.pmRa.isSome = d.pmDec.isSome := by
    cases hp : d.pmRa <;> cases hq : d.pmDec <;> simp_all
  have hpms : d.pmRa.isSome → d.type = sidereal := fun a => by
    by_contra b; exact h11 ⟨b, Or.inl a⟩
  have hse : sidereal ≠ ephem := by decide
  have hue : unprojected ≠ ephem := by decide
  have hhor : d.type = unprojected ∨ d.type = driftscan → d.frame = some altaz := fun a => by
    by_contra b; exact h8 ⟨b, a.symm⟩
  have hzen : d.type = unprojected → d.lon = some (.scalar 0) ∧ d.lat = some (.scalar c.halfPi) := fun a =>
    ⟨by by_contra b; exact h9 ⟨a, b⟩, by by_contra b; exact h10 ⟨a, b⟩⟩
  simp only at h
  split at h
  · rename_i hty
    simp only [bind_ok, pure, Except.pure, Except.ok.injEq] at h
    obtain ⟨lon, hlon, lat, hlat, dist, hdist, vrad, hvrad, rfl⟩ := h
    refine ⟨h1, ?_, ?_, hcoord.2.2, ⟨hpm, hpms⟩, ?_, ?_, ?_, hhor, ?_⟩
    · rw [(reshape_ok hlon).2.1]; exact hcoord.1
    · rw [(reshape_ok hlat).2.1]; exact hcoord.2.1
    · simp [hty]
    · intro _
      refine ⟨_, ?_, (reshape_ok hlon).1, (reshape_ok hlat).1, (reshape_ok hdist).1, (reshape_ok hvrad).1⟩
      intro x hx
      simp only [Option.some.injEq] at hx
      exact ⟨_, hx.symm, rfl⟩
    · intro k; exact absurd hty k
    · intro k
      rw [hty] at k
      exact absurd k.symm hue
  · rename_i hty
    simp only [bind_ok, pure, Except.pure, Except.ok.injEq] at h
    obtain ⟨lon, hlon, lat, hlat, pa, hpa, pd, hpd, dist, hdist, vrad, hvrad, rfl⟩ := h
    obtain ⟨rfl, slon⟩ := toFloat_ok hlon
    obtain ⟨rfl, slat⟩ := toFloat_ok hlat
    obtain ⟨rfl, spa⟩ := toFloat_ok hpa
    obtain ⟨rfl, spd⟩ := toFloat_ok hpd
    obtain ⟨rfl, sdist⟩ := toFloat_ok hdist
    obtain ⟨rfl, svrad⟩ := toFloat_ok hvrad
    refine ⟨h1, hcoord.1, hcoord.2.1, hcoord.2.2, ⟨hpm, hpms⟩, ?_, ?_, ?_, hhor, hzen⟩
    · exact ⟨fun a => by by_contra b; exact h4 ⟨a, b⟩, fun b => absurd b hty⟩
    · intro b; exact absurd b hty
    · intro _; exact ⟨slon, slat, spa, spd, sdist, svrad⟩

/-- C44: an entry that obeys the rules is accepted and stored unchanged. -/
theorem wellformed_accepted (c : Consts) (e : Entry) (h : WellFormed c e) : genEntry c e = .ok e := by
  unfold genEntry
  rw [withDefaults_id h, wf_entryErr h]
  simp only
  split
  · rename_i hty
    obtain ⟨n, ht, hl, hb, hd, hv⟩ := h.ephem hty
    obtain ⟨t, htt⟩ := Option.isSome_iff_exists.1 (h.times.2 hty)
    obtain ⟨l, rfl, hn⟩ := ht t htt
    simp only [htt, Option.map_some, Option.getD_some, flat, hn, reshape_id hl, reshape_id hb, reshape_id hd,
      reshape_id hv]
    simp only [bind, Except.bind, pure, Except.pure, Except.ok.injEq]
    cases e
    simp only at htt
    subst htt
    rfl
  · rename_i hty
    obtain ⟨s1, s2, s3, s4, s5, s6⟩ := h.scalars hty
    rw [toFloat_id s1, toFloat_id s2, toFloat_id s3, toFloat_id s4, toFloat_id s5, toFloat_id s6]
    rfl

/-! ### New IDs (C19, C43) -/

/-- C19: an ID that is handed out is neither reserved nor that of another catalog entry. -/
theorem generateId_fresh (pop : Pop) (cat : Option (List Int)) (catId oldId : Option Int) (reserved : List Int) (k : Int)
    (h : generateId pop cat catId oldId reserved = .ok k) :
    k ∉ reserved ∧ (∀ l, cat = some l → k ∈ l → oldId = some k) ∧ (∀ j, catId = some j → k = j) := by
  have key : k ∉ usedIds cat oldId reserved ∧ (∀ j, catId = some j → k = j) := by
    have hp := pick_candidates pop (n := (usedIds cat oldId reserved).length) (used := usedIds cat oldId reserved)
      (List.dedup_sublist _).length_le
    unfold generateId at h
    split at h
    · simp at h
    split at h
    · simp at h
    rcases catId with _ | j
    · rcases oldId with _ | o
      · simp only [Except.ok.injEq] at h
        subst h
        exact ⟨hp.1, by simp⟩
      · simp only at h
        split at h
        · simp only [Except.ok.injEq] at h
          subst h
          exact ⟨hp.1, by simp⟩
        · rename_i hu
          simp only [Except.ok.injEq] at h
          subst h
          exact ⟨hu, by simp⟩
    · simp only at h
      split at h
      · simp at h
      · rename_i hu
        simp only [Except.ok.injEq] at h
        subst h
        exact ⟨hu, by simp⟩
  rw [mem_usedIds] at key
  refine ⟨fun hr => key.1 (Or.inr hr), ?_, key.2⟩
  rintro l rfl hl
  by_contra hne
  exact key.1 (Or.inl ⟨hl, fun hs => hne hs.symm⟩)

/-- C19: a new ID is always found when the caller does not insist on one, and it is at most the number of IDs in
use; an old ID that is not reserved is kept. -/
theorem generateId_default (pop : Pop) (l : List Int) (oldId : Option Int) (reserved : List Int)
    (hold : ∀ o, oldId = some o → o ∈ l) :
    ∃ k, generateId pop (some l) none oldId reserved = .ok k ∧
      (k ≠ oldId.getD (-1) → 0 ≤ k ∧ k ≤ (l ++ reserved).length) ∧ (∀ o, oldId = some o → o ∉ reserved → k = o) := by
  have hlen : (usedIds (some l) oldId reserved).length ≤ (l ++ reserved).length := by
    unfold usedIds
    refine (List.dedup_sublist _).length_le.trans ?_
    simp only [List.length_append, Option.getD_some]
    have := (List.filter_sublist (l := l) (p := fun k => decide (some k ≠ oldId))).length_le
    omega
  have hp := pick_candidates pop (n := (usedIds (some l) oldId reserved).length)
    (used := usedIds (some l) oldId reserved) (List.dedup_sublist _).length_le
  unfold generateId
  rw [if_neg (by simp), if_neg]
  swap
  · rintro ⟨h1, h2⟩
    rcases oldId with _ | o
    · exact h1 rfl
    · exact h2 o (by simpa using hold o rfl) rfl
  rcases oldId with _ | o
  · exact ⟨_, rfl, fun _ => ⟨hp.2.1, by omega⟩, by simp⟩
  · simp only
    split
    · rename_i hu
      refine ⟨_, rfl, fun _ => ⟨hp.2.1, by omega⟩, ?_⟩
      intro o' ho' hr
      simp only [Option.some.injEq] at ho'
      subst ho'
      rw [mem_usedIds] at hu
      rcases hu with ⟨_, h⟩ | h
      · exact absurd rfl h
      · exact absurd h hr
    · refine ⟨o, rfl, ?_, ?_⟩
      · intro h; simp at h
      · intro o' ho' _; simpa using ho'

/-- C43, the part that holds: if the IDs in use are numbers below their count (as they are when all were assigned by
default and none removed), the new ID is the smallest unused one. -/
theorem generateId_smallest_partial (pop : Pop) (l reserved : List Int) (k : Int)
    (hdense : ∀ i ∈ l ++ reserved, 0 ≤ i ∧ i < ((l ++ reserved).dedup.length : Int))
    (h : generateId pop (some l) none none reserved = .ok k) :
    ∀ j : Int, 0 ≤ j → j < k → j ∈ l ++ reserved := by
  have hu : usedIds (some l) none reserved = (l ++ reserved).dedup := by simp [usedIds]
  unfold generateId at h
  rw [if_neg (by simp), if_neg (by simp), hu] at h
  simp only [Except.ok.injEq] at h
  have hp := pick_candidates pop (n := (l ++ reserved).dedup.length) (used := (l ++ reserved).dedup)
    (List.dedup_sublist _).length_le
  rw [h] at hp
  -- the used IDs fill 0 … n-1 completely
  have hfull : ∀ j : Int, 0 ≤ j → j < ((l ++ reserved).dedup.length : Int) → j ∈ l ++ reserved := by
    intro j h0 h1
    have hsub : (l ++ reserved).dedup ⊆ (List.range (l ++ reserved).dedup.length).map (fun i : Nat => (i : Int)) := by
      intro i hi
      obtain ⟨a, b⟩ := hdense i (List.mem_dedup.1 hi)
      exact List.mem_map.2 ⟨i.toNat, List.mem_range.2 (by omega), by omega⟩
    have hperm := (List.subperm_of_subset (List.nodup_dedup _) hsub).perm_of_length_le (by simp)
    have : j ∈ (List.range (l ++ reserved).dedup.length).map (fun i : Nat => (i : Int)) :=
      List.mem_map.2 ⟨j.toNat, List.mem_range.2 (by omega), by omega⟩
    exact List.mem_dedup.1 (hperm.mem_iff.2 this)
  intro j h0 h1
  exact hfull j h0 (by omega)

/-- CPython keeps a small set of small integers in a table of eight slots, number `i` in slot `i mod 8` when it is
free, and `pop` takes the first occupied slot. -/
def slotPop : Pop where
  pick l := (l.argmin (fun i => i % 8)).getD 0
  mem l h := by
    rcases hm : l.argmin (fun i => i % 8) with _ | i
    · exact absurd (List.argmin_eq_none.1 hm) h
    · simpa using List.argmin_mem hm

/-- C43: otherwise a larger ID may be chosen while a smaller one is unused. -/
theorem generateId_smallest_counterexample :
    generateId slotPop (some [0, 2, 3, 4, 5, 6, 7, 100]) none none [] = .ok 8 ∧
      (1 : Int) ∉ [0, 2, 3, 4, 5, 6, 7, 100] := by
  decide +kernel

example : generateId slotPop (some [0, 1, 2]) none (some 1) [1, 5] = .ok 3 := by decide +kernel
example : generateId slotPop (some [0, 1, 2]) none (some 1) [5] = .ok 1 := by decide +kernel
example : ∃ k, generateId slotPop (some [2, 0, 1]) none none [3] = .ok k ∧
    ∀ i ∈ [2, 0, 1] ++ [3], (0 : Int) ≤ i ∧ i < (([2, 0, 1] ++ [3] : List Int).dedup.length : Int) :=
  ⟨4, by decide +kernel, by decide +kernel⟩

/-- A moving source with two samples, and an unprojected one given without coordinates. -/
def comet : Entry :=
  { name := ['c'], type := ephem, lon := some (.vec [1, 2]), lat := some (.vec [0, 1]), frame := some ['i'], epoch := none,
    times := some (.vec [10, 20]), pmRa := none, pmDec := none, dist := none, vrad := none, info := user }
def zenith : Entry :=
  { name := ['z'], type := unprojected, lon := none, lat := none, frame := none, epoch := none, times := none, pmRa := none,
    pmDec := none, dist := none, vrad := none, info := user }
def consts : Consts := ⟨157 / 100, 1 / 200000000⟩

example : genEntry consts comet = .ok comet := by decide +kernel
example : genEntry consts zenith =
    .ok { zenith with lon := some (.scalar 0), lat := some (.scalar (157 / 100)), frame := some altaz } := by decide +kernel
example : genEntry consts { comet with lat := some (.vec [0]) } = .error .shape := by decide +kernel

end Verif.PhaseCat
