import Verif.NewCal.Spec
import Verif.NewData.Props

namespace Verif.NewCal
open Verif.Np
open Verif.NewData (Num timeParams freqParams spwParams inferTimes inferWidths)
open Verif.Pol (Str)

variable {K P D V : Type} [Field K] [LinearOrder K]

/-! ## Steps -/

omit [Field K] [LinearOrder K] in
theorem lenIs_iff {α : Type} {n : Nat} {o : Option (List α)} : lenIs n o = true ↔ ∀ l, o = some l → l.length = n := by
  cases o <;> simp [lenIs]

omit [Field K] [LinearOrder K] in
theorem shapeIs_iff {α : Type} {s : List Nat} {o : Option (Arr α)} : shapeIs s o = true ↔ ∀ a, o = some a → a.shape = s := by
  cases o <;> simp [shapeIs]

theorem telOk_iff {t : Tel P D} : telOk t = true ↔ TelFits t := by
  simp [telOk, TelFits, lenIs_iff, and_assoc]

theorem jonesArgs_iff {xo : Option Str} {j : Jones} {l : List Int} : jonesArgs xo j = .ok l ↔ JonesAre xo j l := by
  cases j with
  | linear => simp [jonesArgs, JonesAre, eq_comm]
  | circular => simp [jonesArgs, JonesAre, eq_comm]
  | nums n => simp [jonesArgs, JonesAre, eq_comm]
  | names n =>
    have key : ∀ (n : List Str) (l : List Int), n.mapM (Pol.jstr2num xo) = some l ↔ n.map (Pol.jstr2num xo) = l.map some := by
      intro n
      induction n with
      | nil => intro l; cases l <;> simp
      | cons s n ih =>
        intro l
        rw [List.mapM_cons]
        cases hs : Pol.jstr2num xo s with
        | none => cases l <;> simp [hs]
        | some x =>
          cases hn : n.mapM (Pol.jstr2num xo) with
          | none =>
            cases l with
            | nil => simp
            | cons y l =>
              have := ih l
              rw [hn] at this
              simp only [reduceCtorEq, false_iff] at this
              simp [hs, this]
          | some m =>
            cases l with
            | nil => simp
            | cons y l =>
              have := ih l
              rw [hn] at this
              simp only [Option.some.injEq] at this
              simp [hs, this]
    simp only [jonesArgs, JonesAre]
    rw [← key]
    cases n.mapM (Pol.jstr2num xo) <;> simp

theorem antArgs_iff {a : Args K P D V} {l : List Int} :
    antArgs a = .ok l ↔ l = a.ants.getD a.tel.numbers ∧ ∀ n ∈ l, n ∈ a.tel.numbers := by
  unfold antArgs
  cases h : a.ants with
  | none =>
    simp only [Except.ok.injEq, Option.getD_none]
    constructor
    · rintro rfl; exact ⟨rfl, fun _ h => h⟩
    · rintro ⟨rfl, _⟩; rfl
  | some m =>
    simp only [Option.getD_some, List.all_eq_true, decide_eq_true_eq]
    split
    · rename_i hm
      simp only [Except.ok.injEq]
      constructor
      · rintro rfl; exact ⟨rfl, hm⟩
      · rintro ⟨rfl, _⟩; rfl
    · rename_i hm
      simp only [reduceCtorEq, false_iff]
      rintro ⟨rfl, h'⟩
      exact hm h'

omit [LinearOrder K] in
theorem gaps_length {l : List K} (h : 1 < l.length) : (NewData.gaps l).length = l.length := by
  have hd : (NewData.diffs l).length = l.length - 1 := by simp [NewData.diffs]
  unfold NewData.gaps
  rw [List.length_append, hd]
  cases hg : (NewData.diffs l).getLast? with
  | none =>
    rw [List.getLast?_eq_none_iff] at hg
    rw [hg] at hd
    simp at hd
    omega
  | some x => simp; omega

theorem inferTimes_length {t : List K} {i : Num K} (ht : t ≠ []) :
    (inferTimes t i).length = t.length ↔ match i with
      | .none => t.Nodup
      | .one _ => True
      | .all l => l.length = t.length := by
  cases i with
  | none =>
    simp only [inferTimes]
    have hu : unique t ≠ [] := by
      intro h
      cases t with
      | nil => exact ht rfl
      | cons x t => exact absurd (mem_unique.2 (List.mem_cons_self (a := x) (l := t))) (by rw [h]; simp)
    have hpos := List.length_pos_iff.2 hu
    split
    · rename_i h
      rw [gaps_length (by simpa using h), List.length_map]
      constructor
      · exact NewData.unique_full
      · exact NewData.unique_of_nodup
    · rename_i h
      have h1 : (unique t).length = 1 := by omega
      constructor
      · intro h2
        exact NewData.unique_full (by rw [h1]; simpa using h2)
      · intro h2
        rw [← NewData.unique_of_nodup h2, h1]
        rfl
  | one x => simp [inferTimes]
  | all l => simp [inferTimes]

theorem inferWidths_length {f : List K} {w : Num K} (hf : f ≠ []) :
    (inferWidths f w).length = f.length ↔ ∀ l, w = .all l → l.length = f.length := by
  have hpos := List.length_pos_iff.2 hf
  cases w with
  | none =>
    simp only [inferWidths, reduceCtorEq, false_implies, implies_true, iff_true]
    split
    · rename_i h; exact gaps_length h
    · simp; omega
  | one x => simp [inferWidths]
  | all l => simp [inferWidths]

theorem timeParams_ok {lst : K → K} {t : List K} {i : Num K} {r : List K × List K} (h : timeParams lst t i = .ok r) :
    r = (t.map lst, inferTimes t i) ∧ (inferTimes t i).length = t.length := by
  unfold timeParams at h
  split at h
  · cases h
  · rename_i hl
    exact ⟨(Except.ok.inj h).symm, by simpa using hl⟩

/-- Times alone. -/
theorem timeArgs_times {lst : K → K} {a : Args K P D V} {t : List K} (ht : a.times = some t) (hr : a.ranges = none) (i : Option (Intg K)) :
    timeArgs lst a = .ok i ↔ i = some (.list (inferTimes t a.intg)) ∧ (inferTimes t a.intg).length = t.length := by
  unfold timeArgs
  rw [ht, hr]
  unfold timeParams
  by_cases h : (inferTimes t a.intg).length = t.length
  · simp [h, eq_comm]
  · simp [h]

/-- Ranges alone. -/
theorem timeArgs_ranges {lst : K → K} {a : Args K P D V} {r : List (K × K)} (ht : a.times = none) (hr : a.ranges = some r) (i : Option (Intg K)) :
    timeArgs lst a = .ok i ↔ i = some (rangeIntg r a.intg) ∧ (rangeIntg r a.intg).size = r.length := by
  unfold timeArgs
  rw [ht, hr]
  simp only [Option.map_none, Option.getD_none]
  by_cases h : (rangeIntg r a.intg).size = r.length
  · simp [h, eq_comm]
  · simp [h]

theorem new_iff_steps [Zero V] [One V] {lst : K → K} {overlap : List (K × K) → Bool} {a : Args K P D V} {c : Cal K P D V} :
    new lst overlap a = .ok c ↔ a.tel.orient.isSome ∧ ∃ ants intg f jones, antArgs a = .ok ants ∧ timeArgs lst a = .ok intg ∧ freqArgs a = .ok f ∧
      jonesArgs a.tel.orient a.jones = .ok jones ∧ (a.style = .sky → a.refAnt.isSome ∧ a.catalog.isSome) ∧
      c = fill a.empty a.data (labels lst a ants intg f jones) ∧ check overlap c = true := by
  unfold new
  by_cases ho : a.tel.orient.isNone
  · rw [if_pos ho]
    simp only [reduceCtorEq, false_iff]
    rintro ⟨h, -⟩
    simp_all
  · rw [if_neg ho]
    have ho' : a.tel.orient.isSome := by
      cases h : a.tel.orient <;> simp_all
    cases h1 : antArgs a with
    | error e => simp
    | ok ants =>
      cases h2 : timeArgs lst a with
      | error e => simp
      | ok intg =>
        cases h3 : freqArgs a with
        | error e => simp
        | ok f =>
          cases h4 : jonesArgs a.tel.orient a.jones with
          | error e => simp
          | ok jones =>
            dsimp only
            by_cases hs : a.style = .sky ∧ (a.refAnt.isNone ∨ a.catalog.isNone)
            · rw [if_pos hs]
              simp only [reduceCtorEq, false_iff]
              rintro ⟨-, _, _, _, _, _, _, _, _, h, -⟩
              obtain ⟨h5, h6⟩ := h hs.1
              rcases hs.2 with h7 | h7
              · cases h8 : a.refAnt <;> simp_all
              · cases h8 : a.catalog <;> simp_all
            · rw [if_neg hs]
              have hs' : a.style = .sky → a.refAnt.isSome ∧ a.catalog.isSome := by
                intro h
                constructor
                · cases h8 : a.refAnt <;> simp_all
                · cases h8 : a.catalog <;> simp_all
              constructor
              · intro h
                split at h
                · rename_i hc
                  have h := Except.ok.inj h
                  exact ⟨ho', ants, intg, f, jones, rfl, rfl, rfl, rfl, hs', h.symm, h ▸ hc⟩
                · cases h
              · rintro ⟨-, ants', intg', f', jones', e1, e2, e3, e4, -, rfl, hc⟩
                obtain rfl := Except.ok.inj e1
                obtain rfl := Except.ok.inj e2
                obtain rfl := Except.ok.inj e3
                obtain rfl := Except.ok.inj e4
                rw [if_pos hc]

theorem freqArgs_chan {a : Args K P D V} {f : List K} (hf : a.freqs = some f) (hr : a.freqRange = none) {x : Freqs K} :
    freqArgs a = .ok x ↔ x = ⟨some (inferWidths f a.width), some (spwParams f.length a.ids).1, (spwParams f.length a.ids).2, false, .gain⟩ ∧
      (inferWidths f a.width).length = f.length := by
  unfold freqArgs freqParams
  rw [hf, hr]
  by_cases h : (inferWidths f a.width).length = f.length
  · simp only [h, and_true, Option.isSome_none, Bool.false_eq_true, false_and, if_false, ne_eq, not_true_eq_false, Except.ok.injEq]
    exact eq_comm
  · simp [h]

omit [LinearOrder K] in
theorem freqArgs_wide {a : Args K P D V} {r : List (K × K)} (hf : a.freqs = none) (hr : a.freqRange = some r) {x : Freqs K} :
    freqArgs a = .ok x ↔ x = ⟨none, none, (List.range r.length).map Int.ofNat, true, a.calType.getD .delay⟩ ∧ a.width = .none ∧ a.ids = none := by
  unfold freqArgs
  rw [hf, hr]
  cases hw : a.width <;> cases hi : a.ids <;> simp [NewData.Num.isNone, eq_comm]

omit [LinearOrder K] in
theorem freqArgs_other {a : Args K P D V} (h : a.freqs.isSome = a.freqRange.isSome) {x : Freqs K} : freqArgs a ≠ .ok x := by
  unfold freqArgs
  cases hf : a.freqs <;> cases hr : a.freqRange <;> rw [hf, hr] at h <;> simp_all

/-- What the check of the labels looks at. -/
structure LabelsOk (overlap : List (K × K) → Bool) (c : Cal K P D V) : Prop where
  tel : TelFits c.tel
  orient : c.tel.orient.isSome
  one : c.wide = true → c.nfreqs = 1
  times : ∃ n, c.ntimes = some n ∧ n ≠ 0 ∧ (∀ l, c.times = some l → l.length = n) ∧ (∀ l, c.lst = some l → l.length = n) ∧
    (∀ l, c.ranges = some l → l.length = n) ∧ (∀ l, c.lstRange = some l → l.length = n) ∧ ∃ l, c.intg = some (.list l) ∧ l.length = n
  ants : c.nants ≠ 0 ∧ c.ants.length = c.nants
  jones : c.njones ≠ 0 ∧ c.jones.length = c.njones ∧ ∀ j ∈ c.jones, -8 ≤ j ∧ j ≤ 0
  spws : c.nspws ≠ 0 ∧ c.spws.length = c.nspws
  freqs : c.nfreqs ≠ 0 ∧ (∀ l, c.freqs = some l → l.length = c.nfreqs) ∧ (∀ l, c.width = some l → l.length = c.nfreqs) ∧
    (∀ l, c.ids = some l → l.length = c.nfreqs) ∧ (∀ l, c.freqRange = some l → l.length = c.nspws)
  style : c.style = .sky → c.refAnt.isSome ∧ c.catalog.isSome
  pair : (c.times.isSome != c.ranges.isSome) = true ∧ (c.lst.isSome != c.lstRange.isSome) = true
  overlap : ∀ r, c.ranges = some r → overlap r = false
  known : ∀ n ∈ c.ants, n ∈ c.tel.numbers
  kind : if c.wide then c.freqRange.isSome ∧ c.freqs = none ∧ c.width = none ∧ c.ids = none
    else c.freqs.isSome ∧ c.width.isSome ∧ c.freqRange = none ∧ ∃ l, c.ids = some l ∧ ∀ w ∈ l, w ∈ c.spws

theorem checkLabels_iff {overlap : List (K × K) → Bool} {c : Cal K P D V} : checkLabels overlap c = true ↔ LabelsOk overlap c := by
  have e1 : timesOk c = true ↔ ∃ n, c.ntimes = some n ∧ n ≠ 0 ∧ (∀ l, c.times = some l → l.length = n) ∧ (∀ l, c.lst = some l → l.length = n) ∧
    (∀ l, c.ranges = some l → l.length = n) ∧ (∀ l, c.lstRange = some l → l.length = n) ∧ ∃ l, c.intg = some (.list l) ∧ l.length = n := by
    unfold timesOk
    cases c.ntimes with
    | none => simp
    | some n =>
      simp only [Bool.and_eq_true, lenIs_iff, decide_eq_true_eq, Option.some.injEq, exists_eq_left', and_assoc]
      cases c.intg with
      | none => simp
      | some i => cases i <;> simp
  have e2 : overlapOk overlap c = true ↔ ∀ r, c.ranges = some r → overlap r = false := by
    unfold overlapOk
    cases c.ranges <;> simp
  have e3 : kindOk c = true ↔ if c.wide then c.freqRange.isSome ∧ c.freqs = none ∧ c.width = none ∧ c.ids = none
    else c.freqs.isSome ∧ c.width.isSome ∧ c.freqRange = none ∧ ∃ l, c.ids = some l ∧ ∀ w ∈ l, w ∈ c.spws := by
    unfold kindOk
    cases c.wide
    · cases c.ids <;> simp [and_assoc]
    · simp [and_assoc]
  unfold checkLabels
  simp only [Bool.and_eq_true]
  rw [e1, e2, e3, telOk_iff]
  simp only [lenIs_iff, decide_eq_true_eq, List.all_eq_true]
  constructor
  · rintro ⟨⟨⟨⟨⟨⟨⟨⟨⟨⟨⟨⟨⟨⟨⟨⟨⟨⟨⟨⟨⟨h1, h2⟩, h3⟩, h4⟩, h5⟩, h6⟩, h7⟩, h8⟩, h9⟩, h10⟩, h11⟩, h12⟩, h13⟩, h14⟩, h15⟩, h16⟩, h17⟩, h18⟩, h19⟩, h20⟩, h21⟩, h22⟩
    exact ⟨h1, h2, h3, h4, ⟨h5, h6⟩, ⟨h7, h8, h9⟩, ⟨h10, h11⟩, ⟨h12, h13, h14, h15, h16⟩, h17, ⟨h18, h19⟩, h20, h21, h22⟩
  · rintro ⟨h1, h2, h3, h4, ⟨h5, h6⟩, ⟨h7, h8, h9⟩, ⟨h10, h11⟩, ⟨h12, h13, h14, h15, h16⟩, h17, ⟨h18, h19⟩, h20, h21, h22⟩
    exact ⟨⟨⟨⟨⟨⟨⟨⟨⟨⟨⟨⟨⟨⟨⟨⟨⟨⟨⟨⟨⟨h1, h2⟩, h3⟩, h4⟩, h5⟩, h6⟩, h7⟩, h8⟩, h9⟩, h10⟩, h11⟩, h12⟩, h13⟩, h14⟩, h15⟩, h16⟩, h17⟩, h18⟩, h19⟩, h20⟩, h21⟩, h22⟩

/-- Arrays that fit. -/
def Fit (d : Data V) (c : Cal K P D V) : Prop :=
  (∀ x, d.flag = some x → x.shape = c.shape) ∧ (c.calType = .gain → ∀ x, d.gain = some x → x.shape = c.shape) ∧
  (c.calType = .delay → ∀ x, d.delay = some x → x.shape = c.shape) ∧ (∀ x, d.quality = some x → x.shape = c.shape) ∧
  (∀ x, d.total = some x → x.shape = c.shape.tail)

theorem check_fill [Zero V] [One V] {overlap : List (K × K) → Bool} {e : Bool} {d : Data V} {c : Cal K P D V} (h1 : c.flag = none) (h2 : c.gain = none)
    (h3 : c.delay = none) (h4 : c.quality = none) (h5 : c.total = none) :
    check overlap (fill e d c) = true ↔ check overlap c = true ∧ Fit d c := by
  unfold fill
  split
  · have hs : ∀ (x1 : Option (Arr Bool)) (x2 x3 x4 x5 : Option (Arr V)),
        check overlap { c with flag := x1, gain := x2, delay := x3, quality := x4, total := x5 } =
        (check overlap c && (shapeIs c.shape x1 && shapeIs c.shape x2 && shapeIs c.shape x3 && shapeIs c.shape x4 && shapeIs c.shape.tail x5)) := by
      intro x1 x2 x3 x4 x5
      show (checkLabels overlap c && shapeIs c.shape x1 && shapeIs c.shape x2 && shapeIs c.shape x3 && shapeIs c.shape x4 && shapeIs c.shape.tail x5) = _
      unfold check
      rw [h1, h2, h3, h4, h5]
      simp only [shapeIs, Bool.and_true, Bool.and_assoc]
    rw [hs, Bool.and_eq_true]
    refine and_congr_right (fun _ => ?_)
    simp only [Bool.and_eq_true, shapeIs_iff, Fit, and_assoc]
    refine and_congr ?_ (and_congr ?_ (and_congr ?_ Iff.rfl))
    · cases d.flag <;> simp
    · cases hk : c.calType <;> cases d.gain <;> simp
    · cases hk : c.calType <;> cases d.delay <;> simp
  · rename_i hg
    simp only [Bool.or_eq_true, not_or, Data.given, Option.isSome_iff_ne_none, ne_eq, not_not] at hg
    obtain ⟨-, ⟨⟨⟨g1, g2⟩, g3⟩, g4⟩, g5⟩ := hg
    simp [Fit, g1, g2, g3, g4, g5]

/-! ## Theorems -/

theorem rangeIntg_list {r : List (K × K)} {i : Num K} {l : List K} (h : rangeIntg r i = .list l) :
    (i = .none → l = r.map (fun x => (x.2 - x.1) * 86400) ∧ r.length ≠ 1) ∧ (∀ x, i = .one x → l = r.map (fun _ => x)) ∧ (∀ m, i = .all m → l = m) := by
  cases i with
  | none =>
    refine ⟨fun _ => ?_, nofun, nofun⟩
    unfold rangeIntg at h
    dsimp only at h
    split at h
    · cases h
    · rename_i m hm
      injection h with h
      refine ⟨h.symm, ?_⟩
      intro hl
      obtain ⟨x, rfl⟩ := List.length_eq_one_iff.1 hl
      exact hm _ rfl
  | one x =>
    refine ⟨nofun, ?_, nofun⟩
    rintro y ⟨⟩
    injection h with h
    exact h.symm
  | all m =>
    refine ⟨nofun, nofun, ?_⟩
    rintro y ⟨⟩
    injection h with h
    exact h.symm

theorem rangeIntg_some {r : List (K × K)} {i : Num K} (h : match i with
    | .none => r.length ≠ 1
    | .one _ => True
    | .all l => l.length = r.length) : ∃ l, rangeIntg r i = .list l ∧ l.length = r.length := by
  cases i with
  | none =>
    unfold rangeIntg
    dsimp only at h ⊢
    split
    · rename_i x hx
      exact absurd (by simpa using congrArg List.length hx) h
    · exact ⟨_, rfl, by simp⟩
  | one x => exact ⟨_, rfl, by simp⟩
  | all l => exact ⟨_, rfl, h⟩

/-- An object that is made: its parts. -/
theorem new_parts [Zero V] [One V] {lst : K → K} {overlap : List (K × K) → Bool} {a : Args K P D V} {c : Cal K P D V}
    (h : new lst overlap a = .ok c) : ∃ ants intg f jones, antArgs a = .ok ants ∧ timeArgs lst a = .ok intg ∧ freqArgs a = .ok f ∧
      jonesArgs a.tel.orient a.jones = .ok jones ∧ c = fill a.empty a.data (labels lst a ants intg f jones) ∧
      LabelsOk overlap (labels lst a ants intg f jones) ∧ Fit a.data (labels lst a ants intg f jones) := by
  obtain ⟨-, ants, intg, f, jones, h1, h2, h3, h4, -, rfl, h5⟩ := new_iff_steps.1 h
  rw [check_fill rfl rfl rfl rfl rfl, check, Bool.and_eq_true, Bool.and_eq_true, Bool.and_eq_true, Bool.and_eq_true, Bool.and_eq_true, checkLabels_iff] at h5
  exact ⟨ants, intg, f, jones, h1, h2, h3, h4, rfl, h5.1.1.1.1.1.1, h5.2⟩

/-- Times or ranges; frequencies or ranges of frequencies. -/
theorem new_either {lst : K → K} {overlap : List (K × K) → Bool} {a : Args K P D V} {ants : List Int} {intg : Option (Intg K)} {f : Freqs K} {jones : List Int}
    (h3 : freqArgs a = .ok f) (hl : LabelsOk overlap (labels lst a ants intg f jones)) :
    ((∃ t, a.times = some t ∧ a.ranges = none) ∨ (∃ r, a.times = none ∧ a.ranges = some r)) ∧
    ((∃ x, a.freqs = some x ∧ a.freqRange = none) ∨ (∃ r, a.freqs = none ∧ a.freqRange = some r)) := by
  constructor
  · have := hl.pair.1
    change (a.times.isSome != a.ranges.isSome) = true at this
    cases ht : a.times <;> cases hr : a.ranges <;> simp_all
  · cases hf : a.freqs <;> cases hr : a.freqRange
    · exact absurd h3 (freqArgs_other (by rw [hf, hr]; rfl))
    · simp
    · simp
    · exact absurd h3 (freqArgs_other (by rw [hf, hr]; rfl))

theorem labels_shape {lst : K → K} {a : Args K P D V} {ants : List Int} {intg : Option (Intg K)} {f : Freqs K} {jones : List Int}
    (h1 : antArgs a = .ok ants) (h3 : freqArgs a = .ok f)
    (ht : (∃ t, a.times = some t ∧ a.ranges = none) ∨ (∃ r, a.times = none ∧ a.ranges = some r))
    (hf : (∃ x, a.freqs = some x ∧ a.freqRange = none) ∨ (∃ r, a.freqs = none ∧ a.freqRange = some r)) :
    (labels lst a ants intg f jones).shape = a.solShape jones.length ∧ (labels lst a ants intg f jones).ntimes = some a.nt ∧
      f.calType = a.kind := by
  have hn : (labels lst a ants intg f jones).ntimes = some a.nt := by
    rcases ht with ⟨t, e1, e2⟩ | ⟨r, e1, e2⟩ <;> simp [labels, Args.nt, e1, e2]
  refine ⟨?_, hn, ?_⟩
  · unfold Cal.shape Args.solShape
    rw [hn]
    obtain ⟨rfl, -⟩ := antArgs_iff.1 h1
    rcases hf with ⟨x, e1, e2⟩ | ⟨r, e1, e2⟩
    · obtain ⟨rfl, -⟩ := (freqArgs_chan e1 e2).1 h3
      simp [labels, e1]
    · obtain ⟨rfl, -⟩ := (freqArgs_wide e1 e2).1 h3
      simp [labels, e1, e2]
  · rcases hf with ⟨x, e1, e2⟩ | ⟨r, e1, e2⟩
    · obtain ⟨rfl, -⟩ := (freqArgs_chan e1 e2).1 h3
      simp [Args.kind, e1]
    · obtain ⟨rfl, -⟩ := (freqArgs_wide e1 e2).1 h3
      simp [Args.kind, e1]

/-- C210: `new_uvcal` succeeds exactly if the arguments belong together. -/
theorem accept [Zero V] [One V] (lst : K → K) (overlap : List (K × K) → Bool) (a : Args K P D V) :
    (∃ c, new lst overlap a = .ok c) ↔ Acceptable overlap a := by
  constructor
  · rintro ⟨c, h⟩
    obtain ⟨ants, intg, f, jones, h1, h2, h3, h4, -, hl, hfit⟩ := new_parts h
    obtain ⟨ht, hf⟩ := new_either h3 hl
    obtain ⟨hs, hn, hk⟩ := labels_shape (lst := lst) (intg := intg) (jones := jones) h1 h3 ht hf
    obtain ⟨n, e0, hn0, ht1, -, ht3, -, l, hint, hlen⟩ := hl.times
    rw [hn] at e0
    obtain rfl := Option.some.inj e0
    have ha := antArgs_iff.1 h1
    refine ⟨hl.tel, hl.orient, ?_, ?_, ?_, ?_, ?_, hl.style⟩
    · rw [← ha.1]
      intro e
      exact hl.ants.1 (by show ants.length = 0; rw [e]; rfl)
    · rw [← ha.1]; exact ha.2
    · refine ⟨hn0, ?_⟩
      rcases ht with ⟨t, e1, e2⟩ | ⟨r, e1, e2⟩
      · obtain ⟨-, hx⟩ := (timeArgs_times e1 e2 _).1 h2
        have hne : t ≠ [] := by
          rintro rfl
          exact hn0 (by simp [Args.nt, e1])
        rw [e1, e2]
        exact (inferTimes_length hne).1 hx
      · obtain ⟨rfl, hx⟩ := (timeArgs_ranges e1 e2 _).1 h2
        rw [e1, e2]
        refine ⟨hl.overlap r e2, ?_⟩
        have hint : rangeIntg r a.intg = .list l := Option.some.inj hint
        obtain ⟨g1, g2, g3⟩ := rangeIntg_list hint
        have hnt : a.nt = r.length := by simp [Args.nt, e1, e2]
        cases hi : a.intg with
        | none => exact (g1 hi).2
        | one x => trivial
        | all m =>
          show m.length = r.length
          rw [← g3 m hi, hlen, hnt]
    · unfold FreqsFit
      rcases hf with ⟨x, e1, e2⟩ | ⟨r, e1, e2⟩
      · obtain ⟨rfl, hx⟩ := (freqArgs_chan e1 e2).1 h3
        rw [e1, e2]
        have hne : x ≠ [] := by
          rintro rfl
          exact hl.freqs.1 (by simp [labels, e1])
        refine ⟨hne, (inferWidths_length hne).1 hx, ?_, ?_⟩
        · intro i hi
          have := hl.freqs.2.2.2.1 i (by simp [labels, hi, spwParams])
          rw [this]
          simp [labels, e1]
        · intro s hs'
          have hsp := hl.spws.2
          have hkd := hl.kind
          simp only [labels, hs', Option.getD_some, Bool.false_eq_true, if_false, Option.some.injEq, exists_eq_left'] at hsp hkd
          cases hi : a.ids with
          | none =>
            rw [hi] at hsp hkd
            refine ⟨hsp, hkd.2.2.2 0 ?_⟩
            have : x.length ≠ 0 := by simpa using hne
            simpa [spwParams] using this
          | some i =>
            rw [hi] at hsp hkd
            refine ⟨?_, hkd.2.2.2⟩
            rw [hsp]
            exact unique_length i
      · obtain ⟨rfl, hw, hi⟩ := (freqArgs_wide e1 e2).1 h3
        rw [e1, e2]
        refine ⟨?_, hw, hi, ?_⟩
        · rintro rfl
          exact hl.spws.1 rfl
        · intro s hs'
          have hsp := hl.spws.2
          simpa [labels, hs'] using hsp
    · refine ⟨jones, jonesArgs_iff.1 h4, ?_, hl.jones.2.2, ?_⟩
      · rintro rfl
        exact hl.jones.1 rfl
      · have hk' : (labels lst a ants intg f jones).calType = a.kind := hk
        unfold Fit at hfit
        rw [hs, hk'] at hfit
        exact hfit
  · rintro ⟨htel, hor, hne, hall, ⟨hn0, htf⟩, hff, ⟨jones, hj, hjn, hjr, hd⟩, hst⟩
    have h1 : antArgs a = .ok (a.ants.getD a.tel.numbers) := antArgs_iff.2 ⟨rfl, hall⟩
    have h4 := jonesArgs_iff.2 hj
    have ht : (∃ t, a.times = some t ∧ a.ranges = none) ∨ (∃ r, a.times = none ∧ a.ranges = some r) := by
      cases e1 : a.times <;> cases e2 : a.ranges <;> simp_all
    have hf : (∃ x, a.freqs = some x ∧ a.freqRange = none) ∨ (∃ r, a.freqs = none ∧ a.freqRange = some r) := by
      unfold FreqsFit at hff
      cases e1 : a.freqs <;> cases e2 : a.freqRange <;> simp_all
    obtain ⟨l, h2, hl2, hov⟩ : ∃ l, timeArgs lst a = .ok (some (.list l)) ∧ l.length = a.nt ∧ ∀ r, a.ranges = some r → overlap r = false := by
      rcases ht with ⟨t, e1, e2⟩ | ⟨r, e1, e2⟩
      · have hnt : a.nt = t.length := by simp [Args.nt, e1]
        have htne : t ≠ [] := by
          rintro rfl
          exact hn0 (by rw [hnt]; rfl)
        rw [e1, e2] at htf
        have := (inferTimes_length htne).2 htf
        exact ⟨_, (timeArgs_times e1 e2 _).2 ⟨rfl, this⟩, by rw [this, hnt], by rw [e2]; nofun⟩
      · have hnt : a.nt = r.length := by simp [Args.nt, e1, e2]
        rw [e1, e2] at htf
        obtain ⟨l, g1, g2⟩ := rangeIntg_some htf.2
        refine ⟨l, (timeArgs_ranges e1 e2 _).2 ⟨by rw [g1], by rw [g1]; exact g2⟩, by rw [g2, hnt], ?_⟩
        intro r' hr'
        rw [e2] at hr'
        rw [← Option.some.inj hr']
        exact htf.1
    obtain ⟨f, h3⟩ : ∃ f, freqArgs a = .ok f := by
      unfold FreqsFit at hff
      rcases hf with ⟨x, e1, e2⟩ | ⟨r, e1, e2⟩
      · rw [e1, e2] at hff
        exact ⟨_, (freqArgs_chan e1 e2).2 ⟨rfl, (inferWidths_length hff.1).2 hff.2.1⟩⟩
      · rw [e1, e2] at hff
        exact ⟨_, (freqArgs_wide e1 e2).2 ⟨rfl, hff.2.1, hff.2.2.1⟩⟩
    obtain ⟨hs, hn, hk⟩ := labels_shape (lst := lst) (intg := some (.list l)) (jones := jones) h1 h3 ht hf
    have hlo : LabelsOk overlap (labels lst a (a.ants.getD a.tel.numbers) (some (.list l)) f jones) := by
      refine ⟨htel, hor, ?_, ⟨a.nt, hn, hn0, ?_, ?_, ?_, ?_, l, rfl, hl2⟩, ⟨?_, rfl⟩, ⟨?_, rfl, hjr⟩, ?_, ?_, hst, ?_, hov, hall, ?_⟩
      · rcases hf with ⟨x, e1, e2⟩ | ⟨r, e1, e2⟩
        · obtain ⟨rfl, -⟩ := (freqArgs_chan e1 e2).1 h3
          nofun
        · intro _
          simp [labels, e1]
      · intro m hm
        have hm : a.times = some m := hm
        simp [Args.nt, hm]
      · intro m hm
        obtain ⟨t, e, rfl⟩ := Option.map_eq_some_iff.1 (show a.times.map (·.map lst) = some m from hm)
        simp [Args.nt, e]
      · intro m hm
        have hm : a.ranges = some m := hm
        rcases ht with ⟨t, e1, e2⟩ | ⟨r, e1, e2⟩
        · rw [e2] at hm; cases hm
        · simp [Args.nt, e1, hm]
      · intro m hm
        obtain ⟨r', e, rfl⟩ := Option.map_eq_some_iff.1 (show a.ranges.map (·.map (fun r => (lst r.1, lst r.2))) = some m from hm)
        rcases ht with ⟨t, e1, e2⟩ | ⟨r, e1, e2⟩
        · rw [e2] at e; cases e
        · simp [Args.nt, e1, e]
      · simpa [labels] using hne
      · simpa [labels] using hjn
      · unfold FreqsFit at hff
        rcases hf with ⟨x, e1, e2⟩ | ⟨r, e1, e2⟩
        · obtain ⟨rfl, -⟩ := (freqArgs_chan e1 e2).1 h3
          rw [e1, e2] at hff
          obtain ⟨f1, f2, f3, f4⟩ := hff
          have hlen : ((spwParams x.length a.ids).2).length ≠ 0 := by
            cases hi : a.ids with
            | none => simp [spwParams]
            | some i =>
              have := f3 i hi
              cases i with
              | nil => exact absurd (List.length_eq_zero_iff.1 this.symm) f1
              | cons w i =>
                intro h0
                have := mem_unique.2 (List.mem_cons_self (a := w) (l := i))
                rw [show unique (w :: i) = [] from List.length_eq_zero_iff.1 h0] at this
                simp at this
          refine ⟨hlen, ?_⟩
          cases hsp : a.spws with
          | none => simp [labels, hsp]
          | some s =>
            have := (f4 s hsp).1
            simp only [labels, hsp, Option.getD_some]
            rw [this]
            cases hi : a.ids with
            | none => rfl
            | some i => exact (unique_length i).symm
        · obtain ⟨rfl, -⟩ := (freqArgs_wide e1 e2).1 h3
          rw [e1, e2] at hff
          refine ⟨by simpa [labels] using hff.1, ?_⟩
          cases hsp : a.spws with
          | none => simp [labels, hsp]
          | some s =>
            have := hff.2.2.2 s hsp
            simp [labels, hsp, this]
      · unfold FreqsFit at hff
        rcases hf with ⟨x, e1, e2⟩ | ⟨r, e1, e2⟩
        · obtain ⟨rfl, hw⟩ := (freqArgs_chan e1 e2).1 h3
          rw [e1, e2] at hff
          obtain ⟨f1, f2, f3, f4⟩ := hff
          refine ⟨?_, ?_, ?_, ?_, ?_⟩
          · simpa [labels, e1] using f1
          · intro m hm
            have hm : a.freqs = some m := hm
            simp [labels, hm]
          · intro m hm
            rw [← Option.some.inj hm, hw]
            simp [labels, e1]
          · intro m hm
            rw [← Option.some.inj hm]
            cases hi : a.ids with
            | none => simp [labels, spwParams, e1]
            | some i => simpa [labels, spwParams, e1] using f3 i hi
          · intro m hm
            exact nomatch e2.symm.trans hm
        · obtain ⟨rfl, -⟩ := (freqArgs_wide e1 e2).1 h3
          refine ⟨by simp [labels, e1], ?_, nofun, nofun, ?_⟩
          · intro m hm
            exact nomatch e1.symm.trans hm
          · intro m hm
            rw [← Option.some.inj (e2.symm.trans hm)]
            simp [labels]
      · rcases ht with ⟨t, e1, e2⟩ | ⟨r, e1, e2⟩ <;> simp [labels, e1, e2]
      · unfold FreqsFit at hff
        rcases hf with ⟨x, e1, e2⟩ | ⟨r, e1, e2⟩
        · obtain ⟨rfl, -⟩ := (freqArgs_chan e1 e2).1 h3
          rw [e1, e2] at hff
          obtain ⟨f1, f2, f3, f4⟩ := hff
          refine ⟨by simp [labels, e1], rfl, e2, _, rfl, ?_⟩
          intro w hw
          cases hsp : a.spws with
          | none =>
            cases hi : a.ids with
            | none =>
              rw [hi] at hw
              simp only [spwParams, List.mem_replicate] at hw
              simp [labels, hsp, hi, spwParams, hw.2]
            | some i =>
              rw [hi] at hw
              simp only [labels, hsp, hi, Option.getD_none]
              exact mem_unique.2 hw
          | some s =>
            have := (f4 s hsp).2
            simp only [labels, hsp, Option.getD_some]
            cases hi : a.ids with
            | none =>
              rw [hi] at hw this
              simp only [spwParams, List.mem_replicate] at hw
              rw [hw.2]
              exact this
            | some i =>
              rw [hi] at hw this
              exact this w hw
        · obtain ⟨rfl, -⟩ := (freqArgs_wide e1 e2).1 h3
          exact ⟨by simp [labels, e2], e1, rfl, rfl⟩
    refine ⟨_, new_iff_steps.2 ⟨hor, _, _, _, _, h1, h2, h3, h4, hst, rfl, ?_⟩⟩
    rw [check_fill rfl rfl rfl rfl rfl]
    refine ⟨?_, ?_⟩
    · unfold check
      rw [checkLabels_iff.2 hlo]
      rfl
    · unfold Fit
      have hk' : (labels lst a (a.ants.getD a.tel.numbers) (some (.list l)) f jones).calType = a.kind := hk
      rw [hs, hk']
      exact hd

theorem fill_given [Zero V] [One V] {e : Bool} {d : Data V} {c : Cal K P D V} (h : (e || d.given) = true) :
    (fill e d c).flag = some (d.flag.getD ⟨c.shape, fun _ => false⟩) ∧
    (fill e d c).gain = (if c.calType = .delay then none else some (d.gain.getD ⟨c.shape, fun _ => 1⟩)) ∧
    (fill e d c).delay = (if c.calType = .delay then some (d.delay.getD ⟨c.shape, fun _ => 0⟩) else none) ∧
    (fill e d c).quality = d.quality ∧ (fill e d c).total = d.total := by
  unfold fill
  rw [if_pos h]
  exact ⟨rfl, rfl, rfl, rfl, rfl⟩

/-- A property of the labels alone. -/
theorem fill_labels [Zero V] [One V] {e : Bool} {d : Data V} {c : Cal K P D V} {α : Type} (p : Cal K P D V → α)
    (hp : ∀ x1 x2 x3 x4 x5, p { c with flag := x1, gain := x2, delay := x3, quality := x4, total := x5 } = p c) : p (fill e d c) = p c := by
  unfold fill
  split
  · exact hp _ _ _ _ _
  · rfl

/-- C210: the object that is made is the one that was asked for. -/
theorem made [Zero V] [One V] (lst : K → K) (overlap : List (K × K) → Bool) (a : Args K P D V) (c : Cal K P D V) (h : new lst overlap a = .ok c) :
    Made lst a c := by
  obtain ⟨ants, intg, f, jones, h1, h2, h3, h4, rfl, hl, hfit⟩ := new_parts h
  obtain ⟨ht, hf⟩ := new_either h3 hl
  obtain ⟨hs, hn, hk⟩ := labels_shape (lst := lst) (intg := intg) (jones := jones) h1 h3 ht hf
  have ha := antArgs_iff.1 h1
  have lab : ∀ {α : Type} (p : Cal K P D V → α),
      (∀ x1 x2 x3 x4 x5, p { labels lst a ants intg f jones with flag := x1, gain := x2, delay := x3, quality := x4, total := x5 } =
        p (labels lst a ants intg f jones)) →
      p (fill a.empty a.data (labels lst a ants intg f jones)) = p (labels lst a ants intg f jones) := fun p hp => fill_labels p hp
  have hj : (fill a.empty a.data (labels lst a ants intg f jones)).jones = jones := lab Cal.jones (fun _ _ _ _ _ => rfl)
  constructor
  · exact lab Cal.tel (fun _ _ _ _ _ => rfl)
  · rw [lab Cal.ants (fun _ _ _ _ _ => rfl)]
    exact ha.1
  · rw [hj]
    exact jonesArgs_iff.1 h4
  · exact lab Cal.times (fun _ _ _ _ _ => rfl)
  · exact lab Cal.ranges (fun _ _ _ _ _ => rfl)
  · intro t e
    rw [lab Cal.lst (fun _ _ _ _ _ => rfl)]
    simp [labels, e]
  · intro r e
    rw [lab Cal.lstRange (fun _ _ _ _ _ => rfl)]
    simp [labels, e]
  · rw [lab Cal.intg (fun _ _ _ _ _ => rfl)]
    obtain ⟨n, e0, hn0, -, -, -, -, l, hint, hlen⟩ := hl.times
    rw [hn] at e0
    obtain rfl := Option.some.inj e0
    refine ⟨l, hint, hlen, ?_⟩
    have hint : intg = some (.list l) := hint
    rcases ht with ⟨t, e1, e2⟩ | ⟨r, e1, e2⟩
    · obtain ⟨e3, -⟩ := (timeArgs_times e1 e2 _).1 h2
      rw [hint] at e3
      injection e3 with e3
      injection e3 with e3
      rw [e3]
      refine ⟨?_, ?_, ?_⟩
      · intro x hx y hy
        rw [hx] at hy
        simp only [inferTimes, List.mem_map] at hy
        obtain ⟨_, _, rfl⟩ := hy
        rfl
      · intro m hm
        rw [hm]
        rfl
      · intro _ r hr
        rw [e2] at hr
        cases hr
    · obtain ⟨e3, -⟩ := (timeArgs_ranges e1 e2 _).1 h2
      rw [hint] at e3
      obtain ⟨g1, g2, g3⟩ := rangeIntg_list (Option.some.inj e3).symm
      refine ⟨?_, g3, ?_⟩
      · intro x hx y hy
        rw [g2 x hx, List.mem_map] at hy
        obtain ⟨_, _, rfl⟩ := hy
        rfl
      · intro hi r' hr'
        rw [e2] at hr'
        rw [← Option.some.inj hr']
        exact (g1 hi).1
  · exact lab Cal.freqs (fun _ _ _ _ _ => rfl)
  · exact lab Cal.freqRange (fun _ _ _ _ _ => rfl)
  · rw [lab Cal.wide (fun _ _ _ _ _ => rfl)]
    show f.wide = _
    rcases hf with ⟨x, e1, e2⟩ | ⟨r, e1, e2⟩
    · obtain ⟨rfl, -⟩ := (freqArgs_chan e1 e2).1 h3
      rw [e2]; rfl
    · obtain ⟨rfl, -⟩ := (freqArgs_wide e1 e2).1 h3
      rw [e2]; rfl
  · rw [lab Cal.calType (fun _ _ _ _ _ => rfl)]
    exact hk
  · intro x hx
    rw [lab Cal.width (fun _ _ _ _ _ => rfl)]
    rcases hf with ⟨y, e1, e2⟩ | ⟨r, e1, e2⟩
    · obtain ⟨rfl, hw⟩ := (freqArgs_chan e1 e2).1 h3
      obtain rfl := Option.some.inj (e1.symm.trans hx)
      refine ⟨_, rfl, hw, ?_, ?_⟩
      · intro z hz u hu
        rw [hz] at hu
        simp only [inferWidths, List.mem_map] at hu
        obtain ⟨_, _, rfl⟩ := hu
        rfl
      · intro m hm
        rw [hm]
        rfl
    · exact nomatch e1.symm.trans hx
  · intro x hx
    rw [lab Cal.ids (fun _ _ _ _ _ => rfl)]
    rcases hf with ⟨y, e1, e2⟩ | ⟨r, e1, e2⟩
    · obtain ⟨rfl, hw⟩ := (freqArgs_chan e1 e2).1 h3
      obtain rfl := Option.some.inj (e1.symm.trans hx)
      show some (spwParams y.length a.ids).1 = _
      cases a.ids with
      | none => simp [spwParams]
      | some i => rfl
    · exact nomatch e1.symm.trans hx
  · rw [lab Cal.spws (fun _ _ _ _ _ => rfl)]
    show match a.spws, a.freqs with
      | some s, _ => a.spws.getD f.spws = s
      | none, some _ => (a.spws.getD f.spws).Pairwise (· < ·) ∧ ∀ w, w ∈ a.spws.getD f.spws ↔ w ∈ a.ids.getD [0]
      | none, none => a.spws.getD f.spws = (List.range (a.freqRange.getD []).length).map Int.ofNat
    cases a.spws with
    | some s => rfl
    | none =>
      rcases hf with ⟨y, e1, e2⟩ | ⟨r, e1, e2⟩
      · obtain ⟨rfl, hw⟩ := (freqArgs_chan e1 e2).1 h3
        rw [e1]
        dsimp only [Option.getD_none]
        cases a.ids with
        | none => exact ⟨List.pairwise_singleton _ _, fun w => by simp [spwParams]⟩
        | some i => exact ⟨unique_sorted i, fun w => mem_unique⟩
      · obtain ⟨rfl, -⟩ := (freqArgs_wide e1 e2).1 h3
        rw [e1, e2]
        rfl
  · rw [lab Cal.nants (fun _ _ _ _ _ => rfl), lab Cal.ants (fun _ _ _ _ _ => rfl), lab Cal.njones (fun _ _ _ _ _ => rfl), hj,
      lab Cal.ntimes (fun _ _ _ _ _ => rfl), lab Cal.nspws (fun _ _ _ _ _ => rfl), lab Cal.spws (fun _ _ _ _ _ => rfl),
      lab Cal.nfreqs (fun _ _ _ _ _ => rfl)]
    exact ⟨rfl, rfl, hn, hl.spws.2.symm, rfl⟩
  · rw [hj, ← hs]
    by_cases hg : (a.empty || a.data.given) = true
    · right
      refine ⟨by simpa using hg, ?_⟩
      obtain ⟨g1, g2, g3, g4, g5⟩ := fill_given (c := labels lst a ants intg f jones) hg
      have hk' : (labels lst a ants intg f jones).calType = a.kind := hk
      rw [hk'] at g2 g3
      refine ⟨g1, ?_, ?_, g4, g5⟩
      · rw [g2]
        cases a.kind <;> rfl
      · rw [g3]
    · left
      have e : fill a.empty a.data (labels lst a ants intg f jones) = labels lst a ants intg f jones := by
        unfold fill
        rw [if_neg hg]
      rw [e]
      simp only [Bool.or_eq_true, not_or, Bool.not_eq_true] at hg
      exact ⟨hg.1, hg.2, rfl, rfl, rfl, rfl, rfl⟩

/-- C210: one range of times without an integration time is always refused, though the length of the range is known. -/
theorem one_range_counterexample [Zero V] [One V] (lst : K → K) (overlap : List (K × K) → Bool) (a : Args K P D V) (r : K × K)
    (hr : a.ranges = some [r]) (hi : a.intg = .none) : ∀ c, new lst overlap a ≠ .ok c := by
  intro c h
  obtain ⟨-, -, -, -, ⟨-, ht⟩, -⟩ := (accept lst overlap a).1 ⟨c, h⟩
  rw [hr, hi] at ht
  cases e : a.times with
  | none => rw [e] at ht; exact ht.2 rfl
  | some t => rw [e] at ht; exact ht

/-- C210: delays that are asked for with channels become gains without a word, and delays that are given are dropped. -/
theorem delay_channels_counterexample [Zero V] [One V] (lst : K → K) (overlap : List (K × K) → Bool) (a : Args K P D V) (c : Cal K P D V)
    (hf : a.freqs.isSome) (h : new lst overlap a = .ok c) : c.calType = .gain ∧ c.delay = none := by
  have m := made lst overlap a c h
  have hk : a.kind = .gain := by simp [Args.kind, hf]
  refine ⟨m.kind.trans hk, ?_⟩
  rcases m.arrays with ⟨-, -, -, -, h, -⟩ | ⟨-, -, -, h, -⟩
  · exact h
  · rw [h, hk]
    rfl

end Verif.NewCal
