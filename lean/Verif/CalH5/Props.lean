import Verif.CalH5.Model
import Verif.CalSelect.Whole
import Mathlib.Data.Finset.Card
import Mathlib.Data.Finset.Range
import Mathlib.Tactic.Linarith

/-!
What reading a part of a calibration file gives: the same labels and values as `UVCal.select` keeps (`Kept`, `Cut` of `Verif.CalSelect`).
-/
namespace Verif.CalH5
open Verif.Np Verif.CalAdd Verif.CalSelect

variable {K R V Q α : Type}

/-! ## Lists of positions -/

theorem full {l : List Nat} {n : Nat} (hs : l.Pairwise (· < ·)) (hlt : ∀ i ∈ l, i < n) (hn : n ≤ l.length) : l = List.range n := by
  refine strictSorted_ext hs List.pairwise_lt_range (fun k => ?_)
  rw [List.mem_range]
  refine ⟨hlt k, fun hk => ?_⟩
  have hnd : l.Nodup := hs.imp (fun h => ne_of_lt h)
  have hsub : l.toFinset ⊆ Finset.range n := fun i hi => Finset.mem_range.2 (hlt i (List.mem_toFinset.1 hi))
  have heq : l.toFinset = Finset.range n := Finset.eq_of_subset_of_card_le hsub (by
    rw [Finset.card_range, List.toFinset_card_of_nodup hnd]
    exact hn)
  exact List.mem_toFinset.1 (heq ▸ Finset.mem_range.2 hk)

theorem via_full {l : List Nat} {n : Nat} (hs : l.Pairwise (· < ·)) (hlt : ∀ i ∈ l, i < n) (hn : n ≤ l.length) (k : Nat) (hk : k < l.length) :
    via l k = k := by
  have h := full hs hlt hn
  rw [h] at hk ⊢
  exact via_range n k (by simpa using hk)

theorem length_le {l : List Nat} {n : Nat} (hs : l.Pairwise (· < ·)) (hlt : ∀ i ∈ l, i < n) : l.length ≤ n := by
  have hnd : l.Nodup := hs.imp (fun h => ne_of_lt h)
  rw [← List.toFinset_card_of_nodup hnd, ← Finset.card_range n]
  exact Finset.card_le_card (fun i hi => Finset.mem_range.2 (hlt i (List.mem_toFinset.1 hi)))

/-- Strictly rising positions are read from the file as they are. -/
theorem readAt_eq {n : Nat} {fr : ℚ} {l : List Nat} (hs : l.Pairwise (· < ·)) (hlt : ∀ i ∈ l, i < n) (hne : l ≠ []) : readAt n fr l = some l := by
  have hp : Slices.picks n (.list l) = some l := if_pos hlt
  unfold readAt
  rw [if_neg hne]
  dsimp only
  split
  · exact Slices.convert_picks (.list l) fr none false n l ⟨hne, hs⟩ hp
  · exact hp

theorem ratio_le {n : Nat} {l : Option (List Nat)} (hs : (eff n l).Pairwise (· < ·)) (hlt : ∀ i ∈ eff n l, i < n) : ratio n l ≤ 1 := by
  cases l with
  | none => exact le_refl _
  | some l =>
    refine div_le_one_of_le₀ ?_ (Nat.cast_nonneg n)
    exact_mod_cast length_le hs hlt

/-- An axis that is not cut is kept whole. -/
theorem ratio_full {n : Nat} {l : Option (List Nat)} (hs : (eff n l).Pairwise (· < ·)) (hlt : ∀ i ∈ eff n l, i < n) (h : ¬ ratio n l < 1) :
    eff n l = List.range n := by
  cases l with
  | none => rfl
  | some l =>
    refine full hs hlt ?_
    show n ≤ l.length
    by_contra hc
    apply h
    have hn : (0 : ℚ) < n := by
      have : 0 < n := by omega
      exact_mod_cast this
    show (l.length : ℚ) / n < 1
    rw [div_lt_one hn]
    exact_mod_cast not_le.1 hc

/-! ## The axis that is cut first -/

theorem min_le (fr : Axis → ℚ) (x : Axis) : minFrac fr ≤ fr x := by
  unfold minFrac
  cases x <;> simp

theorem first_min (fr : Axis → ℚ) : fr (first fr) = minFrac fr := by
  unfold first
  split
  · assumption
  · split
    · assumption
    · split
      · assumption
      · split
        · assumption
        · rename_i h1 h2 h3 h4
          have h : minFrac fr = fr .jones := by
            have ha := lt_of_le_of_ne (min_le fr .ant) (Ne.symm h1)
            have hf := lt_of_le_of_ne (min_le fr .freq) (Ne.symm h2)
            have hs := lt_of_le_of_ne (min_le fr .spw) (Ne.symm h3)
            have ht := lt_of_le_of_ne (min_le fr .time) (Ne.symm h4)
            have key : minFrac fr = fr .ant ∨ minFrac fr = fr .time ∨ minFrac fr = fr .freq ∨ minFrac fr = fr .jones ∨ minFrac fr = fr .spw := by
              unfold minFrac
              rcases min_choice (fr .ant) (min (fr .time) (min (fr .freq) (min (fr .jones) (fr .spw)))) with h | h <;> rw [h]
              · exact Or.inl rfl
              · rcases min_choice (fr .time) (min (fr .freq) (min (fr .jones) (fr .spw))) with h | h <;> rw [h]
                · exact Or.inr (Or.inl rfl)
                · rcases min_choice (fr .freq) (min (fr .jones) (fr .spw)) with h | h <;> rw [h]
                  · exact Or.inr (Or.inr (Or.inl rfl))
                  · rcases min_choice (fr .jones) (fr .spw) with h | h <;> rw [h]
                    · exact Or.inr (Or.inr (Or.inr (Or.inl rfl)))
                    · exact Or.inr (Or.inr (Or.inr (Or.inr rfl)))
            rcases key with h | h | h | h | h
            · exact absurd h (ne_of_lt ha)
            · exact absurd h (ne_of_lt ht)
            · exact absurd h (ne_of_lt hf)
            · exact h
            · exact absurd h (ne_of_lt hs)
          exact h.symm

/-- The positions used on an axis: those of the list if the axis is cut, in the file or afterwards. -/
def used (fr : Axis → ℚ) (L : Axis → List Nat) (x y : Axis) (k : Nat) : Nat := if y = x ∨ fr y < 1 then via (L y) k else k

theorem down4_eq (fr : Axis → ℚ) (L : Axis → List Nat) (x : Axis) (a : Arr4 α) (i f t j : Nat)
    (h : ((x ≠ .freq ∧ fr .freq = 1) ∨ (x ≠ .spw ∧ fr .spw = 1))) :
    down at4 (done fr x) L (at4 x (L x) a) i f t j =
      a (used fr L x .ant i) (used fr L x .freq (used fr L x .spw f)) (used fr L x .time t) (used fr L x .jones j) := by
  rcases h with ⟨h1, h2⟩ | ⟨h1, h2⟩ <;> cases x <;> first | exact absurd rfl h1 | skip <;>
    simp only [down, done, used, at4, List.foldl_cons, List.foldl_nil, h2, reduceCtorEq, if_true, if_false, true_or, false_or, lt_self_iff_false] <;>
    split_ifs <;> rfl

theorem down3_eq (fr : Axis → ℚ) (L : Axis → List Nat) (x : Axis) (a : Add.Arr α) (f t j : Nat)
    (h : ((x ≠ .freq ∧ fr .freq = 1) ∨ (x ≠ .spw ∧ fr .spw = 1))) :
    down at3 (done fr x) L (at3 x (L x) a) f t j =
      a (used fr L x .freq (used fr L x .spw f)) (used fr L x .time t) (used fr L x .jones j) := by
  rcases h with ⟨h1, h2⟩ | ⟨h1, h2⟩ <;> cases x <;> first | exact absurd rfl h1 | skip <;>
    simp only [down, done, used, at3, List.foldl_cons, List.foldl_nil, h2, reduceCtorEq, if_true, if_false, true_or, false_or, lt_self_iff_false] <;>
    split_ifs <;> rfl


/-! ## The whole file, and parts of it -/

variable [Field K] [LinearOrder K]

/-- The channel numbers that are asked for exist. -/
def ChansExist (o : Obj K R V Q) (q : Req K) : Prop := ∀ ch, q.chans = some ch → ∀ x ∈ ch, 0 ≤ x ∧ x < (o.ids.length : Int)

/-- Every window has a channel, unless the object is wide-band. -/
def WindowsUsed (o : Obj K R V Q) : Prop := o.wide = false → ∀ w ∈ o.spws, w ∈ o.ids

/-- The channels: rising numbers of channels that exist. -/
theorem chan_list {c : Ctx K R} {o : Obj K R V Q} {q : Req K} {i : Inds} (hfit : Fits o) (hch : ChansExist o q) (hn : o.wide = false)
    (hp : preprocess c o q = .ok i) {l : List Int} (hl : i.chans = some l) :
    ∃ ps : List Nat, l.mapM (pos o.ids.length) = some ps ∧ l = ps.map (fun k : Nat => (k : Int)) ∧ ps.Pairwise (· < ·) ∧ ∀ k ∈ ps, k < o.ids.length := by
  obtain ⟨nums, s, f, f', p1, p2, p3, p4, p5, p6, p7⟩ := preprocess_ok hp
  obtain ⟨w1, w2, w3, w4⟩ := narrow_inds hfit hn p4 p5 p6 p7
  have ha : ChansAsked o q ∨ ByWindow c o q := by
    by_contra ha
    exact nomatch (w4 ha).symm.trans hl
  obtain ⟨l', hl', hls, hlm⟩ := w3 ha
  obtain rfl := Option.some.inj (hl.symm.trans hl')
  have hr : ∀ x ∈ l, 0 ≤ x ∧ x < (o.ids.length : Int) := by
    intro x hx
    obtain ⟨h1, h2⟩ := (hlm x).1 hx
    rcases ha with ha | ha
    · rcases h1 ha with ⟨ch, hc, hx⟩ | ⟨j, rfl, hj⟩
      · exact hch ch hc x hx
      · refine ⟨Int.natCast_nonneg j, ?_⟩
        rcases hj with ⟨ch, hc, hx⟩ | ⟨fs, _, y, _, hy⟩ | ⟨ws, _, w, _, hy⟩
        · exact (hch ch hc _ hx).2
        · have := (List.getElem?_eq_some_iff.1 hy).1
          rw [hfit.freq] at this
          exact_mod_cast this
        · exact_mod_cast (List.getElem?_eq_some_iff.1 hy).1
    · obtain ⟨j, rfl, w, hw, _⟩ := h2 ha
      exact ⟨Int.natCast_nonneg j, by exact_mod_cast (List.getElem?_eq_some_iff.1 hw).1⟩
  obtain ⟨ps, hps⟩ := positions_some hr
  obtain ⟨e, hlt⟩ := positions (fun x hx => (hr x hx).1) hps
  refine ⟨ps, hps, e, ?_, hlt⟩
  rw [e, List.pairwise_map] at hls
  exact hls.imp (fun h => by simpa using h)

/-- The positions on every axis rise, and exist. -/
theorem lists_ok {c : Ctx K R} {o : Obj K R V Q} {q : Req K} {i : Inds} (hfit : Fits o) (hch : ChansExist o q)
    (hp : preprocess c o q = .ok i) (x : Axis) : (lists o i x).Pairwise (· < ·) ∧ ∀ k ∈ lists o i x, k < axisLen o x := by
  obtain ⟨nums, s, f, f', p1, p2, p3, p4, p5, p6, p7⟩ := preprocess_ok hp
  cases x with
  | ant => exact ⟨(ants_spec p1 p2).sorted, (ants_spec p1 p2).lt⟩
  | time => exact ⟨(times_spec p3).sorted, (times_spec p3).lt⟩
  | jones => exact ⟨(jones_spec p7).1.sorted, (jones_spec p7).1.lt⟩
  | spw =>
    by_cases hw : o.wide = true
    · exact ⟨(wide_inds hfit hw p4 p5 p6 p7).2.sorted, (wide_inds hfit hw p4 p5 p6 p7).2.lt⟩
    · obtain ⟨w1, w2, _⟩ := narrow_inds hfit (by simpa using hw) p4 p5 p6 p7
      exact ⟨w2, fun k hk => ((w1 k).1 hk).1⟩
  | freq =>
    unfold lists axisLen
    dsimp only
    cases hl : i.chans with
    | none => exact ⟨List.pairwise_lt_range, fun k hk => List.mem_range.1 hk⟩
    | some l =>
      by_cases hw : o.wide = true
      · exact nomatch (wide_inds hfit hw p4 p5 p6 p7).1.symm.trans hl
      · obtain ⟨ps, h1, _, h3, h4⟩ := chan_list hfit hch (by simpa using hw) hp hl
        dsimp only
        rw [h1]
        exact ⟨h3, h4⟩

theorem fracs_le {c : Ctx K R} {o : Obj K R V Q} {q : Req K} {i : Inds} (hfit : Fits o) (hch : ChansExist o q)
    (hp : preprocess c o q = .ok i) (x : Axis) : fracs o i x ≤ 1 := by
  obtain ⟨h1, h2⟩ := lists_ok hfit hch hp x
  cases x with
  | ant => exact ratio_le h1 h2
  | time => exact ratio_le h1 h2
  | jones => exact ratio_le h1 h2
  | spw =>
    show (if o.wide then _ else _) ≤ _
    split
    · exact ratio_le h1 h2
    · exact le_refl _
  | freq =>
    show (if o.wide then _ else _) ≤ _
    split
    · exact le_refl _
    · rename_i hw
      cases hl : i.chans with
      | none => exact le_refl _
      | some l =>
        obtain ⟨ps, h3, h4, h5, h6⟩ := chan_list hfit hch (by simpa using hw) hp hl
        refine div_le_one_of_le₀ ?_ (Nat.cast_nonneg _)
        rw [h4, List.length_map]
        exact_mod_cast length_le h5 h6

/-- The second axis of the arrays is the other one. -/
def idle (o : Obj K R V Q) (x : Axis) : Prop := (o.wide = true ∧ x = .freq) ∨ (o.wide = false ∧ x = .spw)

theorem fracs_full {c : Ctx K R} {o : Obj K R V Q} {q : Req K} {i : Inds} (hfit : Fits o) (hch : ChansExist o q)
    (hp : preprocess c o q = .ok i) (x : Axis) (hx : ¬ idle o x) (h : ¬ fracs o i x < 1) : lists o i x = List.range (axisLen o x) := by
  obtain ⟨h1, h2⟩ := lists_ok hfit hch hp x
  cases x with
  | ant => exact ratio_full h1 h2 h
  | time => exact ratio_full h1 h2 h
  | jones => exact ratio_full h1 h2 h
  | spw =>
    have hw : o.wide = true := by
      by_contra hw
      exact hx (Or.inr ⟨by simpa using hw, rfl⟩)
    change ¬ (if o.wide then _ else _) < _ at h
    rw [if_pos hw] at h
    exact ratio_full h1 h2 h
  | freq =>
    have hw : ¬ o.wide = true := fun hw => hx (Or.inl ⟨hw, rfl⟩)
    change ¬ (if o.wide then _ else _) < _ at h
    rw [if_neg hw] at h
    cases hl : i.chans with
    | none => unfold lists; rw [hl]; rfl
    | some l =>
      obtain ⟨ps, h3, h4, h5, h6⟩ := chan_list hfit hch (by simpa using hw) hp hl
      have e : lists o i .freq = ps := by
        unfold lists
        rw [hl]
        dsimp only
        rw [h3]
        rfl
      rw [e]
      have hr : ¬ ratio o.ids.length (some ps) < 1 := by
        rw [hl] at h
        unfold ratio at h ⊢
        dsimp only at h ⊢
        rw [h4, List.length_map] at h
        exact h
      exact ratio_full (l := some ps) h5 h6 hr


/-- Nothing is left out: the whole file is what was asked for. -/
theorem kept_whole {c : Ctx K R} {o : Obj K R V Q} {q : Req K} {i : Inds} (hfit : Fits o) (hch : ChansExist o q) (hwin : WindowsUsed o)
    (hp : preprocess c o q = .ok i) (h : ∀ x, ¬ fracs o i x < 1) :
    Kept c o q (List.range o.ants.length) (List.range o.times.length) (List.range o.ids.length) (List.range o.spws.length)
      (List.range o.jones.length) := by
  have hl : ∀ x, ¬ idle o x → lists o i x = List.range (axisLen o x) := fun x hx => fracs_full hfit hch hp x hx (h x)
  obtain ⟨nums, s, f, f', p1, p2, p3, p4, p5, p6, p7⟩ := preprocess_ok hp
  have hi : ∀ x : Axis, x ≠ .freq → x ≠ .spw → ¬ idle o x := by
    rintro x h1 h2 (⟨_, h⟩ | ⟨_, h⟩)
    · exact h1 h
    · exact h2 h
  have eA : eff o.ants.length i.ants = List.range o.ants.length := hl .ant (hi _ (by decide) (by decide))
  have eT : eff o.times.length i.times = List.range o.times.length := hl .time (hi _ (by decide) (by decide))
  have eJ : eff o.jones.length i.jones = List.range o.jones.length := hl .jones (hi _ (by decide) (by decide))
  refine ⟨eA ▸ ants_spec p1 p2, eT ▸ times_spec p3, fun hn => ?_, fun hn => ?_, fun hw => ⟨rfl, ?_⟩, eJ ▸ (jones_spec p7).1⟩
  · refine picks_range _ (fun j hj => ?_)
    obtain ⟨w1, w2, w3, w4⟩ := narrow_inds hfit hn p4 p5 p6 p7
    by_cases ha : ChansAsked o q ∨ ByWindow c o q
    · obtain ⟨l, hil, _, hlm⟩ := w3 ha
      obtain ⟨ps, h3, h4, h5, h6⟩ := chan_list hfit hch hn hp hil
      have e := hl .freq (by
        rintro (⟨h, _⟩ | ⟨_, h⟩)
        · rw [hn] at h; cases h
        · cases h)
      unfold lists at e
      rw [hil] at e
      dsimp only at e
      rw [h3] at e
      have hmem : (j : Int) ∈ l := by
        rw [h4]
        refine List.mem_map.2 ⟨j, ?_, rfl⟩
        have : j ∈ (some ps).getD [] := e ▸ List.mem_range.2 hj
        exact this
      obtain ⟨h7, h8⟩ := (hlm j).1 hmem
      refine ⟨fun ha => numOk_nat.1 (h7 ha), fun hb => ?_⟩
      obtain ⟨n, e, w, hw, k, hk, hk'⟩ := h8 hb
      obtain rfl := Int.ofNat.inj e
      exact ⟨k, hk, hk'.trans hw.symm⟩
    · exact ⟨fun h => absurd (Or.inl h) ha, fun h => absurd (Or.inr h) ha⟩
  · refine picks_range _ (fun k hk _ => ?_)
    obtain ⟨j, hj, e⟩ := List.mem_iff_getElem.1 (hwin hn _ (List.getElem_mem hk))
    exact ⟨j, List.mem_range.2 hj, by rw [List.getElem?_eq_getElem hj, List.getElem?_eq_getElem hk, e]⟩
  · have e := hl .spw (by
      rintro (⟨_, h⟩ | ⟨h, _⟩)
      · cases h
      · rw [hw] at h; cases h)
    have := (wide_inds hfit hw p4 p5 p6 p7).2
    rw [show eff o.spws.length i.spws = List.range o.spws.length from e] at this
    exact this

/-- The arrays that are read belong to the labels. -/
theorem arrays_cut {c : Ctx K R} {o o1 o' : Obj K R V Q} {q : Req K} {i : Inds} (hfit : Fits o) (hnd : o.spws.Nodup) (hch : ChansExist o q)
    (hp : preprocess c o q = .ok i) (hm : minFrac (fracs o i) ≠ 1) (hb : byIndex o i = (o1, none)) (h : arrays o o1 i = some o') :
    ∃ A T F W J, Kept c o q A T F W J ∧ Cut o o' A T F W J := by
  obtain ⟨F, W, hk, hc, hwide, hnar⟩ := kept_inds hfit hnd (fun ch e x hx => (hch ch e x hx).1) hp hb
  refine ⟨_, _, F, W, _, hk, ?_⟩
  -- the axis that is cut in the file
  have hlt : fracs o i (first (fracs o i)) < 1 := by
    rw [first_min (fracs o i)]
    exact lt_of_le_of_ne ((min_le _ .ant).trans (fracs_le hfit hch hp .ant)) hm
  unfold arrays at h
  dsimp only at h
  generalize hx : first (fracs o i) = x at h hlt
  obtain ⟨hs, hl⟩ := lists_ok hfit hch hp x
  have hfile : fileList o i x = some (lists o i x) := by
    unfold fileList
    split
    · rename_i l hil
      rw [if_pos]
      rw [List.all_eq_true]
      intro k hk
      by_cases hw : o.wide = true
      · exact nomatch (hwide hw).1.symm.trans hil
      · rw [(hnar (by simpa using hw)).2 l hil] at hk
        obtain ⟨m, _, rfl⟩ := List.mem_map.1 hk
        simp
    · rfl
  rw [hfile, Option.bind_some] at h
  cases hr : readAt (axisLen o x) (sliceFrac x) (lists o i x) with
  | none => rw [hr] at h; cases h
  | some P =>
    rw [hr] at h
    have hne : lists o i x ≠ [] := by
      intro he
      unfold readAt at hr
      rw [if_pos he] at hr
      cases hr
    obtain rfl : lists o i x = P := Option.some.inj ((readAt_eq hs hl hne).symm.trans hr)
    have h := Option.some.inj h
    subst h
    -- positions on every axis
    have hused : ∀ y, ¬ idle o y → ∀ k, k < (lists o i y).length → used (fracs o i) (lists o i) x y k = via (lists o i y) k := by
      intro y hy k hk
      unfold used
      split
      · rfl
      · rename_i hn
        have e := fracs_full hfit hch hp y hy (fun h => hn (Or.inr h))
        rw [e] at hk ⊢
        exact (via_range _ k (by simpa using hk)).symm
    have hidle : ∀ y, idle o y → fracs o i y = 1 := by
      rintro y (⟨hw, rfl⟩ | ⟨hw, rfl⟩)
      · exact if_pos hw
      · exact if_neg (by rw [hw]; exact Bool.false_ne_true)
    have hxi : ¬ idle o x := fun hi => by
      rw [hidle x hi] at hlt
      exact lt_irrefl _ hlt
    have hskip : ∀ y, idle o y → ∀ k, used (fracs o i) (lists o i) x y k = k := by
      intro y hy k
      unfold used
      rw [if_neg]
      rintro (rfl | h)
      · exact hxi hy
      · rw [hidle y hy] at h
        exact lt_irrefl _ h
    have hone : (x ≠ .freq ∧ fracs o i .freq = 1) ∨ (x ≠ .spw ∧ fracs o i .spw = 1) := by
      by_cases hw : o.wide = true
      · exact Or.inl ⟨fun e => hxi (Or.inl ⟨hw, e⟩), hidle _ (Or.inl ⟨hw, rfl⟩)⟩
      · exact Or.inr ⟨fun e => hxi (Or.inr ⟨by simpa using hw, e⟩), hidle _ (Or.inr ⟨by simpa using hw, rfl⟩)⟩
    have hi : ∀ y : Axis, y ≠ .freq → y ≠ .spw → ¬ idle o y := by
      rintro y h1 h2 (⟨_, h⟩ | ⟨_, h⟩)
      · exact h1 h
      · exact h2 h
    have hsecond : ∀ k, k < (second o.wide F W).length →
        used (fracs o i) (lists o i) x .freq (used (fracs o i) (lists o i) x .spw k) = via (second o.wide F W) k := by
      intro k hk
      by_cases hw : o.wide = true
      · rw [hskip .freq (Or.inl ⟨hw, rfl⟩)]
        have e : second o.wide F W = lists o i .spw := by
          unfold second
          rw [if_pos hw, (hwide hw).2]
          rfl
        rw [e] at hk ⊢
        refine hused .spw ?_ k hk
        rintro (⟨_, h⟩ | ⟨h, _⟩)
        · cases h
        · rw [hw] at h; cases h
      · have hw' : o.wide = false := by simpa using hw
        rw [hskip .spw (Or.inr ⟨hw', rfl⟩)]
        have e : second o.wide F W = lists o i .freq := by
          unfold second
          rw [if_neg hw]
          cases hil : i.chans with
          | none =>
            rw [(hnar hw').1 hil]
            unfold lists
            rw [hil]
          | some l =>
            have h1 := (hnar hw').2 l hil
            obtain ⟨ps, h2, h3, _⟩ := chan_list hfit hch hw' hp hil
            have : F = ps := by
              have h4 := h1.symm.trans h3
              exact List.map_injective_iff.2 (fun a b e => Int.ofNat.inj e) h4
            unfold lists
            rw [hil]
            dsimp only
            rw [h2, this]
            rfl
        rw [e] at hk ⊢
        refine hused .freq ?_ k hk
        rintro (⟨h, _⟩ | ⟨_, h⟩)
        · exact hw h
        · cases h
    have uA : ∀ k, k < (eff o.ants.length i.ants).length → used (fracs o i) (lists o i) x .ant k = via (eff o.ants.length i.ants) k :=
      hused .ant (hi _ (by decide) (by decide))
    have uT : ∀ k, k < (eff o.times.length i.times).length → used (fracs o i) (lists o i) x .time k = via (eff o.times.length i.times) k :=
      hused .time (hi _ (by decide) (by decide))
    have uJ : ∀ k, k < (eff o.jones.length i.jones).length → used (fracs o i) (lists o i) x .jones k = via (eff o.jones.length i.jones) k :=
      hused .jones (hi _ (by decide) (by decide))
    refine ⟨hc.wide, hc.kinds, hc.ants, hc.times, hc.freq, hc.ids, hc.width, hc.spws, hc.ranges, hc.flex, hc.jones, ?_, ⟨isSome_map _ _, ?_⟩,
      ⟨isSome_map _ _, ?_⟩⟩
    · intro a f t j ha hf ht hj
      dsimp only
      rw [down4_eq _ _ _ _ _ _ _ _ hone, uA a ha, hsecond f hf, uT t ht, uJ j hj]
    · intro y z hy hz a f t j ha hf ht hj
      dsimp only at hz
      rw [hy] at hz
      have hz := Option.some.inj hz
      subst hz
      dsimp only
      rw [down4_eq _ _ _ _ _ _ _ _ hone, uA a ha, hsecond f hf, uT t ht, uJ j hj]
    · intro y z hy hz f t j hf ht hj
      dsimp only at hz
      rw [hy] at hz
      have hz := Option.some.inj hz
      subst hz
      dsimp only
      rw [down3_eq _ _ _ _ _ _ _ hone, hsecond f hf, uT t ht, uJ j hj]

/-- What a file has of an object: everything, with both kinds of qualities as 32-bit numbers. -/
structure Stored (rd : Q → Q) (o s : Obj K R V Q) : Prop where
  kinds : s.wide = o.wide ∧ s.delay = o.delay ∧ s.ranged = o.ranged
  axes : s.ants = o.ants ∧ s.times = o.times ∧ s.freq = o.freq ∧ s.ids = o.ids ∧ s.width = o.width ∧ s.ranges = o.ranges ∧ s.spws = o.spws ∧
    s.flexJones = o.flexJones ∧ s.jones = o.jones
  data : s.data = o.data
  quality : s.quality.isSome = o.quality.isSome ∧ ∀ x y, o.quality = some x → s.quality = some y → ∀ a f t j, y a f t j = rd (x a f t j)
  total : s.total.isSome = o.total.isSome ∧ ∀ x y, o.total = some x → s.total = some y → ∀ f t j, y f t j = rd (x f t j)

omit [Field K] [LinearOrder K] in
theorem write_stored (rd : Q → Q) (o : Obj K R V Q) : Stored rd o (write rd o) := by
  refine ⟨⟨rfl, rfl, rfl⟩, ⟨rfl, rfl, rfl, rfl, rfl, rfl, rfl, rfl, rfl⟩, rfl, ⟨?_, ?_⟩, ?_, ?_⟩
  · cases h : o.quality <;> simp [write, h]
  · intro x y hx hy a f t j
    simp only [write, hx, Option.map_some, Option.some.injEq] at hy
    rw [← hy]
  · cases h : o.total <;> simp [write, h]
  · intro x y hx hy f t j
    simp only [write, hx, Option.map_some, Option.some.injEq] at hy
    rw [← hy]

/-- C208: what is read from a file with a selection is what the selection keeps of the object that was written, with the qualities
as 32-bit numbers. -/
theorem part_partial (rd : Q → Q) (c : Ctx K R) (o o' : Obj K R V Q) (q : Req K) (hfit : Fits o) (hnd : o.spws.Nodup) (hch : ChansExist o q)
    (hwin : WindowsUsed o) (h : read c true (write rd o) q = .ok (o', true)) :
    ∃ s, Stored rd o s ∧ ∃ A T F W J, Kept c o q A T F W J ∧ Cut s o' A T F W J := by
  refine ⟨write rd o, write_stored rd o, ?_⟩
  have hfit' : Fits (write rd o) := ⟨hfit.freq, hfit.width, hfit.flex, hfit.ranges⟩
  have back : ∀ {A T F W J}, Kept c (write rd o) q A T F W J → Kept c o q A T F W J := fun h => ⟨h.1, h.2, h.3, h.4, h.5, h.6⟩
  unfold read at h
  rw [if_pos rfl] at h
  cases hg : getData c (write rd o) q with
  | error e => rw [hg] at h; cases h
  | ok r =>
    rw [hg] at h
    have h := Except.ok.inj h
    obtain rfl : r = o' := congrArg Prod.fst h
    unfold getData at hg
    cases hp : preprocess c (write rd o) q with
    | error e => rw [hp] at hg; cases hg
    | ok i =>
      rw [hp] at hg
      dsimp only at hg
      split at hg
      · rename_i hm
        have hg := Except.ok.inj hg
        subst hg
        have hall : ∀ x, ¬ fracs (write rd o) i x < 1 := fun x hx => absurd (hm ▸ min_le (fracs (write rd o) i) x) (not_le.2 hx)
        exact ⟨_, _, _, _, _, back (kept_whole hfit' (o := write rd o) hch hwin hp hall), cut_refl _ hfit'⟩
      · rename_i hm
        cases hb : byIndex (write rd o) i with
        | mk o1 e =>
          rw [hb] at hg
          cases e with
          | some e => cases hg
          | none =>
            dsimp only at hg
            cases ha : arrays (write rd o) o1 i with
            | none => rw [ha] at hg; cases hg
            | some r' =>
              rw [ha] at hg
              have hg := Except.ok.inj hg
              subst hg
              obtain ⟨A, T, F, W, J, hk, hc⟩ := arrays_cut hfit' hnd hch hp hm hb ha
              exact ⟨A, T, F, W, J, back hk, hc⟩


/-- C208: a selection that succeeds on the object read as a whole, and leaves something on every axis, succeeds when a part is read. -/
theorem part_succeeds_partial (c : Ctx K R) (o o2 : Obj K R V Q) (q : Req K) (hfit : Fits o) (hnd : o.spws.Nodup) (hch : ChansExist o q)
    (h : select c o q = (o2, none)) (h1 : o2.ants ≠ []) (h2 : o2.times ≠ []) (h3 : o2.jones ≠ []) (h4 : o2.spws ≠ [])
    (h5 : o.wide = false → o2.ids ≠ []) : ∃ o', read c true o q = .ok (o', true) := by
  unfold select at h
  cases hp : preprocess c o q with
  | error e => rw [hp] at h; cases h
  | ok i =>
    rw [hp] at h
    dsimp only at h
    unfold read getData
    rw [if_pos rfl, hp]
    dsimp only
    split
    · exact ⟨o, rfl⟩
    · rename_i hm
      rw [h]
      dsimp only
      obtain ⟨F, W, hk, hc, hwide, hnar⟩ := kept_inds hfit hnd (fun ch e x hx => (hch ch e x hx).1) hp h
      have hlt : fracs o i (first (fracs o i)) < 1 := by
        rw [first_min (fracs o i)]
        exact lt_of_le_of_ne ((min_le _ .ant).trans (fracs_le hfit hch hp .ant)) hm
      unfold arrays
      dsimp only
      generalize first (fracs o i) = x at hlt
      obtain ⟨hs, hl⟩ := lists_ok hfit hch hp x
      have hfile : fileList o i x = some (lists o i x) := by
        unfold fileList
        split
        · rename_i l hil
          rw [if_pos]
          rw [List.all_eq_true]
          intro k hk
          by_cases hw : o.wide = true
          · exact nomatch (hwide hw).1.symm.trans hil
          · rw [(hnar (by simpa using hw)).2 l hil] at hk
            obtain ⟨m, _, rfl⟩ := List.mem_map.1 hk
            simp
        · rfl
      have hne : lists o i x ≠ [] := by
        intro he
        cases x with
        | ant => exact h1 (by rw [hc.ants, show eff o.ants.length i.ants = [] from he]; rfl)
        | time => exact h2 (by rw [hc.times, show eff o.times.length i.times = [] from he]; rfl)
        | jones => exact h3 (by rw [hc.jones, show eff o.jones.length i.jones = [] from he]; rfl)
        | spw =>
          by_cases hw : o.wide = true
          · exact h4 (by rw [hc.spws, (hwide hw).2, show eff o.spws.length i.spws = [] from he]; rfl)
          · have : fracs o i .spw = 1 := if_neg hw
            rw [this] at hlt
            exact lt_irrefl _ hlt
        | freq =>
          by_cases hw : o.wide = true
          · have : fracs o i .freq = 1 := if_pos hw
            rw [this] at hlt
            exact lt_irrefl _ hlt
          · have hw' : o.wide = false := by simpa using hw
            apply h5 hw'
            have hF : F = [] := by
              unfold lists at he
              cases hil : i.chans with
              | none =>
                rw [hil] at he
                rw [(hnar hw').1 hil]
                exact he
              | some l =>
                rw [hil] at he
                dsimp only at he
                obtain ⟨ps, e1, e2, _⟩ := chan_list hfit hch hw' hp hil
                rw [e1] at he
                have e3 := ((hnar hw').2 l hil).symm.trans e2
                rw [show ps = [] from he] at e3
                exact List.map_eq_nil_iff.1 e3
            rw [hc.ids, hF]
            rfl
      rw [hfile, Option.bind_some, readAt_eq hs hl hne]
      exact ⟨_, rfl⟩

/-- C208: without the arrays, a selection is ignored: all labels are there, whatever is asked for. -/
theorem header_only_counterexample (c : Ctx K R) (o : Obj K R V Q) (q : Req K) : read c false o q = .ok (o, false) := rfl

end Verif.CalH5
