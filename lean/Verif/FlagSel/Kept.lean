import Verif.FlagSel.Whole
import Verif.Add.Axis

namespace Verif.FlagSel
open Verif.Np Verif.FreqSort
open Verif.Pol (Str)
open Verif.Select (PolReq pyGet wh join joinOpt mem_wh mem_join bind_ok In in_joinOpt joinOpt_none)
open Verif.CalSelect (via pos Picks eff picks_where picks_range mapM_ok fancy_length fancy_get via_range via_lt)
open Verif.Add (fancy_where)

variable {K V : Type} [LinearOrder K]

/-! ## The object afterwards -/

theorem rowMeta_eq (o : Obj K V) (l : List Nat) : rowMeta o l = { o with
    rows := fancy o.rows l
    ntimes := (unique ((fancy o.rows l).map (·.time))).length
    nblts := if o.ty = .baseline then l.length else o.nblts
    nbls := if o.ty = .baseline then (unique ((fancy o.rows l).map (·.bl))).length else o.nbls
    nants := if o.ty = .baseline then (unique ((fancy o.rows l).map (·.ant1) ++ (fancy o.rows l).map (·.ant2))).length
      else o.nants } := by
  unfold rowMeta
  dsimp only
  by_cases h : o.ty = .baseline
  · simp [h]
  · simp [h]

/-- Windows that are kept. -/
def keptSpws (o : Obj K V) (l : List Nat) : List Int :=
  if 1 < o.nspws then o.spws.filter (fun w => (o.ids.map (fun v => fancy v l)).any (fun v => v.contains w)) else o.spws

omit [LinearOrder K] in
theorem chanMeta_eq (o : Obj K V) (l : List Nat) : chanMeta o l = { o with
    nfreqs := l.length
    freq := fancy o.freq l
    width := o.width.map (fun w => fancy w l)
    ids := o.ids.map (fun w => fancy w l)
    spws := keptSpws o l
    nspws := if 1 < o.nspws then (keptSpws o l).length else o.nspws } := by
  unfold chanMeta keptSpws
  dsimp only
  by_cases h : 1 < o.nspws
  · simp [h]
  · simp [h]

/-- Positions on an axis that may be left as it is. -/
def ov (l : Option (List Nat)) (k : Nat) : Nat :=
  match l with
  | none => k
  | some l => via l k

def onL {α : Type} (xs : List α) (l : Option (List Nat)) : List α :=
  match l with
  | none => xs
  | some l => fancy xs l

theorem onL_eq {α : Type} (xs : List α) (l : Option (List Nat)) : onL xs l = fancy xs (eff xs.length l) := by
  cases l with
  | none => exact (fancy_range xs).symm
  | some l => rfl

theorem ov_eq (n : Nat) (l : Option (List Nat)) (k : Nat) (hk : k < (eff n l).length) : ov l k = via (eff n l) k := by
  cases l with
  | none => exact (via_range n k (by simpa [eff] using hk)).symm
  | some l => rfl

/-- The whole change. -/
def after (o : Obj K V) (r a f p : Option (List Nat)) : Obj K V :=
  onAxis polData p (onAxis chanData f (onAxis antData a (onAxis rowData r
      (onAxis polMeta p (onAxis chanMeta f (onAxis antMeta a (onAxis rowMeta r o)))))))

structure After (o o' : Obj K V) (r a f p : Option (List Nat)) : Prop where
  ty : o'.ty = o.ty
  rows : o'.rows = onL o.rows r
  ants : o'.ants = onL o.ants a
  freq : o'.freq = onL o.freq f
  width : o'.width = o.width.map (fun w => onL w f)
  ids : o'.ids = o.ids.map (fun w => onL w f)
  pols : o'.pols = onL o.pols p
  data : o'.data = o.data.map (fun x i j k m => x (ov a i) (ov r j) (ov f k) (ov p m))
  spws : o'.spws = (match f with | none => o.spws | some l => keptSpws o l)
  nspws : o'.nspws = (match f with | none => o.nspws | some l => if 1 < o.nspws then (keptSpws o l).length else o.nspws)
  nfreqs : o'.nfreqs = (match f with | none => o.nfreqs | some l => l.length)
  npols : o'.npols = (match p with | none => o.npols | some l => l.length)
  ntimes : o'.ntimes = (match r with | none => o.ntimes | some l => (unique ((fancy o.rows l).map (·.time))).length)
  nblts : o'.nblts = (match r with | none => o.nblts | some l => if o.ty = .baseline then l.length else o.nblts)
  nbls : o'.nbls = (match r with
    | none => o.nbls
    | some l => if o.ty = .baseline then (unique ((fancy o.rows l).map (·.bl))).length else o.nbls)
  nants : o'.nants = (match a, r with
    | some l, _ => l.length
    | none, none => o.nants
    | none, some l => if o.ty = .baseline then
        (unique ((fancy o.rows l).map (·.ant1) ++ (fancy o.rows l).map (·.ant2))).length else o.nants)

theorem after_spec (o : Obj K V) (r a f p : Option (List Nat)) : After o (after o r a f p) r a f p := by
  have hk : ∀ (o₁ : Obj K V) (l : List Nat), o₁.nspws = o.nspws → o₁.spws = o.spws → o₁.ids = o.ids →
      keptSpws o₁ l = keptSpws o l := by
    intro o₁ l h1 h2 h3
    unfold keptSpws
    rw [h1, h2, h3]
  unfold after
  cases r <;> cases a <;> cases f <;> cases p <;>
    simp only [onAxis, rowMeta_eq, antMeta, chanMeta_eq, polMeta, rowData, antData, chanData, polData] <;>
    refine ⟨rfl, rfl, rfl, rfl, ?_, ?_, rfl, ?_, ?_, ?_, rfl, rfl, rfl, rfl, rfl, rfl⟩ <;>
    simp [onL, ov, Function.comp_def, hk]

theorem byIndex_eq (o : Obj K V) (i : Inds) : byIndex o i = match antAxis o i.ants with
    | none => (onAxis rowMeta i.rows o, some .antIndex)
    | some a => (after o i.rows a i.chans i.pols, none) := rfl

/-! ## Antennas -/

theorem mapMO_forall {β γ : Type} {f : β → Option γ} : ∀ {l : List β} {r : List γ}, l.mapM f = some r →
    List.Forall₂ (fun x y => f x = some y) l r := by
  intro l
  induction l with
  | nil => intro r h; cases h; exact .nil
  | cons a l ih =>
    intro r h
    rw [List.mapM_cons] at h
    cases ha : f a with
    | none => rw [ha] at h; cases h
    | some b =>
      rw [ha] at h
      cases hl : l.mapM f with
      | none => rw [hl] at h; cases h
      | some bs =>
        rw [hl] at h
        cases h
        exact .cons ha (ih hl)

omit [LinearOrder K] in
/-- The antenna axis of objects of type "antenna". -/
theorem antAxis_spec (o : Obj K V) (q : Req K) (ht : o.ty = .antenna) :
    (∀ a, antAxis o (antIdx o q) = some a →
      (q.antNums = none → ∀ l, q.antInds = some l → ∀ k ∈ l, ∃ i, At o.ants.length k i) ∧
      ∀ i, i ∈ eff o.ants.length a ↔ i < o.ants.length ∧ AntOk o q i) ∧
    ((q.antNums = none → ∀ l, q.antInds = some l → ∀ k ∈ l, ∃ i, At o.ants.length k i) →
      ∃ a, antAxis o (antIdx o q) = some a) := by
  unfold antAxis
  rw [if_pos ht]
  cases hn : q.antNums with
  | none =>
    have hi : antIdx o q = q.antInds := by unfold antIdx; rw [hn]
    rw [hi]
    cases hq : q.antInds with
    | none =>
      refine ⟨?_, fun _ => ⟨none, rfl⟩⟩
      intro a ha
      cases ha
      refine ⟨(fun _ l h => nomatch h), fun i => ?_⟩
      change i ∈ List.range _ ↔ _
      rw [List.mem_range]
      refine ⟨fun h => ⟨h, ?_, ?_⟩, fun h => h.1⟩
      · rw [hn]; exact fun l h => nomatch h
      · rw [hq]; exact fun _ l h => nomatch h
    | some l =>
      dsimp only
      constructor
      · intro a ha
        obtain ⟨r, hr, rfl⟩ := Option.map_eq_some_iff.1 ha
        obtain ⟨m1, m2⟩ := mapMO_some hr
        refine ⟨?_, fun i => ?_⟩
        · rintro - l' hl' k hk
          cases hl'
          obtain ⟨i, hi⟩ := m2 k hk
          exact ⟨i, (pos_iff _ k i).1 hi⟩
        · change i ∈ r ↔ _
          rw [m1 i]
          constructor
          · rintro ⟨k, hk, hp⟩
            have hat := (pos_iff _ k i).1 hp
            refine ⟨hat.1, ?_, ?_⟩
            · rw [hn]; exact fun l h => nomatch h
            · rw [hq]
              rintro - l' hl'
              cases hl'
              exact ⟨k, hk, hat⟩
          · rintro ⟨-, hok⟩
            obtain ⟨k, hk, hat⟩ := hok.inds hn l hq
            exact ⟨k, hk, (pos_iff _ k i).2 hat⟩
      · intro h
        obtain ⟨r, hr⟩ := mapMO_total (f := pos o.ants.length) (l := l) (fun k hk => by
          obtain ⟨i, hi⟩ := h rfl l rfl k hk
          exact ⟨i, (pos_iff _ k i).2 hi⟩)
        exact ⟨some r, by rw [hr]; rfl⟩
  | some nums =>
    have hi : antIdx o q = some (nums.flatMap (fun a => wh (fun x => x == a) o.ants)) := by
      unfold antIdx
      rw [hn]
      simp [ht]
    rw [hi]
    dsimp only
    have hpos : ∀ k ∈ nums.flatMap (fun a => wh (fun x => x == a) o.ants), ∃ i : Nat, k = i ∧ i < o.ants.length ∧
        ∃ x ∈ nums, o.ants[i]? = some x := by
      intro k hk
      obtain ⟨x, hx, hkx⟩ := List.mem_flatMap.1 hk
      obtain ⟨i, y, rfl, hy, hxy⟩ := mem_wh.1 hkx
      simp only [beq_iff_eq] at hxy
      subst hxy
      exact ⟨i, rfl, (List.getElem?_eq_some_iff.1 hy).1, y, hx, hy⟩
    refine ⟨?_, ?_⟩
    · intro a ha
      obtain ⟨r, hr, rfl⟩ := Option.map_eq_some_iff.1 ha
      obtain ⟨m1, m2⟩ := mapMO_some hr
      refine ⟨(fun h => nomatch h), fun i => ?_⟩
      change i ∈ r ↔ _
      rw [m1 i]
      constructor
      · rintro ⟨k, hk, hp⟩
        have hat := (pos_iff _ k i).1 hp
        obtain ⟨i', rfl, hlt, x, hx, hxi⟩ := hpos k hk
        have : i = i' := by rcases hat with ⟨h1, h2⟩; omega
        subst this
        refine ⟨hlt, ?_, ?_⟩
        · rw [hn]
          intro l hl
          cases hl
          exact ⟨x, hx, hxi⟩
        · rw [hn]; exact fun h => nomatch h
      · rintro ⟨hlt, hok⟩
        obtain ⟨x, hx, hxi⟩ := hok.nums nums hn
        exact ⟨i, List.mem_flatMap.2 ⟨x, hx, mem_wh.2 ⟨i, x, rfl, hxi, by simp⟩⟩, (pos_iff _ _ _).2 ⟨hlt, Or.inl rfl⟩⟩
    · intro _
      obtain ⟨r, hr⟩ := mapMO_total (f := pos o.ants.length) (l := nums.flatMap (fun a => wh (fun x => x == a) o.ants))
        (fun k hk => by
          obtain ⟨i, rfl, hlt, -⟩ := hpos k hk
          exact ⟨i, (pos_iff _ _ _).2 ⟨hlt, Or.inl rfl⟩⟩)
      exact ⟨some r, by rw [hr]; rfl⟩

omit [LinearOrder K] in
theorem antAxis_other (o : Obj K V) (l : Option (List Int)) (ht : o.ty ≠ .antenna) : antAxis o l = some none := by
  unfold antAxis
  rw [if_neg ht]

omit [LinearOrder K] in
theorem eff_lt {c : Ctx} {o : Obj K V} {q : Req K} {i : Inds} (h : Gives c o q i) :
    (∀ k ∈ eff o.rows.length i.rows, k < o.rows.length) ∧ (∀ k ∈ eff o.freq.length i.chans, k < o.freq.length) ∧
    ∀ k ∈ eff o.pols.length i.pols, k < o.pols.length := ⟨h.rows.lt, h.chans.lt, h.pols.lt⟩

/-! ## Theorems -/

omit [LinearOrder K] in
theorem fits_iff (c : Ctx) (o : Obj K V) (q : Req K) : Fits c o q ↔ Fits' c o q ∧
    (o.ty = .antenna → q.antNums = none → ∀ l, q.antInds = some l → ∀ k ∈ l, ∃ i, At o.ants.length k i) := by
  constructor
  · rintro ⟨h1, h2, h3, h4, h5, h6, h7, h8, h9, h10, h11⟩
    exact ⟨⟨⟨h1, h2⟩, h3, h4, h5, h6, h7, ⟨h8, h9⟩, h10⟩, h11⟩
  · rintro ⟨⟨⟨h1, h2⟩, h3, h4, h5, h6, h7, ⟨h8, h9⟩, h10⟩, h11⟩
    exact ⟨h1, h2, h3, h4, h5, h6, h7, h8, h9, h10, h11⟩

/-- Everything done by a selection that is not refused. -/
theorem select_ok {c : Ctx} {o o' : Obj K V} {q : Req K} (h : select c o q = (o', none)) :
    ∃ i a, Fits' c o q ∧ Gives c o q i ∧ antAxis o (antIdx o q) = some a ∧ o' = after o i.rows a i.chans i.pols := by
  unfold select at h
  cases hp : preprocess c o q with
  | error e => rw [hp] at h; cases h
  | ok i =>
    rw [hp] at h
    dsimp only at h
    rw [byIndex_eq] at h
    obtain ⟨h1, h2⟩ := pre_ok c o q i hp
    rw [h2.ants] at h
    cases ha : antAxis o (antIdx o q) with
    | none => rw [ha] at h; cases h
    | some a =>
      rw [ha] at h
      exact ⟨i, a, h1, h2, ha.symm ▸ rfl, (congrArg Prod.fst h).symm⟩

/-- A selection is made exactly if everything asked for is there. -/
theorem accepts_iff (c : Ctx) (o : Obj K V) (q : Req K) : (select c o q).2 = none ↔ Fits c o q := by
  rw [fits_iff]
  constructor
  · intro h
    obtain ⟨i, a, h1, -, ha, -⟩ := select_ok (c := c) (o := o) (q := q) (o' := (select c o q).1) (by rw [← h])
    exact ⟨h1, fun ht => ((antAxis_spec o q ht).1 a ha).1⟩
  · rintro ⟨h1, h2⟩
    obtain ⟨i, hi⟩ := pre_total c o q h1
    have hg := (pre_ok c o q i hi).2
    unfold select
    rw [hi]
    dsimp only
    rw [byIndex_eq, hg.ants]
    by_cases ht : o.ty = .antenna
    · obtain ⟨a, ha⟩ := (antAxis_spec o q ht).2 (h2 ht)
      rw [ha]
    · rw [antAxis_other o _ ht]

/-- What is kept: the positions on each axis that meet all criteria, in order, with all that belongs to them. -/
theorem kept (c : Ctx) (o o' : Obj K V) (q : Req K) (hc : Counts o) (h : select c o q = (o', none)) :
    ∃ la lr lf lp, Cut o o' la lr lf lp ∧
      Picks lr o.rows.length (fun i => ∀ x, o.rows[i]? = some x → RowOk c o q i x) ∧
      Picks lf o.freq.length (ChanOk o q) ∧ Picks lp o.pols.length (PolOk c o q) ∧
      (o.ty = .antenna → ∀ i, i ∈ la ↔ i < o.ants.length ∧ AntOk o q i) ∧
      (o.ty ≠ .antenna → o'.ants = o.ants) ∧ Windows o o' ∧ Counts o' := by
  obtain ⟨i, a, -, hg, ha, rfl⟩ := select_ok h
  have hs := after_spec o i.rows a i.chans i.pols
  have hna : o.ty ≠ .antenna → a = none := by
    intro ht
    rw [antAxis_other o _ ht] at ha
    cases ha
    rfl
  have hla : ∀ k ∈ eff o.ants.length a, k < o.ants.length := by
    intro k hk
    by_cases ht : o.ty = .antenna
    · exact ((((antAxis_spec o q ht).1 a ha).2 k).1 hk).1
    · rw [hna ht] at hk
      exact List.mem_range.1 hk
  obtain ⟨e1, e2, e3⟩ := eff_lt hg
  have hw : ∀ w : List K, o.width = some w → onL w i.chans = fancy w (eff o.freq.length i.chans) := by
    intro w hw
    rw [onL_eq, hc.width w hw]
  have hd : ∀ w : List Int, o.ids = some w → onL w i.chans = fancy w (eff o.freq.length i.chans) := by
    intro w hw
    rw [onL_eq, hc.ids w hw]
  refine ⟨eff o.ants.length a, _, _, _, ?_, hg.rows, hg.chans, hg.pols, fun ht => ((antAxis_spec o q ht).1 a ha).2, ?_, ?_, ?_⟩
  · refine ⟨hs.ty, hs.rows.trans (onL_eq _ _), hs.ants.trans (onL_eq _ _), hs.freq.trans (onL_eq _ _), ?_, ?_,
      hs.pols.trans (onL_eq _ _), ?_, ?_⟩
    · rw [hs.width]
      cases hq : o.width with
      | none => rfl
      | some w => simp only [Option.map_some]; rw [hw w hq]
    · rw [hs.ids]
      cases hq : o.ids with
      | none => rfl
      | some w => simp only [Option.map_some]; rw [hd w hq]
    · rw [hs.data, List.length_map]
    · intro k x y hx hy j r f p hj hr hf hp
      rw [hs.data, List.getElem?_map, hx] at hy
      cases hy
      dsimp only
      rw [ov_eq o.rows.length i.rows r hr, ov_eq o.freq.length i.chans f hf, ov_eq o.pols.length i.pols p hp]
      by_cases ht : o.ty = .antenna
      · rw [if_pos ht, ov_eq o.ants.length a j (hj.resolve_right (not_not.2 ht))]
      · rw [if_neg ht, hna ht]
        rfl
  · intro ht
    rw [hs.ants, hna ht]
    rfl
  · constructor
    · rw [hs.spws]
      cases hr : i.chans with
      | none => exact List.Sublist.refl _
      | some l =>
        dsimp only [keptSpws]
        by_cases h1 : 1 < o.nspws
        · rw [if_pos h1]
          exact List.filter_sublist
        · rw [if_neg h1]
    · intro h1 w
      rw [hs.spws, hs.ids]
      obtain ⟨-, v, hv, hm⟩ := hc.windows h1
      rw [hv]
      cases hr : i.chans with
      | none =>
        simp only [onL, Option.map_some, Option.some.injEq, exists_eq_left']
        rw [hm w]
        simp
      | some l =>
        dsimp only [keptSpws]
        rw [if_pos h1, List.mem_filter, hv]
        simp [onL]
    · intro h1
      rw [hs.spws]
      cases hr : i.chans with
      | none => rfl
      | some l =>
        dsimp only [keptSpws]
        rw [if_neg h1]
  · constructor
    · intro w hw'
      rw [hs.width] at hw'
      obtain ⟨v, hv, rfl⟩ := Option.map_eq_some_iff.1 hw'
      rw [hs.freq, onL_eq o.freq, hw v hv, fancy_length _ _ (by rw [hc.width v hv]; exact e2), fancy_length _ _ e2]
    · intro w hw'
      rw [hs.ids] at hw'
      obtain ⟨v, hv, rfl⟩ := Option.map_eq_some_iff.1 hw'
      rw [hs.freq, onL_eq o.freq, hd v hv, fancy_length _ _ (by rw [hc.ids v hv]; exact e2), fancy_length _ _ e2]
    · intro ht
      rw [hs.ty] at ht
      rw [hs.nblts, hs.rows]
      cases hr : i.rows with
      | none => exact hc.nblts ht
      | some l =>
        rw [hr] at e1
        dsimp only [onL]
        rw [if_pos ht]
        exact (fancy_length _ _ e1).symm
    · intro ht
      rw [hs.ty] at ht
      rw [hs.nbls, hs.rows]
      cases hr : i.rows with
      | none => exact hc.nbls ht
      | some l =>
        dsimp only [onL]
        rw [if_pos ht, unique_length]
    · intro ht
      rw [hs.ty] at ht
      have hn := hna (by rw [ht]; simp)
      rw [hs.nants, hs.rows, hn]
      cases hr : i.rows with
      | none => exact hc.nantsB ht
      | some l =>
        dsimp only [onL]
        rw [if_pos ht, unique_length]
    · intro ht
      rw [hs.ty] at ht
      rw [hs.nants, hs.ants]
      cases hA : a with
      | none =>
        have hb : ¬ o.ty = .baseline := by rw [ht]; simp
        cases hr : i.rows with
        | none => exact hc.nantsA ht
        | some l =>
          dsimp only [onL]
          rw [if_neg hb]
          exact hc.nantsA ht
      | some l =>
        rw [hA] at hla
        exact (fancy_length _ _ hla).symm
    · rw [hs.ntimes, hs.rows]
      cases hr : i.rows with
      | none => exact hc.ntimes
      | some l => exact unique_length _
    · rw [hs.nfreqs, hs.freq]
      cases hr : i.chans with
      | none => exact hc.nfreqs
      | some l =>
        rw [hr] at e2
        exact (fancy_length _ _ e2).symm
    · rw [hs.npols, hs.pols]
      cases hr : i.pols with
      | none => exact hc.npols
      | some l =>
        rw [hr] at e3
        exact (fancy_length _ _ e3).symm
    · rw [hs.nspws, hs.spws]
      cases hr : i.chans with
      | none => exact hc.nspws
      | some l =>
        dsimp only
        by_cases h1 : 1 < o.nspws
        · rw [if_pos h1]
        · rw [if_neg h1]
          unfold keptSpws
          rw [if_neg h1]
          exact hc.nspws
    · rw [hs.nspws, hs.spws, hs.ids]
      cases hr : i.chans with
      | none =>
        intro h1
        obtain ⟨n1, w, hw1, hw2⟩ := hc.windows h1
        exact ⟨n1, w, by rw [hw1]; rfl, hw2⟩
      | some l =>
        dsimp only
        by_cases h1 : 1 < o.nspws
        · intro _
          obtain ⟨n1, w, hw1, hw2⟩ := hc.windows h1
          unfold keptSpws
          rw [if_pos h1]
          refine ⟨n1.filter _, fancy w l, by rw [hw1]; rfl, fun x => ?_⟩
          rw [List.mem_filter, hw1]
          simp only [Option.map_some, Option.any_some, List.contains_iff_mem]
          constructor
          · intro hx
            refine ⟨(hw2 x).1 ?_, hx⟩
            obtain ⟨k, -, hk⟩ := List.mem_filterMap.1 hx
            exact List.mem_of_getElem? hk
          · exact fun hx => hx.2
        · rw [if_neg h1]
          exact fun h => absurd h h1

/-- Antennas of objects of type "antenna" come in the order in which they are asked for. -/
theorem ants_order (c : Ctx) (o o' : Obj K V) (q : Req K) (ht : o.ty = .antenna) (h : select c o q = (o', none)) :
    (∀ l, q.antNums = some l → o.ants.Nodup → o'.ants = l) ∧
    (q.antNums = none → ∀ l, q.antInds = some l →
      List.Forall₂ (fun k x => ∃ i, At o.ants.length k i ∧ o.ants[i]? = some x) l o'.ants) ∧
    (q.antNums = none → q.antInds = none → o'.ants = o.ants) := by
  obtain ⟨i, a, hf, hg, ha, rfl⟩ := select_ok h
  have hs := (after_spec o i.rows a i.chans i.pols).ants
  rw [hs]
  unfold antAxis at ha
  rw [if_pos ht] at ha
  refine ⟨?_, ?_, ?_⟩
  · intro l hl hnd
    have hi : antIdx o q = some (l.flatMap (fun a => wh (fun x => x == a) o.ants)) := by
      unfold antIdx
      rw [hl]
      simp [ht]
    rw [hi] at ha
    dsimp only at ha
    obtain ⟨r, hr, rfl⟩ := Option.map_eq_some_iff.1 ha
    have hf2 := mapMO_forall hr
    have hr' : r = l.flatMap (fun a => whereIdx (fun x => x == a) o.ants) := by
      have e : l.flatMap (fun a => wh (fun x => x == a) o.ants) =
          (l.flatMap (fun a => whereIdx (fun x => x == a) o.ants)).map (fun n : Nat => (n : Int)) := by
        rw [List.map_flatMap]
        rfl
      rw [e] at hf2
      have hlen := hf2.length_eq
      apply List.ext_getElem (by simpa using hlen.symm)
      intro n h1 h2
      have := (List.forall₂_iff_get.1 hf2).2 n (by simpa using h2) h1
      have := (pos_iff _ _ _).1 this
      simp only [List.get_eq_getElem, List.getElem_map] at this
      obtain ⟨h3, h4⟩ := this
      have hm : (l.flatMap (fun a => whereIdx (fun x => x == a) o.ants))[n] < o.ants.length := by
        obtain ⟨x, -, hx⟩ := List.mem_flatMap.1 (List.getElem_mem h2)
        obtain ⟨y, hy, -⟩ := mem_whereIdx.1 hx
        exact (List.getElem?_eq_some_iff.1 hy).1
      omega
    rw [hr']
    change fancy o.ants _ = l
    have hin : ∀ x ∈ l, x ∈ o.ants := fun x hx => (hf.ants l hl x hx).2 (by rw [ht]; simp)
    clear hr hr' hf2 ha hi hl hs
    induction l with
    | nil => rfl
    | cons x l ih =>
      have e : fancy o.ants ((x :: l).flatMap (fun a => whereIdx (fun x => x == a) o.ants)) =
          fancy o.ants (whereIdx (fun y => y == x) o.ants) ++
            fancy o.ants (l.flatMap (fun a => whereIdx (fun x => x == a) o.ants)) := by
        rw [List.flatMap_cons]
        unfold fancy
        rw [List.filterMap_append]
      rw [e, ih (fun y hy => hin y (List.mem_cons_of_mem _ hy)), fancy_where]
      have : o.ants.filter (fun y => y == x) = [x] := by
        have hx := hin x List.mem_cons_self
        rw [List.filter_beq, List.count_eq_one_of_mem hnd hx]
        rfl
      rw [this]
      rfl
  · intro hn l hl
    have hi : antIdx o q = some l := by unfold antIdx; rw [hn, hl]
    rw [hi] at ha
    dsimp only at ha
    obtain ⟨r, hr, rfl⟩ := Option.map_eq_some_iff.1 ha
    have hf2 := mapMO_forall hr
    change List.Forall₂ _ l (fancy o.ants r)
    clear hr ha hi hl hs h
    induction hf2 with
    | nil => exact .nil
    | @cons k j l r h1 h2 ih =>
      have hat := (pos_iff _ _ _).1 h1
      have hlt := hat.1
      have hj : o.ants[j]? = some o.ants[j] := List.getElem?_eq_getElem hlt
      have : fancy o.ants (j :: r) = o.ants[j] :: fancy o.ants r := by
        unfold fancy
        rw [List.filterMap_cons, hj]
      rw [this]
      exact .cons ⟨j, hat, hj⟩ ih
  · intro hn hl
    have hi : antIdx o q = none := by unfold antIdx; rw [hn, hl]
    rw [hi] at ha
    cases ha
    rfl

/-- A selection that is refused leaves the object as it is, unless only the position of an antenna is wrong. -/
theorem refused (c : Ctx) (o o' : Obj K V) (q : Req K) (e : Err) (h : select c o q = (o', some e)) :
    o' = o ∨ (o.ty = .antenna ∧ q.antNums = none ∧ ∃ l, q.antInds = some l ∧ ∃ k ∈ l, ¬ ∃ i, At o.ants.length k i) := by
  unfold select at h
  cases hp : preprocess c o q with
  | error e => rw [hp] at h; cases h; exact Or.inl rfl
  | ok i =>
    rw [hp] at h
    dsimp only at h
    rw [byIndex_eq] at h
    obtain ⟨h1, h2⟩ := pre_ok c o q i hp
    rw [h2.ants] at h
    right
    by_cases ht : o.ty = .antenna
    · refine ⟨ht, ?_⟩
      by_contra hc
      have : q.antNums = none → ∀ l, q.antInds = some l → ∀ k ∈ l, ∃ i, At o.ants.length k i := by
        intro hn l hl k hk
        by_contra hno
        exact hc ⟨hn, l, hl, k, hk, hno⟩
      obtain ⟨a, ha⟩ := (antAxis_spec o q ht).2 this
      rw [ha] at h
      cases h
    · rw [antAxis_other o _ ht] at h
      cases h

end Verif.FlagSel
