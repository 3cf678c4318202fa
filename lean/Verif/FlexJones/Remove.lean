import Verif.FlexJones.Convert

/-! C87: `remove_flex_jones` keeps every solution and fills the rest with blanks. -/
namespace Verif.FlexJones
open Verif.Np Verif.FreqSort Verif.FlexPol

variable {L V : Type}

/-! ### Channels by window -/

theorem ofWin_pairs {α β : Type} (w : Int) : ∀ (ids : List Int) (xs : List α) (ys : List β), xs.length = ids.length → ys.length = ids.length → ∀ (x : α) (y : β),
    (∃ k : Nat, ids[k]? = some w ∧ xs[k]? = some x ∧ ys[k]? = some y) ↔ ∃ n : Nat, (ofWin ids xs w)[n]? = some x ∧ (ofWin ids ys w)[n]? = some y := by
  intro ids
  induction ids with
  | nil => intro xs ys hx hy x y; simp [ofWin]
  | cons i ids ih =>
    intro xs ys hx hy x y
    cases xs with
    | nil => simp at hx
    | cons a xs =>
    cases ys with
    | nil => simp at hy
    | cons b ys =>
      rw [ofWin_cons, ofWin_cons]
      have ih' := ih xs ys (by simpa using hx) (by simpa using hy) x y
      by_cases h : i = w
      · subst h
        simp only [if_true]
        constructor
        · rintro ⟨k, h1, h2, h3⟩
          cases k with
          | zero => exact ⟨0, by simpa using h2, by simpa using h3⟩
          | succ k =>
            obtain ⟨n, h4, h5⟩ := ih'.1 ⟨k, by simpa using h1, by simpa using h2, by simpa using h3⟩
            exact ⟨n + 1, by simpa using h4, by simpa using h5⟩
        · rintro ⟨n, h2, h3⟩
          cases n with
          | zero => exact ⟨0, by simp, by simpa using h2, by simpa using h3⟩
          | succ n =>
            obtain ⟨k, h1, h4, h5⟩ := ih'.2 ⟨n, by simpa using h2, by simpa using h3⟩
            exact ⟨k + 1, by simpa using h1, by simpa using h4, by simpa using h5⟩
      · simp only [if_neg h]
        rw [← ih']
        constructor
        · rintro ⟨k, h1, h2, h3⟩
          cases k with
          | zero => simp at h1; exact absurd h1 h
          | succ k => exact ⟨k, by simpa using h1, by simpa using h2, by simpa using h3⟩
        · rintro ⟨k, h1, h2, h3⟩
          exact ⟨k + 1, by simpa using h1, by simpa using h2, by simpa using h3⟩

theorem hasChan_iff {o : Obj L V} (h1 : o.lab.length = o.ids.length) (h2 : o.planes.length = o.ids.length) (w : Int) (l : L) (pl : Plane V) :
    HasChan o w l pl ↔ ∃ n : Nat, (chansOf o w)[n]? = some l ∧ (ofWin o.ids o.planes w)[n]? = some pl :=
  ofWin_pairs w o.ids o.lab o.planes h1 h2 l pl

theorem ofWin_self (w : Int) (ids : List Int) : ofWin ids ids w = List.replicate (ids.count w) w := by
  induction ids with
  | nil => simp [ofWin]
  | cons i ids ih =>
    rw [ofWin_cons, ih, List.count_cons]
    by_cases h : i = w
    · simp [h, List.replicate_succ]
    · simp [h]

/-- Blocks put one after another. -/
theorem ofWin_blocksOf {α : Type} (n : Int → Nat) (B : Int → List α) (hB : ∀ s, (B s).length = n s) (u : Int) : ∀ ws : List Int, ws.Nodup →
    ofWin (ws.flatMap (fun s => List.replicate (n s) s)) (ws.flatMap B) u = if u ∈ ws then B u else [] := by
  intro ws
  induction ws with
  | nil => intro; simp [ofWin]
  | cons w ws ih =>
    intro hn
    have hn' := List.nodup_cons.1 hn
    rw [List.flatMap_cons, List.flatMap_cons, ofWin_append _ _ _ _ (by simp [hB]), ih hn'.2]
    by_cases h : u = w
    · subst h
      rw [if_neg hn'.1, if_pos (by simp), List.append_nil]
      have aux : ∀ (m : Nat) (l : List α), l.length = m → ofWin (List.replicate m u) l u = l := by
        intro m
        induction m with
        | zero => intro l hl; rw [List.length_eq_zero_iff.1 hl]; simp [ofWin]
        | succ m ihm =>
          intro l hl
          cases l with
          | nil => simp at hl
          | cons x l => rw [List.replicate_succ, ofWin_cons, if_pos rfl, ihm l (by simpa using hl)]
      exact aux _ _ (hB u)
    · rw [ofWin_notMem u (List.replicate (n w) w) _ (by simp [h]), List.nil_append]
      simp [h]

theorem length_blocksOf {α : Type} (n : Int → Nat) (B : Int → List α) (hB : ∀ s, (B s).length = n s) (ws : List Int) :
    (ws.flatMap B).length = (ws.flatMap (fun s => List.replicate (n s) s)).length := by
  rw [List.length_flatMap, List.length_flatMap]
  simp [hB]

/-! ### Assignment into a window -/

theorem assign_length (p : Nat) : ∀ (m : List Bool) (d s : List (Plane V)), (assign p m d s).length = d.length := by
  intro m
  induction m with
  | nil => intro d s; simp [assign]
  | cons b m ih =>
    intro d s
    cases d with
    | nil => cases b <;> cases s <;> simp [assign]
    | cons x d => cases b <;> cases s <;> simp [assign, ih]

/-- A plane with position `p` set. -/
def upd (p : Nat) (d s : Plane V) : Plane V := fun i t q => if q = p then s i t 0 else d i t q

theorem assign_ofWin (p : Nat) (u x : Int) : ∀ (ids : List Int) (d s : List (Plane V)), d.length = ids.length → s.length = ids.count u →
    ofWin ids (assign p (ids.map (fun w => decide (w = u))) d s) x = if x = u then List.zipWith (upd p) (ofWin ids d u) s else ofWin ids d x := by
  intro ids
  induction ids with
  | nil => intro d s hd hs; simp at hd; subst hd; simp [assign, ofWin]
  | cons i ids ih =>
    intro d s hd hs
    cases d with
    | nil => simp at hd
    | cons a d =>
      rw [List.length_cons, List.length_cons, Nat.add_right_cancel_iff] at hd
      by_cases h : i = u
      · subst h
        rw [List.count_cons_self] at hs
        cases s with
        | nil => simp at hs
        | cons b s =>
          simp only [List.map_cons, decide_true, assign]
          have ih' := ih d s hd (by simpa using hs)
          rw [ofWin_cons, ih', ofWin_cons, ofWin_cons, if_pos rfl, List.zipWith_cons_cons]
          by_cases hx : x = i
          · subst hx; simp only [if_true]; rfl
          · rw [if_neg (Ne.symm hx), if_neg hx, if_neg hx, if_neg (Ne.symm hx)]
      · rw [List.count_cons_of_ne h] at hs
        simp only [List.map_cons, h, decide_false, assign]
        have ih' := ih d s hd hs
        rw [ofWin_cons, ih', ofWin_cons, ofWin_cons, if_neg h]
        by_cases hx : x = u
        · subst hx; simp [h]
        · simp [hx]

/-! ### Filling -/

/-- What has been filled in after the entries `M`. -/
structure Filled (blank : V) (o : Obj L V) (newIds jonesArr : List Int) (M : List ((Int × Int) × Int)) (dst : List (Plane V)) : Prop where
  len : dst.length = newIds.length
  here : ∀ w u j, ((w, u), j) ∈ M → ∀ (k : Nat) pl, (ofWin newIds dst u)[k]? = some pl →
    ∃ src, (ofWin o.ids o.planes w)[k]? = some src ∧ ∀ i t, pl i t (jonesArr.idxOf j) = src i t 0
  rest : ∀ u q, (∀ w j, ((w, u), j) ∈ M → jonesArr.idxOf j ≠ q) → ∀ (k : Nat) pl, (ofWin newIds dst u)[k]? = some pl → ∀ i t, pl i t q = blank

theorem filled (blank : V) (o : Obj L V) (newIds jonesArr : List Int) : ∀ (M : List ((Int × Int) × Int)),
    (∀ w u j, ((w, u), j) ∈ M → (ofWin o.ids o.planes w).length = newIds.count u) → (M.map (fun e => (e.1.2, e.2))).Nodup → (∀ e ∈ M, e.2 ∈ jonesArr) →
    Filled blank o newIds jonesArr M (M.foldl (fillStep o newIds jonesArr) (newIds.map (fun _ => fun _ _ _ => blank))) := by
  intro M
  induction M using List.reverseRecOn with
  | nil =>
    intro _ _ _
    refine ⟨by simp, by simp, ?_⟩
    intro u q _ k pl hk i t
    have hm := List.mem_of_getElem? hk
    unfold ofWin at hm
    obtain ⟨e, he, rfl⟩ := List.mem_map.1 hm
    have := List.of_mem_zip (List.mem_filter.1 he).1
    simp only [List.foldl_nil] at this
    obtain ⟨_, h⟩ := this
    obtain ⟨_, _, h⟩ := List.mem_map.1 h
    rw [← h]
  | append_singleton M e ih =>
    intro hl hn hj
    obtain ⟨⟨w0, u0⟩, j0⟩ := e
    rw [List.map_append, List.nodup_append'] at hn
    have F := ih (fun w u j h => hl w u j (by simp [h])) hn.1 (fun e he => hj e (by simp [he]))
    have hd : ∀ w j, ((w, u0), j) ∈ M → jonesArr.idxOf j ≠ jonesArr.idxOf j0 := by
      intro w j h he
      have h1 : j ∈ jonesArr := hj _ (List.mem_append_left _ h)
      have h2 : j0 ∈ jonesArr := hj ((w0, u0), j0) (by simp)
      have e1 := List.getElem?_idxOf h1
      have e2 := List.getElem?_idxOf h2
      rw [he, e2] at e1
      simp only [Option.some.injEq] at e1
      subst e1
      exact hn.2.2 (List.mem_map.2 ⟨_, h, rfl⟩) (by simp)
    rw [List.foldl_append, List.foldl_cons, List.foldl_nil]
    set dst := M.foldl (fillStep o newIds jonesArr) (newIds.map (fun _ => fun _ _ _ => blank)) with hdst
    have key : ∀ x, ofWin newIds (fillStep o newIds jonesArr dst ((w0, u0), j0)) x = if x = u0 then
        List.zipWith (upd (jonesArr.idxOf j0)) (ofWin newIds dst u0) (ofWin o.ids o.planes w0) else ofWin newIds dst x := by
      intro x
      unfold fillStep
      exact assign_ofWin _ u0 x newIds dst _ F.len (hl w0 u0 j0 (by simp))
    refine ⟨?_, ?_, ?_⟩
    · unfold fillStep; rw [assign_length]; exact F.len
    · intro w u j h k pl hk
      rw [key] at hk
      by_cases hu : u = u0
      · subst hu
        rw [if_pos rfl, List.getElem?_zipWith_eq_some] at hk
        obtain ⟨d, s, h1, h2, rfl⟩ := hk
        rcases List.mem_append.1 h with h | h
        · obtain ⟨src, hs1, hs2⟩ := F.here w u j h k d h1
          refine ⟨src, hs1, fun i t => ?_⟩
          rw [upd, if_neg (hd w j h)]
          exact hs2 i t
        · simp only [List.mem_singleton, Prod.mk.injEq] at h
          obtain ⟨⟨rfl, -⟩, rfl⟩ := h
          exact ⟨s, h2, fun i t => by rw [upd, if_pos rfl]⟩
      · rw [if_neg hu] at hk
        rcases List.mem_append.1 h with h | h
        · exact F.here w u j h k pl hk
        · simp only [List.mem_singleton, Prod.mk.injEq] at h
          exact absurd h.1.2 hu
    · intro u q hq k pl hk i t
      rw [key] at hk
      by_cases hu : u = u0
      · subst hu
        rw [if_pos rfl, List.getElem?_zipWith_eq_some] at hk
        obtain ⟨d, s, h1, h2, rfl⟩ := hk
        rw [upd, if_neg (Ne.symm (hq w0 j0 (by simp)))]
        exact F.rest u q (fun w j h => hq w j (by simp [h])) k d h1 i t
      · rw [if_neg hu] at hk
        exact F.rest u q (fun w j h => hq w j (by simp [h])) k pl hk i t

/-! ### The object after spreading -/

/-- A way to put windows together: `f` takes a window to one with the same channels, and no component occurs twice. -/
structure Puts (o : Obj L V) (fj : List Int) (f : Int → Int) : Prop where
  mem : ∀ w ∈ o.spws, f w ∈ o.spws
  chans : ∀ w ∈ o.spws, chansOf o (f w) = chansOf o w
  once : ((fj.zip o.spws).map (fun q => (f q.2, q.1))).Nodup

/-- What `remove_flex_jones` promises of its result `r`, the windows being put together by `f`. -/
structure Spread (blank : V) (o : Obj L V) (f : Int → Int) (r : Obj L V) : Prop where
  good : Good r
  flex : r.flexJones = none
  jones : ∀ j, j ∈ r.jones ↔ ∃ w ∈ o.spws, jonesOf o w = some j
  desc : r.jones.Pairwise (· > ·)
  wins : ∀ u, u ∈ r.spws ↔ ∃ w ∈ o.spws, f w = u
  chans : ∀ w ∈ o.spws, chansOf r (f w) = chansOf o w
  once : ∀ w ∈ o.spws, ∀ w' ∈ o.spws, f w = f w' → jonesOf o w = jonesOf o w' → w = w'
  values : ∀ i t u l j v, Says r i t u l j v ↔ (∃ w ∈ o.spws, f w = u ∧ Says o i t w l j v) ∨
    (v = blank ∧ u ∈ r.spws ∧ l ∈ chansOf r u ∧ j ∈ r.jones ∧ ∀ w ∈ o.spws, f w = u → jonesOf o w ≠ some j)

theorem jonesOf_mem {o : Obj L V} {fj : List Int} (g : Good o) (hf : o.flexJones = some fj) {w j : Int} (hw : w ∈ o.spws) :
    jonesOf o w = some j ↔ (j, w) ∈ fj.zip o.spws := by
  unfold jonesOf
  rw [hf]
  simp only [Option.bind_some]
  constructor
  · intro h
    have h2 := List.getElem?_idxOf hw
    refine List.mem_of_getElem? (i := o.spws.idxOf w) ?_
    rw [List.getElem?_zip_eq_some]
    exact ⟨h, h2⟩
  · intro h
    obtain ⟨k, hk⟩ := List.getElem?_of_mem h
    rw [List.getElem?_zip_eq_some] at hk
    obtain ⟨hlt, e⟩ := List.getElem?_eq_some_iff.1 hk.2
    have : o.spws.idxOf w = k := by
      simp only at e
      rw [← e]; exact g.nodup.idxOf_getElem _ _
    rw [this]; exact hk.1

theorem Puts.once_iff {o : Obj L V} {fj : List Int} {f : Int → Int} (g : Good o) (hf : o.flexJones = some fj) (p : Puts o fj f) :
    ∀ w ∈ o.spws, ∀ w' ∈ o.spws, f w = f w' → jonesOf o w = jonesOf o w' → w = w' := by
  intro w hw w' hw' h1 h2
  have hlen := (g.flex fj hf).1
  obtain ⟨j, hj⟩ : ∃ j, jonesOf o w = some j := by
    unfold jonesOf
    rw [hf]
    simp only [Option.bind_some]
    exact ⟨_, List.getElem?_eq_getElem (by rw [hlen]; exact List.idxOf_lt_length_of_mem hw)⟩
  have hj' := h2 ▸ hj
  have e1 := (jonesOf_mem g hf hw).1 hj
  have e2 := (jonesOf_mem g hf hw').1 hj'
  have := List.inj_on_of_nodup_map p.once e1 e2 (by simp [h1])
  simpa using this

theorem unique_desc (l : List Int) : (unique l).reverse.Pairwise (· > ·) := by
  rw [List.pairwise_reverse]
  exact unique_sorted l

theorem nodup_of_desc {l : List Int} (h : l.Pairwise (· > ·)) : l.Nodup := h.imp (fun h => ne_of_gt h)
theorem nodup_unique (l : List Int) : (unique l).Nodup := (unique_sorted l).imp (fun h => ne_of_lt h)

theorem spread_spec (blank : V) {o : Obj L V} {fj : List Int} {f : Int → Int} (g : Good o) (hf : o.flexJones = some fj) (p : Puts o fj f) :
    Spread blank o f { spread blank o fj (unique fj).reverse (o.spws.map (fun w => (w, f w))) with flexJones := none } := by
  have hlen := (g.flex fj hf).1
  set J := (unique fj).reverse with hJ
  set M := (o.spws.map (fun w => (w, f w))).zip fj with hM
  set U := unique ((o.spws.map (fun w => (w, f w))).map Prod.snd) with hU
  have hUd : U.Nodup := nodup_unique _
  have hUm : ∀ u, u ∈ U ↔ ∃ w ∈ o.spws, f w = u := by intro u; rw [hU, mem_unique]; simp
  have hUs : ∀ u ∈ U, u ∈ o.spws := by
    intro u hu
    obtain ⟨w, hw, rfl⟩ := (hUm u).1 hu
    exact p.mem w hw
  have hJd : J.Nodup := nodup_of_desc (unique_desc fj)
  have hJm : ∀ j, j ∈ J ↔ j ∈ fj := by intro j; rw [hJ, List.mem_reverse, mem_unique]
  have hMe : M = (fj.zip o.spws).map (fun q => ((q.2, f q.2), q.1)) := by
    rw [hM]
    apply List.ext_getElem?
    intro k
    rw [List.getElem?_map]
    cases h1 : fj[k]? with
    | none =>
      rw [List.getElem?_eq_none, List.getElem?_eq_none] <;> simp <;> have := List.getElem?_eq_none_iff.1 h1 <;> omega
    | some j =>
      cases h2 : o.spws[k]? with
      | none =>
        rw [List.getElem?_eq_none, List.getElem?_eq_none] <;> simp <;> have := List.getElem?_eq_none_iff.1 h2 <;> omega
      | some w =>
        rw [(List.getElem?_zip_eq_some (z := ((w, f w), j))).2 ⟨by simp [h2], h1⟩, (List.getElem?_zip_eq_some (z := (j, w))).2 ⟨h1, h2⟩]
        rfl
  have hMm : ∀ w u j, ((w, u), j) ∈ M ↔ w ∈ o.spws ∧ u = f w ∧ jonesOf o w = some j := by
    intro w u j
    rw [hMe, List.mem_map]
    constructor
    · rintro ⟨⟨j', w'⟩, h, e⟩
      simp only [Prod.mk.injEq] at e
      obtain ⟨⟨rfl, rfl⟩, rfl⟩ := e
      have hw := (List.of_mem_zip h).2
      exact ⟨hw, rfl, (jonesOf_mem g hf hw).2 h⟩
    · rintro ⟨hw, rfl, h⟩
      exact ⟨(j, w), (jonesOf_mem g hf hw).1 h, rfl⟩
  have hIds : U.flatMap (fun s => ofWin o.ids o.ids s) = U.flatMap (fun s => List.replicate (o.ids.count s) s) := by
    apply List.flatMap_congr
    intro s _
    exact ofWin_self s o.ids
  set I := U.flatMap (fun s => ofWin o.ids o.ids s) with hI
  set Lb := U.flatMap (fun s => ofWin o.ids o.lab s) with hLb
  have hLlen : Lb.length = I.length := by
    rw [hIds, hLb]
    exact length_blocksOf (fun s => o.ids.count s) _ (fun s => ofWin_length s o.ids o.lab g.lab.symm) U
  have hLw : ∀ u, ofWin I Lb u = if u ∈ U then chansOf o u else [] := by
    intro u
    rw [hIds, hLb]
    exact ofWin_blocksOf (fun s => o.ids.count s) _ (fun s => ofWin_length s o.ids o.lab g.lab.symm) u U hUd
  have hcnt : ∀ u, I.count u = if u ∈ U then o.ids.count u else 0 := by
    intro u
    rw [← ofWin_length u I Lb hLlen.symm, hLw]
    split
    · exact ofWin_length u o.ids o.lab g.lab.symm
    · rfl
  have hcc : ∀ w ∈ o.spws, o.ids.count (f w) = o.ids.count w := by
    intro w hw
    rw [← ofWin_length w o.ids o.lab g.lab.symm, ← ofWin_length (f w) o.ids o.lab g.lab.symm]
    exact congrArg List.length (p.chans w hw)
  have hMl : ∀ w u j, ((w, u), j) ∈ M → (ofWin o.ids o.planes w).length = I.count u := by
    intro w u j h
    obtain ⟨hw, rfl, -⟩ := (hMm w u j).1 h
    rw [hcnt, if_pos ((hUm _).2 ⟨w, hw, rfl⟩), hcc w hw]
    exact ofWin_length w o.ids o.planes g.planes.symm
  have hMn : (M.map (fun e => (e.1.2, e.2))).Nodup := by
    rw [hMe, List.map_map]; exact p.once
  have hMj : ∀ e ∈ M, e.2 ∈ J := by
    intro e he
    rw [hJm]
    exact (List.of_mem_zip he).2
  have F := filled blank o I J M hMl hMn hMj
  set D := M.foldl (fillStep o I J) (I.map (fun _ => fun _ _ _ => blank)) with hD
  set r : Obj L V := { spread blank o fj J (o.spws.map (fun w => (w, f w))) with flexJones := none } with hr
  have e1 : r.spws = U := rfl
  have e2 : r.ids = I := rfl
  have e3 : r.lab = Lb := rfl
  have e4 : r.jones = J := rfl
  have e5 : r.planes = D := rfl
  have e6 : r.flexJones = none := rfl
  have hDl : D.length = I.length := F.len
  have hch : ∀ u ∈ U, chansOf r u = chansOf o u := by
    intro u hu
    unfold chansOf
    rw [e2, e3, hLw, if_pos hu]; rfl
  have hDw : ∀ w ∈ o.spws, (ofWin I D (f w)).length = (ofWin o.ids o.planes w).length := by
    intro w hw
    rw [ofWin_length _ _ _ hDl.symm, hcnt, if_pos ((hUm _).2 ⟨w, hw, rfl⟩), hcc w hw, ofWin_length w o.ids o.planes g.planes.symm]
  clear_value r
  refine ⟨⟨by rw [e3, e2]; exact hLlen, by rw [e5, e2]; exact hDl, by rw [e1]; exact hUd, ?_, ?_, by rw [e4]; exact hJd, by rw [e6]; simp⟩, e6, ?_,
    by rw [e4]; exact unique_desc fj, by rw [e1]; exact hUm, ?_, p.once_iff g hf, ?_⟩
  · rw [e2, e1]
    intro w hw
    by_contra h
    have := hcnt w
    rw [if_neg h] at this
    exact List.count_eq_zero.1 this hw
  · rw [e2, e1]
    intro w hw
    have := hcnt w
    rw [if_pos hw] at this
    have h2 := List.count_pos_iff.2 (g.used w (hUs w hw))
    exact List.count_pos_iff.1 (by omega)
  · intro j
    rw [e4, hJm]
    constructor
    · intro h
      obtain ⟨k, hk⟩ := List.getElem?_of_mem h
      have hlt : k < o.spws.length := by rw [← hlen]; exact (List.getElem?_eq_some_iff.1 hk).1
      have hw : o.spws[k] ∈ o.spws := List.getElem_mem hlt
      refine ⟨_, hw, (jonesOf_mem g hf hw).2 (List.mem_of_getElem? (i := k) ?_)⟩
      rw [List.getElem?_zip_eq_some]
      exact ⟨hk, List.getElem?_eq_getElem hlt⟩
    · rintro ⟨w, hw, h⟩
      exact (List.of_mem_zip ((jonesOf_mem g hf hw).1 h)).1
  · intro w hw
    rw [hch _ ((hUm _).2 ⟨w, hw, rfl⟩), p.chans w hw]
  · intro i t u l j v
    have hsr : Says r i t u l j v ↔ ∃ (n : Nat) (pl : Plane V), (chansOf r u)[n]? = some l ∧ (ofWin I D u)[n]? = some pl ∧ j ∈ J ∧ v = pl i t (J.idxOf j) := by
      unfold Says
      rw [e6]
      simp only
      constructor
      · rintro ⟨pl, h, q, hq, rfl⟩
        obtain ⟨n, h1, h2⟩ := (hasChan_iff (by rw [e3, e2]; exact hLlen) (by rw [e5, e2]; exact hDl) u l pl).1 h
        rw [e2, e5] at h2
        rw [e4] at hq
        obtain ⟨hlt, e⟩ := List.getElem?_eq_some_iff.1 hq
        refine ⟨n, pl, h1, h2, List.mem_of_getElem? hq, ?_⟩
        rw [← e, hJd.idxOf_getElem]
      · rintro ⟨n, pl, h1, h2, h3, rfl⟩
        refine ⟨pl, (hasChan_iff (by rw [e3, e2]; exact hLlen) (by rw [e5, e2]; exact hDl) u l pl).2 ⟨n, h1, by rw [e2, e5]; exact h2⟩, J.idxOf j, ?_, rfl⟩
        rw [e4]; exact List.getElem?_idxOf h3
    have hso : ∀ w, Says o i t w l j v ↔ ∃ (n : Nat) (pl : Plane V), (chansOf o w)[n]? = some l ∧ (ofWin o.ids o.planes w)[n]? = some pl ∧ jonesOf o w = some j ∧ v = pl i t 0 := by
      intro w
      unfold Says
      rw [hf]
      simp only
      constructor
      · rintro ⟨pl, h, hj, rfl⟩
        obtain ⟨n, h1, h2⟩ := (hasChan_iff g.lab g.planes w l pl).1 h
        exact ⟨n, pl, h1, h2, hj, rfl⟩
      · rintro ⟨n, pl, h1, h2, h3, rfl⟩
        exact ⟨pl, (hasChan_iff g.lab g.planes w l pl).2 ⟨n, h1, h2⟩, h3, rfl⟩
    rw [hsr, e1, e4]
    have hnil : ∀ u, u ∉ U → chansOf r u = [] := by
      intro u hu
      unfold chansOf
      rw [e2, e3, hLw, if_neg hu]
    constructor
    · rintro ⟨n, pl, h1, h2, h3, rfl⟩
      have hu : u ∈ U := by
        by_contra h
        rw [hnil u h] at h1
        simp at h1
      by_cases hex : ∃ w ∈ o.spws, f w = u ∧ jonesOf o w = some j
      · obtain ⟨w, hw, rfl, hj⟩ := hex
        obtain ⟨src, hs, hv⟩ := F.here w (f w) j ((hMm _ _ _).2 ⟨hw, rfl, hj⟩) n pl h2
        refine Or.inl ⟨w, hw, rfl, (hso w).2 ⟨n, src, ?_, hs, hj, hv i t⟩⟩
        rw [hch _ hu, p.chans w hw] at h1
        exact h1
      · push Not at hex
        refine Or.inr ⟨?_, hu, List.mem_of_getElem? h1, h3, hex⟩
        refine F.rest u _ ?_ n pl h2 i t
        intro w j' h he
        obtain ⟨hw, rfl, hj'⟩ := (hMm w u j').1 h
        have hj'J : j' ∈ J := hMj _ h
        have a1 := List.getElem?_idxOf hj'J
        have a2 := List.getElem?_idxOf h3
        rw [he, a2] at a1
        simp only [Option.some.injEq] at a1
        subst a1
        exact hex w hw rfl hj'
    · rintro (⟨w, hw, rfl, h⟩ | ⟨rfl, hu, hl, hj, hno⟩)
      · obtain ⟨n, src, h1, h2, h3, rfl⟩ := (hso w).1 h
        have hu : f w ∈ U := (hUm _).2 ⟨w, hw, rfl⟩
        have hlt : n < (ofWin I D (f w)).length := by
          rw [hDw w hw]; exact (List.getElem?_eq_some_iff.1 h2).1
        have hm := (hMm w (f w) j).2 ⟨hw, rfl, h3⟩
        obtain ⟨src', hs, hv⟩ := F.here w (f w) j hm n _ (List.getElem?_eq_getElem hlt)
        rw [h2] at hs
        simp only [Option.some.injEq] at hs
        subst hs
        refine ⟨n, _, ?_, List.getElem?_eq_getElem hlt, hMj _ hm, (hv i t).symm⟩
        rw [hch _ hu, p.chans w hw]; exact h1
      · obtain ⟨n, hn⟩ := List.getElem?_of_mem hl
        have hlt : n < (ofWin I D u).length := by
          have h1 := (List.getElem?_eq_some_iff.1 hn).1
          unfold chansOf at h1
          rw [ofWin_length _ _ _ (by rw [e2, e3]; exact hLlen.symm), e2] at h1
          rwa [ofWin_length _ _ _ hDl.symm]
        refine ⟨n, _, hn, List.getElem?_eq_getElem hlt, hj, ?_⟩
        refine (F.rest u _ ?_ n _ (List.getElem?_eq_getElem hlt) i t).symm
        intro w j' h he
        obtain ⟨hw, rfl, hj'⟩ := (hMm w u j').1 h
        have hj'J : j' ∈ J := hMj _ h
        have a1 := List.getElem?_idxOf hj'J
        have a2 := List.getElem?_idxOf hj
        rw [he, a2] at a1
        simp only [Option.some.injEq] at a1
        subst a1
        exact hno w hw rfl hj'

end Verif.FlexJones
