import Verif.FlexPol.Convert
import Verif.FreqSort.Lemmas

/-! Conversion to one polarization per window, and the round trip. -/
namespace Verif.FlexPol
open Verif.Np Verif.FreqSort

set_option linter.unusedSectionVars false

variable {K V : Type}

/-- Channel `t` of a flex-pol object has polarization `q`. -/
def HasPol (r : Obj K V) (t : Nat) (q : Int) : Prop :=
  ∃ (i : Nat) (s : Int) (fp : List Int), r.flexPol = some fp ∧ r.flexId[t]? = some s ∧ r.spws[i]? = some s ∧ fp[i]? = some q

/-! ### Lists made of blocks of one length -/

theorem block_getElem? {α : Type} (g : Nat → List α) (m : Nat) (hg : ∀ p, (g p).length = m) {f : Nat} (hf : f < m) : ∀ (n p : Nat), p < n →
    ((List.range n).flatMap g)[f + m * p]? = (g p)[f]? := by
  intro n
  induction n with
  | zero => intro p hp; omega
  | succ n ih =>
    intro p hp
    have hlen : ((List.range n).flatMap g).length = m * n := by
      rw [List.length_flatMap]; simp [hg, Nat.mul_comm]
    rw [List.range_succ, List.flatMap_append]
    by_cases hpn : p = n
    · subst hpn
      rw [List.getElem?_append_right (by rw [hlen]; omega), hlen]
      simp
    · have hlt : f + m * p < m * n := by
        have : m * (p + 1) ≤ m * n := Nat.mul_le_mul_left _ (by omega)
        rw [Nat.mul_add] at this; omega
      rw [List.getElem?_append_left (by rw [hlen]; exact hlt), ih p (by omega)]

theorem replicate_flatten_eq {α : Type} (xs : List α) : ∀ n : Nat, (List.replicate n xs).flatten = (List.range n).flatMap (fun _ => xs) := by
  intro n
  induction n with
  | zero => simp
  | succ n ih => rw [List.replicate_succ', List.flatten_concat, ih, List.range_succ, List.flatMap_append]; simp

theorem range_cons {n : Nat} (h : 0 < n) : List.range n = 0 :: (List.range n).drop 1 := by
  cases n with
  | zero => omega
  | succ n => rw [List.range_succ_eq_map]; simp

theorem take_block {α : Type} (g : Nat → List α) {n m : Nat} (hn : 0 < n) (hm : (g 0).length = m) : ((List.range n).flatMap g).take m = g 0 := by
  rw [range_cons hn, List.flatMap_cons, ← hm, List.take_left']
  rfl

theorem range_getD_map {α : Type} (g : Int → α) (l : List Int) : (List.range l.length).map (fun p => g ((l[p]?).getD 0)) = l.map g := by
  apply List.ext_getElem?
  intro i
  rw [List.getElem?_map, List.getElem?_map]
  by_cases h : i < l.length
  · simp [h]
  · simp [h]

theorem firsts_repeat {α : Type} [DecidableEq α] (l : List α) {n : Nat} (h : 0 < n) : firsts ((List.range n).flatMap (fun _ => l)) = firsts l := by
  rw [range_cons h, List.flatMap_cons, firsts_append_of_subset]
  intro x hx
  obtain ⟨_, _, h⟩ := List.mem_flatMap.1 hx
  exact h

theorem steps_blocks (m : Nat) (hm : 0 < m) : ∀ l : List Int, l.Nodup → steps (l.flatMap (List.replicate m)) = l.length - 1 := by
  have one : ∀ (k : Nat) (x : Int), steps (List.replicate k x) = 0 := by
    intro k x
    induction k with
    | zero => rfl
    | succ k ih =>
      cases k with
      | zero => rfl
      | succ k => rw [List.replicate_succ, List.replicate_succ, steps, if_pos rfl, ← List.replicate_succ, ih]
  have two : ∀ (k : Nat) (x y : Int) (l : List Int), x ≠ y → steps (List.replicate (k + 1) x ++ y :: l) = 1 + steps (y :: l) := by
    intro k x y l h
    induction k with
    | zero => simp [steps, h]
    | succ k ih =>
      rw [List.replicate_succ, List.replicate_succ, List.cons_append, List.cons_append, steps, if_pos rfl, Nat.zero_add,
        ← List.cons_append, ← List.replicate_succ, ih]
  obtain ⟨k, rfl⟩ : ∃ k, m = k + 1 := ⟨m - 1, by omega⟩
  intro l
  induction l with
  | nil => intro _; rfl
  | cons x l ih =>
    intro hn
    have hn' := List.nodup_cons.1 hn
    cases l with
    | nil => simp [one]
    | cons y l =>
      have e : (y :: l).flatMap (List.replicate (k + 1)) = y :: (List.replicate k y ++ l.flatMap (List.replicate (k + 1))) := by
        rw [List.flatMap_cons, List.replicate_succ]; rfl
      rw [List.flatMap_cons, e, two k x y _ (by rintro rfl; simp at hn'), ← e, ih hn'.2]
      simp; omega

theorem ofWin_blocks {α : Type} (ids : List α) (m : Nat) (hm : ids.length = m) (q : Int) : ∀ l : List Int, l.Nodup → q ∈ l →
    ofWin (l.flatMap (List.replicate m)) (l.flatMap (fun _ => ids)) q = ids := by
  have same : ∀ (k : Nat) (xs : List α), xs.length = k → ofWin (List.replicate k q) xs q = xs := by
    intro k
    induction k with
    | zero => intro xs h; simp [List.length_eq_zero_iff.1 h, ofWin]
    | succ k ih =>
      intro xs h
      cases xs with
      | nil => simp at h
      | cons x xs => rw [List.replicate_succ, ofWin_cons, if_pos rfl, ih xs (by simpa using h)]
  have diff : ∀ (l : List Int), q ∉ l → ofWin (l.flatMap (List.replicate m)) (l.flatMap (fun _ => ids)) q = [] := by
    intro l h
    apply ofWin_notMem
    intro hm
    obtain ⟨x, hx, hq⟩ := List.mem_flatMap.1 hm
    exact h ((List.mem_replicate.1 hq).2 ▸ hx)
  intro l
  induction l with
  | nil => intro _ h; simp at h
  | cons x l ih =>
    intro hn hq
    have hn' := List.nodup_cons.1 hn
    rw [List.flatMap_cons, List.flatMap_cons, ofWin_append _ _ _ _ (by simp [hm])]
    by_cases hx : x = q
    · subst hx
      rw [same m ids hm, diff l hn'.1, List.append_nil]
    · rw [ih hn'.2 (by simpa [Ne.symm hx] using hq), ofWin_notMem, List.nil_append]
      rw [List.mem_replicate]; rintro ⟨_, h⟩; exact hx h.symm

theorem firsts_blocks {m : Nat} (hm : 0 < m) : ∀ {l : List Int}, l.Nodup → firsts (l.flatMap (List.replicate m)) = l := by
  obtain ⟨k, rfl⟩ : ∃ k, m = k + 1 := ⟨m - 1, by omega⟩
  intro l
  induction l using List.reverseRecOn with
  | nil => intro _; simp [firsts]
  | append_singleton l x ih =>
    intro hnd
    rw [List.nodup_append] at hnd
    have hx : x ∉ l := fun h => hnd.2.2 x h x (by simp) rfl
    rw [List.flatMap_append, firsts_append_of_disjoint, ih hnd.1]
    · simp only [List.flatMap_cons, List.flatMap_nil, List.append_nil]
      congr 1
      have : List.replicate (k + 1) x = [x] ++ List.replicate k x := by rw [List.replicate_succ]; rfl
      rw [this, firsts_append_of_subset _ _ (fun y hy => by rw [(List.mem_replicate.1 hy).2]; simp)]
      simp [firsts]
    · intro y hy hy'
      simp only [List.flatMap_cons, List.flatMap_nil, List.append_nil] at hy
      obtain ⟨z, hz, hyz⟩ := List.mem_flatMap.1 hy'
      have h1 := (List.mem_replicate.1 hy).2
      have h2 := (List.mem_replicate.1 hyz).2
      exact hx (by rw [← h1, h2]; exact hz)

/-! ### Conversion -/

/-- The converted object, with its windows named. -/
theorem convert_eq (fresh : List Int → Int) (hfresh : ∀ l, fresh l ∉ l) (o : Obj K V) (v : Valid o) (hn : o.flexPol = none) :
    ∃ (W : Nat → Int → Int) (r : Obj K V), convert fresh o = some r ∧ (∀ s, W 0 s = s) ∧
      (∀ p < o.pols.length, ∀ q < o.pols.length, ∀ s ∈ o.spws, ∀ t ∈ o.spws, W p s = W q t → p = q ∧ s = t) ∧
      r.nblts = o.nblts ∧ r.pols = [0] ∧ r.flexId = (List.range o.pols.length).flatMap (fun p => o.flexId.map (W p)) ∧
      r.freq = (List.replicate o.pols.length o.freq).flatten ∧ r.width = (List.replicate o.pols.length o.width).flatten ∧
      r.data = reshapeF o.nblts o.freq.length o.nblts (o.freq.length * o.pols.length) o.data ∧ r.spws.Nodup ∧
      ∃ ws : List (Int × Int), r.spws = ws.map Prod.fst ∧ r.flexPol = some (ws.map Prod.snd) ∧
        ws.Perm ((List.range o.pols.length).flatMap (fun p => o.spws.map (fun s => (W p s, (o.pols[p]?).getD 0)))) := by
  obtain ⟨W, hW⟩ := convertLoop_wins fresh hfresh o v.spws v.some_pol
  refine ⟨W, converted fresh o, by unfold convert; rw [hn], hW.zero, hW.inj, rfl, rfl, flexId_convert o v W _ hW, rfl, rfl, rfl, ?_, _, rfl, rfl, ?_⟩
  · exact ((List.perm_insertionSort _ _).map _).nodup_iff.2 hW.nodup
  · rw [← hW.wins]; exact List.perm_insertionSort _ _

/-- **Conversion puts every visibility into a channel of the same frequency and width whose window carries its polarization.** -/
theorem convert_channels (fresh : List Int → Int) (hfresh : ∀ l, fresh l ∉ l) (o : Obj K V) (v : Valid o) (hn : o.flexPol = none) :
    ∃ r, convert fresh o = some r ∧ r.pols = [0] ∧ r.nblts = o.nblts ∧ r.spws.Nodup ∧
      r.freq.length = o.freq.length * o.pols.length ∧ r.flexId.length = r.freq.length ∧ r.width.length = r.freq.length ∧
      (∀ f < o.freq.length, ∀ p q, o.pols[p]? = some q →
        r.freq[f + o.freq.length * p]? = o.freq[f]? ∧ r.width[f + o.freq.length * p]? = o.width[f]? ∧
        HasPol r (f + o.freq.length * p) q ∧ ∀ b < o.nblts, r.data b (f + o.freq.length * p) 0 = o.data b f p) ∧
      (∀ f < o.freq.length, ∀ f' < o.freq.length, ∀ p < o.pols.length, ∀ p' < o.pols.length,
        (r.flexId[f + o.freq.length * p]? = r.flexId[f' + o.freq.length * p']? ↔ o.flexId[f]? = o.flexId[f']? ∧ p = p')) := by
  obtain ⟨W, r, hr, h0, hinj, hnb, hpol, hid, hfreq, hwid, hdata, hnd, ws, hspws, hflex, hws⟩ := convert_eq fresh hfresh o v hn
  have hidl : ∀ p, (o.flexId.map (W p)).length = o.freq.length := fun p => by rw [List.length_map, v.len]
  have hidf : ∀ f < o.freq.length, ∀ p < o.pols.length, ∃ s ∈ o.spws, o.flexId[f]? = some s ∧
      r.flexId[f + o.freq.length * p]? = some (W p s) := by
    intro f hf p hp
    have hf' : f < o.flexId.length := by rw [v.len]; exact hf
    refine ⟨o.flexId[f], (v.ids _).1 (List.getElem_mem hf'), List.getElem?_eq_getElem hf', ?_⟩
    rw [hid, block_getElem? _ _ hidl hf _ _ hp, List.getElem?_map, List.getElem?_eq_getElem hf']; rfl
  refine ⟨r, hr, hpol, hnb, hnd, ?_, ?_, ?_, ?_, ?_⟩
  · rw [hfreq]; simp [Nat.mul_comm]
  · rw [hid, hfreq, List.length_flatMap]; simp [v.len]
  · rw [hwid, hfreq]; simp [v.width]
  · intro f hf p q hq
    have hp : p < o.pols.length := by
      by_contra h; rw [List.getElem?_eq_none (by omega)] at hq; simp at hq
    refine ⟨?_, ?_, ?_, ?_⟩
    · rw [hfreq, replicate_flatten_eq, block_getElem? (fun _ => o.freq) _ (fun _ => rfl) hf _ _ hp]
    · rw [hwid, replicate_flatten_eq, block_getElem? (fun _ => o.width) _ (fun _ => v.width) hf _ _ hp]
    · obtain ⟨s, hs, hfs, hrs⟩ := hidf f hf p hp
      have hm : (W p s, q) ∈ ws := by
        rw [hws.mem_iff]
        simp only [List.mem_flatMap, List.mem_range, List.mem_map]
        exact ⟨p, hp, s, hs, by rw [hq]; rfl⟩
      obtain ⟨i, hi⟩ := List.mem_iff_getElem?.1 hm
      exact ⟨i, W p s, _, hflex, hrs, by rw [hspws, List.getElem?_map, hi]; rfl, by rw [List.getElem?_map, hi]; rfl⟩
    · intro b hb
      rw [hdata]; exact reshapeF_flat _ _ _ _ hb hf
  · intro f hf f' hf' p hp p' hp'
    obtain ⟨s, hs, hfs, hrs⟩ := hidf f hf p hp
    obtain ⟨t, ht, hft, hrt⟩ := hidf f' hf' p' hp'
    rw [hrs, hrt, hfs, hft]
    constructor
    · intro h
      obtain ⟨h1, h2⟩ := hinj p hp p' hp' s hs t ht (by simpa using h)
      exact ⟨by rw [h2], h1⟩
    · rintro ⟨h1, h2⟩
      rw [h2, show s = t by simpa using h1]

/-- An object that has one polarization per window already is refused. -/
theorem convert_refuses (fresh : List Int → Int) (o : Obj K V) : convert fresh o = none ↔ o.flexPol ≠ none := by
  unfold convert; cases o.flexPol <;> simp

/-! ### The round trip -/

section
variable [LinearOrder K]

theorem signature_length (sF : Argsort K) (ids : List Int) (freq width : List K) (s : Int) :
    (signature sF ids freq width s).1.length = (ofWin ids freq s).length :=
  (fancy_perm _ _ (sF.sorts _).1).length_eq

theorem ofWin_zip (ids : List Int) (s : Int) : ∀ (xs ys : List K), ids.length = xs.length → ids.length = ys.length →
    ofWin ids (xs.zip ys) s = (ofWin ids xs s).zip (ofWin ids ys s) := by
  induction ids with
  | nil => intro xs ys hx hy; simp [ofWin]
  | cons i ids ih =>
    intro xs ys hx hy
    cases xs with
    | nil => simp at hx
    | cons x xs =>
      cases ys with
      | nil => simp at hy
      | cons y ys =>
        rw [List.zip_cons_cons, ofWin_cons, ofWin_cons, ofWin_cons, ih xs ys (by simpa using hx) (by simpa using hy)]
        by_cases h : i = s <;> simp [h]

theorem fancy_zip (xs ys : List K) (hl : xs.length = ys.length) : ∀ idx : List Nat, fancy (xs.zip ys) idx = (fancy xs idx).zip (fancy ys idx) := by
  intro idx
  induction idx with
  | nil => simp [fancy]
  | cons i idx ih =>
    unfold fancy at ih ⊢
    by_cases h : i < xs.length
    · have h' : i < ys.length := by omega
      simp [h, h', ih]
    · have h' : ¬ i < ys.length := by omega
      simp [h, h', ih]

/-- Windows that are found equal have the same channels, up to order. -/
theorem signature_perm (sF : Argsort K) (ids : List Int) (freq width : List K) (hf : ids.length = freq.length) (hw : ids.length = width.length)
    (s t : Int) (h : signature sF ids freq width s = signature sF ids freq width t) :
    (ofWin ids (freq.zip width) s).Perm (ofWin ids (freq.zip width) t) := by
  have key : ∀ u, (((signature sF ids freq width u).1).zip ((signature sF ids freq width u).2)).Perm (ofWin ids (freq.zip width) u) := by
    intro u
    rw [ofWin_zip ids u freq width hf hw]
    have hl : (ofWin ids freq u).length = (ofWin ids width u).length := by rw [ofWin_length _ _ _ hf, ofWin_length _ _ _ hw]
    unfold signature
    simp only
    rw [← fancy_zip _ _ hl]
    apply fancy_perm
    have := (sF.sorts (ofWin ids freq u)).1
    rwa [List.length_zip, ← hl, Nat.min_self]
  exact (key s).symm.trans (h ▸ key t)

/-- The sets of windows of a converted object. -/
theorem groups_blocks (sig : Int → List K × List K) (pol : Int → Int) (W : Nat → Int → Int) (F : List Int) (hF : F.Nodup)
    (sig0 : Int → List K × List K) (pols : List Int) (hne : 0 < pols.length)
    (hsig : ∀ p < pols.length, ∀ s ∈ F, sig (W p s) = sig0 s) (hinj : ∀ s ∈ F, ∀ t ∈ F, sig0 s = sig0 t → s = t)
    (hpol : ∀ p < pols.length, ∀ s ∈ F, pol (W p s) = (pols[p]?).getD 0) :
    groups sig pol ((List.range pols.length).flatMap (fun p => F.map (W p))) =
      F.map (fun s => ⟨(sig0 s).1, (sig0 s).2, (List.range pols.length).map (fun p => W p s), pols⟩) := by
  have hkeys : firsts (((List.range pols.length).flatMap (fun p => F.map (W p))).map sig) = F.map sig0 := by
    have e : ((List.range pols.length).flatMap (fun p => F.map (W p))).map sig = (List.range pols.length).flatMap (fun _ => F.map sig0) := by
      rw [List.map_flatMap]
      apply List.flatMap_congr
      intro p hp
      rw [List.map_map]
      exact List.map_congr_left (fun s hs => hsig p (List.mem_range.1 hp) s hs)
    rw [e, firsts_repeat _ hne, firsts_of_nodup]
    exact (List.nodup_map_iff_inj_on hF).2 hinj
  unfold groups
  rw [hkeys, List.map_map]
  refine List.map_congr_left (fun s hs => ?_)
  have hfil : ((List.range pols.length).flatMap (fun p => F.map (W p))).filter (fun x => decide (sig x = sig0 s)) =
      (List.range pols.length).map (fun p => W p s) := by
    rw [List.filter_flatMap, ← List.flatMap_singleton' ((List.range pols.length).map (fun p => W p s)), List.flatMap_map]
    apply List.flatMap_congr
    intro p hp
    rw [List.filter_map]
    have : F.filter ((fun x => decide (sig x = sig0 s)) ∘ W p) = [s] := by
      have e : F.filter ((fun x => decide (sig x = sig0 s)) ∘ W p) = F.filter (fun x => decide (x = s)) := by
        apply List.filter_congr
        intro x hx
        simp only [Function.comp_def, hsig p (List.mem_range.1 hp) x hx, decide_eq_decide]
        exact ⟨hinj x hx s hs, fun h => h ▸ rfl⟩
      rw [e]
      rw [show (fun x => decide (x = s)) = (fun x => x == s) from by funext x; simp [beq_eq_decide], List.filter_beq,
        List.count_eq_one_of_mem hF hs]; rfl
    rw [this]; rfl
  simp only [Function.comp_def, mkSet, hfil]
  congr 1
  rw [List.map_map]
  have e := range_getD_map (fun x => x) pols
  rw [List.map_id'] at e
  refine Eq.trans (List.map_congr_left (fun p hp => ?_)) e
  exact hpol p (List.mem_range.1 hp) s hs

end

end Verif.FlexPol
