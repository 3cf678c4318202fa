import Verif.AppSet.Model
import Verif.Phase.Selected

/-!
# C221: apparent positions from the catalog
-/

namespace Verif.AppSet

open Verif.Phase (Obj Env Err Epoch maskSet SkyAt AngleAt Good SourceAt rank maskSet_true maskSet_false maskSet_length
  pick_rank pick_count fixed_pick pick_subset)
open Verif.Phasing (pick)
open Verif.PhaseCat (Entry get get_some get_none keys altaz PointsAt)
open Verif.Pol (Str)
open Verif.Sky (Fixed)

noncomputable section

variable {env : Env} {o o' : Obj}

theorem mask_length (o : Obj) (k : Int) : (idMask o k).length = o.st.ids.length := by simp [idMask]

theorem mask_get {i : Nat} {k k' : Int} (h : o.st.ids[i]? = some k') : (idMask o k)[i]? = some (decide (k' = k)) := by
  simp [idMask, h]

theorem set_get {i : Nat} {k k' : Int} (h : o.st.ids[i]? = some k') {xs vs : List ℝ}
    (hx : xs.length = o.st.ids.length) (hv : vs.length = (idMask o k).count true) :
    (maskSet (idMask o k) xs vs)[i]? = if k' = k then vs[rank (idMask o k) i]? else xs[i]? := by
  split
  · rename_i hk
    refine maskSet_true _ _ _ _ (by rw [mask_length, hx]) (by omega) ?_
    rw [mask_get h, decide_eq_true hk]
  · rename_i hk
    refine maskSet_false _ _ _ _ ?_
    rw [mask_get h, decide_eq_false hk]

/-- Rows of the entries have the values for them, others what they had. -/
theorem places_rows {f : Entry → ℝ → ℝ → ℝ × ℝ} (hf : SkyAt env f) (ht : o.time.length = o.st.ids.length)
    (hl : o.lst.length = o.st.ids.length) (hfix : Fixed o.time o.lst) :
    ∀ (ks : List Int) (acc out : List ℝ × List ℝ), acc.1.length = o.st.ids.length → acc.2.length = o.st.ids.length →
      places env o ks acc = .ok out → out.1.length = o.st.ids.length ∧ out.2.length = o.st.ids.length ∧
      ∀ (i : Nat) k t l, o.st.ids[i]? = some k → o.time[i]? = some t → o.lst[i]? = some l →
        (k ∉ ks → out.1[i]? = acc.1[i]? ∧ out.2[i]? = acc.2[i]?) ∧
        (k ∈ ks → ∃ e, get o.st.cat k = some e ∧ out.1[i]? = some (f (asked e) t l).1 ∧
          out.2[i]? = some (f (asked e) t l).2) := by
  intro ks
  induction ks with
  | nil =>
    intro acc out h1 h2 h
    simp only [places, Except.ok.injEq] at h
    subst h
    exact ⟨h1, h2, fun i k t l _ _ _ => ⟨fun _ => ⟨rfl, rfl⟩, fun h => by simp at h⟩⟩
  | cons a ks ih =>
    intro acc out h1 h2 h
    unfold places at h
    cases hg : get o.st.cat a with
    | none => rw [hg] at h; simp at h
    | some e =>
      rw [hg] at h
      dsimp only at h
      cases hap : env.app (asked e) (pick (idMask o a) o.time) (pick (idMask o a) o.lst) with
      | error err => rw [hap] at h; simp at h
      | ok rd =>
        obtain ⟨r, d⟩ := rd
        rw [hap] at h
        dsimp only at h
        split at h
        · simp at h
        · rename_i hlen
          push Not at hlen
          obtain ⟨o1, o2, hrec⟩ := ih _ out (by rw [maskSet_length, h1]) (by rw [maskSet_length, h2]) h
          refine ⟨o1, o2, fun i k t l hk hti hli => ?_⟩
          obtain ⟨n1, n2⟩ := hrec i k t l hk hti hli
          dsimp only at n1
          rw [set_get hk h1 hlen.1, set_get hk h2 hlen.2] at n1
          constructor
          · intro hn
            rw [List.mem_cons, not_or] at hn
            have := n1 hn.2
            rwa [if_neg hn.1, if_neg hn.1] at this
          · intro hm
            by_cases hks : k ∈ ks
            · exact n2 hks
            · have hka : k = a := by
                rcases List.mem_cons.1 hm with h | h
                · exact h
                · exact absurd h hks
              subst hka
              have := n1 hks
              rw [if_pos rfl, if_pos rfl] at this
              have hmt : (idMask o k)[i]? = some true := by rw [mask_get hk]; simp
              have hsky := hf _ _ _ _ _ (fixed_pick (by rw [mask_length, ht]) (by rw [mask_length, hl]) hfix) hap
                (rank (idMask o k) i) t l (by rw [pick_rank _ _ _ (by rw [mask_length, ht]) hmt, hti])
                (by rw [pick_rank _ _ _ (by rw [mask_length, hl]) hmt, hli])
              exact ⟨e, hg, this.1.trans hsky.1, this.2.trans hsky.2⟩

/-- Positions of the rows of one entry go with the times, and are on the sky. -/
def Placed (o : Obj) (ra dec : List ℝ) (k : Int) : Prop :=
  Fixed (pick (idMask o k) o.time) (pick (idMask o k) ra) ∧ Fixed (pick (idMask o k) o.time) (pick (idMask o k) dec) ∧
    ∀ d ∈ pick (idMask o k) dec, d ≤ Real.pi / 2

theorem angles_rows {g : Option Str → Epoch → ℝ → ℝ → ℝ → ℝ} (hg : AngleAt env g)
    (ht : o.time.length = o.st.ids.length) {ra dec : List ℝ} (hr : ra.length = o.st.ids.length)
    (hd : dec.length = o.st.ids.length) :
    ∀ (c : List (Int × Entry)) (pa out : List ℝ), pa.length = o.st.ids.length → (c.map Prod.fst).Nodup →
      (∀ p ∈ c, Placed o ra dec p.1) →
      angles env o ra dec c pa = .ok out → out.length = o.st.ids.length ∧
      ∀ (i : Nat) k t x y, o.st.ids[i]? = some k → o.time[i]? = some t → ra[i]? = some x → dec[i]? = some y →
        (k ∉ c.map Prod.fst → out[i]? = pa[i]?) ∧
        (∀ e, (k, e) ∈ c → out[i]? = if e.frame = some altaz then pa[i]? else some (g e.frame (epochOf e.epoch) t x y)) := by
  intro c
  induction c with
  | nil =>
    intro pa out h1 _ _ h
    simp only [angles, Except.ok.injEq] at h
    subst h
    exact ⟨h1, fun i k t x y _ _ _ _ => ⟨fun _ => rfl, fun e h => by simp at h⟩⟩
  | cons a c ih =>
    intro pa out h1 hnd hpl h
    obtain ⟨a, ea⟩ := a
    rw [List.map_cons, List.nodup_cons] at hnd
    have hpl' : ∀ p ∈ c, Placed o ra dec p.1 := fun p hp => hpl p (List.mem_cons_of_mem _ hp)
    have notmem : ∀ e, (a, e) ∉ c := fun e he => hnd.1 (List.mem_map.2 ⟨_, he, rfl⟩)
    unfold angles at h
    by_cases hm : true ∉ idMask o a
    · rw [if_pos hm] at h
      obtain ⟨h2, hrec⟩ := ih pa out h1 hnd.2 hpl' h
      refine ⟨h2, fun i k t x y hk hti hx hy => ⟨fun hn => ?_, fun e he => ?_⟩⟩
      · rw [List.map_cons, List.mem_cons, not_or] at hn
        exact (hrec i k t x y hk hti hx hy).1 hn.2
      · rcases List.mem_cons.1 he with h | h
        · exfalso
          simp only [Prod.mk.injEq] at h
          apply hm
          have := mask_get (k := a) hk
          rw [h.1] at this
          simp only [decide_true] at this
          exact List.mem_of_getElem? this
        · exact (hrec i k t x y hk hti hx hy).2 e h
    · rw [if_neg hm] at h
      by_cases hz : ea.frame = some altaz
      · rw [if_pos hz] at h
        obtain ⟨h2, hrec⟩ := ih pa out h1 hnd.2 hpl' h
        refine ⟨h2, fun i k t x y hk hti hx hy => ⟨fun hn => ?_, fun e he => ?_⟩⟩
        · rw [List.map_cons, List.mem_cons, not_or] at hn
          exact (hrec i k t x y hk hti hx hy).1 hn.2
        · rcases List.mem_cons.1 he with h | h
          · simp only [Prod.mk.injEq] at h
            obtain ⟨rfl, rfl⟩ := h
            rw [if_pos hz]
            exact (hrec i k t x y hk hti hx hy).1 hnd.1
          · exact (hrec i k t x y hk hti hx hy).2 e h
      · rw [if_neg hz] at h
        cases ha : env.angle ea.frame (epochOf ea.epoch) (pick (idMask o a) o.time) (pick (idMask o a) ra)
            (pick (idMask o a) dec) with
        | error err => rw [ha] at h; simp at h
        | ok q =>
          rw [ha] at h
          dsimp only at h
          split at h
          · simp at h
          · rename_i hlen
            rw [not_not] at hlen
            obtain ⟨h2, hrec⟩ := ih _ out (by rw [maskSet_length, h1]) hnd.2 hpl' h
            refine ⟨h2, fun i k t x y hk hti hx hy => ?_⟩
            obtain ⟨n1, n2⟩ := hrec i k t x y hk hti hx hy
            rw [set_get hk h1 hlen] at n1
            refine ⟨fun hn => ?_, fun e he => ?_⟩
            · rw [List.map_cons, List.mem_cons, not_or] at hn
              have := n1 hn.2
              rwa [if_neg hn.1] at this
            · rcases List.mem_cons.1 he with hc | hc
              · simp only [Prod.mk.injEq] at hc
                obtain ⟨rfl, rfl⟩ := hc
                have := n1 hnd.1
                rw [if_pos rfl] at this
                rw [if_neg hz, this]
                have hmt : (idMask o k)[i]? = some true := by rw [mask_get hk]; simp
                obtain ⟨p1, p2, p3⟩ := hpl (k, e) (by simp)
                exact hg _ _ _ _ _ _ p1 p2 p3 ha (rank (idMask o k) i) t x y
                  (by rw [pick_rank _ _ _ (by rw [mask_length, ht]) hmt, hti])
                  (by rw [pick_rank _ _ _ (by rw [mask_length, hr]) hmt, hx])
                  (by rw [pick_rank _ _ _ (by rw [mask_length, hd]) hmt, hy])
              · have := n2 e hc
                have hne : k ≠ a := by
                  rintro rfl
                  exact notmem e hc
                rw [this, set_get hk h1 hlen, if_neg hne]

/-- Values of the selected rows come from rows with this entry. -/
theorem pick_row {k : Int} {xs : List ℝ} (hx : xs.length = o.st.ids.length) {j : Nat} {v : ℝ}
    (h : (pick (idMask o k) xs)[j]? = some v) :
    ∃ i, o.st.ids[i]? = some k ∧ rank (idMask o k) i = j ∧ xs[i]? = some v := by
  have hl := (List.getElem?_eq_some_iff.1 h).1
  rw [pick_count _ _ (by rw [mask_length, hx])] at hl
  obtain ⟨i, hi, hj⟩ := Verif.Phase.exists_rank _ _ hl
  refine ⟨i, ?_, hj, ?_⟩
  · have hlt : i < o.st.ids.length := by
      rw [← mask_length o k]
      exact (List.getElem?_eq_some_iff.1 hi).1
    rw [List.getElem?_eq_getElem hlt]
    rw [mask_get (List.getElem?_eq_getElem hlt)] at hi
    simp only [Option.some.injEq, decide_eq_true_eq] at hi
    rw [hi]
  · rw [← hj, pick_rank _ _ _ (by rw [mask_length, hx]) hi] at h
    exact h

theorem placed_of {ra dec : List ℝ} {k : Int} {F : ℝ → ℝ → ℝ × ℝ} (ht : o.time.length = o.st.ids.length)
    (hl : o.lst.length = o.st.ids.length) (hfix : Fixed o.time o.lst) (hr : ra.length = o.st.ids.length)
    (hd : dec.length = o.st.ids.length) (hlat : ∀ t l, (F t l).2 ≤ Real.pi / 2)
    (h : ∀ (i : Nat) t l, o.st.ids[i]? = some k → o.time[i]? = some t → o.lst[i]? = some l →
      ra[i]? = some (F t l).1 ∧ dec[i]? = some (F t l).2) : Placed o ra dec k := by
  have lst_at : ∀ (i : Nat), o.st.ids[i]? = some k → ∃ l, o.lst[i]? = some l := fun i hi => by
    have := (List.getElem?_eq_some_iff.1 hi).1
    exact ⟨_, List.getElem?_eq_getElem (by omega)⟩
  have time_at : ∀ (i : Nat), o.st.ids[i]? = some k → ∃ l, o.time[i]? = some l := fun i hi => by
    have := (List.getElem?_eq_some_iff.1 hi).1
    exact ⟨_, List.getElem?_eq_getElem (by omega)⟩
  have both : ∀ {xs : List ℝ} (_ : xs.length = o.st.ids.length) (p : ℝ × ℝ → ℝ),
      (∀ (i : Nat) t l, o.st.ids[i]? = some k → o.time[i]? = some t → o.lst[i]? = some l → xs[i]? = some (p (F t l))) →
      Fixed (pick (idMask o k) o.time) (pick (idMask o k) xs) := by
    intro xs hx p hp a b t x y h1 h2 h3 h4
    obtain ⟨i, i1, i2, i3⟩ := pick_row ht h1
    obtain ⟨j, j1, j2, j3⟩ := pick_row ht h2
    have mi : (idMask o k)[i]? = some true := by rw [mask_get i1]; simp
    have mj : (idMask o k)[j]? = some true := by rw [mask_get j1]; simp
    rw [← i2, pick_rank _ _ _ (by rw [mask_length, hx]) mi] at h3
    rw [← j2, pick_rank _ _ _ (by rw [mask_length, hx]) mj] at h4
    obtain ⟨l, hli⟩ := lst_at i i1
    obtain ⟨l', hlj⟩ := lst_at j j1
    have hll := hfix i j t l l' i3 j3 hli hlj
    subst hll
    rw [hp i t l i1 i3 hli] at h3
    rw [hp j t l j1 j3 hlj] at h4
    rw [← Option.some.inj h3, ← Option.some.inj h4]
  refine ⟨both hr Prod.fst fun i t l a b c => (h i t l a b c).1, both hd Prod.snd fun i t l a b c => (h i t l a b c).2, ?_⟩
  intro d hdm
  obtain ⟨j, hj⟩ := List.mem_iff_getElem?.1 hdm
  obtain ⟨i, i1, _, i3⟩ := pick_row hd hj
  obtain ⟨l, hli⟩ := lst_at i i1
  obtain ⟨t, hti⟩ := time_at i i1
  have := (h i t l i1 hti hli).2
  rw [i3] at this
  rw [Option.some.inj this]
  exact hlat t l

/-- Everything but positions and angles is kept. -/
theorem kept {paOnly : Bool} (h : setApp env paOnly o = .ok o') : o' = { o with ra := o'.ra, dec := o'.dec, pa := o'.pa } ∧
    (paOnly = true → o'.ra = o.ra ∧ o'.dec = o.dec) := by
  unfold setApp at h
  dsimp only at h
  split at h
  · simp at h
  · rename_i ra dec hp
    split at h
    · simp at h
    · simp only [Except.ok.injEq] at h
      subst h
      refine ⟨rfl, ?_⟩
      rintro rfl
      simp only [if_true, Except.ok.injEq, Prod.mk.injEq] at hp
      exact ⟨hp.1.symm, hp.2.symm⟩

/-- Each row has the apparent position of its entry, taken without velocity, at its time and LST, and the position
angle of the frame and epoch of its entry there. -/
theorem rows_set {f : Entry → ℝ → ℝ → ℝ × ℝ} {g : Option Str → Epoch → ℝ → ℝ → ℝ → ℝ} (hf : SkyAt env f)
    (ha : AngleAt env g) (hg : Good o) (hfix : Fixed o.time o.lst) (hlat : ∀ e t l, (f e t l).2 ≤ Real.pi / 2)
    (h : setApp env false o = .ok o') {i : Nat} {e : Entry} {t l : ℝ} (hp : PointsAt o.st i e)
    (ht : o.time[i]? = some t) (hl : o.lst[i]? = some l) :
    let p := f { e with vrad := none } t l
    SourceAt o' i p.1 p.2 (if e.frame = some altaz then 0 else g e.frame (epochOf e.epoch) t p.1 p.2) := by
  intro p
  have lt : o.time.length = o.st.ids.length := by rw [hg.time, hg.ids]
  have ll : o.lst.length = o.st.ids.length := by rw [hg.lst, hg.ids]
  have hkeys : (keys o.st.cat).Nodup := hg.cons.distinct
  unfold setApp at h
  dsimp only at h
  simp only [Bool.false_eq_true, if_false] at h
  split at h
  · simp at h
  · rename_i ra dec hpl
    obtain ⟨r1, r2, rows⟩ := places_rows hf lt ll hfix _ _ _ (by simp) (by simp) hpl
    have row : ∀ (k : Int) (e : Entry), (k, e) ∈ o.st.cat → ∀ (i : Nat) t l, o.st.ids[i]? = some k →
        o.time[i]? = some t → o.lst[i]? = some l →
        ra[i]? = some (f (asked e) t l).1 ∧ dec[i]? = some (f (asked e) t l).2 := by
      intro k e hke i t l h1 h2 h3
      obtain ⟨e', he', q1, q2⟩ := (rows i k t l h1 h2 h3).2 (Np.mem_unique.2 (List.mem_of_getElem? h1))
      rw [(get_some hkeys).2 hke] at he'
      obtain rfl := Option.some.inj he'
      exact ⟨q1, q2⟩
    split at h
    · simp at h
    · rename_i pa hpa
      simp only [Except.ok.injEq] at h
      subst h
      obtain ⟨k, hk, hke⟩ := hp
      obtain ⟨q1, q2⟩ := row k e hke i t l hk ht hl
      obtain ⟨_, arows⟩ := angles_rows ha lt r1 r2 _ _ _ (by simp) hg.cons.distinct
        (fun q hq => placed_of (F := f (asked q.2)) lt ll hfix r1 r2 (hlat _) (row q.1 q.2 hq)) hpa
      refine ⟨q1, q2, ?_⟩
      have := (arows i k t _ _ hk ht q1 q2).2 e hke
      have hi : i < o.st.ids.length := (List.getElem?_eq_some_iff.1 hk).1
      dsimp only
      rw [this]
      split
      · rw [List.getElem?_replicate, if_pos hi]
      · rfl

/-- **C221.** Rows of sources without velocity: each row has the apparent position of its source at its time. -/
theorem rows_set_partial {f : Entry → ℝ → ℝ → ℝ × ℝ} {g : Option Str → Epoch → ℝ → ℝ → ℝ → ℝ} (hf : SkyAt env f)
    (ha : AngleAt env g) (hg : Good o) (hfix : Fixed o.time o.lst) (hlat : ∀ e t l, (f e t l).2 ≤ Real.pi / 2)
    (h : setApp env false o = .ok o') {i : Nat} {e : Entry} {t l : ℝ} (hp : PointsAt o.st i e) (hv : e.vrad = none)
    (ht : o.time[i]? = some t) (hl : o.lst[i]? = some l) :
    SourceAt o' i (f e t l).1 (f e t l).2
      (if e.frame = some altaz then 0 else g e.frame (epochOf e.epoch) t (f e t l).1 (f e t l).2) := by
  have := rows_set hf ha hg hfix hlat h hp ht hl
  have he : { e with vrad := none } = e := by cases e; simp_all
  rw [he] at this
  exact this

/-- **C221 is false** for sources with a velocity: whenever the velocity matters for the position, rows do not have
the apparent position of their source (which `phase` gives them, C72). -/
theorem velocity_counterexample {f : Entry → ℝ → ℝ → ℝ × ℝ} {g : Option Str → Epoch → ℝ → ℝ → ℝ → ℝ} (hf : SkyAt env f)
    (ha : AngleAt env g) (hg : Good o) (hfix : Fixed o.time o.lst) (hlat : ∀ e t l, (f e t l).2 ≤ Real.pi / 2)
    (h : setApp env false o = .ok o') {i : Nat} {e : Entry} {t l : ℝ} (hp : PointsAt o.st i e)
    (ht : o.time[i]? = some t) (hl : o.lst[i]? = some l) (hv : f e t l ≠ f { e with vrad := none } t l) :
    ∀ pa, ¬ SourceAt o' i (f e t l).1 (f e t l).2 pa := by
  intro pa hs
  have := rows_set hf ha hg hfix hlat h hp ht hl
  have h1 := hs.1.symm.trans this.1
  have h2 := hs.2.1.symm.trans this.2.1
  exact hv (Prod.ext (Option.some.inj h1) (Option.some.inj h2))

/-- Positions are kept if only angles are asked for: rows have the angle of the frame of their entry at their
position, if positions of each entry go with times. -/
theorem angles_only {g : Option Str → Epoch → ℝ → ℝ → ℝ → ℝ} (ha : AngleAt env g) (hg : Good o)
    (hpl : ∀ p ∈ o.st.cat, Placed o o.ra o.dec p.1) (h : setApp env true o = .ok o') {i : Nat} {e : Entry} {t x y : ℝ}
    (hp : PointsAt o.st i e) (ht : o.time[i]? = some t) (hx : o.ra[i]? = some x) (hy : o.dec[i]? = some y) :
    SourceAt o' i x y (if e.frame = some altaz then 0 else g e.frame (epochOf e.epoch) t x y) := by
  unfold setApp at h
  dsimp only at h
  simp only [if_true] at h
  split at h
  · simp at h
  · rename_i pa hpa
    simp only [Except.ok.injEq] at h
    subst h
    obtain ⟨k, hk, hke⟩ := hp
    obtain ⟨_, arows⟩ := angles_rows ha (by rw [hg.time, hg.ids]) (by rw [hg.ra, hg.ids]) (by rw [hg.dec, hg.ids]) _ _ _
      (by simp) hg.cons.distinct hpl hpa
    refine ⟨hx, hy, ?_⟩
    have := (arows i k t _ _ hk ht hx hy).2 e hke
    have hi : i < o.st.ids.length := (List.getElem?_eq_some_iff.1 hk).1
    dsimp only
    rw [this]
    split
    · rw [List.getElem?_replicate, if_pos hi]
    · rfl

/-- The method succeeds if all rows have entries and the sky can be calculated. -/
theorem succeeds (hg : Good o)
    (h1 : ∀ e ts ls, ∃ r d, env.app e ts ls = .ok (r, d) ∧ r.length = ts.length ∧ d.length = ts.length)
    (h2 : ∀ fr ep ts ra dec, ∃ q, env.angle fr ep ts ra dec = .ok q ∧ q.length = ts.length) :
    ∃ o', setApp env false o = .ok o' := by
  have lt : ∀ k, (pick (idMask o k) o.time).length = (idMask o k).count true := fun k =>
    pick_count _ _ (by rw [mask_length, hg.time, hg.ids])
  have hp : ∀ (ks : List Int) (acc : List ℝ × List ℝ), (∀ k ∈ ks, k ∈ o.st.ids) → ∃ out, places env o ks acc = .ok out := by
    intro ks
    induction ks with
    | nil => intro acc _; exact ⟨acc, rfl⟩
    | cons k ks ih =>
      intro acc hks
      obtain ⟨e, he⟩ := hg.cons.rows k (hks k (by simp))
      obtain ⟨r, d, e1, e2, e3⟩ := h1 (asked e) (pick (idMask o k) o.time) (pick (idMask o k) o.lst)
      unfold places
      rw [(get_some (show (keys o.st.cat).Nodup from hg.cons.distinct)).2 he]
      dsimp only
      rw [e1]
      dsimp only
      rw [if_neg (by rw [e2, e3, lt]; simp)]
      exact ih _ fun x hx => hks x (by simp [hx])
  have ha : ∀ (ra dec : List ℝ) (c : List (Int × Entry)) (pa : List ℝ), ∃ out, angles env o ra dec c pa = .ok out := by
    intro ra dec c
    induction c with
    | nil => intro pa; exact ⟨pa, rfl⟩
    | cons a c ih =>
      intro pa
      obtain ⟨k, e⟩ := a
      obtain ⟨q, e1, e2⟩ := h2 e.frame (epochOf e.epoch) (pick (idMask o k) o.time) (pick (idMask o k) ra) (pick (idMask o k) dec)
      unfold angles
      split
      · exact ih pa
      · split
        · exact ih pa
        · rw [e1]
          dsimp only
          rw [if_neg (by rw [e2, lt]; simp)]
          exact ih _
  obtain ⟨⟨ra, dec⟩, hpl⟩ := hp (Np.unique o.st.ids) (List.replicate o.st.ids.length 0, List.replicate o.st.ids.length 0)
    (fun k hk => Np.mem_unique.1 hk)
  obtain ⟨pa, hpa⟩ := ha ra dec o.st.cat (List.replicate o.st.ids.length 0)
  refine ⟨{ o with ra := ra, dec := dec, pa := pa }, ?_⟩
  unfold setApp
  dsimp only
  rw [if_neg (by simp), hpl]
  dsimp only
  rw [hpa]

/-- A row without an entry is an error. -/
theorem missing_entry {k : Int} (hk : k ∈ o.st.ids) (hn : ∀ e, (k, e) ∉ o.st.cat) : ∃ err, setApp env false o = .error err := by
  have hget : get o.st.cat k = none := by
    rw [get_none]
    intro h
    obtain ⟨p, hp, rfl⟩ := List.mem_map.1 h
    exact hn p.2 hp
  have key : ∀ (ks : List Int) (acc : List ℝ × List ℝ), k ∈ ks → ∃ err, places env o ks acc = .error err := by
    intro ks
    induction ks with
    | nil => intro acc h; simp at h
    | cons a ks ih =>
      intro acc h
      unfold places
      cases hg : get o.st.cat a with
      | none => exact ⟨_, rfl⟩
      | some e =>
        have hk' : k ∈ ks := by
          rcases List.mem_cons.1 h with rfl | h
          · rw [hget] at hg; simp at hg
          · exact h
        dsimp only
        cases hap : env.app (asked e) (pick (idMask o a) o.time) (pick (idMask o a) o.lst) with
        | error err => exact ⟨_, rfl⟩
        | ok rd =>
          dsimp only
          split
          · exact ⟨_, rfl⟩
          · exact ih _ hk'
  obtain ⟨err, he⟩ := key (Np.unique o.st.ids) (List.replicate o.st.ids.length 0, List.replicate o.st.ids.length 0) (Np.mem_unique.2 hk)
  refine ⟨err, ?_⟩
  unfold setApp
  dsimp only
  rw [if_neg (by simp), he]

end

end Verif.AppSet
