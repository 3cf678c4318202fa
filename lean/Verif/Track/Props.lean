import Verif.Track.Model
import Mathlib.Data.List.Nodup
import Mathlib.Algebra.Order.Group.Basic

/-!
# C220: tracks
-/

namespace Verif.Track

variable {C T A E P K : Type}

/-! ## Apparent positions -/

section App
variable [LinearOrder T]

theorem mapM_map {α β : Type} {l : List α} {f : α → Option β} {g : α → β} (h : ∀ x ∈ l, f x = some (g x)) :
    l.mapM f = some (l.map g) := by
  induction l with
  | nil => rfl
  | cons a l ih =>
    rw [List.mapM_cons, h a (by simp), ih fun x hx => h x (by simp [hx])]
    rfl

theorem idx_unique {times : List T} {t : T} (h : t ∈ times) :
    (Np.unique times)[(Np.unique times).idxOf t]? = some t := by
  have hm := Np.mem_unique.2 h
  rw [List.getElem?_eq_getElem (List.idxOf_lt_length_of_mem hm)]
  simp

/-- One position: every row has the position at its time. -/
theorem app_single (f : C → T → A) (c : C) (times : List T) :
    appCoords f [c] times = some (times.map fun t => f c t) := by
  have hb : broadcast f [c] (Np.unique times) = some ((Np.unique times).map fun t => f c t) := by
    unfold broadcast
    split <;> rename_i h1 h2 <;> simp_all
  unfold appCoords
  rw [hb]
  dsimp only
  refine mapM_map fun t ht => ?_
  rw [List.getElem?_map, idx_unique ht]
  rfl

theorem unique_const {times : List T} {t : T} (hne : times ≠ []) (h : ∀ x ∈ times, x = t) :
    Np.unique times = [t] := by
  have hs := Np.unique_sorted times
  have hm : ∀ x ∈ Np.unique times, x = t := fun x hx => h x (Np.mem_unique.1 hx)
  have ht : t ∈ Np.unique times := by
    obtain ⟨x, hx⟩ := List.exists_mem_of_ne_nil _ hne
    have := h x hx
    subst this
    exact Np.mem_unique.2 hx
  match hu : Np.unique times, hs, hm, ht with
  | [], _, _, ht => simp at ht
  | [a], _, hm, _ => rw [hm a (by simp)]
  | a :: b :: l, hs, hm, _ =>
    have h1 := hm a (by simp)
    have h2 := hm b (by simp)
    have := List.rel_of_pairwise_cons hs (a' := b) (by simp)
    rw [h1, h2] at this
    exact absurd this (lt_irrefl _)

/-- Several positions for rows that all have one time: the first position is used for all rows. -/
theorem app_one_time (f : C → T → A) (c : C) (cs : List C) {times : List T} {t : T} (hne : times ≠ [])
    (h : ∀ x ∈ times, x = t) : appCoords f (c :: cs) times = some (times.map fun _ => f c t) := by
  unfold appCoords
  rw [unique_const hne h]
  unfold broadcast
  dsimp only
  refine mapM_map fun x hx => ?_
  rw [h x hx]
  simp

omit [LinearOrder T] in
theorem broadcast_eq (f : C → T → A) {cs : List C} {ts : List T} (h : cs.length = ts.length) :
    broadcast f cs ts = some (List.zipWith f cs ts) := by
  unfold broadcast
  split
  · match cs, h with
    | [c], _ => rfl
  · match ts, h with
    | [t], _ => rfl
  · rw [if_pos h]

theorem idxOf_sorted {l : List T} (hs : l.Pairwise (· < ·)) {t : T} (ht : t ∈ l) :
    l.idxOf t = l.countP (fun x => decide (x < t)) := by
  induction l with
  | nil => simp at ht
  | cons a l ih =>
    rw [List.pairwise_cons] at hs
    rcases List.mem_cons.1 ht with rfl | ht
    · rw [List.idxOf_cons_self, List.countP_cons, List.countP_eq_zero.2]
      · simp
      · intro x hx
        simpa using (hs.1 x hx).le
    · have hlt := hs.1 t ht
      rw [List.idxOf_cons_ne _ hlt.ne, ih hs.2 ht, List.countP_cons]
      simp [hlt]

theorem unique_perm {times : List T} (h : times.Nodup) : (Np.unique times).Perm times := by
  unfold Np.unique
  rw [h.dedup]
  exact List.perm_insertionSort _ _

/-- As many positions as times, which all differ: a row has the position whose number is the number of earlier
times. -/
theorem app_rank (f : C → T → A) {cs : List C} {times : List T} (hl : cs.length = times.length)
    (hn : times.Nodup) : ∃ out, appCoords f cs times = some out ∧ out.length = times.length ∧
      ∀ (i : Nat) t, times[i]? = some t →
        out[i]? = (cs[times.countP fun x => decide (x < t)]?).map fun c => f c t := by
  have hp := unique_perm hn
  have hul : cs.length = (Np.unique times).length := by rw [hp.length_eq, hl]
  have hidx : ∀ t ∈ times, (Np.unique times).idxOf t = times.countP fun x => decide (x < t) := fun t ht => by
    rw [idxOf_sorted (Np.unique_sorted times) (Np.mem_unique.2 ht), hp.countP_eq]
  have key : ∀ t ∈ times, ∃ c, cs[times.countP fun x => decide (x < t)]? = some c ∧
      (List.zipWith f cs (Np.unique times))[(Np.unique times).idxOf t]? = some (f c t) := by
    intro t ht
    have hlt : times.countP (fun x => decide (x < t)) < cs.length := by
      rw [← hidx t ht, hul]
      exact List.idxOf_lt_length_of_mem (Np.mem_unique.2 ht)
    refine ⟨cs[times.countP fun x => decide (x < t)], List.getElem?_eq_getElem hlt, ?_⟩
    rw [List.getElem?_zipWith, idx_unique ht, hidx t ht, List.getElem?_eq_getElem hlt]
  match cs, hl, hul, key with
  | [], hl, _, _ =>
    have : times = [] := List.length_eq_zero_iff.1 (by simpa using hl.symm)
    subst this
    exact ⟨[], rfl, rfl, fun i t h => by simp at h⟩
  | c0 :: cs, hl, hul, key =>
    refine ⟨times.map fun t => f (((c0 :: cs)[times.countP fun x => decide (x < t)]?).getD c0) t, ?_, by simp, ?_⟩
    · unfold appCoords
      rw [broadcast_eq f hul]
      dsimp only
      refine mapM_map fun t ht => ?_
      obtain ⟨c, h1, h2⟩ := key t ht
      rw [h2, h1]
      rfl
    · intro i t ht
      obtain ⟨c, h1, _⟩ := key t (List.mem_of_getElem? ht)
      rw [List.getElem?_map, ht, h1]
      simp [h1]

theorem count_sorted {times : List T} (hs : times.Pairwise (· < ·)) {i : Nat} {t : T} (ht : times[i]? = some t) :
    times.countP (fun x => decide (x < t)) = i := by
  have hn : times.Nodup := hs.imp fun h => h.ne
  rw [← idxOf_sorted hs (List.mem_of_getElem? ht)]
  have hi : i < times.length := (List.getElem?_eq_some_iff.1 ht).1
  have he : times[i] = t := (List.getElem?_eq_some_iff.1 ht).2
  rw [← he]
  exact hn.idxOf_getElem i hi

/-- **C220.** As many positions as times, which increase: each row has its own position at its time. -/
theorem app_sorted_partial (f : C → T → A) {cs : List C} {times : List T} (hl : cs.length = times.length)
    (hs : times.Pairwise (· < ·)) : appCoords f cs times = some (List.zipWith f cs times) := by
  obtain ⟨out, h1, h2, h3⟩ := app_rank f hl (hs.imp fun h => h.ne)
  rw [h1]
  congr 1
  refine List.ext_getElem? fun i => ?_
  rw [List.getElem?_zipWith]
  cases ht : times[i]? with
  | none =>
    rw [List.getElem?_eq_none_iff] at ht
    rw [List.getElem?_eq_none (by omega)]
    cases cs[i]? <;> rfl
  | some t =>
    rw [h3 i t ht, count_sorted hs ht]
    cases cs[i]? <;> rfl

/-- **C220 is false** for times that do not increase: for all such times and all different positions there is a
row that has the position of another row. -/
theorem order_counterexample {f : C → T → A} (hf : ∀ t c c', f c t = f c' t → c = c') {cs : List C}
    {times : List T} (hl : cs.length = times.length) (hc : cs.Nodup) (hn : times.Nodup)
    (hs : ¬ times.Pairwise (· < ·)) : ∃ out, appCoords f cs times = some out ∧
      ∃ (i j : Nat) (t : T) (c d : C), i ≠ j ∧ times[i]? = some t ∧ cs[i]? = some c ∧ cs[j]? = some d ∧
        out[i]? = some (f d t) ∧ f d t ≠ f c t := by
  obtain ⟨out, h1, h2, h3⟩ := app_rank f hl hn
  refine ⟨out, h1, ?_⟩
  have : ∃ (i : Nat) (t : T), times[i]? = some t ∧ times.countP (fun x => decide (x < t)) ≠ i := by
    by_contra hcon
    push Not at hcon
    apply hs
    rw [List.pairwise_iff_getElem]
    intro i j hi hj hij
    by_contra hge
    have hge := not_lt.1 hge
    have e1 := hcon i _ (List.getElem?_eq_getElem hi)
    have e2 := hcon j _ (List.getElem?_eq_getElem hj)
    have hle : times.countP (fun x => decide (x < times[j])) ≤ times.countP (fun x => decide (x < times[i])) :=
      List.countP_mono_left fun x _ hx => by
        simp only [decide_eq_true_eq] at hx ⊢
        exact lt_of_lt_of_le hx hge
    omega
  obtain ⟨i, t, ht, hne⟩ := this
  have hi : i < times.length := (List.getElem?_eq_some_iff.1 ht).1
  have hj : times.countP (fun x => decide (x < t)) < cs.length := by
    rw [hl]
    refine lt_of_le_of_ne List.countP_le_length fun he => ?_
    have := List.countP_eq_length.1 he t (List.mem_of_getElem? ht)
    simp at this
  have hout := h3 i t ht
  rw [List.getElem?_eq_getElem hj] at hout
  refine ⟨i, _, t, cs[i], _, hne.symm, ht, List.getElem?_eq_getElem (by omega), List.getElem?_eq_getElem hj, hout,
    fun he => hne ?_⟩
  exact (hc.getElem_inj_iff).1 (hf _ _ _ he)

/-- As many positions as rows: this is an error as soon as a time is repeated and there are two times. -/
theorem app_repeated (f : C → T → A) {cs : List C} {times : List T} (hl : cs.length = times.length)
    (hd : ¬ times.Nodup) {t t' : T} (h : t ∈ times) (h' : t' ∈ times) (hne : t ≠ t') : appCoords f cs times = none := by
  have hul : (Np.unique times).length < times.length := by
    rw [Np.unique_length]
    refine lt_of_le_of_ne (List.dedup_sublist times).length_le fun he => hd ?_
    rw [← (List.dedup_sublist times).eq_of_length he]
    exact List.nodup_dedup _
  have hb : broadcast f cs (Np.unique times) = none := by
    unfold broadcast
    split
    · rename_i x hx
      have a := Np.mem_unique.2 h
      have b := Np.mem_unique.2 h'
      rw [hx] at a b
      exact absurd ((List.mem_singleton.1 a).trans (List.mem_singleton.1 b).symm) hne
    · simp only [List.length_singleton] at hl
      have : (Np.unique times) ≠ [] := List.ne_nil_of_mem (Np.mem_unique.2 h)
      have := List.length_pos_of_ne_nil this
      omega
    · rw [if_neg (by omega)]
  unfold appCoords
  rw [hb]

end App

/-! ## Pairs and rows -/

/-- The pairs are all pairs of antennas. -/
theorem mem_pairs {n a b : Nat} : (a, b) ∈ pairs n ↔ 1 ≤ a ∧ a < b ∧ b ≤ n := by
  unfold pairs
  simp only [List.mem_flatMap, List.mem_range, List.mem_map, List.mem_range'_1, Prod.mk.injEq]
  constructor
  · rintro ⟨i, hi, j, hj, rfl, rfl⟩
    omega
  · rintro ⟨h1, h2, h3⟩
    exact ⟨a - 1, by omega, b - 1, by omega, by omega, by omega⟩

/-- Each pair comes once. -/
theorem pairs_nodup (n : Nat) : (pairs n).Nodup := by
  unfold pairs
  rw [List.nodup_flatMap]
  constructor
  · intro i _
    exact List.Nodup.map (fun a b h => by simpa using h) List.nodup_range'
  · refine List.nodup_range.imp ?_
    intro i j hij x hx hy
    simp only [List.mem_map] at hx hy
    obtain ⟨a, _, rfl⟩ := hx
    obtain ⟨b, _, hb⟩ := hy
    simp only [Prod.mk.injEq] at hb
    omega

theorem two_le {α : Type} {l : List α} {a b : α} (ha : a ∈ l) (hb : b ∈ l) (h : a ≠ b) : 2 ≤ l.length := by
  match l with
  | [] => simp at ha
  | [x] => exact absurd ((List.mem_singleton.1 ha).trans (List.mem_singleton.1 hb).symm) h
  | x :: y :: l => simp

theorem rep_length {α : Type} (l : List α) (n : Nat) : (rep l n).length = l.length * n := by
  induction l with
  | nil => simp [rep]
  | cons a l ih =>
    have : rep (a :: l) n = List.replicate n a ++ rep l n := rfl
    rw [this, List.length_append, ih, List.length_replicate, List.length_cons, Nat.succ_mul, Nat.add_comm]

theorem mem_rep {α : Type} {l : List α} {n : Nat} {x : α} : x ∈ rep l n ↔ x ∈ l ∧ 0 < n := by
  unfold rep
  simp only [List.mem_flatMap, List.mem_replicate]
  constructor
  · rintro ⟨a, ha, hn, rfl⟩
    exact ⟨ha, by omega⟩
  · rintro ⟨ha, hn⟩
    exact ⟨x, ha, by omega, rfl⟩

theorem zip_rep_tile {α β : Type} (ts : List α) (l : List β) :
    (tile l ts.length).zip (rep ts l.length) = ts.flatMap fun t => l.map fun p => (p, t) := by
  induction ts with
  | nil => rfl
  | cons t ts ih =>
    have e1 : tile l (t :: ts).length = l ++ tile l ts.length := rfl
    have e2 : rep (t :: ts) l.length = List.replicate l.length t ++ rep ts l.length := rfl
    rw [e1, e2, List.zip_append (by simp), ih, List.flatMap_cons]
    congr 1
    clear ih e1 e2
    induction l with
    | nil => rfl
    | cons p l ih => simp [List.replicate_succ, ih]

theorem zip_map_right' {α β γ : Type} (l : List α) (ts : List β) (g : β → γ) :
    l.zip (ts.zip (ts.map g)) = (l.zip ts).map fun r => (r.1, r.2, g r.2) := by
  induction l generalizing ts with
  | nil => rfl
  | cons a l ih => cases ts with
    | nil => rfl
    | cons t ts => simp [ih]

section Rows
variable [LinearOrder T] [LinearOrder K] [AddCommGroup K]

/-- One position, and antennas to choose pairs of: at each time there is one row for each pair, with the
apparent position of this time.  The epoch is not used for positions. -/
theorem track_partial (s : Sky C T A E P K) (force : Bool) (epoch : Option E) (c : C) (times : List T) {n : Nat}
    (hn : 2 ≤ n) : track s force epoch [c] times n =
      some (times.flatMap fun t => (pairs n).map fun p => mkRow s force epoch p t (s.app none c t)) := by
  have hb : 0 < (pairs n).length := List.length_pos_of_mem (mem_pairs.2 ⟨le_refl 1, by omega, hn⟩ : (1, 2) ∈ pairs n)
  have happ : appCoords (s.app none) (if [c].length = times.length then rep [c] (pairs n).length else [c])
      (rep times (pairs n).length) = some ((rep times (pairs n).length).map fun t => s.app none c t) := by
    split
    · rename_i h1
      obtain ⟨t, rfl⟩ := List.length_eq_one_iff.1 h1.symm
      obtain ⟨m, hm⟩ : ∃ m, (pairs n).length = m + 1 := ⟨(pairs n).length - 1, by omega⟩
      have e : rep [c] (m + 1) = c :: rep [c] m := by simp [rep, List.replicate_succ]
      rw [hm, e, app_one_time (t := t) _ c _ (List.ne_nil_of_mem (mem_rep.2 ⟨List.mem_singleton.2 rfl, by omega⟩))
        (fun x hx => List.mem_singleton.1 (mem_rep.1 hx).1)]
      congr 1
      refine List.map_congr_left fun x hx => ?_
      rw [List.mem_singleton.1 (mem_rep.1 hx).1]
    · exact app_single _ _ _
  unfold track rowsOf
  dsimp only
  rw [happ]
  dsimp only
  rw [zip_map_right', zip_rep_tile]
  simp [List.map_flatMap, Function.comp_def]

/-- **C220 is false** for positions that are given for times: with three antennas or more this is an error. -/
theorem times_counterexample (s : Sky C T A E P K) (force : Bool) (epoch : Option E) {cs : List C} {times : List T}
    (hl : cs.length = times.length) {t t' : T} (h : t ∈ times) (h' : t' ∈ times) (hne : t ≠ t') {n : Nat} (hn : 3 ≤ n) :
    track s force epoch cs times n = none := by
  have hb : 2 ≤ (pairs n).length :=
    two_le (mem_pairs.2 ⟨le_refl 1, by omega, by omega⟩ : (1, 2) ∈ pairs n)
      (mem_pairs.2 ⟨le_refl 1, by omega, by omega⟩ : (1, 3) ∈ pairs n) (by simp)
  have hd : ¬ (rep times (pairs n).length).Nodup := by
    intro hnd
    have := hnd
    unfold rep at this
    rw [List.nodup_flatMap] at this
    have := this.1 t h
    rw [List.nodup_replicate] at this
    omega
  unfold track rowsOf
  dsimp only
  rw [if_pos hl, app_repeated _ (by simp [rep_length, hl]) hd (mem_rep.2 ⟨h, by omega⟩) (mem_rep.2 ⟨h', by omega⟩) hne]

/-- **C220 is false** for positions of rows that have one time: all rows have the first position. -/
theorem one_time_counterexample (s : Sky C T A E P K) (force : Bool) (epoch : Option E) (c : C) (cs : List C) (t : T)
    (ants : List (Nat × Nat)) (hne : ants ≠ []) :
    rowsOf s force epoch (c :: cs) (List.replicate ants.length t) ants =
      some (ants.map fun p => mkRow s force epoch p t (s.app none c t)) := by
  have hlen := List.length_pos_of_ne_nil hne
  unfold rowsOf
  rw [app_one_time _ c cs (t := t) (by intro h; rw [List.replicate_eq_nil_iff] at h; omega)
    (fun x hx => List.eq_of_mem_replicate hx)]
  dsimp only
  congr 1
  clear hne hlen
  induction ants with
  | nil => rfl
  | cons p l ih => simpa [List.replicate_succ] using ih

/-- Pairs (or baseline coordinates) are given for rows with times that increase: each row has its own antennas,
time and position. -/
theorem rows_partial (s : Sky C T A E P K) (force : Bool) (epoch : Option E) {cs : List C} {times : List T}
    (hl : cs.length = times.length) (hs : times.Pairwise (· < ·)) {ants : List (Nat × Nat)}
    (ha : ants.length = times.length) : ∃ out, rowsOf s force epoch cs times ants = some out ∧
      out.length = times.length ∧ ∀ (i : Nat) p t c, ants[i]? = some p → times[i]? = some t → cs[i]? = some c →
        out[i]? = some (mkRow s force epoch p t (s.app none c t)) := by
  unfold rowsOf
  rw [app_sorted_partial _ hl hs]
  refine ⟨_, rfl, by simp [hl, ha], fun i p t c h1 h2 h3 => ?_⟩
  simp [List.zip, List.getElem?_zipWith, h1, h2, h3]

/-- Pairs are given for rows, and one position: each row has its own antennas and time, and this position. -/
theorem rows_single (s : Sky C T A E P K) (force : Bool) (epoch : Option E) (c : C) {times : List T}
    {ants : List (Nat × Nat)} (ha : ants.length = times.length) : ∃ out, rowsOf s force epoch [c] times ants = some out ∧
      out.length = times.length ∧ ∀ (i : Nat) p t, ants[i]? = some p → times[i]? = some t →
        out[i]? = some (mkRow s force epoch p t (s.app none c t)) := by
  unfold rowsOf
  rw [app_single]
  refine ⟨_, rfl, by simp [ha], fun i p t h1 h2 => ?_⟩
  simp [List.zip, List.getElem?_zipWith, h1, h2]

omit [LinearOrder T] in
/-- What a row has: its position angle is that of the epoch, and baseline coordinates are those of the row or
the opposite ones. -/
theorem row_fields (s : Sky C T A E P K) (force : Bool) (epoch : Option E) (p : Nat × Nat) (t : T) (a : A) :
    (mkRow s force epoch p t a).ants = p ∧ (mkRow s force epoch p t a).time = t ∧
      (mkRow s force epoch p t a).app = a ∧ (mkRow s force epoch p t a).pa = s.pa epoch t a ∧
      (force = false → (mkRow s force epoch p t a).uvw = s.uvw p t a (s.pa epoch t a)) := by
  refine ⟨rfl, rfl, rfl, rfl, ?_⟩
  rintro rfl
  rfl

/-- **C220 is false** for coordinates of an epoch: rows have the apparent positions for no epoch, so they are not
where the source is whenever the epoch matters. -/
theorem epoch_counterexample (s : Sky C T A E P K) (force : Bool) (epoch : Option E) (c : C) {times : List T} {n : Nat}
    (hn : 2 ≤ n) (hdiff : ∀ t ∈ times, s.app epoch c t ≠ s.app none c t) :
    ∃ out, track s force epoch [c] times n = some out ∧ out.length = times.length * (pairs n).length ∧
      ∀ r ∈ out, r.time ∈ times ∧ r.app = s.app none c r.time ∧ r.app ≠ s.app epoch c r.time := by
  refine ⟨_, track_partial s force epoch c times hn, ?_, ?_⟩
  · induction times with
    | nil => simp
    | cons t ts ih =>
      rw [List.flatMap_cons, List.length_append, ih fun x hx => hdiff x (by simp [hx])]
      simp [Nat.succ_mul, Nat.add_comm]
  · intro r hr
    simp only [List.mem_flatMap, List.mem_map] at hr
    obtain ⟨t, ht, p, _, rfl⟩ := hr
    exact ⟨ht, rfl, fun h => hdiff t ht h.symm⟩

variable [IsOrderedAddMonoid K]

omit [LinearOrder T] in
/-- With `force_postive_u` rows are on the positive side: first coordinates are not negative, and if they are
zero then second ones are not; coordinates are those of the row or all three are the opposite ones. -/
theorem force_positive (s : Sky C T A E P K) (epoch : Option E) (p : Nat × Nat) (t : T) (a : A) :
    let x := s.uvw p t a (s.pa epoch t a)
    let y := (mkRow s true epoch p t a).uvw
    (0 < y.u ∨ (y.u = 0 ∧ 0 ≤ y.v)) ∧
      ((y.u = x.u ∧ y.v = x.v ∧ y.w = x.w) ∨ (y.u = -x.u ∧ y.v = -x.v ∧ y.w = -x.w)) := by
  intro x y
  have hy : y = flip x := rfl
  rw [hy]
  unfold flip
  split
  · rename_i h
    refine ⟨?_, .inr ⟨rfl, rfl, rfl⟩⟩
    rcases h with h | ⟨h, h'⟩
    · exact .inl (by simpa using h)
    · exact .inr ⟨by simpa using h, by simpa using h'.le⟩
  · rename_i h
    push Not at h
    refine ⟨?_, .inl ⟨rfl, rfl, rfl⟩⟩
    rcases eq_or_lt_of_le h.1 with h0 | h0
    · exact .inr ⟨h0.symm, h.2 h0.symm⟩
    · exact .inl h0

end Rows

end Verif.Track
