import Verif.Flag.Model
import Verif.Select.Lemmas
import Mathlib.Algebra.Order.Ring.Rat
import Mathlib.Algebra.Field.Rat

/-! C26, C29, C30: applying flags, and converting flags between their types. -/
namespace Verif.Flag
open Verif.Np
open Verif.TimeSel (isclose)

variable {K : Type} [Field K] [LinearOrder K]

/-! ### Lists -/

theorem setRows_get (rows : List Nat) (pl : Plane) (arr : List Plane) (i : Nat) :
    (setRows rows pl arr)[i]? = (arr[i]?).map (fun x => if i ∈ rows then pl else x) := by
  unfold setRows
  rw [List.getElem?_mapIdx]
  simp

/-- How many elements equal `x`. -/
def mult {α : Type} [DecidableEq α] (l : List α) (x : α) : Nat := l.countP (fun q => decide (q = x))

/-- How many of the elements before number `i` equal `x`. -/
def rank {α : Type} [DecidableEq α] (l : List α) (x : α) (i : Nat) : Nat := mult (l.take i) x

theorem where_take {α : Type} [DecidableEq α] (l : List α) (x : α) (i : Nat) (h : i ≤ l.length) :
    ((List.range i).filter (fun j => decide (l[j]? = some x))).length = mult (l.take i) x := by
  induction i with
  | zero => simp [mult]
  | succ i ih =>
    have hi : i < l.length := by omega
    unfold mult at ih ⊢
    rw [List.range_succ, List.filter_append, List.length_append, ih (by omega), List.take_add_one,
      List.getElem?_eq_getElem hi, Option.toList_some, List.countP_append]
    congr 1
    by_cases hx : l[i] = x
    · simp [List.filter_cons, List.getElem?_eq_getElem hi, hx]
    · simp [List.filter_cons, List.getElem?_eq_getElem hi, hx]

theorem whereIdx_eq {α : Type} [DecidableEq α] (l : List α) (x : α) :
    whereIdx (fun q => decide (q = x)) l = (List.range l.length).filter (fun j => decide (l[j]? = some x)) := by
  apply strictSorted_ext (whereIdx_sorted _ _) (range_filter_sorted _ _)
  intro i
  rw [mem_whereIdx, List.mem_filter]
  simp only [decide_eq_true_eq, exists_eq_right, List.mem_range]
  constructor
  · intro h; exact ⟨(List.getElem?_eq_some_iff.1 h).1, h⟩
  · intro h; exact h.2

/-- The row `i` is the `rank`-th of the rows with the same value. -/
theorem where_rank {α : Type} [DecidableEq α] (l : List α) (x : α) (i : Nat) (h : l[i]? = some x) :
    (whereIdx (fun q => decide (q = x)) l)[rank l x i]? = some i := by
  have hi := (List.getElem?_eq_some_iff.1 h).1
  rw [whereIdx_eq]
  have hsplit : List.range l.length = List.range i ++ i :: (List.range (l.length - (i + 1))).map (fun k => i + 1 + k) := by
    have h1 : List.range l.length = List.range (i + 1 + (l.length - (i + 1))) := by congr 1; omega
    rw [h1, List.range_add, List.range_succ]
    simp
  rw [hsplit, List.filter_append, List.filter_cons, if_pos (by simp [h])]
  have hl : ((List.range i).filter (fun j => decide (l[j]? = some x))).length = rank l x i := where_take l x i (by omega)
  rw [List.getElem?_append_right (by omega), hl]
  simp

theorem where_idxOf {α : Type} [DecidableEq α] (l : List α) (x : α) (i : Nat) (h : l[i]? = some x) :
    (whereIdx (fun q => decide (q = x)) l).idxOf i = rank l x i := by
  have hr := where_rank l x i h
  have hn : (whereIdx (fun q => decide (q = x)) l).Nodup := (whereIdx_sorted _ _).imp (fun h => by omega)
  obtain ⟨hlt, he⟩ := List.getElem?_eq_some_iff.1 hr
  have := hn.idxOf_getElem _ hlt
  rwa [he] at this

theorem mem_where_eq {α : Type} [DecidableEq α] {l : List α} {x : α} {i : Nat} :
    i ∈ whereIdx (fun q => decide (q = x)) l ↔ l[i]? = some x := by
  rw [mem_whereIdx]; simp

/-! ### C26 -/

/-- The flag that `apply_uvflag` adds at channel `f` and polarization `p` of row `i`, which belongs to pair `ap`: all
flags if the flag object does not have the pair and `flag_missing` is given, else the flag of the row of the pair with
the same rank (or of its only row), at the same channel and polarization (or the only one). -/
def Added (uvd uvf : Bl K) (missing : Bool) (ap : Int × Int) (i f p : Nat) : Prop :=
  (ap ∉ uvf.pairs ∧ missing = true) ∨
  ∃ (j : Nat) (pl : Plane), uvf.pairs[j]? = some ap ∧ uvf.flags[j]? = some pl ∧
    (rank uvf.pairs ap j = rank uvd.pairs ap i ∨ mult uvf.pairs ap = 1) ∧
    pl (if uvf.nf = 1 then 0 else f) (if uvf.np = 1 then 0 else p) = true

theorem where_length {α : Type} [DecidableEq α] (l : List α) (x : α) :
    (whereIdx (fun q => decide (q = x)) l).length = mult l x := by
  rw [whereIdx_eq, where_take l x l.length (le_refl _), List.take_length]

/-- One pair: rows of the pair get the flags, all others stay. -/
theorem orRows_spec (uvd uvf : Bl K) (hf : uvf.flags.length = uvf.pairs.length) (ap : Int × Int) (hap : ap ∈ uvf.pairs)
    (missing : Bool) (arr arr' : List Plane)
    (h : orRows uvd uvf (whereIdx (fun q => decide (q = ap)) uvd.pairs) (whereIdx (fun q => decide (q = ap)) uvf.pairs) arr =
      .ok arr') :
    arr'.length = arr.length ∧ ∀ i x, arr[i]? = some x → ∃ y, arr'[i]? = some y ∧
      (uvd.pairs[i]? ≠ some ap → y = x) ∧
      (uvd.pairs[i]? = some ap → ∀ f p, y f p = true ↔ (x f p = true ∨ Added uvd uvf missing ap i f p)) := by
  unfold orRows at h
  split at h
  · rename_i hfit
    simp only [Bool.and_eq_true] at hfit
    simp only [Except.ok.injEq] at h
    subst h
    refine ⟨by simp, ?_⟩
    intro i x hx
    refine ⟨_, by rw [List.getElem?_mapIdx, hx]; rfl, ?_, ?_⟩
    · intro hne
      beta_reduce
      rw [if_neg]
      simpa [mem_where_eq] using hne
    · intro hi f p
      have hmem : i ∈ whereIdx (fun q => decide (q = ap)) uvd.pairs := mem_where_eq.2 hi
      beta_reduce
      rw [if_pos (by simpa using hmem)]
      simp only [Bool.or_eq_true]
      refine or_congr Iff.rfl ?_
      rw [where_idxOf _ _ _ hi]
      set fi := whereIdx (fun q => decide (q = ap)) uvf.pairs with hfi
      have hlen : fi.length = mult uvf.pairs ap := where_length _ _
      have hdl : (whereIdx (fun q => decide (q = ap)) uvd.pairs).length = mult uvd.pairs ap := where_length _ _
      -- the row that is used
      have hrk : rank uvd.pairs ap i < mult uvd.pairs ap := by
        have := (List.getElem?_eq_some_iff.1 (where_rank _ _ _ hi)).1
        omega
      have hpos : 0 < fi.length := by
        rw [hlen]; unfold mult; exact List.countP_pos_iff.2 ⟨ap, hap, by simp⟩
      have hb : bidx fi.length (rank uvd.pairs ap i) < fi.length := by
        unfold bidx
        split
        · omega
        · rename_i h1
          have h2 := hfit.1.1
          simp only [fits, Bool.or_eq_true, beq_iff_eq] at h2
          omega
      have hj : fi[bidx fi.length (rank uvd.pairs ap i)]? = some (fi[bidx fi.length (rank uvd.pairs ap i)]) :=
        List.getElem?_eq_getElem hb
      set j := fi[bidx fi.length (rank uvd.pairs ap i)] with hjd
      have hjp : uvf.pairs[j]? = some ap := mem_where_eq.1 (List.mem_of_getElem? hj)
      have hjr : rank uvf.pairs ap j = bidx fi.length (rank uvd.pairs ap i) := by
        have h1 := where_idxOf _ _ _ hjp
        rw [← h1]
        have hn : fi.Nodup := (whereIdx_sorted _ _).imp (fun h => by omega)
        exact hn.idxOf_getElem _ hb
      have hjl : j < uvf.flags.length := by
        rw [hf]; exact (List.getElem?_eq_some_iff.1 hjp).1
      have hjf : uvf.flags[j]? = some uvf.flags[j] := List.getElem?_eq_getElem hjl
      rw [hj]
      simp only [Option.bind_some, hjf, Option.getD_some]
      unfold Added
      constructor
      · intro hp
        right
        refine ⟨j, _, hjp, hjf, ?_, hp⟩
        rw [hjr, ← hlen]
        unfold bidx
        by_cases h1 : fi.length = 1
        · exact Or.inr h1
        · left; rw [if_neg h1]
      · rintro (⟨hno, -⟩ | ⟨j', pl, hp', hf', hr, hp⟩)
        · exact absurd hap hno
        · have hjj : j' = j := by
            have h1 := where_rank _ _ _ hp'
            have h2 := where_rank _ _ _ hjp
            have : rank uvf.pairs ap j' = rank uvf.pairs ap j := by
              rw [hjr]
              unfold bidx
              by_cases h1 : fi.length = 1
              · rw [if_pos h1]
                have := (List.getElem?_eq_some_iff.1 (where_rank _ _ _ hp')).1
                rw [where_length, ← hlen] at this
                omega
              · rw [if_neg h1]
                rcases hr with hr | hr
                · exact hr
                · rw [← hlen] at hr; exact absurd hr h1
            rw [this, h2] at h1
            simpa using h1.symm
          subst hjj
          rw [hjf] at hf'
          simp only [Option.some.injEq] at hf'
          subst hf'
          exact hp
  · simp at h

theorem applyPairs_spec (uvd uvf : Bl K) (hf : uvf.flags.length = uvf.pairs.length) (missing : Bool) :
    ∀ (l : List (Int × Int)), l.Nodup → ∀ arr arr', applyPairs uvd uvf missing l arr = .ok arr' →
    arr'.length = arr.length ∧ ∀ i x, arr[i]? = some x → ∃ y, arr'[i]? = some y ∧
      ((∀ ap ∈ l, uvd.pairs[i]? ≠ some ap) → y = x) ∧
      (∀ ap ∈ l, uvd.pairs[i]? = some ap → ∀ f p, y f p = true ↔ (x f p = true ∨ Added uvd uvf missing ap i f p))
  | [], _, arr, arr', h => by
    simp only [applyPairs, Except.ok.injEq] at h
    subst h
    refine ⟨rfl, ?_⟩
    intro i x hx
    exact ⟨x, hx, fun _ => rfl, by simp⟩
  | ap :: l, hn, arr, arr', h => by
    have hnl := (List.nodup_cons.1 hn).2
    have hnot := (List.nodup_cons.1 hn).1
    -- one step, then the rest
    have key : ∀ mid, applyPairs uvd uvf missing l mid = .ok arr' → mid.length = arr.length →
        (∀ i x, arr[i]? = some x → ∃ y, mid[i]? = some y ∧ (uvd.pairs[i]? ≠ some ap → y = x) ∧
          (uvd.pairs[i]? = some ap → ∀ f p, y f p = true ↔ (x f p = true ∨ Added uvd uvf missing ap i f p))) →
        arr'.length = arr.length ∧ ∀ i x, arr[i]? = some x → ∃ y, arr'[i]? = some y ∧
          ((∀ ap' ∈ ap :: l, uvd.pairs[i]? ≠ some ap') → y = x) ∧
          (∀ ap' ∈ ap :: l, uvd.pairs[i]? = some ap' →
            ∀ f p, y f p = true ↔ (x f p = true ∨ Added uvd uvf missing ap' i f p)) := by
      intro mid hmid hlen hstep
      obtain ⟨h1, h2⟩ := applyPairs_spec uvd uvf hf missing l hnl mid arr' hmid
      refine ⟨by rw [h1, hlen], ?_⟩
      intro i x hx
      obtain ⟨y, hy, ha, hb⟩ := hstep i x hx
      obtain ⟨z, hz, hc, hd⟩ := h2 i y hy
      refine ⟨z, hz, ?_, ?_⟩
      · intro hall
        rw [hc (fun ap' hap' => hall ap' (by simp [hap'])), ha (hall ap (by simp))]
      · intro ap' hap' hi f p
        rcases List.mem_cons.1 hap' with rfl | hm
        · rw [hc (fun ap'' hap'' hc' => by
            rw [hi] at hc'
            simp only [Option.some.injEq] at hc'
            exact hnot (hc' ▸ hap''))]
          exact hb hi f p
        · rw [hd ap' hm hi f p, ha (fun hc' => by
            rw [hi] at hc'
            simp only [Option.some.injEq] at hc'
            exact hnot (hc' ▸ hm))]
    simp only [applyPairs] at h
    by_cases hap : ap ∈ uvf.pairs
    · rw [if_pos (by simpa using hap)] at h
      cases ho : orRows uvd uvf (whereIdx (fun q => decide (q = ap)) uvd.pairs)
          (whereIdx (fun q => decide (q = ap)) uvf.pairs) arr with
      | error e => rw [ho] at h; simp at h
      | ok mid =>
        rw [ho] at h
        obtain ⟨h1, h2⟩ := orRows_spec uvd uvf hf ap hap missing arr mid ho
        exact key mid h h1 h2
    · rw [if_neg (by simpa using hap)] at h
      refine key _ h ?_ ?_
      · split
        · simp [setRows]
        · rfl
      · intro i x hx
        by_cases hm : missing = true
        · rw [if_pos hm]
          refine ⟨_, by rw [setRows_get, hx]; rfl, ?_, ?_⟩
          · intro hne
            beta_reduce
            rw [if_neg (fun hc => hne (mem_where_eq.1 hc))]
          · intro hi f p
            beta_reduce
            rw [if_pos (mem_where_eq.2 hi)]
            simp [full, Added, hap, hm]
        · rw [if_neg hm]
          refine ⟨x, hx, fun _ => rfl, ?_⟩
          intro hi f p
          have hno : ¬Added uvd uvf missing ap i f p := by
            rintro (⟨-, h1⟩ | ⟨j, pl, h1, -⟩)
            · exact hm h1
            · exact hap (List.mem_of_getElem? h1)
          simp [hno]

/-- C26: after applying flags, nothing but the flags has changed, and a flag is set exactly if it was set before (and
flags were not cleared first) or is one of the flags to add. -/
theorem apply_bl_exact (tolT tolF : K) (unflag missing : Bool) (uvd uvf uvd' : Bl K)
    (hd : uvd.flags.length = uvd.pairs.length) (hf : uvf.flags.length = uvf.pairs.length)
    (h : applyBl tolT tolF unflag missing uvd uvf = .ok uvd') :
    uvd' = { uvd with flags := uvd'.flags } ∧ uvd'.flags.length = uvd.flags.length ∧
    ∀ (i : Nat) (ap : Int × Int) (x y : Plane), uvd.pairs[i]? = some ap → uvd.flags[i]? = some x →
      uvd'.flags[i]? = some y →
      ∀ f p, y f p = true ↔ ((unflag = false ∧ x f p = true) ∨ Added uvd uvf missing ap i f p) := by
  have tail : applyBl.applyTail unflag missing uvd uvf = .ok uvd' → uvd' = { uvd with flags := uvd'.flags } ∧
      uvd'.flags.length = uvd.flags.length ∧ ∀ (i : Nat) (ap : Int × Int) (x y : Plane), uvd.pairs[i]? = some ap →
        uvd.flags[i]? = some x → uvd'.flags[i]? = some y →
        ∀ f p, y f p = true ↔ ((unflag = false ∧ x f p = true) ∨ Added uvd uvf missing ap i f p) := by
    intro h
    unfold applyBl.applyTail at h
    rw [Select.map_ok] at h
    obtain ⟨fl, hfl, rfl⟩ := h
    obtain ⟨h1, h2⟩ := applyPairs_spec uvd uvf hf missing _ (List.nodup_dedup _) _ _ hfl
    refine ⟨rfl, ?_, ?_⟩
    · simp only
      rw [h1]; split <;> simp
    · intro i ap x y hi hx hy f p
      simp only at hy
      have hx0 : (if unflag then uvd.flags.map (fun _ => clear) else uvd.flags)[i]? =
          some (if unflag then clear else x) := by
        cases unflag
        · simp [hx]
        · simp [(List.getElem?_eq_some_iff.1 hx).1]
      obtain ⟨z, hz, -, hb⟩ := h2 i _ hx0
      rw [hy] at hz
      simp only [Option.some.injEq] at hz
      subst hz
      rw [hb ap (by rw [List.mem_dedup]; exact List.mem_of_getElem? hi) hi f p]
      cases unflag <;> simp [clear]
  unfold applyBl at h
  split at h
  · simp at h
  split at h
  · exact tail h
  split at h
  · exact tail h
  · simp at h

/-- C26: flags are never removed (unless `unflag_first`). -/
theorem apply_bl_monotone (tolT tolF : K) (missing : Bool) (uvd uvf uvd' : Bl K)
    (hd : uvd.flags.length = uvd.pairs.length) (hf : uvf.flags.length = uvf.pairs.length)
    (h : applyBl tolT tolF false missing uvd uvf = .ok uvd') (i : Nat) (x y : Plane) (hx : uvd.flags[i]? = some x)
    (hy : uvd'.flags[i]? = some y) (f p : Nat) (hfp : x f p = true) : y f p = true := by
  obtain ⟨-, -, h3⟩ := apply_bl_exact tolT tolF false missing uvd uvf uvd' hd hf h
  have hi : i < uvd.pairs.length := by
    rw [← hd]; exact (List.getElem?_eq_some_iff.1 hx).1
  exact (h3 i _ x y (List.getElem?_eq_getElem hi) hx hy f p).2 (Or.inl ⟨rfl, hfp⟩)

/-- The rows of every common pair come at the same times in the same order, and channels and polarizations are not
broadcast. -/
structure Aligned (uvd uvf : Bl K) : Prop where
  rows : ∀ ap ∈ uvd.pairs, ap ∈ uvf.pairs →
    (whereIdx (fun q => decide (q = ap)) uvd.pairs).map (fun i => uvd.times[i]?) =
    (whereIdx (fun q => decide (q = ap)) uvf.pairs).map (fun i => uvf.times[i]?)

/-- No two rows of one pair have the same time. -/
def Labelled (o : Bl K) : Prop :=
  ∀ (i j : Nat) (ap : Int × Int) (t : K), o.pairs[i]? = some ap → o.pairs[j]? = some ap → o.times[i]? = some t → o.times[j]? = some t → i = j

/-- C26 with labels: if the rows of each pair are in the same order of time, the flags that are added are exactly those
of the cell with the same pair and time (and all of a missing pair, with `flag_missing`). -/
theorem apply_bl_labels (uvd uvf : Bl K) (hdt : uvd.times.length = uvd.pairs.length)
    (hft : uvf.times.length = uvf.pairs.length) (hlab : Labelled uvf) (ha : Aligned uvd uvf) (missing : Bool)
    (i : Nat) (ap : Int × Int) (t : K) (hi : uvd.pairs[i]? = some ap) (ht : uvd.times[i]? = some t) (f p : Nat) :
    Added uvd uvf missing ap i f p ↔ (ap ∉ uvf.pairs ∧ missing = true) ∨
      ∃ (j : Nat) (pl : Plane), uvf.pairs[j]? = some ap ∧ uvf.times[j]? = some t ∧ uvf.flags[j]? = some pl ∧
        pl (if uvf.nf = 1 then 0 else f) (if uvf.np = 1 then 0 else p) = true := by
  unfold Added
  refine or_congr Iff.rfl ?_
  have hr : ∀ j, uvf.pairs[j]? = some ap →
      ((rank uvf.pairs ap j = rank uvd.pairs ap i ∨ mult uvf.pairs ap = 1) ↔ uvf.times[j]? = some t) := by
    intro j hj
    have hal := ha.rows ap (List.mem_of_getElem? hi) (List.mem_of_getElem? hj)
    have hlen := congrArg List.length hal
    simp only [List.length_map] at hlen
    rw [where_length, where_length] at hlen
    -- the row of the flag object with the same rank has the same time
    have hrow := congrArg (fun l => l[rank uvd.pairs ap i]?) hal
    simp only [List.getElem?_map, where_rank _ _ _ hi, Option.map_some, ht] at hrow
    cases hk : (whereIdx (fun q => decide (q = ap)) uvf.pairs)[rank uvd.pairs ap i]? with
    | none => rw [hk] at hrow; simp at hrow
    | some k =>
      rw [hk] at hrow
      simp only [Option.map_some, Option.some.injEq] at hrow
      have hkp : uvf.pairs[k]? = some ap := mem_where_eq.1 (List.mem_of_getElem? hk)
      have hkr : rank uvf.pairs ap k = rank uvd.pairs ap i := by
        have h1 := where_idxOf _ _ _ hkp
        rw [← h1]
        have hn : (whereIdx (fun q => decide (q = ap)) uvf.pairs).Nodup := (whereIdx_sorted _ _).imp (fun h => by omega)
        obtain ⟨hlt, he⟩ := List.getElem?_eq_some_iff.1 hk
        have := hn.idxOf_getElem _ hlt
        rwa [he] at this
      have hjk : rank uvf.pairs ap j = rank uvf.pairs ap k → j = k := by
        intro h
        have h1 := where_rank _ _ _ hj
        have h2 := where_rank _ _ _ hkp
        rw [h, h2] at h1
        simpa using h1.symm
      constructor
      · rintro (h | h)
        · rw [hjk (by rw [h, hkr])]; exact hrow.symm
        · have hrj : rank uvf.pairs ap j = rank uvf.pairs ap k := by
            have h1 := (List.getElem?_eq_some_iff.1 (where_rank _ _ _ hj)).1
            have h2 := (List.getElem?_eq_some_iff.1 (where_rank _ _ _ hkp)).1
            rw [where_length] at h1 h2
            omega
          rw [hjk hrj]; exact hrow.symm
      · intro h
        left
        have := hlab j k ap t hj hkp h hrow.symm
        rw [this, hkr]
  constructor
  · rintro ⟨j, pl, h1, h2, h3, h4⟩
    exact ⟨j, pl, h1, (hr j h1).1 h3, h2, h4⟩
  · rintro ⟨j, pl, h1, h2, h3, h4⟩
    exact ⟨j, pl, h1, h3, (hr j h1).2 h2, h4⟩

/-- C26: `apply_uvflag` raises if the flag object has several times but not as many as the data, or frequencies that do
not fit. -/
theorem apply_bl_raises (tolT tolF : K) (unflag missing : Bool) (uvd uvf : Bl K)
    (h : ((unique uvf.times).length ≠ 1 ∧ (unique uvf.times).length ≠ (unique uvd.times).length) ∨
      (uvf.nf ≠ 1 ∧ uvf.nf ≠ uvd.nf)) : ∃ e, applyBl tolT tolF unflag missing uvd uvf = .error e := by
  unfold applyBl
  rcases h with ⟨h1, h2⟩ | ⟨h1, h2⟩
  · refine ⟨.times, ?_⟩
    rw [if_pos]
    unfold mismatch
    rw [if_neg h1, if_neg h2]
  · split
    · exact ⟨_, rfl⟩
    · rw [if_neg (fun hc => h2 hc.1)]
      simp [h1]

end Verif.Flag
