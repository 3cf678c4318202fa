import Verif.Select.Lemmas

/-! C34, rows: the rows that are kept are exactly those that meet every criterion. -/
namespace Verif.Select
open Verif.Np Verif.TimeSel
open Verif.Pol (Str)

variable {K D R C : Type} [Field K] [LinearOrder K]

/-- A list of positions stands for a property of rows. -/
def Stands (rows : List (Row K D R)) (l : List Int) (P : Row K D R → Prop) : Prop :=
  (∀ j ∈ l, ∃ i : Nat, j = i ∧ i < rows.length) ∧ ∀ i : Nat, (i : Int) ∈ l ↔ ∃ r, rows[i]? = some r ∧ P r

theorem pcReq_spec (c : Ctx K) (q : Req K) (ids : Option (List Int)) (h : pcReq c q = .ok ids) :
    (ids = none ↔ q.pcIds = none ∧ q.catNames = none) ∧
    ∀ l, ids = some l → ∀ r : Row K D R, r.pc ∈ l ↔ PcOk c q r := by
  unfold pcReq at h
  unfold PcOk
  cases h1 : q.pcIds with
  | some a =>
    cases h2 : q.catNames with
    | some b => rw [h1, h2] at h; simp at h
    | none =>
      rw [h1, h2] at h
      simp only [Except.ok.injEq] at h
      subst h
      simp
  | none =>
    cases h2 : q.catNames with
    | some b =>
      rw [h1, h2] at h
      simp only [Except.ok.injEq] at h
      subst h
      refine ⟨by simp, ?_⟩
      intro l hl r
      simp only [Option.some.injEq] at hl
      subst hl
      simp only [List.mem_map, List.mem_filter, reduceCtorEq, false_implies, implies_true, true_and,
        Option.some.injEq, forall_eq', List.contains_iff_mem]
      constructor
      · rintro ⟨⟨k, nm⟩, ⟨hm, hn⟩, rfl⟩
        exact ⟨nm, hn, hm⟩
      · rintro ⟨nm, hn, hm⟩
        exact ⟨(r.pc, nm), ⟨hm, hn⟩, rfl⟩
    | none =>
      rw [h1, h2] at h
      simp only [Except.ok.injEq] at h
      subst h
      simp

theorem antNum_ok (c : Ctx K) (s : Str) (n : Int) : antNum c s = .ok n ↔ NamedAnt c s n := by
  unfold antNum NamedAnt
  induction c.antNames with
  | nil => simp
  | cons p l ih =>
    rw [List.find?_cons, List.lookup_cons]
    by_cases hp : p.1 = s
    · subst hp; simp
    · have h1 : (p.1 == s) = false := by simpa using hp
      have h2 : (s == p.1) = false := by simpa using (Ne.symm hp)
      rw [h1, h2]
      exact ih

theorem antReq_spec (c : Ctx K) (q : Req K) (nums : Option (List Int)) (h : antReq c q = .ok nums) :
    (nums = none ↔ q.antNums = none ∧ q.antNames = none) ∧
    ∀ l, nums = some l → ∀ r : Row K D R, (r.ant1 ∈ l ∧ r.ant2 ∈ l) ↔ AntOk c q r := by
  unfold antReq at h
  unfold AntOk
  cases h2 : q.antNames with
  | some b =>
    cases h1 : q.antNums with
    | some a => rw [h1, h2] at h; simp at h
    | none =>
      rw [h1, h2] at h
      simp only at h
      obtain ⟨l, hl, rfl⟩ := map_ok.1 h
      have hf := mapM_ok hl
      have hm : ∀ n, n ∈ l ↔ ∃ s ∈ b, NamedAnt c s n := by
        intro n
        constructor
        · intro hn
          obtain ⟨s, hs, he⟩ := forall₂_mem_right hf n hn
          exact ⟨s, hs, (antNum_ok c s n).1 he⟩
        · rintro ⟨s, hs, he⟩
          obtain ⟨n', hn', he'⟩ := forall₂_mem_left hf s hs
          rw [(antNum_ok c s n).2 he] at he'
          simp only [Except.ok.injEq] at he'
          exact he' ▸ hn'
      refine ⟨by simp, ?_⟩
      intro l' hl' r
      simp only [Option.some.injEq] at hl'
      subst hl'
      simp [hm]
  | none =>
    rw [h2] at h
    simp only [Except.ok.injEq] at h
    subst h
    refine ⟨by simp, ?_⟩
    intro l hl r
    simp [hl]

theorem antStage_spec (o : Obj K D R C) (rows : List (Row K D R)) (ht : IsTable o rows) (nums : Option (List Int))
    (res : Option (List Int)) (h : antStage o nums = .ok res) :
    (res = none ↔ nums = none) ∧
    ∀ l m, res = some l → nums = some m → Stands rows l (fun r => r.ant1 ∈ m ∧ r.ant2 ∈ m) := by
  unfold antStage at h
  cases nums with
  | none => simp only [Except.ok.injEq] at h; subst h; simp
  | some n =>
    simp only at h
    split at h
    · simp only [Except.ok.injEq] at h
      subst h
      refine ⟨by simp, ?_⟩
      intro l m hl hm
      simp only [Option.some.injEq] at hl hm
      subst hl; subst hm
      refine ⟨fun j hj => wh2_pos ht hj, ?_⟩
      intro i
      rw [mem_wh2 o rows ht]
      simp
    · simp at h

theorem pcStage_spec (o : Obj K D R C) (rows : List (Row K D R)) (ht : IsTable o rows) (m : List Int) :
    Stands rows (wh (fun x => m.contains x) o.pc) (fun r => r.pc ∈ m) := by
  refine ⟨?_, ?_⟩
  · intro j hj
    obtain ⟨i, hi, hl⟩ := wh_nonneg hj
    exact ⟨i, hi, by rw [ht.pc] at hl; simpa using hl⟩
  · intro i
    rw [ht.pc, mem_wh_col]
    simp

theorem blRows_spec (c : Ctx K) (o : Obj K D R C) (rows : List (Row K D R)) (ht : IsTable o rows)
    (t : Int × Int × Option Str) (res : List Int × List Str) (h : blRows c o t = .ok res) :
    Stands rows res.1 (PairOk rows t.1 t.2.1) := by
  unfold blRows at h
  simp only at h
  have e1 : ∀ i : Nat, (i : Int) ∈ wh2 o (fun a b => a == t.1 && b == t.2.1) ↔
      ∃ r, rows[i]? = some r ∧ r.ant1 = t.1 ∧ r.ant2 = t.2.1 := by
    intro i; rw [mem_wh2 o rows ht]; simp
  have e2 : ∀ i : Nat, (i : Int) ∈ wh2 o (fun a b => a == t.2.1 && b == t.1) ↔
      ∃ r, rows[i]? = some r ∧ r.ant1 = t.2.1 ∧ r.ant2 = t.1 := by
    intro i; rw [mem_wh2 o rows ht]; simp
  by_cases h1 : wh2 o (fun a b => a == t.1 && b == t.2.1) ≠ []
  · rw [if_pos h1] at h
    simp only [Except.ok.injEq] at h
    subst h
    simp only
    refine ⟨fun j hj => wh2_pos ht hj, ?_⟩
    intro i
    obtain ⟨j, hj⟩ := List.exists_mem_of_ne_nil _ h1
    obtain ⟨k, rfl, -⟩ := wh2_pos ht hj
    obtain ⟨r0, hr0, h0⟩ := (e1 k).1 hj
    rw [e1]
    constructor
    · rintro ⟨r, hr, hp⟩; exact ⟨r, hr, Or.inl hp⟩
    · rintro ⟨r, hr, hp | ⟨-, hp⟩⟩
      · exact ⟨r, hr, hp⟩
      · exact absurd h0 (hp r0 (List.mem_of_getElem? hr0))
  · rw [if_neg h1] at h
    simp only [ne_eq, not_not] at h1
    have hno : ∀ r' ∈ rows, ¬(r'.ant1 = t.1 ∧ r'.ant2 = t.2.1) := by
      intro r' hr' hp
      obtain ⟨k, hk⟩ := List.mem_iff_getElem?.1 hr'
      have := (e1 k).2 ⟨r', hk, hp⟩
      rw [h1] at this
      simp at this
    by_cases h2 : wh2 o (fun a b => a == t.2.1 && b == t.1) ≠ []
    · rw [if_pos h2] at h
      have hres : res.1 = wh2 o (fun a b => a == t.2.1 && b == t.1) := by
        split at h
        · simp only [Except.ok.injEq] at h; rw [← h]
        · split at h
          · simp at h
          · simp only [Except.ok.injEq] at h; rw [← h]
      rw [hres]
      refine ⟨fun j hj => wh2_pos ht hj, ?_⟩
      intro i
      rw [e2]
      constructor
      · rintro ⟨r, hr, hp⟩; exact ⟨r, hr, Or.inr ⟨hp, hno⟩⟩
      · rintro ⟨r, hr, hp | ⟨hp, -⟩⟩
        · exact absurd hp (hno r (List.mem_of_getElem? hr))
        · exact ⟨r, hr, hp⟩
    · rw [if_neg h2] at h; simp at h

theorem blReq_spec (c : Ctx K) (o : Obj K D R C) (rows : List (Row K D R)) (q : Req K) (b : BlReq) (g : Bool)
    (l : List (Int × Int × Option Str)) (hb : q.bls = some b) (h : blReq c o b g = .ok l) (r : Row K D R) :
    (∃ t ∈ l, PairOk rows t.1 t.2.1 r) ↔ BlOk c rows q r := by
  unfold BlOk
  rw [hb]
  cases b with
  | nums m =>
    simp only [blReq] at h
    split at h
    · split at h
      · simp at h
      · simp only [Except.ok.injEq] at h
        subst h
        simp
    · simp at h
  | tuples m =>
    simp only [blReq] at h
    split at h
    · simp at h
    split at h
    · simp at h
    · simp only [Except.ok.injEq] at h
      subst h
      simp

theorem blStage_spec (c : Ctx K) (o : Obj K D R C) (rows : List (Row K D R)) (ht : IsTable o rows) (q : Req K)
    (ants : Option (List Int)) (res : Option (List Int) × Option (List PolReq)) (h : blStage c o q ants = .ok res) :
    (q.bls = none → res.1 = ants) ∧
    (q.bls ≠ none → ∃ m, res.1 = some (join ants m) ∧ Stands rows m (BlOk c rows q)) := by
  unfold blStage at h
  cases hb : q.bls with
  | none =>
    rw [hb] at h
    simp only [Except.ok.injEq] at h
    subst h
    simp
  | some b =>
    rw [hb] at h
    simp only at h
    rw [bind_ok] at h
    obtain ⟨l, hl, h⟩ := h
    rw [bind_ok] at h
    obtain ⟨rs, hrs, h⟩ := h
    simp only [Except.ok.injEq] at h
    subst h
    refine ⟨by simp, fun _ => ⟨_, rfl, ?_⟩⟩
    have hf := mapM_ok hrs
    have hs : ∀ x ∈ rs, ∃ t ∈ l, Stands rows x.1 (PairOk rows t.1 t.2.1) := by
      intro x hx
      obtain ⟨t, htm, he⟩ := forall₂_mem_right hf x hx
      exact ⟨t, htm, blRows_spec c o rows ht t x he⟩
    refine ⟨?_, ?_⟩
    · intro j hj
      obtain ⟨x, hx, hjx⟩ := List.mem_flatMap.1 hj
      obtain ⟨t, _, hst⟩ := hs x hx
      exact hst.1 j hjx
    · intro i
      rw [List.mem_flatMap]
      constructor
      · rintro ⟨x, hx, hi⟩
        obtain ⟨t, htm, hst⟩ := hs x hx
        obtain ⟨r, hr, hp⟩ := (hst.2 i).1 hi
        exact ⟨r, hr, (blReq_spec c o rows q b _ l hb hl r).1 ⟨t, htm, hp⟩⟩
      · rintro ⟨r, hr, hp⟩
        obtain ⟨t, htm, hpt⟩ := (blReq_spec c o rows q b _ l hb hl r).2 hp
        obtain ⟨x, hx, he⟩ := forall₂_mem_left hf t htm
        exact ⟨x, hx, ((blRows_spec c o rows ht t x he).2 i).2 ⟨r, hr, hpt⟩⟩

section time
variable [IsStrictOrderedRing K]

theorem col_get {α : Type} {rows : List (Row K D R)} (f : Row K D R → α) {i : Nat} {P : α → Prop} :
    (∃ x, (rows.map f)[i]? = some x ∧ P x) ↔ ∃ r, rows[i]? = some r ∧ P (f r) := by
  constructor
  · rintro ⟨x, hx, hp⟩
    rw [List.getElem?_map, Option.map_eq_some_iff] at hx
    obtain ⟨r, hr, rfl⟩ := hx
    exact ⟨r, hr, hp⟩
  · rintro ⟨r, hr, hp⟩
    exact ⟨f r, by rw [List.getElem?_map, hr]; rfl, hp⟩

theorem pair_len (l : List K) (p : K × K) (h : pair l = .ok p) : l = [p.1, p.2] := by
  rcases l with _ | ⟨a, _ | ⟨b, _ | ⟨c, l⟩⟩⟩ <;> simp [pair] at h
  subst h; rfl

theorem timeSel_spec (c : Ctx K) (o : Obj K D R C) (rows : List (Row K D R)) (ht : IsTable o rows) (q : Req K)
    (ha : Angles c rows q) (res : Option (List Nat))
    (h : selectTimes c.P ⟨o.times, none, o.lsts, none⟩ c.timeTols c.lstTols q.times = .ok res) :
    (res = none ↔ q.times.times = none ∧ q.times.timeRange = none ∧ q.times.lsts = none ∧ q.times.lstRange = none) ∧
    ∀ l, res = some l → Stands rows (l.map (fun i : Nat => (i : Int))) (TimeOk c q) := by
  have stands : ∀ l : List Nat, (∀ i, i ∈ l ↔ ∃ r, rows[i]? = some r ∧ TimeOk c q r) →
      Stands rows (l.map (fun i : Nat => (i : Int))) (TimeOk c q) := by
    intro l hl
    refine ⟨?_, ?_⟩
    · intro j hj
      obtain ⟨i, hi, rfl⟩ := List.mem_map.1 hj
      obtain ⟨r, hr, _⟩ := (hl i).1 hi
      exact ⟨i, rfl, (List.getElem?_eq_some_iff.1 hr).1⟩
    · intro i
      rw [← hl i]
      simp
  unfold TimeOk at stands ⊢
  rcases hq : q.times with ⟨a, b, d, e⟩
  rw [hq] at h stands
  have ha' := ha
  unfold Angles at ha'
  rw [hq] at ha'
  simp only at ha' stands ⊢
  rcases a with _ | a <;> rcases b with _ | b <;> rcases d with _ | d <;> rcases e with _ | e <;>
    first
    | (simp [selectTimes] at h; done)
    | skip
  · simp only [selectTimes, Except.ok.injEq] at h
    subst h
    simp
  · obtain ⟨p, hp⟩ : ∃ p, pair e = .ok p := by
      cases hpe : pair e with
      | error x => simp [selectTimes, byLstRange, hpe] at h
      | ok p => exact ⟨p, rfl⟩
    have hl := pair_len e p hp
    subst hl
    obtain ⟨h1, h2, h3⟩ := ha' p.1 p.2 rfl
    obtain ⟨l, rfl, -, hm⟩ := (select_lst_range c.P ⟨o.times, none, o.lsts, none⟩ c.timeTols c.lstTols p.1 p.2 rfl h1 h2
      (by
        intro x hx
        simp only [ht.lsts] at hx
        obtain ⟨r, hr, rfl⟩ := List.mem_map.1 hx
        exact h3 r hr)).1 res h
    refine ⟨by simp, ?_⟩
    intro l' hl'
    simp only [Option.some.injEq] at hl'
    subst hl'
    apply stands
    intro i
    rw [hm i]
    simp only [ht.lsts]
    rw [col_get]
    apply exists_congr
    intro r
    simp [and_assoc]
  · obtain ⟨l, rfl, hm⟩ := (select_lsts c.P ⟨o.times, none, o.lsts, none⟩ c.timeTols c.lstTols d rfl).1 res h
    refine ⟨by simp, ?_⟩
    intro l' hl'
    simp only [Option.some.injEq] at hl'
    subst hl'
    apply stands
    intro i
    rw [hm i]
    simp only [ht.lsts]
    rw [col_get]
    apply exists_congr
    intro r
    simp
  · obtain ⟨p, hp⟩ : ∃ p, pair b = .ok p := by
      cases hpe : pair b with
      | error x => simp [selectTimes, byTimeRange, hpe] at h
      | ok p => exact ⟨p, rfl⟩
    have hl := pair_len b p hp
    subst hl
    obtain ⟨l, rfl, -, hm⟩ := (select_time_range c.P ⟨o.times, none, o.lsts, none⟩ c.timeTols c.lstTols p.1 p.2 rfl).1 res h
    refine ⟨by simp, ?_⟩
    intro l' hl'
    simp only [Option.some.injEq] at hl'
    subst hl'
    apply stands
    intro i
    rw [hm i]
    simp only [ht.times]
    rw [col_get]
    apply exists_congr
    intro r
    simp [and_imp]
  · obtain ⟨l, rfl, hm⟩ := (select_times c.P ⟨o.times, none, o.lsts, none⟩ c.timeTols c.lstTols a rfl).1 res h
    refine ⟨by simp, ?_⟩
    intro l' hl'
    simp only [Option.some.injEq] at hl'
    subst hl'
    apply stands
    intro i
    rw [hm i]
    simp only [ht.times]
    rw [col_get]
    apply exists_congr
    intro r
    simp

theorem finalRows_spec (o : Obj K D R C) (rows : List (Row K D R)) (ht : IsTable o rows) (t : Option (List Int))
    (r : Option (List Nat)) (h : finalRows o t = .ok r) :
    (r = none ↔ t = none) ∧
    ∀ l, r = some l → ∃ m, t = some m ∧ l ≠ [] ∧ l.Pairwise (· < ·) ∧
      ∀ i : Nat, (i ∈ l ↔ (i : Int) ∈ m) ∧ (i ∈ l → i < rows.length) := by
  unfold finalRows at h
  cases t with
  | none => simp only [Except.ok.injEq] at h; subst h; simp
  | some m =>
    simp only at h
    by_cases hm0 : m = []
    · rw [if_pos hm0] at h; simp at h
    rw [if_neg hm0] at h
    by_cases hm1 : m.any (fun i => decide ((o.nblts : Int) ≤ i)) = true
    · rw [if_pos hm1] at h; simp at h
    rw [if_neg hm1] at h
    by_cases hm2 : m.any (fun i => decide (i < 0)) = true
    · rw [if_pos hm2] at h; simp at h
    rw [if_neg hm2] at h
    simp only [Except.ok.injEq] at h
    subst h
    simp only [List.any_eq_true, decide_eq_true_eq, not_exists, not_and, not_le, not_lt] at hm1 hm2
    have hmem : ∀ i : Nat, i ∈ (unique m).map Int.toNat ↔ (i : Int) ∈ m := by
      intro i
      rw [List.mem_map]
      constructor
      · rintro ⟨j, hj, rfl⟩
        have hj := mem_unique.1 hj
        rwa [Int.toNat_of_nonneg (hm2 j hj)]
      · intro hi
        exact ⟨(i : Int), mem_unique.2 hi, by simp⟩
    refine ⟨by simp, ?_⟩
    intro l hl
    simp only [Option.some.injEq] at hl
    subst hl
    refine ⟨m, rfl, ?_, ?_, ?_⟩
    · intro he
      obtain ⟨j, hj⟩ := List.exists_mem_of_ne_nil _ hm0
      have := (hmem j.toNat).2 (by rwa [Int.toNat_of_nonneg (hm2 j hj)])
      rw [he] at this
      simp at this
    · rw [List.pairwise_map]
      refine List.Pairwise.imp_of_mem ?_ (unique_sorted m)
      intro a b ha' hb' hab
      have := hm2 a (mem_unique.1 ha')
      omega
    · intro i
      refine ⟨hmem i, fun hi => ?_⟩
      have h1 := hm1 _ ((hmem i).1 hi)
      rw [ht.nblts] at h1
      omega

theorem joinOpt_none (a b : Option (List Int)) : joinOpt a b = none ↔ a = none ∧ b = none := by
  cases a <;> cases b <;> simp [joinOpt]

/-- Membership in an optional list of positions. -/
def In (i : Int) (a : Option (List Int)) : Prop := ∀ m, a = some m → i ∈ m

theorem in_joinOpt (i : Int) (a b : Option (List Int)) : In i (joinOpt a b) ↔ In i a ∧ In i b := by
  unfold In
  cases b with
  | none => simp [joinOpt]
  | some m => simp [joinOpt, mem_join]

theorem in_pcStage (o : Obj K D R C) (i : Int) (pc bi : Option (List Int)) :
    In i (pcStage o pc bi) ↔ In i bi ∧ ∀ m, pc = some m → i ∈ wh (fun x => m.contains x) o.pc := by
  unfold In pcStage
  cases pc with
  | none => simp
  | some m => simp [mem_join]

theorem pcStage_none (o : Obj K D R C) (pc bi : Option (List Int)) :
    pcStage o pc bi = none ↔ pc = none ∧ bi = none := by
  unfold pcStage; cases pc <;> simp

theorem timeStage_ok (c : Ctx K) (o : Obj K D R C) (q : Req K) (b t : Option (List Int)) (h : timeStage c o q b = .ok t) :
    ∃ tm, selectTimes c.P ⟨o.times, none, o.lsts, none⟩ c.timeTols c.lstTols q.times = .ok tm ∧
      t = joinOpt b (tm.map (fun l => l.map (fun i : Nat => (i : Int)))) := by
  unfold timeStage at h
  cases htm : selectTimes c.P ⟨o.times, none, o.lsts, none⟩ c.timeTols c.lstTols q.times with
  | error e => rw [htm] at h; simp at h
  | ok tm =>
    rw [htm] at h
    refine ⟨tm, rfl, ?_⟩
    cases tm with
    | none => simp only [Except.ok.injEq] at h; rw [← h]; rfl
    | some l => simp only [Except.ok.injEq] at h; rw [← h]; rfl

/-- C34, rows: the kept positions are increasing, not empty, and are exactly those of the rows that meet every given
criterion; nothing is selected on the row axis only when no row criterion is given. -/
theorem select_rows_exact (c : Ctx K) (o : Obj K D R C) (rows : List (Row K D R)) (ht : IsTable o rows) (q : Req K)
    (ha : Angles c rows q) (ri : Option (List Nat)) (ps : Option (List PolReq)) (h : rowInds c o q = .ok (ri, ps)) :
    (ri = none ↔ NoRowCriterion q) ∧
    ∀ l, ri = some l → l ≠ [] ∧ l.Pairwise (· < ·) ∧ ∀ i, i ∈ l ↔ ∃ r, rows[i]? = some r ∧ Meets c rows q i r := by
  unfold rowInds at h
  rw [bind_ok] at h; obtain ⟨pc, hpc, h⟩ := h
  rw [bind_ok] at h; obtain ⟨nums, hnums, h⟩ := h
  rw [bind_ok] at h; obtain ⟨ants, hants, h⟩ := h
  rw [bind_ok] at h; obtain ⟨bl, hbl, h⟩ := h
  rw [bind_ok] at h; obtain ⟨t, htime, h⟩ := h
  rw [bind_ok] at h; obtain ⟨r, hfin, h⟩ := h
  simp only [Except.ok.injEq, Prod.mk.injEq] at h
  obtain ⟨rfl, rfl⟩ := h
  obtain ⟨tm, htm, rfl⟩ := timeStage_ok c o q _ t htime
  obtain ⟨pcn, pcs⟩ := pcReq_spec (D := D) (R := R) c q pc hpc
  obtain ⟨nn, ns⟩ := antReq_spec (D := D) (R := R) c q nums hnums
  obtain ⟨an, as⟩ := antStage_spec o rows ht nums ants hants
  obtain ⟨bn, bs⟩ := blStage_spec c o rows ht q ants bl hbl
  obtain ⟨tn, ts⟩ := timeSel_spec c o rows ht q ha tm htm
  obtain ⟨fn, fs⟩ := finalRows_spec o rows ht _ r hfin
  clear hpc hnums hants hbl htime hfin htm
  have btn : bl.1 = none ↔ q.antNums = none ∧ q.antNames = none ∧ q.bls = none := by
    by_cases hq : q.bls = none
    · rw [bn hq, an, nn]; simp [hq]
    · obtain ⟨m, hm, -⟩ := bs hq
      rw [hm]; simp [hq]
  refine ⟨?_, ?_⟩
  · rw [fn, joinOpt_none, joinOpt_none, pcStage_none, btn, pcn, Option.map_eq_none_iff, tn]
    unfold NoRowCriterion
    constructor
    · rintro ⟨⟨⟨⟨a, b⟩, c⟩, d, e, f⟩, g⟩
      exact ⟨c, a, b, d, e, f, g⟩
    · rintro ⟨c, a, b, d, e, f, g⟩
      exact ⟨⟨⟨⟨a, b⟩, c⟩, d, e, f⟩, g⟩
  · intro l hl
    obtain ⟨m, hm, h0, h1, h2⟩ := fs l hl
    refine ⟨h0, h1, ?_⟩
    intro i
    have hin : i ∈ l ↔ In (i : Int) (joinOpt (joinOpt (pcStage o pc q.bltInds) bl.1)
        (tm.map (fun l => l.map (fun i : Nat => (i : Int))))) := by
      rw [(h2 i).1, hm]; simp [In]
    have hpcrit : (∀ m, pc = some m → (i : Int) ∈ wh (fun x => m.contains x) o.pc) ↔
        (pc ≠ none → ∃ r, rows[i]? = some r ∧ PcOk c q r) := by
      cases hp : pc with
      | none => simp
      | some m =>
        simp only [Option.some.injEq, forall_eq', ne_eq, reduceCtorEq, not_false_eq_true, true_implies]
        rw [(pcStage_spec o rows ht m).2 i]
        exact exists_congr fun r => and_congr Iff.rfl (pcs m hp r)
    have hacrit : In (i : Int) ants ↔ (nums ≠ none → ∃ r, rows[i]? = some r ∧ AntOk c q r) := by
      unfold In
      cases hA : ants with
      | none =>
        have := an.1 hA
        simp [this]
      | some l =>
        have hne : nums ≠ none := fun hc => by
          have := an.2 hc
          rw [hA] at this
          simp at this
        obtain ⟨m, hm⟩ := Option.ne_none_iff_exists'.1 hne
        simp only [Option.some.injEq, forall_eq', hm, ne_eq, reduceCtorEq, not_false_eq_true, true_implies]
        rw [(as l m hA hm).2 i]
        exact exists_congr fun r => and_congr Iff.rfl (ns m hm r)
    have hbcrit : In (i : Int) bl.1 ↔
        (nums ≠ none → ∃ r, rows[i]? = some r ∧ AntOk c q r) ∧
        (q.bls ≠ none → ∃ r, rows[i]? = some r ∧ BlOk c rows q r) := by
      by_cases hq : q.bls = none
      · rw [bn hq, hacrit]; simp [hq]
      · obtain ⟨m, hm, hst⟩ := bs hq
        rw [hm, ← hacrit]
        unfold In
        simp only [Option.some.injEq, forall_eq']
        rw [mem_join, hst.2 i]
        simp [hq]
    have htcrit : In (i : Int) (tm.map (fun l => l.map (fun i : Nat => (i : Int)))) ↔
        (tm ≠ none → ∃ r, rows[i]? = some r ∧ TimeOk c q r) := by
      unfold In
      cases hT : tm with
      | none => simp
      | some l =>
        simp only [Option.map_some, Option.some.injEq, forall_eq', ne_eq, reduceCtorEq, not_false_eq_true,
          true_implies]
        exact (ts l hT).2 i
    have hall : i ∈ l ↔ ((In (i : Int) q.bltInds ∧ (pc ≠ none → ∃ r, rows[i]? = some r ∧ PcOk c q r)) ∧
        (nums ≠ none → ∃ r, rows[i]? = some r ∧ AntOk c q r) ∧
        (q.bls ≠ none → ∃ r, rows[i]? = some r ∧ BlOk c rows q r)) ∧
        (tm ≠ none → ∃ r, rows[i]? = some r ∧ TimeOk c q r) := by
      rw [hin, in_joinOpt, in_joinOpt, in_pcStage, hpcrit, hbcrit, htcrit]
    constructor
    · intro hi
      have hlt := (h2 i).2 hi
      obtain ⟨⟨⟨h1, h2⟩, h3, h4⟩, h5⟩ := hall.1 hi
      have hr : rows[i]? = some rows[i] := List.getElem?_eq_getElem hlt
      have getR : ∀ {P : Row K D R → Prop}, (∃ r, rows[i]? = some r ∧ P r) → P rows[i] := by
        rintro P ⟨r, hr', hp⟩
        rw [hr] at hr'
        simp only [Option.some.injEq] at hr'
        exact hr' ▸ hp
      refine ⟨rows[i], hr, h1, ?_, ?_, ?_, ?_⟩
      · by_cases hp : pc = none
        · obtain ⟨h1, h2⟩ := pcn.1 hp
          simp [PcOk, h1, h2]
        · exact getR (h2 hp)
      · by_cases hp : nums = none
        · obtain ⟨h1, h2⟩ := nn.1 hp
          simp [AntOk, h1, h2]
        · exact getR (h3 hp)
      · by_cases hp : q.bls = none
        · simp [BlOk, hp]
        · exact getR (h4 hp)
      · by_cases hp : tm = none
        · obtain ⟨h1, h2, h3, h4⟩ := tn.1 hp
          simp [TimeOk, h1, h2, h3, h4]
        · exact getR (h5 hp)
    · rintro ⟨r, hr, h1, h2, h3, h4, h5⟩
      exact hall.2 ⟨⟨⟨h1, fun _ => ⟨r, hr, h2⟩⟩, fun _ => ⟨r, hr, h3⟩, fun _ => ⟨r, hr, h4⟩⟩, fun _ => ⟨r, hr, h5⟩⟩

end time

end Verif.Select
