import Verif.Blt.Lemmas
import Verif.BltAxis.RectProps

/-!
C12: `reorder_blts` moves whole records and sorts them as requested.
-/
namespace Verif.Blt
open Verif.Np
open Verif.BltAxis (Key)

variable {R V D F N : Type} [LinearOrder R]

theorem reorder_named (o : Obj R V D F N) (rs : List (Rec R V D F N)) (order : Order) (minor m' : Option Key)
    (af : Bool) (ht : o.IsTable rs) (hi : ∀ l, order ≠ .index l) (hm : resolveMinor o.nblts order minor = .ok m') :
    ∃ o' rs', reorderBlts o order minor af = .ok o' ∧ o'.IsTable rs' ∧ rs'.Perm rs ∧
      (af = false → SortedBy (promised order minor) rs') ∧
      (af = true → ∃ as cs, rs' = as ++ cs ∧ (∀ r ∈ as, r.ant1 = r.ant2) ∧ (∀ r ∈ cs, r.ant1 ≠ r.ant2) ∧
        SortedBy (promised order minor) as ∧ SortedBy (promised order minor) cs) := by
  have hlen : o.nblts = rs.length := by
    unfold Obj.nblts; rw [ht.2.2.2.2.1]; simp
  have hsort : ∀ (l : List Nat) (zs : List (Rec R V D F N)),
      take? rs (lexsort o (sortArrays order m') l) = some zs → SortedBy (promised order minor) zs := by
    intro l zs hz
    refine take_pairwise hz (lexsort_sorted o _ l) ?_
    intro i j p q hb hp hq
    exact promised_prefix o.nblts order minor m' hi hm p q ((lexB_rec o rs ht _ hp hq).1 hb)
  have hidx : indexArray o order m' af = ((if af then
        [whereIdx (fun p : Nat × Nat => decide (p.1 = p.2)) (o.ant1.zip o.ant2),
         whereIdx (fun p : Nat × Nat => decide (p.1 ≠ p.2)) (o.ant1.zip o.ant2)]
      else [List.range o.nblts]).map (lexsort o (sortArrays order m'))).flatten := by
    cases order <;> first | rfl | exact absurd rfl (hi _)
  have hzip : o.ant1.zip o.ant2 = rs.map (fun r => (r.ant1, r.ant2)) := by
    rw [ht.1, ht.2.1, List.zip_map']
  have fin : ∀ (idx : List Nat), indexArray o order m' af = idx → idx.Perm (List.range rs.length) →
      ∃ o' rs', reorderBlts o order minor af = .ok o' ∧ o'.IsTable rs' ∧ rs'.Perm rs ∧ take? rs idx = some rs' := by
    intro idx he hp
    obtain ⟨rs', hrs'⟩ := take?_exists (xs := rs) (idx := idx) (fun i hi => by simpa using hp.mem_iff.1 hi)
    obtain ⟨o', h1, h2, _⟩ := permute_table { o with bltOrder := newBltOrder order m' } rs rs' idx ht hrs'
    refine ⟨setRectangularity o', rs', ?_, h2, take_perm hp hrs', hrs'⟩
    unfold reorderBlts
    rw [hm]
    show (match permute { o with bltOrder := newBltOrder order m' } (indexArray o order m' af) with
      | none => Except.error Err.outOfRange
      | some o' => Except.ok (setRectangularity o')) = _
    rw [he, h1]
  cases af with
  | false =>
    simp only [Bool.false_eq_true, if_false, List.map_cons, List.map_nil, List.flatten_cons, List.flatten_nil,
      List.append_nil] at hidx
    obtain ⟨o', rs', h1, h2, h3, h4⟩ := fin _ hidx (by rw [← hlen]; exact lexsort_perm o _ _)
    exact ⟨o', rs', h1, h2, h3, fun _ => hsort _ _ h4, by simp⟩
  | true =>
    simp only [if_true, List.map_cons, List.map_nil, List.flatten_cons, List.flatten_nil,
      List.append_nil, hzip] at hidx
    have hsp := where_split_perm (fun p : Nat × Nat => decide (p.1 = p.2)) (rs.map (fun r => (r.ant1, r.ant2)))
    have hne : (fun x : Nat × Nat => !decide (x.1 = x.2)) = (fun p : Nat × Nat => decide (p.1 ≠ p.2)) := by
      funext x; simp
    rw [hne, List.length_map] at hsp
    obtain ⟨o', rs', h1, h2, h3, h4⟩ := fin _ hidx
      (((lexsort_perm o _ _).append (lexsort_perm o _ _)).trans hsp)
    obtain ⟨as, cs, ha, hc, rfl⟩ := take?_append h4
    refine ⟨o', as ++ cs, h1, h2, h3, by simp, fun _ => ⟨as, cs, rfl, ?_, ?_, hsort _ _ ha, hsort _ _ hc⟩⟩
    · refine take_forall ha ?_
      intro i hi r hr
      obtain ⟨x, hx, hx'⟩ := mem_whereIdx.1 ((lexsort_perm o (sortArrays order m') _).mem_iff.1 hi)
      rw [List.getElem?_map, hr] at hx
      simp at hx
      subst hx
      simpa using hx'
    · refine take_forall hc ?_
      intro i hi r hr
      obtain ⟨x, hx, hx'⟩ := mem_whereIdx.1 ((lexsort_perm o (sortArrays order m') _).mem_iff.1 hi)
      rw [List.getElem?_map, hr] at hx
      simp at hx
      subst hx
      simpa using hx'

/-- The combinations that are refused: a minor order with "bda", an antenna minor order with "baseline". -/
def Refused (order : Order) (minor : Option Key) : Prop :=
  (order = .bda ∧ minor ≠ none) ∨ (order = .baseline ∧ (minor = some .ant1 ∨ minor = some .ant2))

theorem resolve_ok (n : Nat) (order : Order) (minor : Option Key) (hi : ∀ l, order ≠ .index l)
    (hr : ¬ Refused order minor) : ∃ m', resolveMinor n order minor = .ok m' := by
  cases order <;> first | exact absurd rfl (hi _) | skip
  all_goals
    rcases minor with _ | m
    · exact ⟨_, rfl⟩
  all_goals cases m <;> first | exact ⟨_, rfl⟩ | (exfalso; apply hr; simp [Refused])

/-- C12: for every named order that is not refused, the records after `reorder_blts` are exactly the records
before (fields kept together, none lost or repeated), and they are sorted by the promised keys. -/
theorem reorder_blts_sorts (o : Obj R V D F N) (rs : List (Rec R V D F N)) (order : Order) (minor : Option Key)
    (ht : o.IsTable rs) (hi : ∀ l, order ≠ .index l) (hr : ¬ Refused order minor) :
    ∃ o' rs', reorderBlts o order minor false = .ok o' ∧ o'.IsTable rs' ∧ rs'.Perm rs ∧
      SortedBy (promised order minor) rs' := by
  obtain ⟨m', hm⟩ := resolve_ok o.nblts order minor hi hr
  obtain ⟨o', rs', h1, h2, h3, h4, _⟩ := reorder_named o rs order minor m' false ht hi hm
  exact ⟨o', rs', h1, h2, h3, h4 rfl⟩

/-- C12 with `autos_first`: the auto-correlations come first, and both parts are sorted by the promised keys. -/
theorem reorder_blts_autos_first (o : Obj R V D F N) (rs : List (Rec R V D F N)) (order : Order)
    (minor : Option Key) (ht : o.IsTable rs) (hi : ∀ l, order ≠ .index l) (hr : ¬ Refused order minor) :
    ∃ o' as cs, reorderBlts o order minor true = .ok o' ∧ o'.IsTable (as ++ cs) ∧ (as ++ cs).Perm rs ∧
      (∀ r ∈ as, r.ant1 = r.ant2) ∧ (∀ r ∈ cs, r.ant1 ≠ r.ant2) ∧
      SortedBy (promised order minor) as ∧ SortedBy (promised order minor) cs := by
  obtain ⟨m', hm⟩ := resolve_ok o.nblts order minor hi hr
  obtain ⟨o', rs', h1, h2, h3, _, h4⟩ := reorder_named o rs order minor m' true ht hi hm
  obtain ⟨as, cs, rfl, h5⟩ := h4 rfl
  exact ⟨o', as, cs, h1, h2, h3, h5⟩

/-- The refused combinations raise. -/
theorem reorder_blts_refuses (o : Obj R V D F N) (order : Order) (minor : Option Key) (af : Bool)
    (hr : Refused order minor) : reorderBlts o order minor af = .error .badMinor := by
  rcases hr with ⟨rfl, h⟩ | ⟨rfl, rfl | rfl⟩
  · rcases minor with _ | m
    · exact absurd rfl h
    · cases m <;> rfl
  · rfl
  · rfl

/-- C12 with an index array that is a permutation of the rows: row `k` afterwards is row `l[k]` before; nothing
is lost. -/
theorem reorder_blts_index (o : Obj R V D F N) (rs : List (Rec R V D F N)) (l : List Nat) (af : Bool)
    (ht : o.IsTable rs) (hl : l.Perm (List.range rs.length)) :
    ∃ o' rs', reorderBlts o (.index l) none af = .ok o' ∧ o'.IsTable rs' ∧ rs'.Perm rs ∧
      ∀ k i : Nat, l[k]? = some i → rs'[k]? = rs[i]? := by
  have hlen : o.nblts = rs.length := by
    unfold Obj.nblts; rw [ht.2.2.2.2.1]; simp
  obtain ⟨rs', hrs'⟩ := take?_exists (xs := rs) (idx := l) (fun i hi => by simpa using hl.mem_iff.1 hi)
  obtain ⟨o', h1, h2, _⟩ := permute_table { o with bltOrder := newBltOrder (.index l) none } rs rs' l ht hrs'
  refine ⟨setRectangularity o', rs', ?_, h2, take_perm hl hrs', fun k i h => ((take?_eq_some.1 hrs').2 k i h).1⟩
  unfold reorderBlts
  have hm : resolveMinor o.nblts (.index l) none = .ok none := by
    have := hl.length_eq
    simp [resolveMinor, hlen, this]
  rw [hm]
  show (match permute { o with bltOrder := newBltOrder (.index l) none } l with
    | none => Except.error Err.outOfRange
    | some o' => Except.ok (setRectangularity o')) = _
  rw [h1]

/-- Nat-valued rows for the examples: baseline (a, b) is numbered 10 a + b. -/
def mk (rs : List (Nat × Nat × Nat)) (nbls ntimes : Nat) : Obj Nat Nat Nat Bool Nat :=
  { ant1 := rs.map (fun r => r.2.1), ant2 := rs.map (fun r => r.2.2), bl := rs.map (fun r => 10 * r.2.1 + r.2.2),
    uvw := rs.map (fun r => r.1 + r.2.1), time := rs.map (fun r => r.1), lst := rs.map (fun r => r.1),
    integ := rs.map (fun _ => 1), appRa := rs.map (fun r => r.2.1), appDec := rs.map (fun r => r.2.2),
    framePa := rs.map (fun _ => 0), pcId := rs.map (fun _ => 0),
    vis := some (rs.map (fun r => 100 * r.1 + 10 * r.2.1 + r.2.2), rs.map (fun _ => false), rs.map (fun _ => 1)),
    nbls, ntimes, bltOrder := none, rect := none }

/-- Rows of the example. -/
def mkRecs (rs : List (Nat × Nat × Nat)) : List (Rec Nat Nat Nat Bool Nat) :=
  rs.map (fun r => ⟨r.2.1, r.2.2, 10 * r.2.1 + r.2.2, r.1 + r.2.1, r.1, r.1, 1, r.2.1, r.2.2, 0, 0,
    some (100 * r.1 + 10 * r.2.1 + r.2.2, false, 1)⟩)

theorem mk_table (rs : List (Nat × Nat × Nat)) (nbls ntimes : Nat) : (mk rs nbls ntimes).IsTable (mkRecs rs) := by
  refine ⟨?_, ?_, ?_, ?_, ?_, ?_, ?_, ?_, ?_, ?_, ?_, ?_⟩
  all_goals simp only [mk, mkRecs, List.map_map]
  all_goals try (apply List.map_congr_left; intro r _; rfl)
  exact ⟨rs.map (fun r => (100 * r.1 + 10 * r.2.1 + r.2.2, false, 1)), by simp [Function.comp_def],
    by simp [Function.comp_def], by simp [Function.comp_def], by simp [Function.comp_def]⟩

example : (mk [(5, 0, 1), (3, 1, 2), (3, 0, 1), (5, 1, 1)] 3 2).IsTable (mkRecs [(5, 0, 1), (3, 1, 2), (3, 0, 1), (5, 1, 1)]) ∧
    (∀ l, Order.time ≠ .index l) ∧ ¬ Refused .time (some .ant2) := ⟨mk_table _ _ _, by simp, by simp [Refused]⟩

example : [3, 0, 2, 1].Perm (List.range (mkRecs [(5, 0, 1), (3, 1, 2), (3, 0, 1), (5, 1, 1)]).length) := by decide

/-- An index array is only checked for length: a repeated index loses a record. -/
theorem reorder_blts_index_counterexample :
    (match reorderBlts (mk [(0, 0, 1), (1, 0, 1)] 1 2) (.index [0, 0]) none false with
      | .ok o' => o'.time
      | .error _ => []) = [0, 0] := by decide +kernel

/-- With `autos_first` the records are not in the order announced by `blt_order`, yet rectangularity is then
taken from the announcement: the object claims to be rectangular (time by time) although the baseline sequence
differs between the two times. -/
theorem reorder_autos_rect_counterexample :
    ∃ o', reorderBlts (mk [(0, 0, 1), (0, 1, 1), (1, 0, 1), (1, 1, 1)] 2 2) .time none true = .ok o' ∧
      o'.rect = some (true, false) ∧ o'.time = [0, 1, 0, 1] ∧ o'.bl = [11, 11, 1, 1] ∧
      ¬ Verif.BltAxis.TimeMajor o'.time o'.bl 2 2 := by
  refine ⟨_, rfl, by decide +kernel, by decide +kernel, by decide +kernel, ?_⟩
  rintro ⟨B, T, _, _, hB, hT, h1, _⟩
  match B, T, hB, hT, h1 with
  | [b0, b1], [t0, t1], _, _, h1 =>
    have h2 : [0, 1, 0, 1] = [t0, t0, t1, t1] := h1
    simp at h2
    omega

end Verif.Blt
