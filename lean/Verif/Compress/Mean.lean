import Verif.Compress.Props
import Mathlib.Algebra.BigOperators.Group.List.Basic
import Mathlib.Algebra.BigOperators.Group.Finset.Basic
import Mathlib.Algebra.BigOperators.Group.Finset.Piecewise
import Mathlib.Algebra.Module.LinearMap.Basic
import Mathlib.Algebra.Module.BigOperators

/-! C130, C131: rows after averaging, redundant data, sums of weights. -/
namespace Verif.Compress
open Verif.Np

variable {K V : Type} [Field K] [LinearOrder K] [AddCommGroup V] [Module K V]

/-- The rows of a group at one time that count for one channel and polarization: those not flagged, or all if nothing at all is unflagged. -/
def counted (o : Obj K V) (gp : List Int) (t : K) (f p : Nat) : List Nat :=
  if ∀ s ∈ groupAt o gp t, ∀ f' < o.nf, ∀ p' < o.np, o.flag s f' p' = true then groupAt o gp t
  else (groupAt o gp t).filter (fun s => !o.flag s f p)

theorem last_write (ws : List (Nat × Out K V)) (r : Nat) (P : Out K V → Prop) (hall : ∀ w ∈ ws, w.1 = r → P w.2) (hex : ∃ w ∈ ws, w.1 = r) :
    P (lastWrite ws r) := by
  unfold lastWrite
  cases hf : ws.reverse.find? (fun w => w.1 == r) with
  | none =>
    rw [List.find?_eq_none] at hf
    obtain ⟨w, hw, hr⟩ := hex
    exact absurd (by simpa using hr) (hf w (List.mem_reverse.2 hw))
  | some w =>
    have h1 := List.mem_of_find?_eq_some hf
    have h2 := List.find?_some hf
    exact hall w (List.mem_reverse.1 h1) (by simpa using h2)

theorem allFlagged_iff (o : Obj K V) (ms : List (Nat × Bool)) (S : List Nat) (c : Nat → Bool) (hp : ms.Perm (S.map (fun s => (s, c s)))) :
    allFlagged o ms = true ↔ ∀ s ∈ S, ∀ f' < o.nf, ∀ p' < o.np, o.flag s f' p' = true := by
  unfold allFlagged
  rw [List.all_eq_true]
  constructor
  · intro h s hs f' hf p' hp'
    have := h (s, c s) (hp.mem_iff.2 (List.mem_map.2 ⟨s, hs, rfl⟩))
    rw [List.all_eq_true] at this
    have := this f' (List.mem_range.2 hf)
    rw [List.all_eq_true] at this
    exact this p' (List.mem_range.2 hp')
  · intro h m hm
    obtain ⟨s, hs, rfl⟩ := List.mem_map.1 (hp.mem_iff.1 hm)
    rw [List.all_eq_true]
    intro f' hf
    rw [List.all_eq_true]
    intro p' hp'
    exact h s hs f' (List.mem_range.1 hf) p' (List.mem_range.1 hp')

theorem used_perm (o : Obj K V) (ms : List (Nat × Bool)) (gp : List Int) (t : K) (c : Nat → Bool)
    (hp : ms.Perm ((groupAt o gp t).map (fun s => (s, c s)))) (f p : Nat) : (used o ms f p).Perm ((counted o gp t f p).map (fun s => (s, c s))) := by
  unfold used counted
  by_cases hw : ∀ s ∈ groupAt o gp t, ∀ f' < o.nf, ∀ p' < o.np, o.flag s f' p' = true
  · rw [if_pos hw, if_pos ((allFlagged_iff o ms _ c hp).2 hw)]; exact hp
  · rw [if_neg hw, if_neg (fun h => hw ((allFlagged_iff o ms _ c hp).1 h))]
    have := hp.filter (fun m => !o.flag m.1 f p)
    rw [List.filter_map] at this
    exact this

variable [IsStrictOrderedRing K] {clusters : List K → List (List Nat)} {o : Obj K V} {tol : K} {conjs : List Int} {gps : List (List Int)}

/-- What is stored in the row of the first baseline of a group. -/
theorem stored (conj : V →ₗ[K] V) (h : Ok clusters o tol gps) (gp : List Int) (hgp : gp ∈ gps) (r : Nat) (hr : r < o.bl.length)
    (hb : blOf o r = gp.headD 0) :
    ∃ ms : List (Nat × Bool), ms.Perm ((groupAt o gp (o.time r)).map (fun s => (s, conjs.contains (blOf o s)))) ∧
      lastWrite (gps.flatMap (writes conj clusters o tol conjs)) r = average conj o ms (conjs.contains (gp.headD 0)) := by
  have hhead : ∀ gp ∈ gps, gp.headD 0 ∈ gp := by
    intro gp hgp
    cases gp with
    | nil => exact absurd rfl (h.ne _ hgp)
    | cons a l => exact List.mem_cons_self
  have hts : gtimes o conjs gp ≠ [] := by
    have : (r, conjs.contains (blOf o r)) ∈ members o conjs gp := mem_members.2 ⟨hr, hb ▸ hhead gp hgp, rfl⟩
    intro he
    rw [gtimes, List.map_eq_nil_iff] at he
    rw [he] at this
    cases this
  have hs := h.clusters _ hts (gtimes_apart (conjs := conjs) h gp)
  refine last_write _ r (fun x => ∃ ms : List (Nat × Bool), ms.Perm ((groupAt o gp (o.time r)).map (fun s => (s, conjs.contains (blOf o s)))) ∧
      x = average conj o ms (conjs.contains (gp.headD 0))) ?_ ?_
  · intro w hw hwr
    rw [List.mem_flatMap] at hw
    obtain ⟨gp', hgp', hw⟩ := hw
    unfold writes at hw
    rw [List.mem_filterMap] at hw
    obtain ⟨g, hg, hw⟩ := hw
    rw [Option.map_eq_some_iff] at hw
    obtain ⟨r', hr', rfl⟩ := hw
    dsimp only at hwr
    subst hwr
    have hrow : blOf o r' = gp'.headD 0 := by
      unfold target at hr'
      split at hr'
      next r'' heq =>
        cases hr'
        have : r' ∈ (rows o (gp'.headD 0)).filter (fun r => decide (|o.time r - avgTime ((members o conjs gp').map (fun m => o.time m.1)) g| < tol)) := by
          rw [heq]; exact List.mem_singleton_self _
        exact (mem_rows.1 (List.mem_filter.1 this).1).2
      next => cases hr'
    have heq : gp' = gp := group_eq h hgp' hgp (gp.headD 0) (by rw [← hb, hrow]; exact hhead gp' hgp') (hhead gp hgp)
    subst heq
    obtain ⟨-, -, hperm⟩ := cluster_row (conjs := conjs) h gp' hgp hs g hg r' hr'
    exact ⟨_, hperm, rfl⟩
  · obtain ⟨g, hg, ht⟩ := target_exists (conjs := conjs) h gp hgp hs r hr hb
    refine ⟨(r, average conj o (pick (members o conjs gp) g) (conjs.contains (gp.headD 0))), ?_, rfl⟩
    rw [List.mem_flatMap]
    refine ⟨gp, hgp, ?_⟩
    unfold writes
    rw [List.mem_filterMap]
    refine ⟨g, hg, ?_⟩
    have ht' : target o tol (gp.headD 0) (avgTime ((members o conjs gp).map (fun m => o.time m.1)) g) = some r := ht
    rw [ht']; rfl

omit [IsStrictOrderedRing K] in
/-- C130: the rows that are kept are those of the first baselines of the groups, once each and in their order. -/
theorem rows_kept (conj : V →ₗ[K] V) (clusters : List K → List (List Nat)) (o : Obj K V) (tol : K) (conjs : List Int) (gps : List (List Int)) :
    ((compress conj clusters o tol conjs gps).map (·.1)).Pairwise (· < ·) ∧
    ∀ r, r ∈ (compress conj clusters o tol conjs gps).map (·.1) ↔ r < o.bl.length ∧ ∃ gp ∈ gps, blOf o r = gp.headD 0 := by
  have he : (compress conj clusters o tol conjs gps).map (·.1) = whereIdx (fun b => (gps.map (fun gp => gp.headD 0)).contains b) o.bl := by
    simp [compress, Function.comp_def]
  rw [he]
  refine ⟨whereIdx_sorted _ _, fun r => ?_⟩
  rw [mem_whereIdx]
  constructor
  · rintro ⟨x, hx, hc⟩
    obtain ⟨hr, -⟩ := List.getElem?_eq_some_iff.1 hx
    refine ⟨hr, ?_⟩
    rw [List.contains_iff_mem, List.mem_map] at hc
    obtain ⟨gp, hgp, rfl⟩ := hc
    exact ⟨gp, hgp, by rw [blOf, List.getD_eq_getElem?_getD, hx]; rfl⟩
  · rintro ⟨hr, gp, hgp, hb⟩
    refine ⟨o.bl[r], List.getElem?_eq_getElem hr, ?_⟩
    rw [List.contains_iff_mem, List.mem_map]
    refine ⟨gp, hgp, ?_⟩
    rw [← hb, blOf, List.getD_eq_getElem?_getD, List.getElem?_eq_getElem hr]; rfl

theorem seen_eq (conj : V →ₗ[K] V) (hc : ∀ v, conj (conj v) = v) (o : Obj K V) (conjs : List Int) (b : Int) (f p s : Nat) :
    seen conj o conjs b f p s = (if conjs.contains b then conj (vis conj o f p (s, conjs.contains (blOf o s))) else vis conj o f p (s, conjs.contains (blOf o s))) := by
  unfold seen vis
  by_cases h1 : blOf o s ∈ conjs <;> by_cases h2 : b ∈ conjs <;> simp [h1, h2, hc]

/-- C130: each row that is kept is the mean of the rows of its group at its time, weighted with their sample counts, over those that are not flagged
(over all if everything is flagged), seen in the direction of the first baseline; the sample counts are added; it is flagged where all of them are. -/
theorem averaged_partial (conj : V →ₗ[K] V) (hc : ∀ v, conj (conj v) = v) (h : Ok clusters o tol gps) (gp : List Int) (hgp : gp ∈ gps) (r : Nat)
    (hr : r < o.bl.length) (hb : blOf o r = gp.headD 0) (x : Out K V) (hx : (r, x) ∈ compress conj clusters o tol conjs gps) (f p : Nat) :
    (x.flag f p = true ↔ ∀ s ∈ groupAt o gp (o.time r), o.flag s f p = true) ∧
    x.ns f p = ((counted o gp (o.time r) f p).map (fun s => o.ns s f p)).sum ∧
    (x.ns f p ≠ 0 → x.ns f p • x.data f p =
      ((counted o gp (o.time r) f p).map (fun s => o.ns s f p • seen conj o conjs (gp.headD 0) f p s)).sum) ∧
    (x.ns f p = 0 → x.data f p = 0) := by
  have hxe : x = lastWrite (gps.flatMap (writes conj clusters o tol conjs)) r := by
    simp only [compress, List.mem_map] at hx
    obtain ⟨r', -, he⟩ := hx
    obtain ⟨rfl, rfl⟩ := Prod.mk.inj he
    rfl
  obtain ⟨ms, hp, hw⟩ := stored (conjs := conjs) conj h gp hgp r hr hb
  rw [hw] at hxe
  subst hxe
  have hu := used_perm o ms gp (o.time r) _ hp f p
  have hwt : weight o ms f p = ((counted o gp (o.time r) f p).map (fun s => o.ns s f p)).sum := by
    unfold weight
    rw [(hu.map (fun m => o.ns m.1 f p)).sum_eq, List.map_map]; rfl
  have hsum : ((used o ms f p).map (fun m => o.ns m.1 f p • vis conj o f p m)).sum =
      ((counted o gp (o.time r) f p).map (fun s => o.ns s f p • vis conj o f p (s, conjs.contains (blOf o s)))).sum := by
    rw [(hu.map (fun m => o.ns m.1 f p • vis conj o f p m)).sum_eq, List.map_map]; rfl
  refine ⟨?_, hwt, ?_, ?_⟩
  · show ms.all (fun m => o.flag m.1 f p) = true ↔ _
    rw [List.all_eq_true]
    constructor
    · intro h1 s hs
      exact h1 (s, conjs.contains (blOf o s)) (hp.mem_iff.2 (List.mem_map.2 ⟨s, hs, rfl⟩))
    · intro h1 m hm
      obtain ⟨s, hs, rfl⟩ := List.mem_map.1 (hp.mem_iff.1 hm)
      exact h1 s hs
  · intro h0
    have h0' : weight o ms f p ≠ 0 := h0
    show weight o ms f p • (if conjs.contains (gp.headD 0) then conj (mean conj o ms f p) else mean conj o ms f p) = _
    have hm : weight o ms f p • mean conj o ms f p =
        ((counted o gp (o.time r) f p).map (fun s => o.ns s f p • vis conj o f p (s, conjs.contains (blOf o s)))).sum := by
      unfold mean
      rw [smul_smul, mul_inv_cancel₀ h0', one_smul, hsum]
    by_cases hcb : conjs.contains (gp.headD 0) = true
    · rw [if_pos hcb, ← map_smul, hm, map_list_sum, List.map_map]
      congr 1
      apply List.map_congr_left
      intro s _
      rw [seen_eq conj hc, if_pos hcb, Function.comp_apply, map_smul]
    · rw [if_neg hcb, hm]
      congr 1
      apply List.map_congr_left
      intro s _
      rw [seen_eq conj hc, if_neg hcb]
  · intro h0
    have h0' : weight o ms f p = 0 := h0
    have hm : mean conj o ms f p = 0 := by unfold mean; rw [h0', inv_zero, zero_smul]
    show (if conjs.contains (gp.headD 0) then conj (mean conj o ms f p) else mean conj o ms f p) = 0
    rw [hm, map_zero, ite_self]

theorem sum_same (l : List Nat) (w : Nat → K) (u : Nat → V) (v : V) (h : ∀ s ∈ l, u s = v) : (l.map (fun s => w s • u s)).sum = (l.map w).sum • v := by
  induction l with
  | nil => simp
  | cons a l ih =>
    rw [List.map_cons, List.sum_cons, ih (fun s hs => h s (List.mem_cons_of_mem _ hs)), h a List.mem_cons_self, List.map_cons, List.sum_cons, add_smul]

/-- C131: where all rows of a group that count see the same visibility, it comes back exactly. -/
theorem redundant_kept_partial (conj : V →ₗ[K] V) (hc : ∀ v, conj (conj v) = v) (h : Ok clusters o tol gps) (gp : List Int) (hgp : gp ∈ gps) (r : Nat)
    (hr : r < o.bl.length) (hb : blOf o r = gp.headD 0) (x : Out K V) (hx : (r, x) ∈ compress conj clusters o tol conjs gps) (f p : Nat) (v : V)
    (hv : ∀ s ∈ counted o gp (o.time r) f p, seen conj o conjs (gp.headD 0) f p s = v)
    (hn : ((counted o gp (o.time r) f p).map (fun s => o.ns s f p)).sum ≠ 0) : x.data f p = v := by
  obtain ⟨-, h2, h3, -⟩ := averaged_partial conj hc h gp hgp r hr hb x hx f p
  have h3 := h3 (h2 ▸ hn)
  rw [sum_same _ _ _ v hv, ← h2] at h3
  have hn' : x.ns f p ≠ 0 := h2 ▸ hn
  have h4 := congrArg (fun u => (x.ns f p)⁻¹ • u) h3
  simpa only [smul_smul, inv_mul_cancel₀ hn', one_smul] using h4

omit [LinearOrder K] [IsStrictOrderedRing K] in
theorem sum_filter (n : Nat) (q : Nat → Bool) (w : Nat → K) :
    (((List.range n).filter q).map w).sum = ∑ s ∈ Finset.range n, if q s = true then w s else 0 := by
  have hr : (List.range n).toFinset = Finset.range n := by ext a; simp
  rw [← List.sum_toFinset w (List.nodup_range.filter _), List.toFinset_filter, hr, Finset.sum_filter]

/-- C131: the sample counts of what is not flagged are all still there, if the first baseline of every group has all the times of the group and no group is
flagged as a whole at any time. -/
theorem samples_conserved_partial (conj : V →ₗ[K] V) (hc : ∀ v, conj (conj v) = v) (h : Ok clusters o tol gps)
    (hfull : ∀ s < o.bl.length, ∃ gp ∈ gps, blOf o s ∈ gp ∧ ∃ r < o.bl.length, blOf o r = gp.headD 0 ∧ o.time r = o.time s)
    (hflag : ∀ gp ∈ gps, ∀ r < o.bl.length, blOf o r ∈ gp → ∃ s ∈ groupAt o gp (o.time r), ∃ f < o.nf, ∃ p < o.np, o.flag s f p = false) (f p : Nat) :
    ((compress conj clusters o tol conjs gps).map (fun e => e.2.ns f p)).sum =
      (((List.range o.bl.length).filter (fun s => !o.flag s f p)).map (fun s => o.ns s f p)).sum := by
  classical
  have hhead : ∀ gp ∈ gps, gp.headD 0 ∈ gp := by
    intro gp hgp
    cases gp with
    | nil => exact absurd rfl (h.ne _ hgp)
    | cons a l => exact List.mem_cons_self
  let Rel : Nat → Nat → Prop := fun r s => ∃ gp ∈ gps, blOf o r = gp.headD 0 ∧ blOf o s ∈ gp ∧ o.time s = o.time r
  have hk := rows_kept conj clusters o tol conjs gps
  have hrow : ∀ e ∈ compress conj clusters o tol conjs gps,
      e.2.ns f p = ∑ s ∈ Finset.range o.bl.length, if Rel e.1 s ∧ o.flag s f p = false then o.ns s f p else 0 := by
    rintro ⟨r, x⟩ he
    obtain ⟨hr, gp, hgp, hb⟩ := (hk.2 r).1 (List.mem_map.2 ⟨_, he, rfl⟩)
    rw [(averaged_partial conj hc h gp hgp r hr hb x he f p).2.1]
    have hcount : counted o gp (o.time r) f p = (groupAt o gp (o.time r)).filter (fun s => !o.flag s f p) := by
      unfold counted
      rw [if_neg]
      intro hall
      obtain ⟨s, hs, f', hf', p', hp', hfl⟩ := hflag gp hgp r hr (hb ▸ hhead gp hgp)
      have := hall s hs f' hf' p' hp'
      rw [hfl] at this
      cases this
    rw [hcount, groupAt, List.filter_filter, sum_filter]
    apply Finset.sum_congr rfl
    intro s _
    apply if_congr _ rfl rfl
    rw [Bool.and_eq_true, Bool.and_eq_true, decide_eq_true_eq, decide_eq_true_eq, Bool.not_eq_true']
    constructor
    · rintro ⟨h1, h2, h3⟩
      exact ⟨⟨gp, hgp, hb, h2, h3⟩, h1⟩
    · rintro ⟨⟨gp', hgp', hb', h2, h3⟩, h1⟩
      have := group_eq h hgp' hgp (gp.headD 0) (by rw [← hb, hb']; exact hhead gp' hgp') (hhead gp hgp)
      subst this
      exact ⟨h1, h2, h3⟩
  have hnd : ((compress conj clusters o tol conjs gps).map (·.1)).Nodup := hk.1.imp (fun h => by omega)
  have h1 : ((compress conj clusters o tol conjs gps).map (fun e => e.2.ns f p)).sum =
      ∑ r ∈ ((compress conj clusters o tol conjs gps).map (·.1)).toFinset, ∑ s ∈ Finset.range o.bl.length,
        if Rel r s ∧ o.flag s f p = false then o.ns s f p else 0 := by
    rw [List.sum_toFinset _ hnd, List.map_map]
    congr 1
    exact List.map_congr_left hrow
  rw [h1, Finset.sum_comm, sum_filter]
  apply Finset.sum_congr rfl
  intro s hs
  rw [Finset.mem_range] at hs
  obtain ⟨gp, hgp, hsg, r, hr, hb, ht⟩ := hfull s hs
  have hmem : r ∈ ((compress conj clusters o tol conjs gps).map (·.1)).toFinset := List.mem_toFinset.2 ((hk.2 r).2 ⟨hr, gp, hgp, hb⟩)
  rw [Finset.sum_eq_single_of_mem r hmem]
  · apply if_congr _ rfl rfl
    rw [Bool.not_eq_true']
    exact ⟨fun h => h.2, fun h => ⟨⟨gp, hgp, hb, hsg, ht.symm⟩, h⟩⟩
  · intro r' hr' hne
    rw [if_neg]
    rintro ⟨⟨gp', hgp', hb', hsg', ht'⟩, -⟩
    have := group_eq h hgp' hgp (blOf o s) hsg' hsg
    subst this
    obtain ⟨hr'l, -⟩ := (hk.2 r').1 (List.mem_toFinset.1 hr')
    exact hne (h.once r' r hr'l hr (hb'.trans hb.symm) (ht'.symm.trans ht.symm))

end Verif.Compress
