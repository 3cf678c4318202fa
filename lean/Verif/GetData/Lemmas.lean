import Verif.GetData.Spec
import Verif.AntPair.Props
import Verif.Pol.Props

namespace Verif.GetData
open Verif.Np Verif.Slices
open Verif.AntPair (IsRowsOf Numbered LaidOut antpair2ind)
open Verif.Pol (conjNum reorderConjPols)

theorem mapM_eq_some {α β : Type} (f : α → Option β) (l : List α) (ys : List β) :
    l.mapM f = some ys ↔ ys.map some = l.map f := by
  induction l generalizing ys with
  | nil => cases ys <;> simp
  | cons a l ih =>
    simp only [List.mapM_cons, List.map_cons]
    cases hf : f a with
    | none => cases ys <;> simp
    | some b =>
      cases hm : l.mapM f with
      | none =>
        cases ys with
        | nil => simp
        | cons y ys =>
          simp only [Option.bind_eq_bind, Option.bind_some, Option.bind_none, List.map_cons, List.cons.injEq,
            Option.some.injEq, reduceCtorEq, false_iff, not_and]
          intro _ h
          rw [(ih ys).2 h] at hm; simp at hm
      | some zs =>
        have hz := (ih zs).1 hm
        cases ys with
        | nil => simp
        | cons y ys =>
          simp only [Option.bind_eq_bind, Option.bind_some, Option.pure_def, Option.some.injEq, List.cons.injEq,
            List.map_cons]
          rw [← hz]
          constructor
          · rintro ⟨rfl, rfl⟩; simp
          · rintro ⟨rfl, h⟩
            refine ⟨rfl, ?_⟩
            exact (List.map_injective_iff.2 (Option.some_injective _) h).symm

theorem exists_mapM {α β : Type} (f : α → Option β) (l : List α) (h : ∀ a ∈ l, ∃ b, f a = some b) :
    ∃ ys, l.mapM f = some ys := by
  induction l with
  | nil => exact ⟨[], by simp⟩
  | cons a l ih =>
    obtain ⟨b, hb⟩ := h a (by simp)
    obtain ⟨ys, hys⟩ := ih (fun a ha => h a (by simp [ha]))
    exact ⟨b :: ys, by simp [hb, hys]⟩

/-- The array cut, entry by entry. -/
theorem cut_spec {V : Type} (data : List (List V)) (n : Nat) (ind indp : SlicifyOut) (is ks : List Nat)
    (hi : ind.picks data.length = some is) (hk : indp.picks n = some ks) (his : ∀ i ∈ is, i < data.length)
    (hks : ∀ k ∈ ks, k < n) (hcols : ∀ r ∈ data, r.length = n) :
    ∃ out, cut data n ind indp = some out ∧
      out.map (List.map some) = is.map (fun i => ks.map (fun k => (data[i]?).bind (fun r => r[k]?))) := by
  obtain ⟨rows, hrows⟩ := exists_mapM (fun i => data[i]?) is
    (fun i hi => ⟨data[i]'(his i hi), List.getElem?_eq_getElem (his i hi)⟩)
  have hr := (mapM_eq_some _ _ _).1 hrows
  have hlen : ∀ r ∈ rows, r.length = n := by
    intro r hr'
    have : some r ∈ rows.map some := List.mem_map.2 ⟨r, hr', rfl⟩
    rw [hr] at this
    obtain ⟨i, _, hi⟩ := List.mem_map.1 this
    exact hcols r (List.mem_of_getElem? hi)
  obtain ⟨out, hout⟩ := exists_mapM (fun r : List V => take? r ks) rows (by
    intro r hr'
    have := (take?_isSome_iff (xs := r) (inds := ks)).2 (fun k hk => by rw [hlen r hr']; exact hks k hk)
    exact Option.isSome_iff_exists.1 this)
  refine ⟨out, ?_, ?_⟩
  · simp only [cut, hi, hk, Option.bind_eq_bind, Option.bind_some, take?, hrows] at hout ⊢
    exact hout
  · have ho := (mapM_eq_some _ _ _).1 hout
    have e : ∀ (out : List (List V)) (rows : List (List V)), out.map some = rows.map (fun r => take? r ks) →
        out.map (List.map some) = rows.map (fun r => ks.map (fun k => r[k]?)) := by
      intro out
      induction out with
      | nil => intro rows h; cases rows <;> simp_all
      | cons x out ih =>
        intro rows h
        cases rows with
        | nil => simp at h
        | cons r rows =>
          simp only [List.map_cons, List.cons.injEq] at h ⊢
          refine ⟨?_, ih rows h.2⟩
          exact (mapM_eq_some _ _ _).1 h.1.symm
    rw [e out rows ho]
    have e2 : ∀ (rows : List (List V)) (is : List Nat), rows.map some = is.map (fun i => data[i]?) →
        rows.map (fun r => ks.map (fun k => r[k]?)) =
          is.map (fun i => ks.map (fun k => (data[i]?).bind (fun r => r[k]?))) := by
      intro rows
      induction rows with
      | nil => intro is h; cases is <;> simp_all
      | cons r rows ih =>
        intro is h
        cases is with
        | nil => simp at h
        | cons i is =>
          simp only [List.map_cons, List.cons.injEq] at h ⊢
          refine ⟨?_, ih is h.2⟩
          rw [← h.1]; rfl
    exact e2 rows is hr

theorem polWhere_eq (pols : List Int) (hn : pols.Nodup) (p : Int) :
    polWhere pols p = (pols.findIdx? (fun q => decide (q = p))).toList := by
  apply strictSorted_ext (whereIdx_sorted _ _)
  · cases pols.findIdx? (fun q => decide (q = p)) <;> simp
  · intro i
    rw [mem_whereIdx]
    simp only [decide_eq_true_eq, Option.mem_toList]
    constructor
    · rintro ⟨x, hx, rfl⟩
      have hi := (List.getElem?_eq_some_iff.1 hx).1
      rw [List.findIdx?_eq_some_iff_getElem]
      refine ⟨hi, by simpa using (List.getElem?_eq_some_iff.1 hx).2, ?_⟩
      intro j hj
      have hj' : j < pols.length := by omega
      simp only [decide_eq_true_eq]
      intro h
      have : pols[j]? = pols[i]? := by rw [hx, List.getElem?_eq_getElem hj', h]
      have := (List.getElem?_inj hj' hn).1 this
      omega
    · intro h
      rw [List.findIdx?_eq_some_iff_getElem] at h
      obtain ⟨hi, hp, _⟩ := h
      exact ⟨pols[i], List.getElem?_eq_getElem hi, by simpa using hp⟩

theorem findIdx_isSome (pols : List Int) (p : Int) :
    (∃ k, pols.findIdx? (fun q => decide (q = p)) = some k) ↔ p ∈ pols := by
  constructor
  · rintro ⟨k, hk⟩
    rw [List.findIdx?_eq_some_iff_getElem] at hk
    obtain ⟨hi, hp, _⟩ := hk
    have : pols[k] = p := by simpa using hp
    exact this ▸ List.getElem_mem hi
  · intro h
    cases hf : pols.findIdx? (fun q => decide (q = p)) with
    | some k => exact ⟨k, rfl⟩
    | none =>
      rw [List.findIdx?_eq_none_iff] at hf
      have := hf p h
      simp at this

theorem findIdx_getElem (pols : List Int) (hn : pols.Nodup) (k : Nat) (p : Int) (h : pols[k]? = some p) :
    pols.findIdx? (fun q => decide (q = p)) = some k := by
  have hi := (List.getElem?_eq_some_iff.1 h).1
  rw [List.findIdx?_eq_some_iff_getElem]
  refine ⟨hi, by simpa using (List.getElem?_eq_some_iff.1 h).2, ?_⟩
  intro j hj
  have hj' : j < pols.length := by omega
  simp only [decide_eq_true_eq]
  intro h'
  have : pols[j]? = pols[k]? := by rw [h, List.getElem?_eq_getElem hj', h']
  have := (List.getElem?_inj hj' hn).1 this
  omega

theorem slicify_up (n a b : Nat) (t : List Nat) (hab : a < b) (hn : ∀ i ∈ a :: b :: t, i < n) :
    (slicify (a :: b :: t)).picks n = some (a :: b :: t) := by
  unfold slicify
  rw [if_neg (by simp)]
  split
  · rename_i hd
    simp only [SlicifyOut.picks]
    have h2 : (a :: b :: t).length > 1 := by simp
    rw [if_pos h2]
    apply const_diff_sel n a b t hab hn
    intro p hp
    have hmem1 : ((p.2 : Int) - p.1) ∈
        (((a :: b :: t).zip (a :: b :: t).tail).map (fun p => (p.2 : Int) - p.1)).dedup := by
      rw [List.mem_dedup]; exact List.mem_map.2 ⟨p, hp, rfl⟩
    have hmem2 : ((b : Int) - a) ∈
        (((a :: b :: t).zip (a :: b :: t).tail).map (fun p => (p.2 : Int) - p.1)).dedup := by
      rw [List.mem_dedup]; exact List.mem_map.2 ⟨(a, b), by simp, rfl⟩
    generalize (((a :: b :: t).zip (a :: b :: t).tail).map (fun p => (p.2 : Int) - p.1)).dedup = d at *
    match d, hd, hmem1, hmem2 with
    | [x], _, h1, h2 => simp at h1 h2; rw [h1, h2]
  · simp only [SlicifyOut.picks, picks]
    rw [if_pos hn]

theorem slicify_down (n a b : Nat) (t : List Nat) (hba : b < a) (hn : ∀ i ∈ a :: b :: t, i < n)
    (hd : ¬ (a :: b :: t).Pairwise (· > ·)) : (slicify (a :: b :: t)).picks n = some (a :: b :: t) := by
  unfold slicify
  rw [if_neg (by simp)]
  split
  · rename_i hd'
    exfalso
    apply hd
    have hall : ∀ p ∈ (a :: b :: t).zip (b :: t), (p.2 : Int) - p.1 = (b : Int) - a := by
      intro p hp
      have hmem1 : ((p.2 : Int) - p.1) ∈
          (((a :: b :: t).zip (a :: b :: t).tail).map (fun p => (p.2 : Int) - p.1)).dedup := by
        rw [List.mem_dedup]; exact List.mem_map.2 ⟨p, hp, rfl⟩
      have hmem2 : ((b : Int) - a) ∈
          (((a :: b :: t).zip (a :: b :: t).tail).map (fun p => (p.2 : Int) - p.1)).dedup := by
        rw [List.mem_dedup]; exact List.mem_map.2 ⟨(a, b), by simp, rfl⟩
      generalize (((a :: b :: t).zip (a :: b :: t).tail).map (fun p => (p.2 : Int) - p.1)).dedup = d at *
      match d, hd', hmem1, hmem2 with
      | [x], _, h1, h2 => simp at h1 h2; rw [h1, h2]
    have key : ∀ (t : List Nat) (c : Nat), (∀ p ∈ (c :: t).zip t, p.2 < p.1) → (c :: t).Pairwise (· > ·) := by
      intro t
      induction t with
      | nil => intro c _; simp
      | cons x t ih =>
        intro c h
        have h1 : x < c := h (c, x) (by simp)
        have h2 := ih x (fun p hp => h p (by simp only [List.zip_cons_cons]; exact List.mem_cons_of_mem _ hp))
        rw [List.pairwise_cons]
        refine ⟨?_, h2⟩
        intro y hy
        rcases List.mem_cons.1 hy with rfl | hy
        · exact h1
        · have := (List.pairwise_cons.1 h2).1 y hy
          omega
    apply key
    intro p hp
    have := hall p hp
    omega
  · simp only [SlicifyOut.picks, picks]
    rw [if_pos hn]

/-- `slicify` on distinct positions that are not in descending order. -/
theorem slicify_nodup (n : Nat) (l : List Nat) (hne : l ≠ []) (hnd : l.Nodup) (hn : ∀ i ∈ l, i < n)
    (hd : ¬ (2 ≤ l.length ∧ l.Pairwise (· > ·))) : (slicify l).picks n = some l := by
  match l, hne, hnd, hn, hd with
  | [a], _, _, hn, _ => exact slicify_picks [a] n (by simp) (by simp) hn
  | a :: b :: t, _, hnd, hn, hd =>
    have hab : a ≠ b := by
      rintro rfl
      simp at hnd
    rcases Nat.lt_or_gt_of_ne hab with h | h
    · exact slicify_up n a b t h hn
    · exact slicify_down n a b t h hn (fun hp => hd ⟨by simp, hp⟩)

theorem allOf_picks (n : Nat) : (allOf n).picks n = some (List.range n) := by
  simp only [allOf, SlicifyOut.picks, PSlice.sel, Option.getD_none]
  simp
  intro a ha
  exact ⟨ha, Nat.mod_one _⟩

/-- A descending list of all positions reads them backwards. -/
theorem desc_range (r : List Nat) (n : Nat) (hp : r.Perm (List.range n)) (hd : r.Pairwise (· > ·)) :
    r = (List.range n).reverse := by
  have h1 : r.reverse.Pairwise (· < ·) := List.pairwise_reverse.2 hd
  have h2 : r.reverse = List.range n :=
    strictSorted_ext h1 List.pairwise_lt_range (fun x => by rw [List.mem_reverse]; exact hp.mem_iff)
  rw [← h2, List.reverse_reverse]

end Verif.GetData
