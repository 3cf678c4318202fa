import Verif.Blt.Spec
import Mathlib.Data.List.Perm.Basic

namespace Verif.Blt
open Verif.Np
open Verif.BltAxis (Key)

variable {R V D F N : Type} [LinearOrder R]

theorem take?_map {α β : Type} (f : α → β) (xs : List α) (idx : List Nat) :
    take? (xs.map f) idx = (take? xs idx).map (List.map f) := by
  induction idx with
  | nil => simp [take?]
  | cons i is ih =>
    simp only [take?, List.mapM_cons] at ih ⊢
    rw [List.getElem?_map, ih]
    cases h : xs[i]? with
    | none => simp
    | some x =>
      cases h' : List.mapM (fun i => xs[i]?) is with
      | none => simp
      | some ys => simp

omit [LinearOrder R] in
/-- Permuting every array permutes the records. -/
theorem permute_table (o : Obj R V D F N) (rs rs' : List (Rec R V D F N)) (idx : List Nat) (ht : o.IsTable rs)
    (h : take? rs idx = some rs') : ∃ o', permute o idx = some o' ∧ o'.IsTable rs' ∧ o'.nbls = o.nbls ∧
      o'.ntimes = o.ntimes ∧ o'.bltOrder = o.bltOrder := by
  obtain ⟨h1, h2, h3, h4, h5, h6, h7, h8, h9, h10, h11, h12⟩ := ht
  have key : ∀ {β : Type} (f : Rec R V D F N → β), take? (rs.map f) idx = some (rs'.map f) := by
    intro β f; rw [take?_map, h]; rfl
  cases hv : o.vis with
  | none =>
    rw [hv] at h12
    simp only at h12
    refine ⟨{ o with ant1 := rs'.map Rec.ant1, ant2 := rs'.map Rec.ant2, bl := rs'.map Rec.bl, uvw := rs'.map Rec.uvw, time := rs'.map Rec.time, lst := rs'.map Rec.lst, integ := rs'.map Rec.integ, appRa := rs'.map Rec.appRa, appDec := rs'.map Rec.appDec, framePa := rs'.map Rec.framePa, pcId := rs'.map Rec.pcId, vis := none }, ?_, ?_, rfl, rfl, rfl⟩
    · unfold permute
      rw [h1, h2, h3, h4, h5, h6, h7, h8, h9, h10, h11, hv]
      simp only [key, Option.bind_eq_bind, Option.bind_some]
    · refine ⟨rfl, rfl, rfl, rfl, rfl, rfl, rfl, rfl, rfl, rfl, rfl, ?_⟩
      simp only
      intro r hr
      obtain ⟨k, hk⟩ := List.mem_iff_getElem?.1 hr
      obtain ⟨hl, hall⟩ := take?_eq_some.1 h
      have hk' : k < idx.length := by
        rw [← hl]; exact (List.getElem?_eq_some_iff.1 hk).1
      have := (hall k idx[k] (List.getElem?_eq_getElem hk')).1
      rw [hk] at this
      exact h12 r (List.mem_of_getElem? this.symm)
  | some v =>
    obtain ⟨d, f, n⟩ := v
    rw [hv] at h12
    simp only at h12
    obtain ⟨vs, e1, rfl, rfl, rfl⟩ := h12
    have hvs := key (Rec.vis)
    rw [e1, take?_map] at hvs
    cases hvs' : take? vs idx with
    | none => rw [hvs'] at hvs; simp at hvs
    | some vs' =>
      rw [hvs'] at hvs
      simp only [Option.map_some, Option.some.injEq] at hvs
      have key' : ∀ {β : Type} (f : D × F × N → β), take? (vs.map f) idx = some (vs'.map f) := by
        intro β f; rw [take?_map, hvs']; rfl
      refine ⟨{ o with ant1 := rs'.map Rec.ant1, ant2 := rs'.map Rec.ant2, bl := rs'.map Rec.bl, uvw := rs'.map Rec.uvw, time := rs'.map Rec.time, lst := rs'.map Rec.lst, integ := rs'.map Rec.integ, appRa := rs'.map Rec.appRa, appDec := rs'.map Rec.appDec, framePa := rs'.map Rec.framePa, pcId := rs'.map Rec.pcId, vis := some (vs'.map (fun v => v.1), vs'.map (fun v => v.2.1), vs'.map (fun v => v.2.2)) }, ?_, ?_, rfl, rfl, rfl⟩
      · unfold permute
        rw [h1, h2, h3, h4, h5, h6, h7, h8, h9, h10, h11, hv]
        simp only [key, key', Option.bind_eq_bind, Option.bind_some]
      · refine ⟨rfl, rfl, rfl, rfl, rfl, rfl, rfl, rfl, rfl, rfl, rfl, ?_⟩
        exact ⟨vs', hvs.symm, rfl, rfl, rfl⟩

theorem entryLe_total {β : Type} [LinearOrder β] (x y : Option β) : entryLe x y = true ∨ entryLe y x = true := by
  cases x <;> cases y <;> simp [entryLe]
  exact le_total _ _

theorem entryLe_trans {β : Type} [LinearOrder β] {x y z : Option β} (h1 : entryLe x y = true)
    (h2 : entryLe y z = true) : entryLe x z = true := by
  cases x <;> cases y <;> cases z <;> simp_all [entryLe]
  exact le_trans h1 h2

theorem leAt_total (o : Obj R V D F N) (k : SKey) (i j : Nat) : leAt o k i j = true ∨ leAt o k j i = true := by
  cases k <;> exact entryLe_total _ _

theorem leAt_trans (o : Obj R V D F N) (k : SKey) {i j l : Nat} (h1 : leAt o k i j = true)
    (h2 : leAt o k j l = true) : leAt o k i l = true := by
  cases k <;> exact entryLe_trans h1 h2

theorem lexB_total (o : Obj R V D F N) (ks : List SKey) (i j : Nat) :
    lexB (ks.map (leAt o)) i j = true ∨ lexB (ks.map (leAt o)) j i = true := by
  induction ks with
  | nil => simp [lexB]
  | cons k ks ih =>
    simp only [List.map_cons, lexB]
    rcases leAt_total o k i j with h | h
    · cases h' : leAt o k j i <;> simp [h, ih]
    · cases h' : leAt o k i j <;> simp [h, ih]

theorem lexB_trans (o : Obj R V D F N) (ks : List SKey) {i j l : Nat}
    (h1 : lexB (ks.map (leAt o)) i j = true) (h2 : lexB (ks.map (leAt o)) j l = true) :
    lexB (ks.map (leAt o)) i l = true := by
  induction ks with
  | nil => simp [lexB]
  | cons k ks ih =>
    simp only [List.map_cons, lexB] at h1 h2 ⊢
    cases hij : leAt o k i j with
    | false => simp [hij] at h1
    | true =>
      cases hjl : leAt o k j l with
      | false => simp [hjl] at h2
      | true =>
        rw [leAt_trans o k hij hjl]
        simp only [if_true]
        cases hli : leAt o k l i with
        | false => simp
        | true =>
          have hlj : leAt o k l j = true := leAt_trans o k hli hij
          have hji : leAt o k j i = true := leAt_trans o k hjl hli
          simp only [hij, hji, if_true] at h1
          simp only [hjl, hlj, if_true] at h2
          simp [ih h1 h2]

theorem lexsort_perm (o : Obj R V D F N) (k : SKey × SKey × SKey) (l : List Nat) : (lexsort o k l).Perm l :=
  List.perm_insertionSort _ _

theorem lexsort_sorted (o : Obj R V D F N) (k : SKey × SKey × SKey) (l : List Nat) :
    (lexsort o k l).Pairwise (fun i j => lexB ([k.1, k.2.1, k.2.2].map (leAt o)) i j = true) := by
  have : Std.Total (fun i j => lexB ([k.1, k.2.1, k.2.2].map (leAt o)) i j = true) := ⟨lexB_total o _⟩
  have : IsTrans Nat (fun i j => lexB ([k.1, k.2.1, k.2.2].map (leAt o)) i j = true) :=
    ⟨fun _ _ _ => lexB_trans o _⟩
  exact List.pairwise_insertionSort (fun i j => lexB ([k.1, k.2.1, k.2.2].map (leAt o)) i j = true) l

/-- Comparison of positions is comparison of records. -/
theorem leAt_rec (o : Obj R V D F N) (rs : List (Rec R V D F N)) (ht : o.IsTable rs) (k : SKey) {i j : Nat}
    {p q : Rec R V D F N} (hp : rs[i]? = some p) (hq : rs[j]? = some q) :
    leAt o k i j = true ↔ recLe k p q := by
  obtain ⟨h1, h2, h3, h4, h5, h6, h7, -⟩ := ht
  cases k <;> simp [leAt, recLe, h1, h2, h3, h5, h7, hp, hq, entryLe]

theorem lexB_rec (o : Obj R V D F N) (rs : List (Rec R V D F N)) (ht : o.IsTable rs) (ks : List SKey) {i j : Nat}
    {p q : Rec R V D F N} (hp : rs[i]? = some p) (hq : rs[j]? = some q) :
    lexB (ks.map (leAt o)) i j = true ↔ lexLe ks p q := by
  induction ks with
  | nil => simp [lexB, lexLe]
  | cons k ks ih =>
    simp only [List.map_cons, lexB, lexLe]
    have e1 := leAt_rec o rs ht k hp hq
    have e2 := leAt_rec o rs ht k hq hp
    rw [← e1, ← e2]
    cases h : leAt o k i j <;> cases h' : leAt o k j i <;> simp [ih]

theorem take_perm {α : Type} {xs ys : List α} {idx : List Nat} (hp : idx.Perm (List.range xs.length))
    (h : take? xs idx = some ys) : ys.Perm xs := by
  have e : ys.map some = idx.map (fun i => xs[i]?) := by
    obtain ⟨hl, hall⟩ := take?_eq_some.1 h
    apply List.ext_getElem?
    intro k
    simp only [List.getElem?_map]
    by_cases hk : k < idx.length
    · obtain ⟨e1, e2⟩ := hall k idx[k] (List.getElem?_eq_getElem hk)
      rw [e1, List.getElem?_eq_getElem hk, List.getElem?_eq_getElem e2]; simp [List.getElem?_eq_getElem e2]
    · rw [List.getElem?_eq_none (by omega), List.getElem?_eq_none (by omega)]; rfl
  have e2 : (idx.map (fun i => xs[i]?)).Perm ((List.range xs.length).map (fun i => xs[i]?)) := hp.map _
  have e3 : (List.range xs.length).map (fun i => xs[i]?) = xs.map some := by
    apply List.ext_getElem?
    intro k
    simp only [List.getElem?_map]
    by_cases hk : k < xs.length
    · rw [List.getElem?_range hk]; simp [List.getElem?_eq_getElem hk]
    · rw [List.getElem?_eq_none (by simpa using hk), List.getElem?_eq_none (by omega)]; rfl
  rw [← e, e3] at e2
  exact (_root_.List.map_perm_map_iff (Option.some_injective _)).1 e2

theorem take?_exists {α : Type} {xs : List α} {idx : List Nat} (h : ∀ i ∈ idx, i < xs.length) :
    ∃ ys, take? xs idx = some ys := Option.isSome_iff_exists.1 (take?_isSome_iff.2 h)

/-- A pairwise fact about positions is a pairwise fact about what is taken. -/
theorem take_pairwise {α : Type} {xs ys : List α} {idx : List Nat} {P : Nat → Nat → Prop} {Q : α → α → Prop}
    (h : take? xs idx = some ys) (hp : idx.Pairwise P)
    (hPQ : ∀ i j x y, P i j → xs[i]? = some x → xs[j]? = some y → Q x y) : ys.Pairwise Q := by
  obtain ⟨hl, hall⟩ := take?_eq_some.1 h
  rw [List.pairwise_iff_getElem] at hp ⊢
  intro a b ha hb hab
  have ha' : a < idx.length := by omega
  have hb' : b < idx.length := by omega
  have e1 := (hall a idx[a] (List.getElem?_eq_getElem ha')).1
  have e2 := (hall b idx[b] (List.getElem?_eq_getElem hb')).1
  rw [List.getElem?_eq_getElem ha] at e1
  rw [List.getElem?_eq_getElem hb] at e2
  exact hPQ _ _ _ _ (hp a b ha' hb' hab) e1.symm e2.symm

/-- A fact about the positions taken is a fact about what is taken. -/
theorem take_forall {α : Type} {xs ys : List α} {idx : List Nat} {Q : α → Prop} (h : take? xs idx = some ys)
    (hQ : ∀ i ∈ idx, ∀ x, xs[i]? = some x → Q x) : ∀ y ∈ ys, Q y := by
  intro y hy
  obtain ⟨k, hk⟩ := List.mem_iff_getElem?.1 hy
  obtain ⟨hl, hall⟩ := take?_eq_some.1 h
  have hk' : k < idx.length := by rw [← hl]; exact (List.getElem?_eq_some_iff.1 hk).1
  have e := (hall k _ (List.getElem?_eq_getElem hk')).1
  rw [hk] at e
  exact hQ _ (List.getElem_mem hk') y e.symm

/-- Taking a concatenation of positions. -/
theorem take?_append {α : Type} {xs zs : List α} {i j : List Nat} (h : take? xs (i ++ j) = some zs) :
    ∃ as bs, take? xs i = some as ∧ take? xs j = some bs ∧ zs = as ++ bs := by
  simp only [take?, List.mapM_append] at h ⊢
  cases h1 : List.mapM (fun i => xs[i]?) i with
  | none => simp [h1] at h
  | some as =>
    cases h2 : List.mapM (fun i => xs[i]?) j with
    | none => simp [h1, h2] at h
    | some bs => simp [h1, h2] at h; exact ⟨as, bs, rfl, rfl, h.symm⟩

theorem where_split_perm {α : Type} (p : α → Bool) (xs : List α) :
    (whereIdx p xs ++ whereIdx (fun x => !p x) xs).Perm (List.range xs.length) := by
  have : whereIdx (fun x => !p x) xs = (List.range xs.length).filter (fun i => !((xs[i]?).any p)) := by
    unfold whereIdx
    apply List.filter_congr
    intro i hi
    rw [List.getElem?_eq_getElem (List.mem_range.1 hi)]
    rfl
  rw [this]
  unfold whereIdx
  exact List.filter_append_perm _ _

/-- Keys actually used begin with the promised ones. -/
theorem promised_prefix (nblts : Nat) (order : Order) (minor m' : Option Key) (hi : ∀ l, order ≠ .index l)
    (h : resolveMinor nblts order minor = .ok m') (p q : Rec R V D F N) :
    let k := sortArrays order m'
    lexLe [k.1, k.2.1, k.2.2] p q → lexLe (promised order minor) p q := by
  intro k hk
  cases order with
  | index l => exact absurd rfl (hi l)
  | bda =>
    exact hk
  | baseline =>
    exact ⟨hk.1, fun h => ⟨(hk.2 h).1, fun _ => trivial⟩⟩
  | time =>
    rcases minor with _ | m
    · cases h; exact ⟨hk.1, fun h => ⟨(hk.2 h).1, fun _ => trivial⟩⟩
    · cases m <;> cases h <;> exact ⟨hk.1, fun h => ⟨(hk.2 h).1, fun _ => trivial⟩⟩
  | ant1 =>
    rcases minor with _ | m
    · cases h; exact ⟨hk.1, fun h => ⟨(hk.2 h).1, fun _ => trivial⟩⟩
    · cases m <;> cases h <;> exact ⟨hk.1, fun h => ⟨(hk.2 h).1, fun _ => trivial⟩⟩
  | ant2 =>
    rcases minor with _ | m
    · cases h; exact ⟨hk.1, fun h => ⟨(hk.2 h).1, fun _ => trivial⟩⟩
    · cases m <;> cases h <;> exact ⟨hk.1, fun h => ⟨(hk.2 h).1, fun _ => trivial⟩⟩

end Verif.Blt
