import Verif.MsVis.One

/-! # Objects of several windows -/

namespace Verif.MsVis
open Verif.Np Verif.Slices Verif.Pol

variable {T K U C E : Type}

def rowKey (r : Row T K U) : T ×ₗ (Nat ×ₗ Nat) := toLex (r.time, toLex (r.a1, r.a2))

/-- The data descriptions of a file that was written. -/
def descsOf (o : Obj T K U C E) (idx : List Nat) : List (Desc K) := o.spws.zipIdx.map (descAt o idx)

/-- The record of row `row` at position `r` and window `s` at position `k`. -/
def mkRec (w : Ops T K U C) (flip : Bool) (o : Obj T K U C E) (idx : List Nat) (row : Row T K U) (r : Nat) (s : Int) (k : Nat) : Rec T K U C :=
  ⟨labOf w flip o row, k, cell w flip o idx r (chansOf o s), idx.map (fun c => w.med ((chansOf o s).map (fun f => (o.data r f c).n)))⟩

theorem mem_zip {α : Type} {l : List α} {a : α} {k : Nat} : (a, k) ∈ l.zipIdx ↔ l[k]? = some a := by
  constructor
  · intro h
    have hm := List.mem_zipIdx h
    have h2 := hm.2.2
    simp only [Nat.sub_zero] at h2
    rw [h2]
    exact List.getElem?_eq_getElem _
  · intro h
    rw [List.mem_iff_getElem?]
    exact ⟨k, by rw [List.getElem?_zipIdx, h]; simp⟩

theorem mem_descs {o : Obj T K U C E} {idx : List Nat} {d : Desc K} :
    d ∈ descsOf o idx ↔ ∃ (s : Int) (k : Nat), o.spws[k]? = some s ∧ d = descAt o idx (s, k) := by
  unfold descsOf
  rw [List.mem_map]
  constructor
  · rintro ⟨⟨s, k⟩, h, rfl⟩
    exact ⟨s, k, mem_zip.1 h, rfl⟩
  · rintro ⟨s, k, h, rfl⟩
    exact ⟨(s, k), mem_zip.2 h, rfl⟩

theorem mem_many {w : Ops T K U C} {flip : Bool} {o : Obj T K U C E} {idx : List Nat} {x : Rec T K U C} :
    x ∈ mainMany w flip o idx ↔ ∃ (s : Int) (k : Nat) (row : Row T K U) (r : Nat), o.spws[k]? = some s ∧ o.rows[r]? = some row ∧
      x = mkRec w flip o idx row r s k := by
  unfold mainMany
  simp only [List.mem_flatMap, List.mem_map, List.mem_filter, mem_unique, decide_eq_true_iff]
  constructor
  · rintro ⟨n, _, ⟨s, k⟩, hk, ⟨row, r⟩, ⟨hr, _⟩, rfl⟩
    exact ⟨s, k, row, r, mem_zip.1 hk, mem_zip.1 hr, rfl⟩
  · rintro ⟨s, k, row, r, hk, hr, rfl⟩
    exact ⟨row.scan, ⟨row, List.mem_of_getElem? hr, rfl⟩, (s, k), mem_zip.2 hk, (row, r), ⟨mem_zip.2 hr, rfl⟩, rfl⟩

theorem getLast_all {α : Type} {l : List α} {a : α} (h : a ∈ l) (hall : ∀ x ∈ l, x = a) : l.getLast? = some a := by
  have hne : l ≠ [] := List.ne_nil_of_mem h
  rw [List.getLast?_eq_some_getLast hne, hall _ (List.getLast_mem hne)]

theorem apart_eq {o : Obj T K U C E} (ha : Apart o) {r r' : Nat} {row row' : Row T K U} (h : o.rows[r]? = some row)
    (h' : o.rows[r']? = some row') (hk : rowKey row = rowKey row') : r = r' ∧ row = row' := by
  obtain ⟨h1, h2⟩ := List.getElem?_eq_some_iff.1 h
  obtain ⟨h1', h2'⟩ := List.getElem?_eq_some_iff.1 h'
  have hkk : (row.time, row.a1, row.a2) = (row'.time, row'.a1, row'.a2) := by
    have e := congrArg ofLex hk
    simp only [rowKey, ofLex_toLex, Prod.mk.injEq] at e
    have e2 := congrArg ofLex e.2
    simp only [ofLex_toLex, Prod.mk.injEq] at e2
    rw [e.1, e2.1, e2.2]
  have hrr : r = r' := by
    apply (List.Nodup.getElem_inj_iff ha (hi := by simpa using h1) (hj := by simpa using h1')).1
    simp only [List.getElem_map, h2, h2']
    exact hkk
  subst hrr
  rw [h] at h'
  exact ⟨rfl, Option.some.inj h'⟩

section
variable [LinearOrder T] {w : Ops T K U C} {flip : Bool} {o : Obj T K U C E} {idx : List Nat}

theorem recAt_eq (hn : o.spws.length ≠ 1) (ha : Apart o) {s : Int} {k : Nat} {row : Row T K U} {r : Nat}
    (hk : o.spws[k]? = some s) (hr : o.rows[r]? = some row) :
    recAt (fileOf w flip idx o) (descAt o idx (s, k)) (rowKey row) = some (mkRec w flip o idx row r s k) := by
  unfold recAt
  have hmain : (fileOf w flip idx o).main = mainMany w flip o idx := by
    unfold fileOf
    rw [if_neg hn]
  apply getLast_all
  · unfold recsOf
    rw [hmain, List.mem_filter, List.mem_filter]
    exact ⟨⟨mem_many.2 ⟨s, k, row, r, hk, hr, rfl⟩, by simp [mkRec, descAt]⟩, by simp [mkRec, Lab.key, labOf, rowKey]⟩
  · intro x hx
    unfold recsOf at hx
    rw [hmain, List.mem_filter, List.mem_filter] at hx
    obtain ⟨⟨hx, hd⟩, hkey⟩ := hx
    obtain ⟨s', k', row', r', hk', hr', rfl⟩ := mem_many.1 hx
    have hkk : k' = k := of_decide_eq_true hd
    subst hkk
    rw [hk] at hk'
    cases hk'
    have : rowKey row' = rowKey row := by simpa [mkRec, Lab.key, labOf, rowKey] using hkey
    obtain ⟨rfl, rfl⟩ := apart_eq ha hr' hr this
    rfl

theorem labAt_eq (hn : o.spws.length ≠ 1) (ha : Apart o) {ps : List (Desc K)} (hne : ps ≠ []) (hps : ∀ d ∈ ps, d ∈ descsOf o idx)
    {row : Row T K U} (hr : row ∈ o.rows) :
    labAt (fileOf w flip idx o) ps (rowKey row) = some (labOf w flip o row) := by
  obtain ⟨r, hr⟩ := List.mem_iff_getElem?.1 hr
  cases ps with
  | nil => exact absurd rfl hne
  | cons d ps =>
    obtain ⟨s, k, hk, rfl⟩ := mem_descs.1 (hps d (List.mem_cons_self ..))
    unfold labAt
    rw [List.findSome?_cons, recAt_eq hn ha hk hr]
    rfl

theorem varies_no (hn : o.spws.length ≠ 1) (ha : Apart o) (hc : ∀ l, w.close l l = true) : ∀ (ds before : List (Desc K)),
    (∀ d ∈ ds, d ∈ descsOf o idx) → (∀ d ∈ before, d ∈ descsOf o idx) → varies w (fileOf w flip idx o) before ds = false
  | [], _, _, _ => rfl
  | d :: ds, before, h1, h2 => by
    have hd := h1 d (List.mem_cons_self ..)
    unfold varies
    rw [varies_no hn ha hc ds (before ++ [d]) (fun x hx => h1 x (List.mem_cons_of_mem _ hx)) (by
      intro x hx
      rcases List.mem_append.1 hx with hx | hx
      · exact h2 x hx
      · rw [List.mem_singleton.1 hx]
        exact hd), Bool.or_false, List.any_eq_false]
    intro x hx
    unfold recsOf at hx
    rw [List.mem_filter] at hx
    have hmain : (fileOf w flip idx o).main = mainMany w flip o idx := by
      unfold fileOf
      rw [if_neg hn]
    rw [hmain] at hx
    obtain ⟨s, k, row, r, hk, hr, rfl⟩ := mem_many.1 hx.1
    by_cases hb : before = []
    · subst hb
      simp [labAt]
    · have hl := labAt_eq (w := w) (flip := flip) hn ha hb h2 (List.mem_of_getElem? hr)
      rw [show (mkRec w flip o idx row r s k).lab.key = rowKey row from rfl, hl]
      simp [mkRec, hc]

omit [LinearOrder T] in
theorem present_eq (hg : Good o) (hn : o.spws.length ≠ 1) {ign : Bool} (hign : ign = false ∨ NoSingle o) :
    present ign (fileOf w flip idx o) = descsOf o idx := by
  unfold present
  rw [descs_eq w flip ign hg hign]
  show (descsOf o idx).filter _ = _
  rw [List.filter_eq_self]
  intro d hd
  obtain ⟨s, k, hk, rfl⟩ := mem_descs.1 hd
  obtain ⟨row, rest, hrows⟩ := List.exists_cons_of_ne_nil hg.rows
  have hr : o.rows[0]? = some row := by rw [hrows]; rfl
  have hm : mkRec w flip o idx row 0 s k ∈ recsOf (fileOf w flip idx o) (descAt o idx (s, k)) := by
    unfold recsOf fileOf
    rw [if_neg hn, List.mem_filter]
    exact ⟨mem_many.2 ⟨s, k, row, 0, hk, hr, rfl⟩, by simp [mkRec, descAt]⟩
  have := List.ne_nil_of_mem hm
  simpa using this

theorem mem_blts (hn : o.spws.length ≠ 1) (hw : o.spws ≠ []) {k : T ×ₗ (Nat ×ₗ Nat)} :
    k ∈ blts (fileOf w flip idx o) (descsOf o idx) ↔ ∃ row ∈ o.rows, rowKey row = k := by
  unfold blts
  have hmain : (fileOf w flip idx o).main = mainMany w flip o idx := by
    unfold fileOf
    rw [if_neg hn]
  rw [mem_unique, hmain]
  simp only [List.mem_map, List.mem_filter, decide_eq_true_iff]
  constructor
  · rintro ⟨x, ⟨hx, _⟩, rfl⟩
    obtain ⟨s, k, row, r, hk, hr, rfl⟩ := mem_many.1 hx
    exact ⟨row, List.mem_of_getElem? hr, rfl⟩
  · rintro ⟨row, hr, rfl⟩
    obtain ⟨r, hr⟩ := List.mem_iff_getElem?.1 hr
    obtain ⟨s, rest, hs⟩ := List.exists_cons_of_ne_nil hw
    have hk : o.spws[0]? = some s := by rw [hs]; rfl
    exact ⟨mkRec w flip o idx row r s 0, ⟨mem_many.2 ⟨s, 0, row, r, hk, hr, rfl⟩, descAt o idx (s, 0),
      mem_descs.2 ⟨s, 0, hk, rfl⟩, rfl⟩, rfl⟩

end

/-! ## Windows -/

theorem ids_eq (o : Obj T K U C E) (idx : List Nat) : (descsOf o idx).map (fun d => d.id) = o.spws := by
  unfold descsOf
  rw [List.map_map]
  show o.spws.zipIdx.map Prod.fst = _
  exact List.zipIdx_map_fst ..

theorem find_desc {o : Obj T K U C E} (idx : List Nat) (hg : Good o) {s : Int} {k : Nat} (hk : o.spws[k]? = some s) :
    (descsOf o idx).find? (fun d => decide (d.id = s)) = some (descAt o idx (s, k)) := by
  rw [← List.head?_filter]
  unfold descsOf
  rw [List.filter_map]
  have : o.spws.zipIdx.filter ((fun d : Desc K => decide (d.id = s)) ∘ descAt o idx) = [(s, k)] := by
    rw [← filter_zipIdx _ hg.spws hk]
    rfl
  rw [this]
  rfl

theorem winList_eq {o : Obj T K U C E} (idx : List Nat) (hg : Good o) :
    winList (descsOf o idx) = (unique o.spws).map (fun s => (s, (chansOf o s).length)) := by
  unfold winList
  rw [ids_eq]
  apply List.map_congr_left
  intro s hs
  obtain ⟨k, hk⟩ := List.mem_iff_getElem?.1 (mem_unique.1 hs)
  rw [find_desc idx hg hk]
  simp [descAt, chans_length]

theorem winPos_some : ∀ {l : List (Int × Nat)} {c : Nat} {i : Int} {j : Nat}, winPos l c = some (i, j) → ∃ n, (i, n) ∈ l ∧ j < n
  | [], _, _, _, h => by cases h
  | x :: l, c, i, j, h => by
    unfold winPos at h
    by_cases hc : c < x.2
    · rw [if_pos hc] at h
      cases h
      exact ⟨x.2, List.mem_cons_self .., hc⟩
    · rw [if_neg hc] at h
      obtain ⟨n, h1, h2⟩ := winPos_some h
      exact ⟨n, List.mem_cons_of_mem _ h1, h2⟩

theorem winPos_of : ∀ {l : List (Int × Nat)} {i : Int} {j n : Nat}, (l.map Prod.fst).Nodup → (i, n) ∈ l → j < n →
    ∃ c, winPos l c = some (i, j)
  | [], _, _, _, _, h, _ => by cases h
  | x :: l, i, j, n, hnd, h, hj => by
    rw [List.map_cons, List.nodup_cons] at hnd
    rcases List.mem_cons.1 h with rfl | h
    · exact ⟨j, by unfold winPos; rw [if_pos hj]⟩
    · obtain ⟨c, hc⟩ := winPos_of hnd.2 h hj
      exact ⟨c + x.2, by unfold winPos; rw [if_neg (by omega), Nat.add_sub_cancel]; exact hc⟩

theorem chansFrom_get (ds : List (Desc K)) (no : K) : ∀ (l : List (Int × Nat)) (c : Nat),
    (chansFrom ds no l)[c]? = (winPos l c).map (fun x => ⟨x.1, (freqAt ds no x.1 x.2).1, (freqAt ds no x.1 x.2).2⟩)
  | [], c => rfl
  | x :: l, c => by
    have hcons : chansFrom ds no (x :: l) = (List.range x.2).map (fun j => (⟨x.1, (freqAt ds no x.1 j).1, (freqAt ds no x.1 j).2⟩ : Chan K)) ++
        chansFrom ds no l := by
      unfold chansFrom
      rw [List.flatMap_cons]
    rw [hcons]
    unfold winPos
    by_cases hc : c < x.2
    · rw [if_pos hc, List.getElem?_append_left (by simpa using hc), List.getElem?_map, List.getElem?_range hc]
      rfl
    · rw [if_neg hc, List.getElem?_append_right (by simpa using hc), ← chansFrom_get ds no l]
      simp

theorem count_wins : ∀ {l : List (Int × Nat)} {i : Int} {n : Nat}, (l.map Prod.fst).Nodup → (i, n) ∈ l →
    (l.flatMap (fun x => List.replicate x.2 x.1)).count i = n
  | [], _, _, _, h => by cases h
  | x :: l, i, n, hnd, h => by
    rw [List.map_cons, List.nodup_cons] at hnd
    rw [List.flatMap_cons, List.count_append]
    rcases List.mem_cons.1 h with rfl | h
    · have : (l.flatMap (fun x => List.replicate x.2 x.1)).count i = 0 := by
        rw [List.count_eq_zero]
        intro hm
        obtain ⟨y, hy, hm⟩ := List.mem_flatMap.1 hm
        rw [(List.mem_replicate.1 hm).2] at hnd
        exact hnd.1 (List.mem_map.2 ⟨y, hy, rfl⟩)
      rw [this]
      simp
    · rw [count_wins hnd.2 h, List.count_replicate]
      have : x.1 ≠ i := by
        rintro rfl
        exact hnd.1 (List.mem_map.2 ⟨_, h, rfl⟩)
      simp [this]

end Verif.MsVis
