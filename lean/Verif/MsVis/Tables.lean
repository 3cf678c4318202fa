import Verif.MsVis.Props
import Verif.Add.Axis

/-! # The tables of a file that was written -/

namespace Verif.MsVis
open Verif.Np Verif.Slices Verif.Pol

variable {T K U C E : Type}

/-- What is asked of the polarizations: `idx` is an order of them that CASA uses, it is not the opposite of theirs, and they are
not pseudo-Stokes. -/
structure PolsGood (o : Obj T K U C E) (idx : List Nat) : Prop where
  order : PolOrderResult o.pols .casa idx
  forward : o.pols.length = 1 ∨ idx ≠ (List.range o.pols.length).reverse
  names : ∀ p ∈ polsOf o, -8 ≤ p ∧ p ≤ -1

/-- The numbers of polarizations in data description `k`. -/
def corrAt (o : Obj T K U C E) (idx : List Nat) (k : Nat) : List Nat :=
  match o.flexPol with
  | none => idx.map (fun c => (casaOf (o.pols.getD c 0)).getD 0)
  | some l => [(casaOf (l.getD k 0)).getD 0]

/-- The table of polarizations. -/
def polTabs (o : Obj T K U C E) (idx : List Nat) : List (List Nat) :=
  match o.flexPol with
  | none => [idx.map (fun c => (casaOf (o.pols.getD c 0)).getD 0)]
  | some l => (unique l).map (fun p => [(casaOf p).getD 0])

/-- The file. -/
def fileOf (w : Ops T K U C) (flip : Bool) (idx : List Nat) (o : Obj T K U C E) : File T K U C E :=
  ⟨if o.spws.length = 1 then mainOne w flip o idx else mainMany w flip o idx, ddTab o, winTab o, polTabs o idx, o.cats⟩

theorem cols_of {o : Obj T K U C E} {idx : List Nat} (hg : Good o) (hp : PolsGood o idx) : polCols idx o.pols.length = some idx :=
  polCols_eq (order_perm hp.order) (fun h => hg.polsSome (List.eq_nil_of_length_eq_zero h)) hp.forward

theorem idx_lt {o : Obj T K U C E} {idx : List Nat} (hp : PolsGood o idx) {c : Nat} (hc : c ∈ idx) : c < o.pols.length := by
  simpa using (order_perm hp.order).mem_iff.1 hc

theorem write_ok (w : Ops T K U C) (flip : Bool) {o : Obj T K U C E} {idx : List Nat} (hg : Good o) (hp : PolsGood o idx) :
    write w flip idx o = .ok (fileOf w flip idx o) := by
  have ht : polTabOf o idx = .ok (polTabs o idx) := by
    unfold polTabOf polTabs
    have hn := hp.names
    unfold polsOf at hn
    cases hf : o.flexPol with
    | none =>
      rw [hf] at hn
      dsimp only
      rw [if_pos]
      · simp
      · simp only [List.all_cons, List.all_nil, Bool.and_true, List.all_eq_true, List.mem_map, decide_eq_true_iff]
        rintro p ⟨c, hc, rfl⟩
        have hl := idx_lt hp hc
        apply hn
        simp only [Option.getD_none, List.getD, List.getElem?_eq_getElem hl, Option.getD_some]
        exact List.getElem_mem hl
    | some l =>
      rw [hf] at hn
      dsimp only
      rw [if_pos]
      · simp [List.map_map, Function.comp_def]
      · simp only [List.all_eq_true, List.mem_map, decide_eq_true_iff]
        rintro q ⟨p, hq, rfl⟩ p' hp'
        rw [List.mem_singleton] at hp'
        subst hp'
        exact hn _ (mem_unique.1 hq)
  unfold write
  rw [if_neg (by simp [hg.projected]), cols_of hg hp]
  dsimp only
  rw [ht]
  rfl

theorem zipIdx_range {α : Type} (g : Nat → α) (n : Nat) : ((List.range n).map g).zipIdx = (List.range n).map (fun k => (g k, k)) := by
  apply List.ext_getElem?
  intro i
  rw [List.getElem?_zipIdx, List.getElem?_map, List.getElem?_map]
  by_cases h : i < n
  · simp [List.getElem?_range h]
  · have hn : (List.range n)[i]? = none := List.getElem?_eq_none (by simpa using h)
    simp [hn]

/-- The data description of window `x.1` at position `x.2`. -/
def descAt (o : Obj T K U C E) (idx : List Nat) (x : Int × Nat) : Desc K :=
  ⟨x.2, x.1, (o.chans.filter (fun c => decide (c.spw = x.1))).map (fun c => (c.freq, c.width)), corrAt o idx x.2⟩

theorem descs_eq (w : Ops T K U C) (flip ign : Bool) {o : Obj T K U C E} {idx : List Nat} (hg : Good o)
    (hs : ign = false ∨ NoSingle o) : descs ign (fileOf w flip idx o) = o.spws.zipIdx.map (descAt o idx) := by
  unfold descs
  have hmap : (fileOf w flip idx o).dds.zipIdx.map (fun x => (⟨x.2, (((fileOf w flip idx o).wins[x.1.1]?).map (fun v => v.id)).getD 0,
      (((fileOf w flip idx o).wins[x.1.1]?).map (fun v => v.chans)).getD [], ((fileOf w flip idx o).polTab[x.1.2]?).getD []⟩ : Desc K)) =
      o.spws.zipIdx.map (descAt o idx) := by
    show ((ddTab o).zipIdx).map _ = _
    unfold ddTab
    rw [zipIdx_range]
    apply List.ext_getElem?
    intro i
    rw [List.getElem?_map, List.getElem?_map, List.getElem?_map, List.getElem?_zipIdx]
    by_cases h : i < o.spws.length
    · rw [List.getElem?_range h, List.getElem?_eq_getElem h]
      simp only [Option.map_some, Nat.zero_add, Option.some.injEq]
      have hwin : (fileOf w flip idx o).wins[i]? = some ⟨o.spws[i], (o.chans.filter (fun c => decide (c.spw = o.spws[i]))).map
          (fun c => (c.freq, c.width))⟩ := by
        show (winTab o)[i]? = _
        unfold winTab
        rw [List.getElem?_map, List.getElem?_eq_getElem h]
        rfl
      rw [hwin]
      unfold descAt
      simp only [Option.map_some, Option.getD_some, Desc.mk.injEq, true_and]
      show ((polTabs o idx)[_]?).getD [] = corrAt o idx i
      unfold polTabs corrAt
      cases hf : o.flexPol with
      | none => simp
      | some l =>
        dsimp only
        have hl := (hg.flex l hf).1
        have hmem : l.getD i 0 ∈ unique l := by
          rw [mem_unique]
          simp only [List.getD, List.getElem?_eq_getElem (show i < l.length by omega), Option.getD_some]
          exact List.getElem_mem _
        rw [List.getElem?_map, List.getElem?_eq_getElem (List.idxOf_lt_length_iff.2 hmem), List.getElem_idxOf]
        rfl
    · have h1 : (List.range o.spws.length)[i]? = none := List.getElem?_eq_none (by simpa using h)
      have h2 : o.spws[i]? = none := List.getElem?_eq_none (by omega)
      rw [h1, h2]
      rfl
  rw [hmap, List.filter_eq_self]
  intro d hd
  obtain ⟨x, hx, rfl⟩ := List.mem_map.1 hd
  rcases hs with rfl | hs
  · rfl
  · have hmem : x.1 ∈ o.spws := by
      have := List.mem_zipIdx hx
      rw [this.2.2]
      exact List.getElem_mem _
    have := hs _ hmem
    simp only [descAt, List.length_map]
    simp [this]

/-! ## Phase centers -/

theorem cat_iff {w : Ops T K U C} {flip : Bool} {o : Obj T K U C E} {idx : List Nat} (hg : Good o) {pc : Int}
    (h : pc ∈ o.cats.map (fun c => c.1)) (e : E) :
    (pcOf (fileOf w flip idx o) (fieldOf o pc), e) ∈ catsOf (fileOf w flip idx o) ↔ (pc, e) ∈ o.cats := by
  have hi : (o.cats.map (fun c => c.1)).idxOf pc < (o.cats.map (fun c => c.1)).length := List.idxOf_lt_length_iff.2 h
  have hi' : fieldOf o pc < o.cats.length := by simpa [fieldOf] using hi
  have hget : (o.cats[fieldOf o pc]).1 = pc := by
    have h1 := List.getElem_idxOf (xs := o.cats.map (fun c => c.1)) hi
    rw [List.getElem_map] at h1
    exact h1
  unfold pcOf catsOf
  by_cases hb : idsGood (fileOf w flip idx o) = true
  · rw [if_pos hb, if_pos hb]
    show ((((o.cats)[fieldOf o pc]?).map (fun c => c.1)).getD 0, e) ∈ o.cats ↔ _
    rw [List.getElem?_eq_getElem hi', Option.map_some, Option.getD_some, hget]
  · rw [if_neg hb, if_neg hb]
    show ((fieldOf o pc : Int), e) ∈ (o.cats).zipIdx.map _ ↔ _
    constructor
    · intro h
      obtain ⟨⟨c, i⟩, hx, he⟩ := List.mem_map.1 h
      simp only [Prod.mk.injEq] at he
      have hm := List.mem_zipIdx hx
      have hii : i = fieldOf o pc := by exact_mod_cast he.1
      have hc : c = o.cats[fieldOf o pc] := by
        have := hm.2.2
        simp only [Nat.sub_zero] at this
        subst hii
        exact this
      have : (pc, e) = c := by
        rw [← he.2]
        exact Prod.ext (by rw [hc]; exact hget.symm) rfl
      rw [this, hc]
      exact List.getElem_mem _
    · intro h
      obtain ⟨j, hj, hje⟩ := List.mem_iff_getElem.1 h
      have hji : j = fieldOf o pc := by
        have h1 : (o.cats.map (fun c => c.1))[j]'(by simpa using hj) = pc := by simp [hje]
        have h2 : (o.cats.map (fun c => c.1))[fieldOf o pc]'(by simpa using hi') = pc := by simpa using hget
        exact (List.Nodup.getElem_inj_iff hg.cats).1 (h1.trans h2.symm)
      subst hji
      refine List.mem_map.2 ⟨((pc, e), fieldOf o pc), ?_, rfl⟩
      rw [List.mem_iff_getElem?]
      refine ⟨fieldOf o pc, ?_⟩
      rw [List.getElem?_zipIdx, List.getElem?_eq_getElem hj, hje]
      simp

/-! ## Channels of a window -/

theorem map_some {α β : Type} (g : α → Option β) : ∀ l : List α, (∀ x ∈ l, (g x).isSome = true) → l.map g = (l.filterMap g).map some
  | [], _ => rfl
  | x :: l, h => by
    obtain ⟨y, hy⟩ := Option.isSome_iff_exists.1 (h x (List.mem_cons_self ..))
    rw [List.map_cons, List.filterMap_cons, hy, List.map_cons, map_some g l (fun z hz => h z (List.mem_cons_of_mem _ hz))]

theorem where_filter {α : Type} (p : α → Bool) (l : List α) : (whereIdx p l).map (fun i => l[i]?) = (l.filter p).map some := by
  rw [← Verif.Add.fancy_where p l]
  apply map_some
  intro i hi
  obtain ⟨x, hx, _⟩ := mem_whereIdx.1 hi
  simp [hx]

theorem chans_length (o : Obj T K U C E) (s : Int) :
    (o.chans.filter (fun c => decide (c.spw = s))).length = (chansOf o s).length := by
  have := congrArg List.length (where_filter (fun c : Chan K => decide (c.spw = s)) o.chans)
  simpa [chansOf] using this.symm

/-- Channel `j` of a window is the one at position `chansOf[j]`. -/
theorem chans_get (o : Obj T K U C E) (s : Int) {j f : Nat} (h : (chansOf o s)[j]? = some f) :
    (o.chans.filter (fun c => decide (c.spw = s)))[j]? = o.chans[f]? := by
  have h1 := congrArg (fun l => l[j]?) (where_filter (fun c : Chan K => decide (c.spw = s)) o.chans)
  simp only [List.getElem?_map] at h1
  rw [show (whereIdx (fun c : Chan K => decide (c.spw = s)) o.chans)[j]? = some f from h] at h1
  simp only [Option.map_some] at h1
  cases hf : (o.chans.filter (fun c => decide (c.spw = s)))[j]? with
  | none => rw [hf] at h1; simp at h1
  | some c =>
    rw [hf] at h1
    simpa using h1.symm

theorem filter_zipIdx {α : Type} [DecidableEq α] (l : List α) (h : l.Nodup) {k : Nat} {s : α} (hk : l[k]? = some s) :
    l.zipIdx.filter (fun x => decide (x.1 = s)) = [(s, k)] := by
  have hmem : (s, k) ∈ l.zipIdx := by
    rw [List.mem_iff_getElem?]
    exact ⟨k, by rw [List.getElem?_zipIdx, hk]; simp⟩
  have hnd : l.zipIdx.Nodup := by
    have : (l.zipIdx.map Prod.fst).Nodup := by rwa [List.zipIdx_map_fst]
    exact List.Nodup.of_map _ this
  have hall : ∀ x ∈ l.zipIdx.filter (fun x => decide (x.1 = s)), x = (s, k) := by
    rintro ⟨a, i⟩ hx
    rw [List.mem_filter] at hx
    have ha : a = s := by simpa using hx.2
    have hm := List.mem_zipIdx hx.1
    obtain ⟨hk1, hk2⟩ := List.getElem?_eq_some_iff.1 hk
    have : i = k := by
      apply (List.Nodup.getElem_inj_iff h (hi := by omega) (hj := hk1)).1
      have := hm.2.2
      simp only [Nat.sub_zero] at this
      rw [← this, ha, hk2]
    rw [ha, this]
  have hin : (s, k) ∈ l.zipIdx.filter (fun x => decide (x.1 = s)) := List.mem_filter.2 ⟨hmem, by simp⟩
  have hnd2 := hnd.filter (fun x => decide (x.1 = s))
  match hl : l.zipIdx.filter (fun x => decide (x.1 = s)) with
  | [] => rw [hl] at hin; cases hin
  | [x] => rw [hl] at hall; rw [hl, hall x (List.mem_cons_self ..)]
  | x :: y :: t =>
    rw [hl] at hall hnd2
    have h1 := hall x (List.mem_cons_self ..)
    have h2 := hall y (List.mem_cons_of_mem _ (List.mem_cons_self ..))
    rw [h1, h2] at hnd2
    exact absurd (List.mem_cons_self ..) (List.nodup_cons.1 hnd2).1

/-- The frequency and width that are read for channel `j` of a window. -/
theorem freq_get {o : Obj T K U C E} (idx : List Nat) (hg : Good o) (no : K) {k : Nat} {s : Int} (hk : o.spws[k]? = some s) {j f : Nat}
    {c : Chan K} (h : (chansOf o s)[j]? = some f) (hf : o.chans[f]? = some c) :
    freqAt (o.spws.zipIdx.map (descAt o idx)) no s j = (c.freq, c.width) := by
  unfold freqAt
  rw [List.filter_map]
  have : o.spws.zipIdx.filter ((fun d : Desc K => decide (d.id = s)) ∘ descAt o idx) = [(s, k)] := by
    rw [← filter_zipIdx _ hg.spws hk]
    rfl
  rw [this]
  simp only [List.map_cons, List.map_nil, List.getLast?_singleton, descAt, List.length_map, List.getElem?_map]
  have hj : j < (chansOf o s).length := (List.getElem?_eq_some_iff.1 h).1
  rw [show (if (o.chans.filter (fun c => decide (c.spw = s))).length = 1 then 0 else j) = j by
    rw [chans_length]
    split
    · omega
    · rfl]
  rw [chans_get o s h, hf]
  rfl

end Verif.MsVis
