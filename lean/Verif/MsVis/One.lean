import Verif.MsVis.Tables

/-! # Objects of one window -/

namespace Verif.MsVis
open Verif.Np Verif.Slices Verif.Pol

variable {T K U C E : Type}

/-- The polarizations that a data description gives are those of its window. -/
theorem corr_pols {o : Obj T K U C E} {idx : List Nat} (hg : Good o) (hp : PolsGood o idx) {k : Nat} {s : Int} (hk : o.spws[k]? = some s)
    {c : Chan K} (hc : c.spw = s) (q : Int) (j : Nat) :
    ((corrAt o idx k)[j]?).map (fun c => (aipsOf c).getD 0) = some q ↔ ∃ p, idx[j]? = some p ∧ polAt o c p = some q := by
  obtain ⟨hk1, hk2⟩ := List.getElem?_eq_some_iff.1 hk
  unfold corrAt polAt
  have hn := hp.names
  unfold polsOf at hn
  cases hf : o.flexPol with
  | none =>
    rw [hf] at hn
    simp only [Option.getD_none] at hn
    dsimp only
    rw [List.getElem?_map, Option.map_map]
    cases hj : idx[j]? with
    | none => simp
    | some p =>
      have hl := idx_lt hp (List.mem_of_getElem? hj)
      have ha := aips_casa (hn _ (List.getElem_mem hl))
      simp only [Option.map_some, Function.comp_def, Option.some.injEq, List.getD, List.getElem?_eq_getElem hl, Option.getD_some, ha]
      constructor
      · rintro rfl
        exact ⟨p, rfl, List.getElem?_eq_getElem hl⟩
      · rintro ⟨p', rfl, h⟩
        rw [List.getElem?_eq_getElem hl] at h
        exact Option.some.inj h
  | some l =>
    rw [hf] at hn
    simp only [Option.getD_some] at hn
    dsimp only
    obtain ⟨hl, h1⟩ := hg.flex l hf
    have hidx : idx = [0] := by
      have hperm := order_perm hp.order
      rw [h1] at hperm
      exact List.perm_singleton.1 (by simpa using hperm)
    have hkl : k < l.length := by omega
    have ha := aips_casa (hn _ (List.getElem_mem hkl))
    have hpos : o.spws.idxOf c.spw = k := by
      rw [hc, ← hk2]
      exact List.Nodup.idxOf_getElem hg.spws _ _
    rw [hidx, hpos]
    cases j with
    | zero =>
      simp only [List.getElem?_cons_zero, Option.map_some, Option.some.injEq, List.getD, List.getElem?_eq_getElem hkl, Option.getD_some, ha]
      constructor
      · rintro rfl
        exact ⟨0, rfl, rfl⟩
      · rintro ⟨p, rfl, h⟩
        rw [if_pos rfl] at h
        exact Option.some.inj h
    | succ j => simp

/-- The place of a polarization in the order. -/
theorem pol_pos {o : Obj T K U C E} {idx : List Nat} (hg : Good o) (hp : PolsGood o idx) {c : Chan K} {p : Nat} {q : Int}
    (h : polAt o c p = some q) : ∃ j : Nat, idx[j]? = some p := by
  rw [← List.mem_iff_getElem?, (order_perm hp.order).mem_iff, List.mem_range]
  unfold polAt at h
  cases hf : o.flexPol with
  | none =>
    rw [hf] at h
    exact (List.getElem?_eq_some_iff.1 h).1
  | some l =>
    rw [hf] at h
    dsimp only at h
    have := (hg.flex l hf).2
    by_cases h0 : p = 0
    · omega
    · rw [if_neg h0] at h
      cases h

theorem recs_one {w : Ops T K U C} {flip : Bool} {o : Obj T K U C E} {idx : List Nat} {s : Int} (hs : o.spws = [s]) :
    recsOf (fileOf w flip idx o) (descAt o idx (s, 0)) = mainOne w flip o idx := by
  unfold recsOf fileOf
  rw [if_pos (by rw [hs]; rfl)]
  rw [List.filter_eq_self]
  intro r hr
  unfold mainOne at hr
  obtain ⟨x, _, rfl⟩ := List.mem_map.1 hr
  simp [descAt]

/-- The row that comes back for a row. -/
def back (w : Ops T K U C) (flip : Bool) (idx : List Nat) (o : Obj T K U C E) (row : Row T K U) : Row T K U :=
  rowOf w false (fileOf w flip idx o) (labOf w flip o row)

/-- How positions of an object correspond to those of the one that comes back. -/
structure Match (w : Ops T K U C) (flip : Bool) (idx : List Nat) (o o' : Obj T K U C E) (ρ χ : Nat → Nat → Prop) : Prop where
  row : ∀ r row, o.rows[r]? = some row → ∃ r', ρ r r' ∧ o'.rows[r']? = some (back w flip idx o row)
  row' : ∀ r' row', o'.rows[r']? = some row' → ∃ r row, ρ r r' ∧ o.rows[r]? = some row ∧ row' = back w flip idx o row
  chan : ∀ f c, o.chans[f]? = some c → ∃ f', χ f f' ∧ o'.chans[f']? = some c
  chan' : ∀ f' c, o'.chans[f']? = some c → ∃ f, χ f f' ∧ o.chans[f]? = some c
  cats : o'.cats = catsOf (fileOf w flip idx o)

theorem has_fwd {w : Ops T K U C} {flip : Bool} {idx : List Nat} {o o' : Obj T K U C E} {ρ χ : Nat → Nat → Prop} (hg : Good o)
    (h : Match w flip idx o o' ρ χ)
    (hpol : ∀ r r' row f f' c p q, ρ r r' → χ f f' → o.rows[r]? = some row → o.chans[f]? = some c → polAt o c p = some q →
      ∃ p', polAt o' c p' = some q ∧ o'.data r' f' p' = w.flipV flip (o.data r f p)) {L : Label T K U E} {v : Vis C K}
    (hv : Has o L v) : Has o' (flipL w flip L) (w.flipV flip v) := by
  obtain ⟨r, f, p, row, c, hr, hc, hq, h1, h2, h3, h4, h5, h6, h7, h8, h9, h10, h11⟩ := hv
  obtain ⟨r', hρ, hr'⟩ := h.row r row hr
  obtain ⟨f', hχ, hf'⟩ := h.chan f c hc
  obtain ⟨p', hq', hd⟩ := hpol r r' row f f' c p _ hρ hχ hr hc hq
  refine ⟨r', f', p', _, c, hr', hf', hq', h1, h2, h3, h4, ?_, h6, ?_, h8, h9, h10, ?_⟩
  · show w.flipU flip row.uvw = w.flipU flip L.uvw
    rw [h5]
  · rw [h.cats]
    exact (cat_iff hg (hg.pcs _ (List.mem_of_getElem? hr)) _).2 h7
  · rw [hd, h11]

theorem has_bwd (Q : Vis C K → Prop) {w : Ops T K U C} {flip : Bool} {idx : List Nat} {o o' : Obj T K U C E} {ρ χ : Nat → Nat → Prop} (hg : Good o)
    (h : Match w flip idx o o' ρ χ)
    (hpol : ∀ r r' row f f' c p' q, ρ r r' → χ f f' → o.rows[r]? = some row → o.chans[f]? = some c → polAt o' c p' = some q →
      (∃ p, polAt o c p = some q ∧ o'.data r' f' p' = w.flipV flip (o.data r f p)) ∨ Q (o'.data r' f' p'))
    {L : Label T K U E} {v : Vis C K} (hv : Has o' L v) :
    (∃ L0 v0, Has o L0 v0 ∧ L = flipL w flip L0 ∧ v = w.flipV flip v0) ∨ Q v := by
  obtain ⟨r', f', p', row', c, hr', hc', hq', h1, h2, h3, h4, h5, h6, h7, h8, h9, h10, h11⟩ := hv
  obtain ⟨r, row, hρ, hr, rfl⟩ := h.row' r' row' hr'
  obtain ⟨f, hχ, hc⟩ := h.chan' f' c hc'
  rcases hpol r r' row f f' c p' _ hρ hχ hr hc hq' with ⟨p, hq, hd⟩ | hd
  · left
    refine ⟨{ L with uvw := row.uvw }, o.data r f p, ⟨r, f, p, row, c, hr, hc, hq, h1, h2, h3, h4, rfl, h6, ?_, h8, h9, h10, rfl⟩, ?_, ?_⟩
    · rw [h.cats] at h7
      exact (cat_iff hg (hg.pcs _ (List.mem_of_getElem? hr)) _).1 h7
    · unfold flipL
      have : w.flipU flip row.uvw = L.uvw := h5
      simp only [this]
    · rw [← h11, hd]
  · right
    rw [← h11]
    exact hd

/-- What comes back for one window. -/
def oneObj (w : Ops T K U C) (flip : Bool) (idx : List Nat) (o : Obj T K U C E) (s : Int) : Obj T K U C E where
  rows := (mainOne w flip o idx).map (fun r => rowOf w false (fileOf w flip idx o) r.lab)
  chans := o.chans
  spws := [s]
  pols := (corrAt o idx 0).map (fun c => (aipsOf c).getD 0)
  flexPol := none
  cats := catsOf (fileOf w flip idx o)
  unproj := false
  data := fun r c p => w.flipV false (((((mainOne w flip o idx)[r]?).bind (fun x => x.vis[c]?)).bind (fun x => x[p]?)).getD w.empty)

theorem one_read [LinearOrder T] (w : Ops T K U C) (flip ign allow raise : Bool) {o : Obj T K U C E} {idx : List Nat} (hg : Good o)
    (hign : ign = false ∨ NoSingle o) {s : Int} (hs : o.spws = [s]) :
    read w false ign allow raise (fileOf w flip idx o) = .ok (oneObj w flip idx o s) := by
  have hk : o.spws[0]? = some s := by rw [hs]; rfl
  have hspw : ∀ c ∈ o.chans, c.spw = s := fun c hc => by simpa [hs] using hg.chans c hc
  have hfil : o.chans.filter (fun c => decide (c.spw = s)) = o.chans := List.filter_eq_self.2 (fun c hc => by simp [hspw c hc])
  have hwh : chansOf o s = List.range o.chans.length := by
    apply strictSorted_ext (whereIdx_sorted _ _) List.pairwise_lt_range
    intro i
    rw [mem_whereIdx, List.mem_range]
    constructor
    · rintro ⟨x, hx, _⟩
      exact (List.getElem?_eq_some_iff.1 hx).1
    · intro hi
      exact ⟨_, List.getElem?_eq_getElem hi, by simp [hspw _ (List.getElem_mem hi)]⟩
  have hd := descs_eq w flip ign (idx := idx) hg hign
  rw [hs] at hd
  have hd : descs ign (fileOf w flip idx o) = [descAt o idx (s, 0)] := hd
  have hrec := recs_one (w := w) (flip := flip) (idx := idx) hs
  have hmain : (fileOf w flip idx o).main = mainOne w flip o idx := by
    unfold fileOf
    rw [if_pos (by rw [hs]; rfl)]
  have hpres : present ign (fileOf w flip idx o) = [descAt o idx (s, 0)] := by
    unfold present
    rw [hd, List.filter_eq_self]
    intro d hdm
    rw [List.mem_singleton] at hdm
    subst hdm
    rw [hrec]
    unfold mainOne
    simp [hg.rows]
  have hlen : (descAt o idx (s, 0)).chans.length = o.chans.length := by
    simp only [descAt, List.length_map]
    rw [hfil]
  have hch : chansFrom [descAt o idx (s, 0)] w.none [(s, o.chans.length)] = o.chans := by
    unfold chansFrom
    rw [List.flatMap_singleton]
    apply List.ext_getElem?
    intro i
    rw [List.getElem?_map]
    by_cases h : i < o.chans.length
    · rw [List.getElem?_range h, Option.map_some, List.getElem?_eq_getElem h]
      have hf := freq_get idx hg w.none hk (j := i) (f := i) (c := o.chans[i])
        (by rw [hwh]; exact List.getElem?_range h) (List.getElem?_eq_getElem h)
      rw [hs] at hf
      rw [show ([descAt o idx (s, 0)] : List (Desc K)) = [s].zipIdx.map (descAt o idx) from rfl, hf]
      simp only [Option.some.injEq]
      rw [← hspw _ (List.getElem_mem h)]
    · rw [List.getElem?_eq_none (by simpa using h), List.getElem?_eq_none (by simpa using h)]
      rfl
  unfold read
  rw [hpres]
  dsimp only
  unfold readOne
  rw [if_neg, if_neg]
  · rw [hd, hmain, hlen]
    show Except.ok _ = Except.ok _
    unfold oneObj
    simp only [descAt, hch] at hch ⊢
  · rw [hd]
    simp [freqsFit, descAt]
  · rw [hmain]
    unfold mainOne
    simp [descAt]

/-- **Visibilities survive the round trip, for one window.** -/
theorem one_survives [LinearOrder T] (w : Ops T K U C) (flip ign allow raise : Bool) {o : Obj T K U C E} {idx : List Nat} (hg : Good o)
    (hp : PolsGood o idx) (hign : ign = false ∨ NoSingle o) (hs : o.spws.length = 1) :
    ∃ file o', write w flip idx o = .ok file ∧ read w false ign allow raise file = .ok o' ∧
      ∀ L v, Has o' L v ↔ ∃ L0 v0, Has o L0 v0 ∧ L = flipL w flip L0 ∧ v = w.flipV flip v0 := by
  obtain ⟨s, hs⟩ := List.length_eq_one_iff.1 hs
  have hk : o.spws[0]? = some s := by rw [hs]; rfl
  refine ⟨_, _, write_ok w flip hg hp, one_read w flip ign allow raise hg hign hs, ?_⟩
  have hget : ∀ r : Nat, (oneObj w flip idx o s).rows[r]? = (o.rows[r]?).map (back w flip idx o) := by
    intro r
    show ((mainOne w flip o idx).map _)[r]? = _
    unfold mainOne
    rw [List.getElem?_map, List.getElem?_map, List.getElem?_zipIdx]
    cases o.rows[r]? <;> rfl
  have hm : Match w flip idx o (oneObj w flip idx o s) (fun r r' => r' = r) (fun f f' => f' = f) := by
    refine ⟨?_, ?_, ?_, ?_, rfl⟩
    · intro r row hr
      exact ⟨r, rfl, by rw [hget, hr]; rfl⟩
    · intro r row hr
      rw [hget] at hr
      obtain ⟨x, hx, rfl⟩ := Option.map_eq_some_iff.1 hr
      exact ⟨r, x, rfl, hx, rfl⟩
    · intro f c hc
      exact ⟨f, rfl, hc⟩
    · intro f c hc
      exact ⟨f, rfl, hc⟩
  have hpolAt : ∀ (c : Chan K) (j : Nat), polAt (oneObj w flip idx o s) c j = ((corrAt o idx 0)[j]?).map (fun c => (aipsOf c).getD 0) := by
    intro c j
    show ((corrAt o idx 0).map _)[j]? = _
    rw [List.getElem?_map]
  have hdata : ∀ (r : Nat) (row : Row T K U) (f : Nat) (c : Chan K) (j p : Nat), o.rows[r]? = some row → o.chans[f]? = some c → idx[j]? = some p →
      (oneObj w flip idx o s).data r f j = w.flipV flip (o.data r f p) := by
    intro r row f c j p hr hc hj
    have hf : f < o.chans.length := (List.getElem?_eq_some_iff.1 hc).1
    have : (((mainOne w flip o idx)[r]?.bind (fun x => x.vis[f]?)).bind (fun x => x[j]?)) = some (w.flipV flip (o.data r f p)) := by
      unfold mainOne
      rw [List.getElem?_map, List.getElem?_zipIdx, hr]
      simp only [Option.map_some, Option.bind_some, cell, List.getElem?_map, List.getElem?_range hf, hj, Nat.zero_add]
    show w.flipV false ((((mainOne w flip o idx)[r]?.bind (fun x => x.vis[f]?)).bind (fun x => x[j]?)).getD w.empty) = _
    rw [this]
    rfl
  have hspw : ∀ c ∈ o.chans, c.spw = s := fun c hc => by simpa [hs] using hg.chans c hc
  intro L v
  constructor
  · intro hv
    refine (has_bwd (fun _ => False) hg hm ?_ hv).resolve_right id
    rintro r r' row f f' c j q rfl rfl hr hc hq
    rw [hpolAt, corr_pols hg hp hk (hspw c (List.mem_of_getElem? hc))] at hq
    obtain ⟨p, hj, hq⟩ := hq
    exact Or.inl ⟨p, hq, hdata _ _ _ _ _ _ hr hc hj⟩
  · rintro ⟨L0, v0, hv, rfl, rfl⟩
    refine has_fwd hg hm ?_ hv
    rintro r r' row f f' c p q rfl rfl hr hc hq
    obtain ⟨j, hj⟩ := pol_pos hg hp hq
    exact ⟨j, by rw [hpolAt]; exact (corr_pols hg hp hk (hspw c (List.mem_of_getElem? hc)) q j).2 ⟨p, hj, hq⟩, hdata _ _ _ _ _ _ hr hc hj⟩

end Verif.MsVis
