import Verif.SetData.Model
import Verif.Hdf5.Props
import Verif.Slices.Props
import Verif.GetData.Props

/-!
Lemmas on the slices that `set_data` uses: which positions they name and that they are such that `_index_dset` can use them.
-/
namespace Verif.SetData
open Verif.Np Verif.Slices Verif.Hdf5
open Verif.AntPair (IsRowsOf Numbered LaidOut antpair2ind)

def GoodP (n : Nat) (s : PSlice) : Prop := 0 < s.step.getD 1 ∧ s.start < s.stop ∧ s.start < n

theorem goodSlice {n : Nat} {s : PSlice} (h : GoodP n s) : GoodSlice n (toSlc s) :=
  ⟨h.1, h.2.2.le, by intro e he; cases he; exact h.2.1.le⟩

theorem toSlc_sel {n : Nat} {s : PSlice} (h : 0 < s.step.getD 1) : (toSlc s).sel n = s.sel n := by
  unfold Slc.sel
  rw [if_pos (show (toSlc s).step.getD 1 > 0 from h)]
  rfl

/-- What the loop keeps, for the slices it makes. -/
theorem loop_good {n : Nat} {l : List Nat} (hl : l ≠ []) (hs : l.Pairwise (· < ·)) (hn : ∀ i ∈ l, i < n) :
    (∀ s ∈ (l.foldl loopStep {}).slices, GoodP n s) ∧ ∃ a x, (l.foldl loopStep {}).start = some a ∧ l.getLast? = some x ∧ a ≤ x ∧
      (((l.foldl loopStep {}).lastStep = none ∧ a = x) ∨ ∃ k : Int, 0 < k ∧ (l.foldl loopStep {}).lastStep = some k ∧ (l.foldl loopStep {}).lastInd = x) := by
  induction l using List.reverseRecOn with
  | nil => exact absurd rfl hl
  | append_singleton l x ih =>
    rw [List.foldl_append]
    by_cases hnil : l = []
    · subst hnil
      exact ⟨by simp [loopStep], x, x, by simp [loopStep], by simp, le_rfl, Or.inl ⟨by simp [loopStep], rfl⟩⟩
    · have hs' := List.pairwise_append.1 hs
      obtain ⟨h1, a, y, ha, hy, hay, hc⟩ := ih hnil hs'.1 (fun i hi => hn i (by simp [hi]))
      generalize l.foldl loopStep {} = s at *
      have hyl := List.mem_of_getLast? hy
      have hyx : y < x := hs'.2.2 y hyl x (by simp)
      have hyn : y < n := hn y (by simp [hyl])
      simp only [List.foldl_cons, List.foldl_nil]
      rcases hc with ⟨e, rfl⟩ | ⟨k, hk, e1, e2⟩
      · have : loopStep s x = { s with lastStep := some ((x : Int) - a), lastInd := x } := by simp [loopStep, e, ha]
        rw [this]
        exact ⟨h1, a, x, ha, by simp, by omega, Or.inr ⟨_, by omega, rfl, rfl⟩⟩
      · by_cases hst : (x : Int) - s.lastInd = k
        · have : loopStep s x = { s with lastInd := x } := by simp [loopStep, e1, hst]
          rw [this]
          exact ⟨h1, a, x, ha, by simp, by omega, Or.inr ⟨k, hk, e1, rfl⟩⟩
        · have : loopStep s x = { start := some x, lastStep := none, lastInd := x, slices := s.slices ++ [⟨s.start.getD 0, s.lastInd + 1, some k⟩] } := by
            simp [loopStep, e1, hst]
          rw [this]
          refine ⟨?_, x, x, rfl, by simp, le_rfl, Or.inl ⟨rfl, rfl⟩⟩
          intro t ht
          rcases List.mem_append.1 ht with ht | ht
          · exact h1 t ht
          · simp only [List.mem_singleton] at ht
            subst ht
            refine ⟨hk, ?_, ?_⟩
            · simp [ha]; omega
            · simp [ha]; omega

theorem greedy_good {n : Nat} {l : List Nat} (hl : l ≠ []) (hs : l.Pairwise (· < ·)) (hn : ∀ i ∈ l, i < n) : ∀ s ∈ greedy l, GoodP n s := by
  obtain ⟨h1, a, x, ha, hx, hax, hc⟩ := loop_good hl hs hn
  have hxn : x < n := hn x (List.mem_of_getLast? hx)
  intro s hs'
  rcases List.mem_append.1 hs' with h | h
  · exact h1 s h
  · simp only [List.mem_singleton] at h
    subst h
    have e : l.getLastD 0 = x := by rw [List.getLastD_eq_getLast?, hx]; rfl
    refine ⟨?_, ?_, ?_⟩
    · rcases hc with ⟨e1, _⟩ | ⟨k, hk, e1, _⟩ <;> simp [e1]
      exact hk
    · simp only [ha, Option.getD_some, e]; omega
    · simp only [ha, Option.getD_some]; omega

theorem entries {n : Nat} {es : List Entry} {l : List Nat} (hsl : ∀ e ∈ es, ∃ s, e = .slice s ∧ GoodP n s) (h : allPicks n es = some l) :
    (∀ s ∈ es.filterMap entrySlc, GoodSlice n s) ∧ ((es.filterMap entrySlc).mapM (fun s : Slc => s.sel n)).map List.flatten = some l := by
  constructor
  · intro s hs
    obtain ⟨e, he, hes⟩ := List.mem_filterMap.1 hs
    obtain ⟨t, rfl, ht⟩ := hsl e he
    simp only [entrySlc, Option.some.injEq] at hes
    exact hes ▸ goodSlice ht
  · rw [← h]
    unfold allPicks
    congr 1
    clear h
    induction es with
    | nil => rfl
    | cons e es ih =>
      obtain ⟨t, rfl, ht⟩ := hsl e (by simp)
      simp only [List.filterMap_cons, entrySlc, List.mapM_cons, Entry.picks]
      rw [toSlc_sel ht.1, ih (fun e he => hsl e (by simp [he]))]

/-- The lists of slices, or the indices, name the positions. -/
theorem axSel_spec {frac : Rat} {v : SlicifyOut} {n : Nat} {l : List Nat} (hp : v.picks n = some l) (hl : l ≠ []) (hs : l.Pairwise (· < ·))
    (hpos : ∀ s, v = .slice s → 0 < s.step.getD 1) :
    ∃ s, axSel frac v = some s ∧ (GoodSel n s ∨ ∃ m, s = .array m ∧ m ≠ []) ∧ positions n s = some l ∧ ((∀ m, v ≠ .inds m) → isListSel s = false) := by
  cases v with
  | none => cases hp
  | slice s =>
    have h1 := hpos s rfl
    have hp' : s.sel n = some l := hp
    refine ⟨_, rfl, Or.inl ?_, ?_, fun _ => rfl⟩
    · refine ⟨by simp, ?_⟩
      intro t ht
      simp only [List.mem_singleton] at ht
      subst ht
      apply goodSlice
      obtain ⟨x, hx⟩ := List.exists_mem_of_ne_nil l hl
      simp only [PSlice.sel, if_neg (show ¬ s.step.getD 1 = 0 by omega), if_pos h1, Option.some.injEq] at hp'
      rw [← hp', List.mem_filter] at hx
      simp only [List.mem_range, Bool.and_eq_true, decide_eq_true_eq, beq_iff_eq] at hx
      exact ⟨h1, by omega, by omega⟩
    · simp only [positions, List.mapM_cons, List.mapM_nil]
      rw [toSlc_sel h1, hp']
      simp
  | inds m =>
    simp only [SlicifyOut.picks, Verif.Slices.picks] at hp
    split at hp
    · rename_i hm
      cases hp
      have hpick := convert_picks (.list l) frac none false n l ⟨hl, hs⟩ (by simp only [Verif.Slices.picks]; rw [if_pos hm])
      unfold axSel
      simp only
      split
      · rename_i hc
        have hsl : ∀ e ∈ (convert (.list l) frac none false).1, ∃ s, e = .slice s ∧ GoodP n s := by
          intro e he
          have hl0 : ¬ l.length = 0 := by simpa using hl
          have he : e ∈ (convertSeq (.list l) l frac none false).1 := he
          unfold convertSeq at he
          rw [if_neg hl0] at he
          by_cases hl2 : l.length ≤ 2
          · rw [if_pos hl2, List.mem_singleton] at he
            refine ⟨_, he, ?_⟩
            have h1 : l.headD 0 ∈ l := by cases l <;> simp_all
            have h2 : l.headD 0 ≤ l.getLastD 0 := by
              obtain ⟨x, t, rfl⟩ := List.exists_cons_of_ne_nil hl
              rcases List.eq_nil_or_concat t with rfl | ⟨t', y, rfl⟩
              · simp
              · rw [List.pairwise_cons] at hs
                have := hs.1 y (by simp)
                simp [List.getLastD_eq_getLast?]
                rw [List.getLast?_eq_some_getLast (by simp)]
                simp
                omega
            refine ⟨?_, ?_, hm _ h1⟩
            · simp
            · simp only; omega
          · rw [if_neg hl2] at he
            simp only [reduceCtorEq, Bool.false_eq_true, and_self, false_and, if_false] at he
            obtain ⟨s, hs', rfl⟩ := List.mem_map.1 he
            exact ⟨s, rfl, greedy_good hl hs hm s hs'⟩
        obtain ⟨g1, g2⟩ := entries hsl hpick
        refine ⟨_, rfl, Or.inl ⟨?_, g1⟩, g2, fun h => absurd rfl (h l)⟩
        intro e
        rw [e] at g2
        simp at g2
        exact hl g2
      · refine ⟨_, rfl, Or.inr ⟨l, rfl, hl⟩, ?_, fun h => absurd rfl (h l)⟩
        simp only [positions]
        rw [if_pos hm]
    · cases hp

theorem slicify_pos {l : List Nat} (hs : l.Pairwise (· < ·)) {s : PSlice} (h : slicify l = .slice s) : 0 < s.step.getD 1 := by
  unfold slicify at h
  split at h
  · cases h
  · split at h
    · injection h with h
      subst h
      simp only [Option.getD_some]
      split
      · match l, hs with
        | a :: b :: t, hs =>
          rw [List.pairwise_cons] at hs
          have := hs.1 b (by simp)
          simp
          omega
        | [a], _ => simp at *
        | [], _ => simp at *
      · decide
    · cases h

theorem antpair_pos {o : AntPair.Obj} (hn : Numbered o) (hl : LaidOut o) {a b : Nat} {s : PSlice} (h : antpair2ind o a b true = .ok (.slice s)) :
    0 < s.step.getD 1 := by
  obtain ⟨_, h1, h2, _, _⟩ := Verif.AntPair.decode_sub hn
  have hlen : o.ant1.length = o.ant2.length := by omega
  unfold antpair2ind at h
  simp only [Bool.true_or, if_true] at h
  split at h
  · rename_i hr
    split at h
    · cases h
    · rename_i ps _
      cases hi : AntPair.indexOf ps (a, b) with
      | none => rw [hi] at h; simp [AntPair.ofSlice] at h
      | some k =>
        rw [hi] at h
        simp only [Option.map_some, AntPair.ofSlice, Except.ok.injEq, SlicifyOut.slice.injEq] at h
        subst h
        obtain ⟨_, hb, _⟩ := hl hr
        unfold AntPair.pairSlice
        split
        · exact Int.one_pos
        · simpa using hb
  · simp only [Except.ok.injEq] at h
    exact slicify_pos (AntPair.rowsWhere_spec o hlen a b).1 h

theorem lookup3 {l ps : List Nat} {nf i f k : Nat} : lookup [l, List.range nf, ps] [i, f, k] =
    (l[i]?).bind fun x => if f < nf then (ps[k]?).map fun p => [x, f, p] else none := by
  simp only [lookup, Option.bind_eq_bind]
  cases l[i]? with
  | none => rfl
  | some x =>
    by_cases hf : f < nf
    · simp only [Option.bind_some, List.getElem?_eq_getElem (show f < (List.range nf).length by simpa using hf), if_pos hf, List.getElem_range]
      cases ps[k]? <;> rfl
    · simp [hf]

/-- Writing to rows and polarizations. -/
theorem write_core {α : Type} {n nf m : Nat} {data new : Arr α} (hd : data.shape = [n, nf, m]) {b p : SlicifyOut} {ls ps : List Nat}
    (hb : b.picks n = some ls) (hp : p.picks m = some ps) (hl : ls ≠ []) (hp0 : ps ≠ []) (hls : ls.Pairwise (· < ·)) (hps : ps.Pairwise (· < ·))
    (h1 : ∀ s, b = .slice s → 0 < s.step.getD 1) (h2 : ∀ s, p = .slice s → 0 < s.step.getD 1) (h3 : ∀ l, p ≠ .inds l)
    (hn : new.shape = [ls.length, nf, ps.length]) :
    ∃ a c d, axSel (1 / 10) b = some a ∧ axSel (1 / 2) p = some c ∧ writeDset data new [a, .slice {}, c] = some d ∧ d.shape = data.shape ∧
      (∀ i f k x y, ls[i]? = some x → f < nf → ps[k]? = some y → d.get [x, f, y] = new.get [i, f, k]) ∧
      ∀ x f y, (x ∉ ls ∨ nf ≤ f ∨ y ∉ ps) → d.get [x, f, y] = data.get [x, f, y] := by
  obtain ⟨a, ha, ga, pa, _⟩ := axSel_spec (frac := 1 / 10) hb hl hls h1
  obtain ⟨c, hc, gc, pc, ic⟩ := axSel_spec (frac := 1 / 2) hp hp0 hps h2
  have hfull : positions nf (.slice {}) = some (List.range nf) := by
    simp only [positions, Slc.sel, Option.getD_none]
    rw [if_pos (by decide)]
    simp only [PSlice.sel, Option.getD_none, if_neg (show ¬ (1 : Int) = 0 by decide), if_pos (show (1 : Int) > 0 by decide)]
    congr 1
    rw [List.filter_eq_self]
    intro i hi
    simpa [Nat.mod_one] using hi
  have hsel : Sels .write data.shape (normSels data.shape [a, .slice {}, c]) [ls, List.range nf, ps] := by
    rw [hd]
    simp only [normSels, List.length_cons, List.length_nil]
    refine .cons ?_ pa (.cons (Or.inl ?_) hfull (.cons ?_ pc .nil))
    · rcases ga with g | ⟨m', g⟩
      · exact Or.inl g
      · exact Or.inr ⟨rfl, m', g⟩
    · exact ⟨by decide, Nat.zero_le _, by simp⟩
    · rcases gc with g | ⟨m', g⟩
      · exact Or.inl g
      · exact Or.inr ⟨rfl, m', g⟩
  have hlist : ((normSels data.shape [a, .slice {}, c]).filter isListSel).length ≤ 1 := by
    rw [hd]
    have e1 := ic h3
    have e2 : isListSel (.slice {}) = false := rfl
    have : normSels [n, nf, m] [a, .slice {}, c] = [a, .slice {}, c] := by simp [normSels]
    rw [this]
    simp only [List.filter_cons, e1, e2, Bool.false_eq_true, if_false, List.filter_nil]
    split <;> simp
  obtain ⟨d, hw, hsh, hin, hout⟩ := write_selected data new [a, .slice {}, c] [ls, List.range nf, ps] hsel hlist (by simpa using hn) (by
    intro q hq
    simp only [List.mem_cons, List.not_mem_nil, or_false] at hq
    rcases hq with rfl | rfl | rfl
    · exact hls.imp (fun h => Nat.ne_of_lt h)
    · exact List.nodup_range
    · exact hps.imp (fun h => Nat.ne_of_lt h))
  refine ⟨a, c, d, ha, hc, hw, hsh, ?_, ?_⟩
  · intro i f k x y hx hf hy
    apply hin
    rw [lookup3, hx]
    simp [hf, hy]
  · intro x f y h
    apply hout
    intro ix hix
    match ix with
    | [] => simp [lookup] at hix
    | [_] => simp [lookup] at hix
    | [_, _] => simp [lookup] at hix
    | _ :: _ :: _ :: _ :: _ => simp [lookup] at hix
    | [i, g, k] =>
      rw [lookup3] at hix
      cases hi : ls[i]? with
      | none => rw [hi] at hix; cases hix
      | some z =>
        rw [hi] at hix
        simp only [Option.bind_some] at hix
        split at hix
        · rename_i hg
          cases hk : ps[k]? with
          | none => rw [hk] at hix; cases hix
          | some w =>
            rw [hk] at hix
            simp only [Option.map_some, Option.some.injEq, List.cons.injEq, and_true] at hix
            obtain ⟨rfl, rfl, rfl⟩ := hix
            rcases h with h | h | h
            · exact h (List.mem_of_getElem? hi)
            · omega
            · exact h (List.mem_of_getElem? hk)
        · cases hix

end Verif.SetData
