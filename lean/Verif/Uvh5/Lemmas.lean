import Verif.Uvh5.Spec
import Mathlib.Tactic.Linarith
import Mathlib.Algebra.Order.Field.Rat
import Mathlib.Data.List.Perm.Basic

namespace Verif.Uvh5

open Verif.Np Verif.Hdf5

/-! ### Slices -/

theorem loop_good (n : Nat) (l : List Nat) (hl : l ≠ []) (hs : l.Pairwise (· < ·)) (hn : ∀ i ∈ l, i < n) :
    ∀ s ∈ (l.foldl Slices.loopStep {}).slices, GoodSlice n (slcOf s) := by
  induction l using List.reverseRecOn with
  | nil => exact absurd rfl hl
  | append_singleton l x ih =>
    rw [List.foldl_append]
    by_cases hnil : l = []
    · subst hnil
      simp [Slices.loopStep]
    · have hs' := (List.pairwise_append.1 hs)
      have hn' : ∀ i ∈ l, i < n := fun i hi => hn i (by simp [hi])
      have ih' := ih hnil hs'.1 hn'
      obtain ⟨done, a, k, m, hk, hl', hp, hst, hcase⟩ := Slices.loop_inv n l hnil hs'.1 hn'
      have hmem : a + m * k ∈ l := by rw [hl', Slices.ap_succ]; simp
      have hbd := hn' _ hmem
      generalize hS : l.foldl Slices.loopStep {} = s at *
      rcases hcase with ⟨hls, rfl⟩ | ⟨hls, hli⟩
      · simp only [List.foldl_cons, List.foldl_nil, Slices.loopStep, hls, hst]
        exact ih'
      · simp only [List.foldl_cons, List.foldl_nil, Slices.loopStep, hls]
        split
        · simp only [List.mem_append, List.mem_singleton, hst, Option.getD_some]
          rintro t (ht | rfl)
          · exact ih' t ht
          · refine ⟨by simp [slcOf]; omega, by simp [slcOf]; omega, ?_⟩
            intro e he
            simp only [slcOf, Option.some.injEq] at he
            subst he
            simp only [slcOf, Option.getD_some, hli]; omega
        · exact ih'

theorem greedy_good (n : Nat) (l : List Nat) (hl : l ≠ []) (hs : l.Pairwise (· < ·)) (hn : ∀ i ∈ l, i < n) :
    ∀ s ∈ Slices.greedy l, GoodSlice n (slcOf s) := by
  obtain ⟨done, a, k, m, hk, hl', hp, hst, hcase⟩ := Slices.loop_inv n l hl hs hn
  have hlast : l.getLastD 0 = a + m * k := by
    rw [hl', Slices.ap_succ, ← List.append_assoc]; simp [List.getLastD_eq_getLast?]
  have hbd : a + m * k < n := hn _ (by rw [hl', Slices.ap_succ]; simp)
  intro s h
  simp only [Slices.greedy, List.mem_append, List.mem_singleton] at h
  rcases h with h | rfl
  · exact loop_good n l hl hs hn s h
  · refine ⟨?_, ?_, ?_⟩
    · rcases hcase with ⟨h1, _⟩ | ⟨h1, _⟩
      · simp [slcOf, h1]
      · simp [slcOf, h1]; omega
    · simp [slcOf, hst]; omega
    · intro e he
      simp only [slcOf, Option.some.injEq] at he
      subst he
      simp only [slcOf, hst, Option.getD_some, hlast]; omega

/-- The slices made of an increasing list of positions are ones that `_index_dset` can use. -/
theorem convert_good (n : Nat) (frac : Rat) (l : List Nat) (hl : l ≠ []) (hs : l.Pairwise (· < ·))
    (hn : ∀ i ∈ l, i < n) :
    ∀ s, Slices.Entry.slice s ∈ (Slices.convert (.list l) frac none false).1 → GoodSlice n (slcOf s) := by
  intro s
  have h0 : ¬ l.length = 0 := by simpa using hl
  have e : Slices.convert (.list l) frac none false = Slices.convertSeq (.list l) l frac none false := rfl
  rw [e]
  unfold Slices.convertSeq
  rw [if_neg h0]
  by_cases h2 : l.length ≤ 2
  · rw [if_pos h2]
    simp only [List.mem_singleton, Slices.Entry.slice.injEq]
    rintro rfl
    obtain ⟨a, t, rfl⟩ := List.exists_cons_of_ne_nil hl
    have ha := hn a (by simp)
    have hle : a ≤ (a :: t).getLastD 0 := by
      match t, h2, hs with
      | [], _, _ => simp
      | [b], _, hs =>
        have : a < b := by simpa using hs
        simp; omega
    refine ⟨?_, ?_, ?_⟩
    · simp only [slcOf, Option.getD_some]; omega
    · simp [slcOf]; omega
    · intro e he
      simp only [slcOf, Option.some.injEq] at he
      subst he
      simp only [slcOf, Option.getD_some, List.headD_cons]; omega
  · rw [if_neg h2]
    rw [if_neg (by simp)]
    dsimp only
    rw [if_neg (by simp)]
    simp only [List.mem_map, Slices.Entry.slice.injEq, exists_eq_right]
    exact fun h => greedy_good n l hl hs hn s h

theorem slcSel_eq {n : Nat} {s : PSlice} (h : GoodSlice n (slcOf s)) : (slcOf s).sel n = s.sel n := by
  unfold Slc.sel
  rw [if_pos h.1]
  rfl

theorem slcs_positions (n : Nat) (es : List Slices.Entry) (l : List Nat)
    (hall : ∀ e ∈ es, ∃ s, e = .slice s) (hg : ∀ s, Slices.Entry.slice s ∈ es → GoodSlice n (slcOf s))
    (hp : Slices.allPicks n es = some l) :
    positions n (.slices (slcsOf es)) = some l ∧ ∀ s ∈ slcsOf es, GoodSlice n s := by
  have key : (slcsOf es).mapM (fun s : Slc => s.sel n) = es.mapM (Slices.Entry.picks n) ∧
      ∀ s ∈ slcsOf es, GoodSlice n s := by
    clear hp
    induction es with
    | nil => simp [slcsOf]
    | cons e es ih =>
      obtain ⟨s, rfl⟩ := hall e (by simp)
      obtain ⟨i1, i2⟩ := ih (fun e he => hall e (by simp [he])) (fun s hs => hg s (by simp [hs]))
      have hgs := hg s (by simp)
      have hc : slcsOf (Slices.Entry.slice s :: es) = slcOf s :: slcsOf es := by simp [slcsOf]
      rw [hc]
      refine ⟨?_, ?_⟩
      · simp only [List.mapM_cons, i1, Slices.Entry.picks, slcSel_eq hgs]
      · intro t ht
        rcases List.mem_cons.1 ht with rfl | ht
        · exact hgs
        · exact i2 t ht
  refine ⟨?_, key.2⟩
  simp only [positions, key.1]
  exact hp

theorem good_full (n : Nat) : GoodSel n (.slice {}) ∧ positions n (.slice {}) = some (List.range n) := by
  refine ⟨⟨by decide, by simp, by intro e he; cases he⟩, ?_⟩
  simp only [positions, Slc.sel]
  rw [if_pos (by decide)]
  simp only [PSlice.sel, Option.getD_none]
  rw [if_neg (by decide), if_pos (by decide)]
  congr 1
  rw [List.filter_eq_self]
  intro a ha
  have := List.mem_range.1 ha
  simp [this, Nat.mod_one]

theorem slicesOf_good {n : Nat} {frac : Rat} {o : Option (List Nat)} (hv : ValidSel n o)
    (h : (slicesOf frac o).2 = true) :
    GoodSel n (slicesOf frac o).1 ∧ positions n (slicesOf frac o).1 = some (wanted n o) := by
  cases o with
  | none => exact good_full n
  | some l =>
    obtain ⟨h1, h2, h3⟩ := hv l rfl
    have hp := Slices.convert_picks (.list l) frac none false n l ⟨h1, h2⟩ (by
      simp only [Slices.picks]; rw [if_pos h3])
    have hf := (Slices.convert_flag (.list l) frac none false).1 h
    have := slcs_positions n _ l hf (convert_good n frac l h1 h2 h3) hp
    refine ⟨⟨?_, this.2⟩, this.1⟩
    intro he
    have h4 := this.1
    rw [he] at h4
    simp [positions] at h4
    exact h1 h4

theorem indsOf_good {n : Nat} {o : Option (List Nat)} (hv : ValidSel n o) :
    GoodSel n (indsOf o) ∧ positions n (indsOf o) = some (wanted n o) := by
  cases o with
  | none => exact good_full n
  | some l =>
    obtain ⟨h1, h2, h3⟩ := hv l rfl
    exact ⟨h1, by simp only [positions, indsOf]; rw [if_pos h3]; rfl⟩

theorem selOf_good {n : Nat} {frac : Rat} {o : Option (List Nat)} (hv : ValidSel n o) :
    GoodSel n (selOf frac o) ∧ positions n (selOf frac o) = some (wanted n o) := by
  unfold selOf
  by_cases h : (slicesOf frac o).2 = true
  · rw [if_pos h]; exact slicesOf_good hv h
  · rw [if_neg h]; exact indsOf_good hv

/-- The positions that remain to be read when an axis is used while reading or not. -/
def readPos (use : Bool) (n : Nat) (o : Option (List Nat)) : List Nat := if use then wanted n o else List.range n

theorem selIf_good {n : Nat} {frac : Rat} {o : Option (List Nat)} (m : Bool) (hv : ValidSel n o) :
    GoodSel n (selIf m frac o) ∧ positions n (selIf m frac o) = some (readPos m n o) := by
  unfold selIf readPos
  cases m with
  | true => exact selOf_good hv
  | false => exact good_full n

theorem selOf_list {frac : Rat} {o : Option (List Nat)} (h : isListSel (selOf frac o) = true) :
    (slicesOf frac o).2 = false := by
  unfold selOf at h
  by_cases h' : (slicesOf frac o).2 = true
  · rw [if_pos h'] at h
    cases o <;> simp [slicesOf, isListSel] at h
  · simpa using h'

theorem selOf_count {frac : Rat} (o : Option (List Nat)) :
    (isListSel (selOf frac o)).toNat + (slicesOf frac o).2.toNat ≤ 1 := by
  have := selOf_list (frac := frac) (o := o)
  cases h1 : isListSel (selOf frac o) <;> cases h2 : (slicesOf frac o).2 <;> simp [h1, h2] at this ⊢

theorem filter_three (p : AxSel → Bool) (a b c : AxSel) :
    ([a, b, c].filter p).length = (p a).toNat + (p b).toNat + (p c).toNat := by
  cases ha : p a <;> cases hb : p b <;> cases hc : p c <;> simp [ha, hb, hc]

/-- The shape of datasets: with the former window axis, of length one, or without. -/
def dims (old : Bool) (c : Cell) : List Nat := pos old 1 c

/-- An array holds the cells of the dataset at the given positions. -/
def Holds {β : Type} (old : Bool) (dset : Arr β) (pb pf pp : List Nat) (a : Arr (Option β)) : Prop :=
  a.shape = pos old 1 (pb.length, pf.length, pp.length) ∧
    ∀ i j k x y z, pb[i]? = some x → pf[j]? = some y → pp[k]? = some z →
      a.get (pos old 0 (i, j, k)) = some (dset.get (pos old 0 (x, y, z)))

theorem read_holds {β : Type} {old : Bool} {sh : Cell} {dset : Arr β} (hd : dset.shape = pos old 1 sh)
    {a b c : AxSel} {pb pf pp : List Nat}
    (ha : GoodSel sh.1 a ∧ positions sh.1 a = some pb) (hb : GoodSel sh.2.1 b ∧ positions sh.2.1 b = some pf)
    (hc : GoodSel sh.2.2 c ∧ positions sh.2.2 c = some pp)
    (hl : (isListSel a).toNat + (isListSel b).toNat + (isListSel c).toNat ≤ 1) :
    ∃ out, readDset dset [a, b, c] = some out ∧ Holds old dset pb pf pp out := by
  cases old with
  | false =>
    have hn : normSels dset.shape [a, b, c] = [a, b, c] := by rw [hd]; simp [normSels, pos]
    obtain ⟨out, h1, h2, h3⟩ := read_selected dset [a, b, c] [pb, pf, pp]
      (by rw [hn, hd]; exact .cons (.inl ha.1) ha.2 (.cons (.inl hb.1) hb.2 (.cons (.inl hc.1) hc.2 .nil)))
      (by rw [hn, filter_three]; exact hl)
    refine ⟨out, h1, by rw [h2]; simp [pos], ?_⟩
    intro i j k x y z hx hy hz
    exact h3 _ _ (by simp [lookup, pos, hx, hy, hz])
  | true =>
    have hn : normSels dset.shape [a, b, c] = [a, .slice {}, b, c] := by rw [hd]; simp [normSels, pos]
    obtain ⟨g1, g2⟩ := good_full 1
    obtain ⟨out, h1, h2, h3⟩ := read_selected dset [a, b, c] [pb, List.range 1, pf, pp]
      (by
        rw [hn, hd]
        exact .cons (.inl ha.1) ha.2 (.cons (.inl g1) g2 (.cons (.inl hb.1) hb.2 (.cons (.inl hc.1) hc.2 .nil))))
      (by
        rw [hn]
        have h4 := filter_three isListSel a b c
        have h5 : ([a, AxSel.slice {}, b, c].filter isListSel).length = ([a, b, c].filter isListSel).length := by
          simp [List.filter_cons, isListSel]
        omega)
    refine ⟨out, h1, by rw [h2]; simp [pos], ?_⟩
    intro i j k x y z hx hy hz
    exact h3 _ _ (by simp [lookup, pos, hx, hy, hz])

theorem take_blt {β : Type} {old : Bool} {dset : Arr β} {n : Nat} {pf pp l : List Nat} {a : Arr (Option β)}
    (h : Holds old dset (List.range n) pf pp a) (hl : ∀ i ∈ l, i < n) :
    ∃ out, takeAx 0 l a = some out ∧ Holds old dset l pf pp out := by
  obtain ⟨h1, h2⟩ := h
  unfold takeAx
  rw [if_pos (by rw [h1]; cases old <;> simpa [pos] using hl)]
  refine ⟨_, rfl, by rw [h1]; cases old <;> simp [pos], ?_⟩
  intro i j k x y z hx hy hz
  have hxn : x < n := hl x (List.mem_of_getElem? hx)
  have := h2 x j k x y z (by simp [hxn]) hy hz
  cases old <;> simp [pos, hx] at this ⊢ <;> exact this

theorem take_freq {β : Type} {old : Bool} {dset : Arr β} {n : Nat} {pb pp l : List Nat} {a : Arr (Option β)}
    (h : Holds old dset pb (List.range n) pp a) (hl : ∀ i ∈ l, i < n) :
    ∃ out, takeAx ((pos old 1 (0, 0, 0)).length - 2) l a = some out ∧ Holds old dset pb l pp out := by
  obtain ⟨h1, h2⟩ := h
  unfold takeAx
  rw [if_pos (by rw [h1]; cases old <;> simpa [pos] using hl)]
  refine ⟨_, rfl, by rw [h1]; cases old <;> simp [pos], ?_⟩
  intro i j k x y z hx hy hz
  have hxn : y < n := hl y (List.mem_of_getElem? hy)
  have := h2 i y k x y z hx (by simp [hxn]) hz
  cases old <;> simp [pos, hy] at this ⊢ <;> exact this

theorem take_pol {β : Type} {old : Bool} {dset : Arr β} {n : Nat} {pb pf l : List Nat} {a : Arr (Option β)}
    (h : Holds old dset pb pf (List.range n) a) (hl : ∀ i ∈ l, i < n) :
    ∃ out, takeAx ((pos old 1 (0, 0, 0)).length - 1) l a = some out ∧ Holds old dset pb pf l out := by
  obtain ⟨h1, h2⟩ := h
  unfold takeAx
  rw [if_pos (by rw [h1]; cases old <;> simpa [pos] using hl)]
  refine ⟨_, rfl, by rw [h1]; cases old <;> simp [pos], ?_⟩
  intro i j k x y z hx hy hz
  have hxn : z < n := hl z (List.mem_of_getElem? hz)
  have := h2 i j z x y z hx hy (by simp [hxn])
  cases old <;> simp [pos, hz] at this ⊢ <;> exact this

theorem full_of_length {n : Nat} {l : List Nat} (hs : l.Pairwise (· < ·)) (hn : ∀ i ∈ l, i < n)
    (hlen : n ≤ l.length) : l = List.range n := by
  have hnd : l.Nodup := hs.imp (fun h => Nat.ne_of_lt h)
  have hsub : l ⊆ List.range n := fun i hi => List.mem_range.2 (hn i hi)
  have hperm : l.Perm (List.range n) :=
    (List.subperm_of_subset hnd hsub).perm_of_length_le (by simpa using hlen)
  exact strictSorted_ext hs List.pairwise_lt_range (fun x => hperm.mem_iff)

theorem frac_ge {n : Nat} {o : Option (List Nat)} (hv : ValidSel n o) (h : ¬ fracOf n o < 1) :
    wanted n o = List.range n := by
  cases o with
  | none => rfl
  | some l =>
    obtain ⟨h1, h2, h3⟩ := hv l rfl
    have hn : 0 < n := by
      obtain ⟨a, t, rfl⟩ := List.exists_cons_of_ne_nil h1
      have := h3 a (by simp); omega
    have hq : (0 : Rat) < n := by exact_mod_cast hn
    simp only [fracOf, not_lt, le_div_iff₀ hq, one_mul] at h
    exact full_of_length h2 h3 (by exact_mod_cast h)

theorem later_ok {β : Type} {m : Bool} {n ax : Nat} {o : Option (List Nat)} {a : Arr (Option β)}
    (hv : ValidSel n o) (P : List Nat → Arr (Option β) → Prop) (h : P (readPos m n o) a)
    (hstep : ∀ l a, P (List.range n) a → (∀ i ∈ l, i < n) → ∃ out, takeAx ax l a = some out ∧ P l out) :
    ∃ out, later m n ax o a = some out ∧ P (wanted n o) out := by
  unfold later
  cases m with
  | true => exact ⟨a, by simp, h⟩
  | false =>
    have h' : P (List.range n) a := h
    by_cases hf : fracOf n o < 1
    · rw [if_pos ⟨rfl, hf⟩]
      cases o with
      | none => exact ⟨a, rfl, h'⟩
      | some l => exact hstep l a h' (hv l rfl).2.2
    · rw [if_neg (fun h => hf h.2)]
      exact ⟨a, rfl, by rw [frac_ge hv hf]; exact h'⟩

theorem squeeze_ok {β : Type} {old : Bool} {dset : Arr β} {pb pf pp : List Nat} {a : Arr (Option β)}
    (h : Holds old dset pb pf pp a) : ∃ out, squeeze a = some out ∧
      out.shape = [pb.length, pf.length, pp.length] ∧
      ∀ i j k x y z, pb[i]? = some x → pf[j]? = some y → pp[k]? = some z →
        out.get [i, j, k] = some (dset.get (pos old 0 (x, y, z))) := by
  obtain ⟨h1, h2⟩ := h
  unfold squeeze
  cases old with
  | false =>
    simp only [pos] at h1
    rw [h1]
    exact ⟨a, rfl, by simpa using h1, fun i j k x y z hx hy hz => h2 i j k x y z hx hy hz⟩
  | true =>
    simp only [pos] at h1
    rw [h1]
    exact ⟨_, rfl, rfl, fun i j k x y z hx hy hz => h2 i j k x y z hx hy hz⟩

/-! ### Storing -/

theorem apply_mem {α β : Type} (cast : α → β) (v : Cell → α) (w : List (Cell × Cell)) : ∀ (d : Cell → β),
    (∀ c ∈ w, ∀ c' ∈ w, c.2 = c'.2 → c.1 = c'.1) →
    (∀ s t, (s, t) ∈ w → apply cast d v w t = cast (v s)) ∧
      ∀ t, (∀ s, (s, t) ∉ w) → apply cast d v w t = d t := by
  induction w with
  | nil => intro d _; exact ⟨fun s t h => absurd h (by simp), fun t _ => rfl⟩
  | cons c w ih =>
    intro d hw
    have hw' : ∀ c ∈ w, ∀ c' ∈ w, c.2 = c'.2 → c.1 = c'.1 :=
      fun c hc c' hc' => hw c (by simp [hc]) c' (by simp [hc'])
    obtain ⟨i1, i2⟩ := ih (fun x => if x = c.2 then cast (v c.1) else d x) hw'
    have he : apply cast d v (c :: w) = apply cast (fun x => if x = c.2 then cast (v c.1) else d x) v w := rfl
    rw [he]
    refine ⟨?_, ?_⟩
    · intro s t h
      by_cases hm : ∃ s', (s', t) ∈ w
      · obtain ⟨s', hs'⟩ := hm
        have : s = s' := hw (s, t) h (s', t) (by simp [hs']) rfl
        rw [this]
        exact i1 s' t hs'
      · have hm' : ∀ s, (s, t) ∉ w := fun s hs => hm ⟨s, hs⟩
        rw [i2 t hm']
        have hc : (s, t) = c := by
          rcases List.mem_cons.1 h with h | h
          · exact h
          · exact absurd h (hm' s)
        subst hc
        simp
    · intro t h
      rw [i2 t (fun s hs => h s (by simp [hs]))]
      have : t ≠ c.2 := by
        rintro rfl
        exact h c.1 (by simp)
      simp [this]

theorem mapM_some {α β : Type} {l : List α} {f : α → Option β} {g : α → β} (h : ∀ x ∈ l, f x = some (g x)) :
    l.mapM f = some (l.map g) := by
  induction l with
  | nil => rfl
  | cons x l ih =>
    simp [List.mapM_cons, h x (by simp), ih (fun y hy => h y (by simp [hy]))]

theorem ixPos_ok {n : Nat} {o : Option (List Nat)} (hv : ValidSel n o) : ixPos n (ixOf o).1 = some (wanted n o) := by
  cases o with
  | none => rfl
  | some l =>
    obtain ⟨h1, h2, h3⟩ := hv l rfl
    have hp := Slices.slicify_picks l n h1 h2 h3
    unfold Slices.slicify at hp
    have h0 : ¬ l.length = 0 := by simpa using h1
    rw [if_neg h0] at hp
    unfold ixOf
    simp only
    by_cases hr : ((l.zip l.tail).map (fun p => (p.2 : Int) - p.1)).dedup.length ≤ 1
    · rw [if_pos hr] at hp ⊢
      simp only [Slices.SlicifyOut.picks, ixPos, wanted] at hp ⊢
      rw [← hp]
      congr 3
      by_cases h : l.length = 1
      · rw [if_pos h, if_neg (by omega)]
      · rw [if_neg h, if_pos (by omega)]
    · rw [if_neg hr]
      simp only [ixPos]
      rw [if_pos h3]; rfl

theorem countOf_eq (n : Nat) (o : Option (List Nat)) : countOf n o = (wanted n o).length := by
  cases o <;> simp [countOf, wanted]

theorem whole_ok {n : Nat} {o : Option (List Nat)} (hv : ValidSel n o) :
    whole n (countOf n o) (ixOf o).1 = some (enum (wanted n o)) := by
  unfold whole
  rw [ixPos_ok hv, countOf_eq]
  simp only [Option.bind_some, pairUp, List.length_range, if_true, Option.map_some, Option.some.injEq]
  exact zip_swap' _ _

theorem mem_enum {l : List Nat} {p : Nat × Nat} : p ∈ enum l ↔ l[p.1]? = some p.2 := mem_zip_range

theorem irregular {n : Nat} {o : Option (List Nat)} (h : (ixOf o).2 = false) : listOf (ixOf o).1 = wanted n o := by
  cases o with
  | none => simp [ixOf] at h
  | some l =>
    unfold ixOf at h ⊢
    simp only at h ⊢
    split at h
    · simp at h
    · rename_i hr
      rw [if_neg hr]; rfl

theorem single_ok {n : Nat} {o : Option (List Nat)} (hv : ValidSel n o) {p : Nat × Nat}
    (hp : p ∈ enum (wanted n o)) : single n p = some [p] := by
  have h := List.mem_of_getElem? (mem_enum.1 hp)
  have : p.2 < n := by
    cases o with
    | none => simpa [wanted] using h
    | some l => exact (hv l rfl).2.2 _ h
  simp [single, this]

theorem mem_triples {a b c : List (Nat × Nat)} {s t : Cell} :
    (s, t) ∈ triples a b c ↔ (s.1, t.1) ∈ a ∧ (s.2.1, t.2.1) ∈ b ∧ (s.2.2, t.2.2) ∈ c := by
  obtain ⟨s1, s2, s3⟩ := s
  obtain ⟨t1, t2, t3⟩ := t
  simp only [triples, List.mem_flatMap, List.mem_map, Prod.mk.injEq, Prod.exists]
  constructor
  · rintro ⟨_, _, h1, _, _, h2, _, _, h3, ⟨rfl, rfl, rfl⟩, rfl, rfl, rfl⟩
    exact ⟨h1, h2, h3⟩
  · rintro ⟨h1, h2, h3⟩
    exact ⟨_, _, h1, _, _, h2, _, _, h3, ⟨rfl, rfl, rfl⟩, rfl, rfl, rfl⟩

/-- Whatever the spacing, the assignments are those of the cells of the part. -/
theorem stores_ok {sh : Cell} {r : Req} (hv : ValidReq sh r) :
    ∃ w, stores sh r = some w ∧ ∀ s t, (s, t) ∈ w ↔ InPart sh r s t := by
  obtain ⟨nb, nf, np⟩ := sh
  obtain ⟨vb, vf, vp⟩ := hv
  simp only at vb vf vp
  have eb := whole_ok vb
  have ef := whole_ok vf
  have ep := whole_ok vp
  have hin : ∀ s t, InPart (nb, nf, np) r s t ↔ (s.1, t.1) ∈ enum (wanted nb r.blt) ∧
      (s.2.1, t.2.1) ∈ enum (wanted nf r.freq) ∧ (s.2.2, t.2.2) ∈ enum (wanted np r.pol) := by
    intro s t; simp only [mem_enum, InPart]
  simp only [hin]
  unfold stores
  simp only [eb, ef, ep]
  generalize hB : enum (wanted nb r.blt) = B at *
  generalize hF : enum (wanted nf r.freq) = F at *
  generalize hP : enum (wanted np r.pol) = P at *
  have sb : ∀ p ∈ B, single nb p = some [p] := fun p hp => single_ok vb (by rw [hB]; exact hp)
  have sf : ∀ p ∈ F, single nf p = some [p] := fun p hp => single_ok vf (by rw [hF]; exact hp)
  have sp : ∀ p ∈ P, single np p = some [p] := fun p hp => single_ok vp (by rw [hP]; exact hp)
  by_cases h2 : 2 ≤ (ixOf r.blt).2.toNat + (ixOf r.freq).2.toNat + (ixOf r.pol).2.toNat
  · rw [if_pos h2]
    refine ⟨triples B F P, by simp, fun s t => mem_triples⟩
  · rw [if_neg h2]
    have lb := fun h => congrArg enum (irregular (n := nb) (o := r.blt) h)
    have lf := fun h => congrArg enum (irregular (n := nf) (o := r.freq) h)
    have lp := fun h => congrArg enum (irregular (n := np) (o := r.pol) h)
    rw [hB] at lb; rw [hF] at lf; rw [hP] at lp
    by_cases h1 : (ixOf r.blt).2.toNat + (ixOf r.freq).2.toNat + (ixOf r.pol).2.toNat = 1
    · rw [if_pos h1]
      cases cb : (ixOf r.blt).2 <;> cases cf : (ixOf r.freq).2 <;> cases cp : (ixOf r.pol).2 <;>
        simp [cb, cf, cp] at h1 h2
      · -- polarizations regular
        rw [lb cb, lf cf, if_neg (by simp), if_neg (by simp)]
        have : ∀ i ∈ B, (F.mapM fun j => (single nb i).bind fun x => (single nf j).bind fun y =>
            (some P).map fun z => triples x y z).map List.flatten =
            some (F.map fun j => triples [i] [j] P).flatten := by
          intro i hi
          rw [mapM_some (g := fun j => triples [i] [j] P) (fun j hj => by simp [sb i hi, sf j hj])]
          rfl
        rw [mapM_some this]
        refine ⟨_, rfl, fun s t => ?_⟩
        simp only [List.mem_flatten, List.mem_map, exists_exists_and_eq_and, mem_triples,
          List.mem_singleton]
        constructor
        · rintro ⟨i, hi, j, hj, h1, h2, h3⟩
          exact ⟨h1 ▸ hi, h2 ▸ hj, h3⟩
        · rintro ⟨h1, h2, h3⟩
          exact ⟨_, h1, _, h2, rfl, rfl, h3⟩
      · -- channels regular
        rw [lb cb, lp cp, if_neg (by simp), if_pos rfl]
        have : ∀ i ∈ B, (P.mapM fun k => (single nb i).bind fun x => (some F).bind fun y =>
            (single np k).map fun z => triples x y z).map List.flatten =
            some (P.map fun k => triples [i] F [k]).flatten := by
          intro i hi
          rw [mapM_some (g := fun k => triples [i] F [k]) (fun k hk => by simp [sb i hi, sp k hk])]
          rfl
        rw [mapM_some this]
        refine ⟨_, rfl, fun s t => ?_⟩
        simp only [List.mem_flatten, List.mem_map, exists_exists_and_eq_and, mem_triples,
          List.mem_singleton]
        constructor
        · rintro ⟨i, hi, k, hk, h1, h2, h3⟩
          exact ⟨h1 ▸ hi, h2, h3 ▸ hk⟩
        · rintro ⟨h1, h2, h3⟩
          exact ⟨_, h1, _, h3, rfl, h2, rfl⟩
      · -- rows regular
        rw [lf cf, lp cp, if_pos rfl]
        have : ∀ j ∈ F, (P.mapM fun k => (some B).bind fun x => (single nf j).bind fun y =>
            (single np k).map fun z => triples x y z).map List.flatten =
            some (P.map fun k => triples B [j] [k]).flatten := by
          intro j hj
          rw [mapM_some (g := fun k => triples B [j] [k]) (fun k hk => by simp [sf j hj, sp k hk])]
          rfl
        rw [mapM_some this]
        refine ⟨_, rfl, fun s t => ?_⟩
        simp only [List.mem_flatten, List.mem_map, exists_exists_and_eq_and, mem_triples,
          List.mem_singleton]
        constructor
        · rintro ⟨j, hj, k, hk, h1, h2, h3⟩
          exact ⟨h1, h2 ▸ hj, h3 ▸ hk⟩
        · rintro ⟨h1, h2, h3⟩
          exact ⟨_, h2, _, h3, h1, rfl, rfl⟩
    · rw [if_neg h1]
      cases cb : (ixOf r.blt).2 <;> cases cf : (ixOf r.freq).2 <;> cases cp : (ixOf r.pol).2 <;>
        simp [cb, cf, cp] at h1 h2
      rw [lb cb, lf cf, lp cp]
      have : ∀ i ∈ B, (F.mapM fun j => (P.mapM fun k => (single nb i).bind fun x => (single nf j).bind fun y =>
          (single np k).map fun z => triples x y z).map List.flatten).map List.flatten =
          some (F.map fun j => (P.map fun k => triples [i] [j] [k]).flatten).flatten := by
        intro i hi
        rw [mapM_some (g := fun j => (P.map fun k => triples [i] [j] [k]).flatten) (fun j hj => by
          rw [mapM_some (g := fun k => triples [i] [j] [k]) (fun k hk => by simp [sb i hi, sf j hj, sp k hk])]
          rfl)]
        rfl
      rw [mapM_some this]
      refine ⟨_, rfl, fun s t => ?_⟩
      simp only [List.mem_flatten, List.mem_map, exists_exists_and_eq_and, mem_triples,
        List.mem_singleton]
      constructor
      · rintro ⟨i, hi, j, hj, k, hk, h1, h2, h3⟩
        exact ⟨h1 ▸ hi, h2 ▸ hj, h3 ▸ hk⟩
      · rintro ⟨h1, h2, h3⟩
        exact ⟨_, h1, _, h2, _, h3, rfl, rfl, rfl⟩

theorem wanted_nodup {n : Nat} {o : Option (List Nat)} (hv : ValidSel n o) : (wanted n o).Nodup := by
  cases o with
  | none => exact List.nodup_range
  | some l => exact (hv l rfl).2.1.imp (fun h => Nat.ne_of_lt h)

theorem inPart_inj {sh : Cell} {r : Req} (hv : ValidReq sh r) {s s' t : Cell} (h : InPart sh r s t)
    (h' : InPart sh r s' t) : s = s' := by
  have key : ∀ {l : List Nat} {i j x : Nat}, l.Nodup → l[i]? = some x → l[j]? = some x → i = j := by
    intro l i j x hn hi hj
    have hi' : i < l.length := by
      by_contra hc
      rw [List.getElem?_eq_none (by omega)] at hi; simp at hi
    exact (List.getElem?_inj hi' hn).1 (hi.trans hj.symm)
  obtain ⟨a1, a2, a3⟩ := h
  obtain ⟨b1, b2, b3⟩ := h'
  ext
  · exact key (wanted_nodup hv.1) a1 b1
  · exact key (wanted_nodup hv.2.1) a2 b2
  · exact key (wanted_nodup hv.2.2) a3 b3

end Verif.Uvh5
