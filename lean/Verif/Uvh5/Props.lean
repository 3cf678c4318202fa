import Verif.Uvh5.Lemmas

/-!
Reading a part of a file gives the part of the file (C132); writing a part changes the part and nothing else (C133);
files written in parts are like files written at once (C134); what a refused part leaves (C135).
-/

namespace Verif.Uvh5

open Verif.Np Verif.Hdf5

/-! ### Reading -/

/-- C132: whatever is selected and in whatever way the file is indexed, each array that is read has the shape of the
part, and each of its elements is the element of the file that was asked for.  Also for files with the former window
axis. -/
theorem read_part {β : Type} (old : Bool) (sh : Cell) (dset : Arr β) (multidim : Bool) (r : Req)
    (hd : dset.shape = pos old 1 sh) (hv : ValidReq sh r) :
    ∃ out, getData sh.1 sh.2.1 sh.2.2 multidim r dset = some out ∧
      out.shape = pos false 1 (partShape sh r) ∧
      ∀ s t, InPart sh r s t → out.get (pos false 1 s) = some (dset.get (pos old 0 t)) := by
  obtain ⟨nb, nf, np⟩ := sh
  obtain ⟨vb, vf, vp⟩ := hv
  simp only at vb vf vp
  have fin : ∀ a, Holds old dset (wanted nb r.blt) (wanted nf r.freq) (wanted np r.pol) a →
      ∃ out, squeeze a = some out ∧ out.shape = pos false 1 (partShape (nb, nf, np) r) ∧
        ∀ s t, InPart (nb, nf, np) r s t → out.get (pos false 1 s) = some (dset.get (pos old 0 t)) := by
    intro a ha
    obtain ⟨out, h1, h2, h3⟩ := squeeze_ok ha
    exact ⟨out, h1, h2, fun s t h => h3 _ _ _ _ _ _ h.1 h.2.1 h.2.2⟩
  have hnd : dset.shape.length = (pos old 1 (0, 0, 0)).length := by rw [hd]; cases old <;> rfl
  have cnt : multiOf multidim r = true →
      2 ≤ (slicesOf (1/10) r.blt).2.toNat + (slicesOf (1/10) r.freq).2.toNat + (slicesOf (1/2) r.pol).2.toNat := by
    intro h
    simp only [multiOf, Bool.and_eq_true, decide_eq_true_eq] at h
    exact h.2
  have cb := selOf_count (frac := 1/10) r.blt
  have cf := selOf_count (frac := 1/10) r.freq
  have cp := selOf_count (frac := 1/2) r.pol
  unfold getData
  simp only [hnd]
  generalize multiOf multidim r = m at *
  have hcnt : (isListSel (selOf (1/10) r.blt)).toNat + (isListSel (selIf m (1/10) r.freq)).toNat +
      (isListSel (selIf m (1/2) r.pol)).toNat ≤ 1 ∧ (isListSel (selIf m (1/10) r.blt)).toNat +
      (isListSel (selOf (1/10) r.freq)).toNat + (isListSel (selIf m (1/2) r.pol)).toNat ≤ 1 ∧
      (isListSel (selIf m (1/10) r.blt)).toNat + (isListSel (selIf m (1/10) r.freq)).toNat +
      (isListSel (selOf (1/2) r.pol)).toNat ≤ 1 := by
    cases m with
    | true =>
      have := cnt rfl
      simp only [selIf, if_true]
      omega
    | false =>
      have e : isListSel (.slice {}) = false := rfl
      simp only [selIf, Bool.false_eq_true, if_false, e, Bool.toNat_false]
      omega
  obtain ⟨c1, c2, c3⟩ := hcnt
  by_cases h0 : min (fracOf nb r.blt) (min (fracOf nf r.freq) (fracOf np r.pol)) = 1
  · rw [if_pos h0]
    have hb : ¬ fracOf nb r.blt < 1 := by rw [← h0]; simp
    have hf : ¬ fracOf nf r.freq < 1 := by rw [← h0]; simp
    have hp : ¬ fracOf np r.pol < 1 := by rw [← h0]; simp
    obtain ⟨out, h1, h2⟩ := read_holds hd (good_full nb) (good_full nf) (good_full np) (by simp [isListSel])
    rw [h1]
    exact fin out (by rw [frac_ge vb hb, frac_ge vf hf, frac_ge vp hp]; exact h2)
  · rw [if_neg h0]
    by_cases hb : fracOf nb r.blt = min (fracOf nb r.blt) (min (fracOf nf r.freq) (fracOf np r.pol))
    · rw [if_pos hb]
      obtain ⟨a, h1, h2⟩ := read_holds hd (selOf_good (frac := 1/10) vb) (selIf_good (frac := 1/10) m vf)
        (selIf_good (frac := 1/2) m vp) c1
      obtain ⟨a', h3, h4⟩ := later_ok vf (fun l x => Holds old dset (wanted nb r.blt) l (readPos m np r.pol) x) h2
        (ax := (pos old 1 (0, 0, 0)).length - 2) (fun l x hx hl => take_freq hx hl)
      obtain ⟨a'', h5, h6⟩ := later_ok vp (fun l x => Holds old dset (wanted nb r.blt) (wanted nf r.freq) l x) h4
        (ax := (pos old 1 (0, 0, 0)).length - 1) (fun l x hx hl => take_pol hx hl)
      simp only [h1, h3, h5, Option.bind_some]
      exact fin _ h6
    · rw [if_neg hb]
      by_cases hf : fracOf nf r.freq = min (fracOf nb r.blt) (min (fracOf nf r.freq) (fracOf np r.pol))
      · rw [if_pos hf]
        obtain ⟨a, h1, h2⟩ := read_holds hd (selIf_good (frac := 1/10) m vb) (selOf_good (frac := 1/10) vf)
          (selIf_good (frac := 1/2) m vp) c2
        obtain ⟨a', h3, h4⟩ := later_ok vb (fun l x => Holds old dset l (wanted nf r.freq) (readPos m np r.pol) x) h2
          (ax := 0) (fun l x hx hl => take_blt hx hl)
        obtain ⟨a'', h5, h6⟩ := later_ok vp (fun l x => Holds old dset (wanted nb r.blt) (wanted nf r.freq) l x) h4
          (ax := (pos old 1 (0, 0, 0)).length - 1) (fun l x hx hl => take_pol hx hl)
        simp only [h1, h3, h5, Option.bind_some]
        exact fin _ h6
      · rw [if_neg hf]
        obtain ⟨a, h1, h2⟩ := read_holds hd (selIf_good (frac := 1/10) m vb) (selIf_good (frac := 1/10) m vf)
          (selOf_good (frac := 1/2) vp) c3
        obtain ⟨a', h3, h4⟩ := later_ok vb (fun l x => Holds old dset l (readPos m nf r.freq) (wanted np r.pol) x) h2
          (ax := 0) (fun l x hx hl => take_blt hx hl)
        obtain ⟨a'', h5, h6⟩ := later_ok vf (fun l x => Holds old dset (wanted nb r.blt) l (wanted np r.pol) x) h4
          (ax := (pos old 1 (0, 0, 0)).length - 2) (fun l x hx hl => take_freq hx hl)
        simp only [h1, h3, h5, Option.bind_some]
        exact fin _ h6

/-! ### Writing -/

section
variable {H S α α' β γ γ' : Type}

/-- The cells of the part have the given values, all others those they had. -/
def Changed {α α' : Type} (cast : α → α') (sh : Cell) (r : Req) (v : Cell → α) (d d' : Cell → α') : Prop :=
  (∀ s t, InPart sh r s t → d' t = cast (v s)) ∧ ∀ t, (∀ s, ¬ InPart sh r s t) → d' t = d t

theorem apply_changed {α α' : Type} (cast : α → α') {sh : Cell} {r : Req} (hv : ValidReq sh r) (v : Cell → α)
    (d : Cell → α') {w : List (Cell × Cell)} (hw : ∀ s t, (s, t) ∈ w ↔ InPart sh r s t) :
    Changed cast sh r v d (apply cast d v w) := by
  obtain ⟨h1, h2⟩ := apply_mem cast v w d (fun c hc c' hc' he =>
    inPart_inj hv ((hw c.1 c.2).1 hc) (by rw [he]; exact (hw c'.1 c'.2).1 hc'))
  exact ⟨fun s t h => h1 s t ((hw s t).2 h), fun t h => h2 t (fun s hs => h s ((hw s t).1 hs))⟩

/-- C133: writing arrays of the shape of the part succeeds if the metadata agree (or are not compared); exactly the
cells of the part get the given values, in all three datasets; the object, the shape of the file and its metadata stay,
apart from an addition to the history. -/
theorem write_part (same : H → S → H → S → Bool) (app : S → S → S) (castV : α → α') (castN : γ → γ') (check : Bool)
    (r : Req) (v : Block α) (g : Block β) (n : Block γ) (add : Option S) (o : Obj H S α β γ) (f : File H S α' β γ')
    (hsh : f.shape = o.shape) (hv : ValidReq o.shape r) (hs : v.shape = partShape o.shape r)
    (hg : g.shape = v.shape) (hn : n.shape = v.shape)
    (hc : check = true → same o.header o.history f.header f.history = true) :
    ∃ f', writePart same app castV castN check r v g n add o (some f) = (none, o, some f') ∧
      f'.shape = f.shape ∧ f'.header = f.header ∧
      (∀ s, add = some s → f'.history = app o.history s) ∧ (add = none → f'.history = f.history) ∧
      Changed castV o.shape r v.at_ f.vis f'.vis ∧ Changed id o.shape r g.at_ f.flags f'.flags ∧
      Changed castN o.shape r n.at_ f.nsamp f'.nsamp := by
  have hch : (if check then checkHeader same o f else (none, o)) = (none, o) := by
    cases check with
    | false => rfl
    | true => simp [checkHeader, hc rfl]
  obtain ⟨w, h1, h2⟩ := stores_ok hv
  have hst : storePart castV castN o.shape r v g n f = .ok { f with
      vis := apply castV f.vis v.at_ w, flags := apply id f.flags g.at_ w,
      nsamp := apply castN f.nsamp n.at_ w } := by
    unfold storePart
    rw [if_neg (by simp [hg]), if_neg (by simp [hn]), if_neg (by simp [hs, countOf_eq, partShape]), hsh, h1]
  simp only [writePart, hch, hst]
  refine ⟨_, rfl, ?_⟩
  have ev := apply_changed castV hv v.at_ f.vis h2
  have eg := apply_changed id hv g.at_ f.flags h2
  have en := apply_changed castN hv n.at_ f.nsamp h2
  cases add with
  | none => exact ⟨rfl, rfl, fun s h => by simp at h, fun _ => rfl, ev, eg, en⟩
  | some s =>
    refine ⟨rfl, rfl, fun s' h => ?_, fun h => by simp at h, ev, eg, en⟩
    simp only [Option.some.injEq] at h
    subst h; rfl

/-- Arrays of another shape are refused and nothing changes (if the metadata agree or are not compared). -/
theorem wrong_shape (same : H → S → H → S → Bool) (app : S → S → S) (castV : α → α') (castN : γ → γ') (check : Bool)
    (r : Req) (v : Block α) (g : Block β) (n : Block γ) (add : Option S) (o : Obj H S α β γ) (f : File H S α' β γ')
    (hs : ¬ (v.shape = partShape o.shape r ∧ g.shape = v.shape ∧ n.shape = v.shape))
    (hc : check = true → same o.header o.history f.header f.history = true) :
    writePart same app castV castN check r v g n add o (some f) = (some .shape, o, some f) := by
  have hch : (if check then checkHeader same o f else (none, o)) = (none, o) := by
    cases check with
    | false => rfl
    | true => simp [checkHeader, hc rfl]
  have hst : storePart castV castN o.shape r v g n f = .error .shape := by
    unfold storePart
    by_cases h1 : v.shape = g.shape
    · rw [if_neg (by simp [h1])]
      by_cases h2 : v.shape = n.shape
      · rw [if_neg (by simp [h2])]
        rw [if_pos]
        intro h3
        apply hs
        exact ⟨by rw [h3]; simp [countOf_eq, partShape], h1.symm, h2.symm⟩
      · rw [if_pos h2]
    · rw [if_pos h1]
  simp only [writePart, hch, hst]

/-- The parts of the arrays of an object. -/
def partOf {α : Type} (sh : Cell) (r : Req) (b : Block α) : Block α :=
  ⟨partShape sh r, fun s =>
    b.at_ ((wanted sh.1 r.blt).getD s.1 0, (wanted sh.2.1 r.freq).getD s.2.1 0, (wanted sh.2.2 r.pol).getD s.2.2 0)⟩

/-- Several parts of the arrays of an object, written one after another. -/
def writeParts (same : H → S → H → S → Bool) (app : S → S → S) (castV : α → α') (castN : γ → γ') (check : Bool)
    (v : Block α) (g : Block β) (n : Block γ) : List Req → Option Err × Obj H S α β γ × Option (File H S α' β γ') →
      Option Err × Obj H S α β γ × Option (File H S α' β γ')
  | [], x => x
  | r :: rs, (none, o, f) => writeParts same app castV castN check v g n rs
      (writePart same app castV castN check r (partOf o.shape r v) (partOf o.shape r g) (partOf o.shape r n) none o f)
  | _ :: _, x => x

theorem partOf_in {α : Type} {sh : Cell} {r : Req} {b : Block α} {s t : Cell} (h : InPart sh r s t) :
    (partOf sh r b).at_ s = b.at_ t := by
  obtain ⟨h1, h2, h3⟩ := h
  simp [partOf, List.getD_eq_getElem?_getD, h1, h2, h3]

/-- Induction: after some parts the cells in one of them have the values of the object, all others those of the file. -/
theorem parts_written (same : H → S → H → S → Bool) (app : S → S → S) (castV : α → α') (castN : γ → γ')
    (check : Bool) (v : Block α) (g : Block β) (n : Block γ) (o : Obj H S α β γ) (rs : List Req) :
    ∀ f : File H S α' β γ', f.shape = o.shape → (∀ r ∈ rs, ValidReq o.shape r) →
      (check = true → same o.header o.history f.header f.history = true) →
      ∃ f', writeParts same app castV castN check v g n rs (none, o, some f) = (none, o, some f') ∧
        f'.shape = f.shape ∧ f'.header = f.header ∧ f'.history = f.history ∧
        ∀ t, ((∃ r ∈ rs, ∃ s, InPart o.shape r s t) →
            f'.vis t = castV (v.at_ t) ∧ f'.flags t = g.at_ t ∧ f'.nsamp t = castN (n.at_ t)) ∧
          ((¬ ∃ r ∈ rs, ∃ s, InPart o.shape r s t) →
            f'.vis t = f.vis t ∧ f'.flags t = f.flags t ∧ f'.nsamp t = f.nsamp t) := by
  induction rs with
  | nil =>
    intro f hsh _ _
    exact ⟨f, rfl, rfl, rfl, rfl, fun t => ⟨fun ⟨r, hr, _⟩ => absurd hr (by simp), fun _ => ⟨rfl, rfl, rfl⟩⟩⟩
  | cons r rs ih =>
    intro f hsh hv hc
    obtain ⟨f1, e1, a1, a2, _, a3, b1, b2, b3⟩ := write_part same app castV castN check r (partOf o.shape r v)
      (partOf o.shape r g) (partOf o.shape r n) none o f hsh (hv r (by simp)) rfl rfl rfl hc
    obtain ⟨f2, e2, c1, c2, c3, c4⟩ := ih f1 (a1.trans hsh) (fun r hr => hv r (by simp [hr]))
      (by rw [a2, a3 rfl]; exact hc)
    refine ⟨f2, ?_, c1.trans a1, c2.trans a2, c3.trans (a3 rfl), fun t => ⟨?_, ?_⟩⟩
    · simp only [writeParts, e1, e2]
    · intro h
      by_cases h' : ∃ r ∈ rs, ∃ s, InPart o.shape r s t
      · exact (c4 t).1 h'
      · obtain ⟨r', hr', s, hs⟩ := h
        have : r' = r := by
          rcases List.mem_cons.1 hr' with rfl | h
          · rfl
          · exact absurd ⟨r', h, s, hs⟩ h'
        subst this
        obtain ⟨d1, d2, d3⟩ := (c4 t).2 h'
        exact ⟨by rw [d1, b1.1 s t hs, partOf_in hs], by rw [d2, b2.1 s t hs, partOf_in hs]; rfl,
          by rw [d3, b3.1 s t hs, partOf_in hs]⟩
    · intro h
      obtain ⟨d1, d2, d3⟩ := (c4 t).2 (fun ⟨r', hr', hs⟩ => h ⟨r', by simp [hr'], hs⟩)
      have hno : ∀ s, ¬ InPart o.shape r s t := fun s hs => h ⟨r, by simp, s, hs⟩
      exact ⟨d1.trans (b1.2 t hno), d2.trans (b2.2 t hno), d3.trans (b3.2 t hno)⟩

/-- C134: a file that is initialized and then written in parts has the values of the object in all cells that are in
one of the parts, like the file that is written at once, and the initial values in all others.  The parts may overlap
and come in any order. -/
theorem parts_are_whole (same : H → S → H → S → Bool) (app : S → S → S) (castV : α → α') (castN : γ → γ')
    (check : Bool) (z : α') (z' : γ') (v : Block α) (g : Block Bool) (n : Block γ) (o : Obj H S α Bool γ)
    (hd : o.data = some v) (hg : o.flags = some g) (hn : o.nsamp = some n) (rs : List Req)
    (hv : ∀ r ∈ rs, ValidReq o.shape r)
    (hc : check = true → same o.header o.history o.header o.history = true) :
    ∃ f w, writeParts same app castV castN check v g n rs (none, o, some (initFile z z' o)) = (none, o, some f) ∧
      writeFile castV castN o = some w ∧ f.shape = w.shape ∧ f.header = w.header ∧ f.history = w.history ∧
      (∀ t, (∃ r ∈ rs, ∃ s, InPart o.shape r s t) →
        f.vis t = w.vis t ∧ f.flags t = w.flags t ∧ f.nsamp t = w.nsamp t) ∧
      (∀ t, (¬ ∃ r ∈ rs, ∃ s, InPart o.shape r s t) → f.vis t = z ∧ f.flags t = false ∧ f.nsamp t = z') := by
  obtain ⟨f, h1, h2, h3, h4, h5⟩ := parts_written same app castV castN check v g n o rs (initFile z z' o) rfl hv hc
  have hw : writeFile castV castN o = some ⟨o.shape, (fun c => castV (v.at_ c)), g.at_,
      (fun c => castN (n.at_ c)), o.header, o.history⟩ := by
    simp only [writeFile, hd, hg, hn]
  refine ⟨f, _, h1, hw, h2, h3, h4, ?_, ?_⟩
  · intro t ht
    exact (h5 t).1 ht
  · intro t ht
    exact (h5 t).2 ht

/-- What is written in a part can be read as that part. -/
theorem write_then_read (same : H → S → H → S → Bool) (app : S → S → S) (castV : α → α') (castN : γ → γ')
    (check : Bool) (r : Req) (v : Block α) (g : Block β) (n : Block γ) (add : Option S) (o : Obj H S α β γ)
    (f : File H S α' β γ') (multidim : Bool)
    (hsh : f.shape = o.shape) (hv : ValidReq o.shape r) (hs : v.shape = partShape o.shape r)
    (hg : g.shape = v.shape) (hn : n.shape = v.shape)
    (hc : check = true → same o.header o.history f.header f.history = true) :
    ∃ f' out, writePart same app castV castN check r v g n add o (some f) = (none, o, some f') ∧
      getData o.shape.1 o.shape.2.1 o.shape.2.2 multidim r
        ⟨pos false 1 o.shape, fun ix => f'.vis (ix.getD 0 0, ix.getD 1 0, ix.getD 2 0)⟩ = some out ∧
      out.shape = pos false 1 v.shape ∧
      ∀ s t, InPart o.shape r s t → out.get (pos false 1 s) = some (castV (v.at_ s)) := by
  obtain ⟨f', h1, _, _, _, _, h2, _, _⟩ :=
    write_part same app castV castN check r v g n add o f hsh hv hs hg hn hc
  obtain ⟨out, h3, h4, h5⟩ := read_part false o.shape
    ⟨pos false 1 o.shape, fun ix => f'.vis (ix.getD 0 0, ix.getD 1 0, ix.getD 2 0)⟩ multidim r rfl hv
  refine ⟨f', out, h1, h3, by rw [h4, hs], fun s t h => ?_⟩
  rw [h5 s t h]
  simp only [pos]
  exact congrArg some (h2.1 s t h)

/-! ### Refusals -/

/-- C135, the part that holds: whenever a part is not written, the file is what it was; and the object is what it was
unless the metadata were compared and found to be different. -/
theorem refused_partial (same : H → S → H → S → Bool) (app : S → S → S) (castV : α → α') (castN : γ → γ')
    (check : Bool) (r : Req) (v : Block α) (g : Block β) (n : Block γ) (add : Option S) (o : Obj H S α β γ)
    (file : Option (File H S α' β γ')) (e : Err)
    (he : (writePart same app castV castN check r v g n add o file).1 = some e) :
    (writePart same app castV castN check r v g n add o file).2.2 = file ∧
      (e ≠ .header → (writePart same app castV castN check r v g n add o file).2.1 = o) := by
  cases file with
  | none => exact ⟨rfl, fun _ => rfl⟩
  | some f =>
    have key : ∀ c : Option Err × Obj H S α β γ, (c.1 = none ∧ c.2 = o) ∨ c.1 = some .header →
        (match c.1 with
          | some e => (some e, c.2, some f)
          | none => match storePart castV castN o.shape r v g n f with
            | .error e => (some e, c.2, some f)
            | .ok f' => (none, c.2, some (addHistory app o.history add f'))).1 = some e →
        (match c.1 with
          | some e => (some e, c.2, some f)
          | none => match storePart castV castN o.shape r v g n f with
            | .error e => (some e, c.2, some f)
            | .ok f' => (none, c.2, some (addHistory app o.history add f'))).2.2 = some f ∧
        (e ≠ .header → (match c.1 with
          | some e => (some e, c.2, some f)
          | none => match storePart castV castN o.shape r v g n f with
            | .error e => (some e, c.2, some f)
            | .ok f' => (none, c.2, some (addHistory app o.history add f'))).2.1 = o) := by
      rintro ⟨c1, c2⟩ hc h
      simp only at hc h ⊢
      cases c1 with
      | some e' =>
        simp only [Option.some.injEq, reduceCtorEq, false_and, false_or] at hc h ⊢
        exact ⟨trivial, fun hne => absurd (h.symm.trans hc) hne⟩
      | none =>
        simp only [true_and, reduceCtorEq, or_false] at hc h ⊢
        cases hst : storePart castV castN o.shape r v g n f with
        | error e' => exact ⟨rfl, fun _ => hc⟩
        | ok f' => simp [hst] at h
    refine key _ ?_ he
    cases check with
    | false => exact .inl ⟨rfl, rfl⟩
    | true =>
      simp only [if_true, checkHeader]
      split
      · exact .inl ⟨rfl, rfl⟩
      · exact .inr rfl

/-- A part whose metadata differ from those of the file takes the arrays of the object away. -/
theorem refused_header (same : H → S → H → S → Bool) (app : S → S → S) (castV : α → α') (castN : γ → γ')
    (r : Req) (v : Block α) (g : Block β) (n : Block γ) (add : Option S) (o : Obj H S α β γ)
    (f : File H S α' β γ') (h : same o.header o.history f.header f.history = false) :
    writePart same app castV castN true r v g n add o (some f) =
      (some .header, { o with data := none, flags := none, nsamp := none }, some f) := by
  simp [writePart, checkHeader, h]

/-- After a part with an addition to the history the next part is refused, since the history is compared, and the object
loses its arrays. -/
theorem second_refused (same : H → S → H → S → Bool) (app : S → S → S) (castV : α → α') (castN : γ → γ')
    (r r' : Req) (v v' : Block α) (g g' : Block β) (n n' : Block γ) (s : S) (add : Option S) (o : Obj H S α β γ)
    (f : File H S α' β γ')
    (hsh : f.shape = o.shape) (hv : ValidReq o.shape r) (hs : v.shape = partShape o.shape r)
    (hg : g.shape = v.shape) (hn : n.shape = v.shape)
    (hc : same o.header o.history f.header f.history = true)
    (hd : same o.header o.history f.header (app o.history s) = false) :
    ∃ f', writePart same app castV castN true r v g n (some s) o (some f) = (none, o, some f') ∧
      writePart same app castV castN true r' v' g' n' add o (some f') =
        (some .header, { o with data := none, flags := none, nsamp := none }, some f') := by
  obtain ⟨f', h1, _, h2, h3, _⟩ :=
    write_part same app castV castN true r v g n (some s) o f hsh hv hs hg hn (fun _ => hc)
  refine ⟨f', h1, refused_header same app castV castN r' v' g' n' add o f' ?_⟩
  rw [h2, h3 s rfl]
  exact hd

/-- Without comparing the metadata the second addition replaces the first one. -/
theorem history_replaced (same : H → S → H → S → Bool) (app : S → S → S) (castV : α → α') (castN : γ → γ')
    (r r' : Req) (v v' : Block α) (g g' : Block β) (n n' : Block γ) (s s' : S) (o : Obj H S α β γ)
    (f : File H S α' β γ')
    (hsh : f.shape = o.shape) (hv : ValidReq o.shape r) (hs : v.shape = partShape o.shape r)
    (hg : g.shape = v.shape) (hn : n.shape = v.shape)
    (hv' : ValidReq o.shape r') (hs' : v'.shape = partShape o.shape r')
    (hg' : g'.shape = v'.shape) (hn' : n'.shape = v'.shape) :
    ∃ f' f'', writePart same app castV castN false r v g n (some s) o (some f) = (none, o, some f') ∧
      writePart same app castV castN false r' v' g' n' (some s') o (some f') = (none, o, some f'') ∧
      f''.history = app o.history s' := by
  obtain ⟨f', h1, h2, _, _, _⟩ :=
    write_part same app castV castN false r v g n (some s) o f hsh hv hs hg hn (by simp)
  obtain ⟨f'', h3, _, _, h4, _⟩ :=
    write_part same app castV castN false r' v' g' n' (some s') o f' (h2.trans hsh) hv' hs' hg' hn' (by simp)
  exact ⟨f', f'', h1, h3, h4 s' rfl⟩

end

end Verif.Uvh5
