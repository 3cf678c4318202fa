import Verif.MirSel.Spec

/-! # The masks of MIR tables after an update -/

namespace Verif.MirSel
open Verif.Pol (Str)

variable {S : Type}

/-- A mask combined by "and". -/
def Tab.cut (t : Tab S) (p : Row S → Bool) : Tab S := { t with rows := t.rows.map (fun x => (x.1, x.2 && p x.1)) }

theorem setMask_and (t : Tab S) (p : Row S → Bool) : t.setMask p false true = t.cut p := by
  unfold Tab.setMask Tab.cut
  by_cases h : t.all = true
  · rw [if_pos (by simp [h])]
    congr 1
    apply List.map_congr_left
    intro x hx
    have := List.all_eq_true.1 h x hx
    simp [this]
  · rw [if_neg (by simp [h]), if_pos rfl]

theorem mem_kept {t : Tab S} {r : Row S} : r ∈ t.kept ↔ (r, true) ∈ t.rows := by
  unfold Tab.kept
  simp only [List.mem_map, List.mem_filter]
  constructor
  · rintro ⟨⟨a, b⟩, ⟨h1, h2⟩, rfl⟩
    simp only at h2
    rw [h2] at h1
    exact h1
  · intro h
    exact ⟨(r, true), ⟨h, rfl⟩, rfl⟩

theorem mem_cut {t : Tab S} {p : Row S → Bool} {r : Row S} : r ∈ (t.cut p).kept ↔ r ∈ t.kept ∧ p r = true := by
  rw [mem_kept, mem_kept]
  unfold Tab.cut
  simp only [List.mem_map, Prod.mk.injEq]
  constructor
  · rintro ⟨⟨a, b⟩, h1, rfl, h2⟩
    simp only [Bool.and_eq_true] at h2
    obtain ⟨rfl, h3⟩ := h2
    exact ⟨h1, h3⟩
  · rintro ⟨h1, h2⟩
    exact ⟨(r, true), h1, rfl, by simp [h2]⟩

theorem all_kept {t : Tab S} (h : t.all = true) {x : Row S × Bool} (hx : x ∈ t.rows) : x.1 ∈ t.kept := by
  rw [mem_kept]
  have h2 := List.all_eq_true.1 h x hx
  have : x = (x.1, true) := by rw [← h2]
  rw [← this]
  exact hx

theorem kept_rows {t : Tab S} {r : Row S} (h : r ∈ t.kept) : (r, true) ∈ t.rows := mem_kept.1 h

theorem keyIn_iff [DecidableEq S] {fs gs : List Name} {l : List (Row S)} {row : Row S} :
    keyIn fs l gs row = true ↔ ∃ o ∈ l, gs.map o = fs.map row := by
  simp [keyIn, List.any_eq_true]

variable [LinearOrder S]

/-- `w` is weather of the integration `i` and so on: the records that belong to each other. -/
structure Parts (s : St S) (r b i w e₁ e₂ : Row S) : Prop where
  blhid : b .blhid = r .blhid
  inhid : i .inhid = b .inhid
  ints : w .ints = i .ints
  ant₁ : e₁ .antenna = b .iant1
  int₁ : e₁ .inhid = b .inhid
  ant₂ : e₂ .antenna = b .iant2
  int₂ : e₂ .inhid = b .inhid
  file : s.cross = true → ∃ v ∈ b .inhid, v ∈ s.fileInts

/-- Nothing is kept that was not kept before. -/
theorem update_sub (s : St S) :
    (∀ r ∈ (updateFilter s).sp.kept, r ∈ s.sp.kept) ∧ (∀ r ∈ (updateFilter s).bl.kept, r ∈ s.bl.kept) ∧
    (∀ r ∈ (updateFilter s).inn.kept, r ∈ s.inn.kept) ∧ (∀ r ∈ (updateFilter s).we.kept, r ∈ s.we.kept) ∧
    (∀ r ∈ (updateFilter s).eng.kept, r ∈ s.eng.kept) ∧ (∀ r ∈ (updateFilter s).ac.kept, r ∈ s.ac.kept) := by
  simp only [updateFilter, setMask_and]
  refine ⟨?_, ?_, ?_, ?_, ?_, ?_⟩
  · intro r h; exact (mem_cut.1 h).1
  · intro r h
    have h := (mem_cut.1 (mem_cut.1 h).1).1
    split at h
    · split at h
      · exact (mem_cut.1 h).1
      · exact h
    · have h := (mem_cut.1 h).1
      split at h
      · exact (mem_cut.1 h).1
      · exact h
  · intro r h
    generalize (if (s.auto || _) = true then _ else _ : Tab S) = eng1 at h
    split at h
    · split at h
      · exact h
      · exact (mem_cut.1 h).1
    · have h := (mem_cut.1 h).1
      split at h
      · exact h
      · exact (mem_cut.1 h).1
  · intro r h; exact (mem_cut.1 h).1
  · intro r h
    by_cases hc : (s.auto || !Tab.all (if s.sp.all = true then
        (if s.cross = true then s.bl.cut (fun b => (b .inhid).any (fun v => decide (v ∈ s.fileInts))) else s.bl)
        else Tab.cut (if s.cross = true then s.bl.cut (fun b => (b .inhid).any (fun v => decide (v ∈ s.fileInts))) else s.bl)
          (keyIn [.blhid] s.sp.kept [.blhid]))) = true
    · rw [if_pos hc] at h; exact (mem_cut.1 h).1
    · rw [if_neg hc] at h; exact h
  · intro r h
    by_cases hc : s.auto = true
    · rw [if_pos hc] at h; exact (mem_cut.1 h).1
    · rw [if_neg hc] at h; exact h

/-- Every spectrum that is kept has its baseline, integration, weather and antennas kept. -/
theorem update_closed {s : St S} (hw : Weather s) {r : Row S} (h : r ∈ (updateFilter s).sp.kept) :
    ∃ b i w e₁ e₂, b ∈ (updateFilter s).bl.kept ∧ i ∈ (updateFilter s).inn.kept ∧ w ∈ (updateFilter s).we.kept ∧
      e₁ ∈ (updateFilter s).eng.kept ∧ e₂ ∈ (updateFilter s).eng.kept ∧ Parts s r b i w e₁ e₂ := by
  simp only [updateFilter, setMask_and] at h ⊢
  obtain ⟨hr, hb⟩ := mem_cut.1 h
  obtain ⟨b, hb, hbr⟩ := keyIn_iff.1 hb
  obtain ⟨hb3, hba⟩ := mem_cut.1 hb
  rw [Bool.and_eq_true] at hba
  obtain ⟨e₁, he₁, hk₁⟩ := keyIn_iff.1 hba.1
  obtain ⟨e₂, he₂, hk₂⟩ := keyIn_iff.1 hba.2
  obtain ⟨hb2, hbi⟩ := mem_cut.1 hb3
  obtain ⟨i, hi, hki⟩ := keyIn_iff.1 hbi
  have hfile : s.cross = true → ∃ v ∈ b .inhid, v ∈ s.fileInts := by
    intro hc
    rw [if_pos hc] at hb2
    have : b ∈ (s.bl.cut (fun b => (b .inhid).any (fun v => decide (v ∈ s.fileInts)))).kept := by
      split at hb2
      · exact hb2
      · exact (mem_cut.1 hb2).1
    have := (mem_cut.1 this).2
    simpa [List.any_eq_true] using this
  have hwe : ∃ w ∈ s.we.kept, w .ints = i .ints := by
    by_cases hall : s.we.all = true
    · have hin : i ∈ s.inn.kept := by
        rw [if_pos hall] at hi
        generalize (if (s.auto || _) = true then _ else _ : Tab S) = eng1 at hi
        split at hi
        · exact hi
        · exact (mem_cut.1 hi).1
      obtain ⟨y, hy, hyi⟩ := hw _ (kept_rows hin)
      exact ⟨y.1, all_kept hall hy, hyi⟩
    · rw [if_neg hall] at hi
      obtain ⟨w, hw, hk⟩ := keyIn_iff.1 (mem_cut.1 hi).2
      exact ⟨w, hw, by simpa using hk⟩
  obtain ⟨w, hwk, hwi⟩ := hwe
  have hki' : i .inhid = b .inhid := by simpa using hki
  refine ⟨b, i, w, e₁, e₂, hb, hi, ?_, he₁, he₂, ?_⟩
  · rw [mem_cut]
    exact ⟨hwk, keyIn_iff.2 ⟨i, hi, by simp [hwi]⟩⟩
  · simp only [List.map_cons, List.map_nil, List.cons.injEq, and_true] at hk₁ hk₂
    exact ⟨by simpa using hbr, hki', hwi, hk₁.1, hk₁.2, hk₂.1, hk₂.2, hfile⟩

/-- If everything that belongs to a spectrum is kept before, all of it stays. -/
theorem update_whole {s : St S} {r b i w e₁ e₂ : Row S} (hr : r ∈ s.sp.kept) (hb : b ∈ s.bl.kept) (hi : i ∈ s.inn.kept)
    (hw : w ∈ s.we.kept) (h₁ : e₁ ∈ s.eng.kept) (h₂ : e₂ ∈ s.eng.kept) (h : Parts s r b i w e₁ e₂) :
    r ∈ (updateFilter s).sp.kept ∧ b ∈ (updateFilter s).bl.kept ∧ i ∈ (updateFilter s).inn.kept ∧
      w ∈ (updateFilter s).we.kept ∧ e₁ ∈ (updateFilter s).eng.kept ∧ e₂ ∈ (updateFilter s).eng.kept := by
  simp only [updateFilter, setMask_and]
  generalize hbl1 : (if s.cross = true then s.bl.cut (fun b => (b .inhid).any (fun v => decide (v ∈ s.fileInts))) else s.bl) = bl1
  have hb1 : b ∈ bl1.kept := by
    rw [← hbl1]
    by_cases hc : s.cross = true
    · rw [if_pos hc, mem_cut]
      refine ⟨hb, ?_⟩
      simpa [List.any_eq_true] using h.file hc
    · rw [if_neg hc]; exact hb
  generalize hbl2 : (if s.sp.all = true then bl1 else bl1.cut (keyIn [.blhid] s.sp.kept [.blhid])) = bl2
  have hb2 : b ∈ bl2.kept := by
    rw [← hbl2]
    by_cases hc : s.sp.all = true
    · rw [if_pos hc]; exact hb1
    · rw [if_neg hc, mem_cut]
      exact ⟨hb1, keyIn_iff.2 ⟨r, hr, by simp [h.blhid]⟩⟩
  generalize heng : (if (s.auto || !bl2.all) = true then
      s.eng.cut (fun e => keyIn [.antenna, .inhid] bl2.kept [.iant1, .inhid] e ||
        keyIn [.antenna, .inhid] bl2.kept [.iant2, .inhid] e ||
        (s.auto && keyIn [.antenna, .inhid] s.ac.kept [.antenna, .inhid] e)) else s.eng) = eng1
  have he1 : e₁ ∈ eng1.kept := by
    rw [← heng]
    by_cases hc : (s.auto || !bl2.all) = true
    · rw [if_pos hc, mem_cut]
      refine ⟨h₁, ?_⟩
      have : keyIn [.antenna, .inhid] bl2.kept [.iant1, .inhid] e₁ = true :=
        keyIn_iff.2 ⟨b, hb2, by simp [h.ant₁, h.int₁]⟩
      rw [this]; rfl
    · rw [if_neg hc]; exact h₁
  have he2 : e₂ ∈ eng1.kept := by
    rw [← heng]
    by_cases hc : (s.auto || !bl2.all) = true
    · rw [if_pos hc, mem_cut]
      refine ⟨h₂, ?_⟩
      have : keyIn [.antenna, .inhid] bl2.kept [.iant2, .inhid] e₂ = true :=
        keyIn_iff.2 ⟨b, hb2, by simp [h.ant₂, h.int₂]⟩
      rw [this, Bool.or_true]; rfl
    · rw [if_neg hc]; exact h₂
  generalize hin1 : (if eng1.all = true then s.inn else s.inn.cut (keyIn [.inhid] eng1.kept [.inhid])) = in1
  have hi1 : i ∈ in1.kept := by
    rw [← hin1]
    by_cases hc : eng1.all = true
    · rw [if_pos hc]; exact hi
    · rw [if_neg hc, mem_cut]
      exact ⟨hi, keyIn_iff.2 ⟨e₁, he1, by simp [h.int₁, h.inhid]⟩⟩
  generalize hin2 : (if s.we.all = true then in1 else in1.cut (keyIn [.ints] s.we.kept [.ints])) = in2
  have hi2 : i ∈ in2.kept := by
    rw [← hin2]
    by_cases hc : s.we.all = true
    · rw [if_pos hc]; exact hi1
    · rw [if_neg hc, mem_cut]
      exact ⟨hi1, keyIn_iff.2 ⟨w, hw, by simp [h.ints]⟩⟩
  have hb4 : b ∈ ((bl2.cut (keyIn [.inhid] in2.kept [.inhid])).cut (fun b => keyIn [.iant1, .inhid] eng1.kept [.antenna, .inhid] b &&
      keyIn [.iant2, .inhid] eng1.kept [.antenna, .inhid] b)).kept := by
    rw [mem_cut, mem_cut, Bool.and_eq_true]
    exact ⟨⟨hb2, keyIn_iff.2 ⟨i, hi2, by simp [h.inhid]⟩⟩, keyIn_iff.2 ⟨e₁, he1, by simp [h.ant₁, h.int₁]⟩,
      keyIn_iff.2 ⟨e₂, he2, by simp [h.ant₂, h.int₂]⟩⟩
  refine ⟨?_, hb4, hi2, ?_, he1, he2⟩
  · rw [mem_cut]
    exact ⟨hr, keyIn_iff.2 ⟨b, hb4, by simp [h.blhid]⟩⟩
  · rw [mem_cut]
    exact ⟨hw, keyIn_iff.2 ⟨i, hi2, by simp [h.ints]⟩⟩

theorem update_sp (s : St S) : ∃ p, (updateFilter s).sp = s.sp.cut p := by
  simp only [updateFilter, setMask_and]
  exact ⟨_, rfl⟩

end Verif.MirSel
