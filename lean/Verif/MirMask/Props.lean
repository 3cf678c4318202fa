import Verif.MirMask.Model

/-! # C225: stored masks of MIR objects -/
set_option linter.unusedSectionVars false

namespace Verif.MirMask

/-! ### Specification -/

/-- A step that does not store other masks under the name. -/
def Keeps (name : String) : Op → Prop
  | .save n w => n = name → w = false
  | _ => True

/-- The update of masks keeps the tables. -/
def KeepsNames (update : Tables → Tables) : Prop := ∀ t, (update t).map Prod.fst = t.map Prod.fst

variable {update : Tables → Tables} {o o' : Obj} {name : String}

/-! ### Steps -/

theorem lookup_put {α : Type} (d : List (String × α)) (k : String) (v : α) (n : String) :
    (put d k v).lookup n = if n = k then some v else d.lookup n := by
  unfold put
  induction d with
  | nil =>
    by_cases h : n = k
    · subst h; simp
    · have : (n == k) = false := by simpa using h
      simp [List.lookup, this, h]
  | cons e d ih =>
    obtain ⟨a, b⟩ := e
    by_cases ha : a = k
    · subst ha
      rw [List.filter_cons_of_neg (by simp), ih]
      by_cases h : n = a
      · simp [h]
      · have : (n == a) = false := by simpa using h
        simp [h, List.lookup_cons, this]
    · rw [List.filter_cons_of_pos (by simpa using ha), List.cons_append, List.lookup_cons, List.lookup_cons, ih]
      by_cases h : n = a
      · subst h
        simp [ha]
      · have : (n == a) = false := by simpa using h
        simp [this]

theorem save_ok {w : Bool} (h : save o name w = .ok o') : o'.tables = o.tables ∧ o'.stored = put o.stored name o.tables ∧
    ((o.stored.lookup name).isSome = true → w = true) := by
  unfold save at h
  split at h
  · simp at h
  · rename_i hc
    simp only [Except.ok.injEq] at h
    subst h
    refine ⟨rfl, rfl, fun hs => ?_⟩
    simpa [hs] using hc

theorem fill_eq {saved : Tables} : ∀ {t : Tables}, saved.map Prod.fst = t.map Prod.fst → (saved.map Prod.fst).Nodup →
    fill saved t = some saved := by
  have key : ∀ (t rest : Tables) (full : Tables), rest.map Prod.fst = t.map Prod.fst →
      (∀ e ∈ rest, full.lookup e.1 = some e.2) → fill full t = some rest := by
    intro t
    induction t with
    | nil => intro rest full h _; simp at h; subst h; rfl
    | cons e t ih =>
      intro rest full h hl
      obtain ⟨n, m⟩ := e
      cases rest with
      | nil => simp at h
      | cons r rest =>
        obtain ⟨n', m'⟩ := r
        simp only [List.map_cons, List.cons.injEq] at h
        obtain ⟨rfl, h⟩ := h
        have h1 : full.lookup n' = some m' := hl (n', m') (by simp)
        have h2 := ih rest full h fun e he => hl e (by simp [he])
        simp [fill, h1, h2]
  intro t h hn
  refine key t saved saved h ?_
  clear h
  induction saved with
  | nil => simp
  | cons e s ih =>
    intro x hx
    simp only [List.map_cons, List.nodup_cons] at hn
    obtain ⟨n, m⟩ := e
    rcases List.mem_cons.1 hx with rfl | hx
    · simp
    · have : x.1 ≠ n := fun he => hn.1 (List.mem_map.2 ⟨x, hx, he⟩)
      have h' : (x.1 == n) = false := by simpa using this
      rw [List.lookup_cons, h']
      exact ih hn.2 x hx

theorem fill_names {saved : Tables} : ∀ {t r : Tables}, fill saved t = some r → r.map Prod.fst = t.map Prod.fst
  | [], r, h => by simp [fill] at h; subst h; rfl
  | (n, m) :: t, r, h => by
    simp only [fill] at h
    split at h
    · simp at h
    · split at h
      · simp at h
      · rename_i hr
        simp only [Option.some.injEq] at h
        subst h
        simp [fill_names hr]

/-- The masks under the name, and the names of tables, are kept by steps that do not store others. -/
theorem step_keeps (hu : KeepsNames update) {op : Op} (hk : Keeps name op) {t : Tables} (h : o.stored.lookup name = some t) :
    (step update o op).stored.lookup name = some t ∧ (step update o op).tables.map Prod.fst = o.tables.map Prod.fst := by
  cases op with
  | save n w =>
    simp only [step]
    cases hs : save o n w with
    | error e => exact ⟨h, rfl⟩
    | ok o' =>
      obtain ⟨h1, h2, h3⟩ := save_ok hs
      dsimp only
      refine ⟨?_, by rw [h1]⟩
      rw [h2, lookup_put]
      split
      · rename_i he
        have := h3 (by rw [← he, h]; rfl)
        have hf := hk he.symm
        rw [this] at hf
        simp at hf
      · exact h
  | restore n u =>
    simp only [step]
    cases hs : restore update o n u with
    | error e => exact ⟨h, rfl⟩
    | ok o' =>
      unfold restore at hs
      split at hs
      · simp at hs
      · split at hs
        · simp at hs
        · split at hs
          · simp at hs
          · rename_i t' hf
            simp only [Except.ok.injEq] at hs
            subst hs
            refine ⟨h, ?_⟩
            dsimp only
            split
            · rw [hu, fill_names hf]
            · exact fill_names hf
  | change g => exact ⟨h, by simp [step]⟩

theorem run_keeps (hu : KeepsNames update) : ∀ (ops : List Op) {o : Obj} {t : Tables}, (∀ op ∈ ops, Keeps name op) →
    o.stored.lookup name = some t →
    (run update o ops).stored.lookup name = some t ∧ (run update o ops).tables.map Prod.fst = o.tables.map Prod.fst
  | [], _, _, _, h => ⟨h, rfl⟩
  | op :: ops, o, t, hk, h => by
    obtain ⟨h1, h2⟩ := step_keeps hu (hk op (by simp)) h
    obtain ⟨h3, h4⟩ := run_keeps hu ops (o := step update o op) (fun x hx => hk x (by simp [hx])) h1
    exact ⟨h3, h4.trans h2⟩

theorem restore_eq {t : Tables} {u : Bool} (h : o.stored.lookup name = some t) (hn : t.map Prod.fst = o.tables.map Prod.fst)
    (hd : (t.map Prod.fst).Nodup) :
    restore update o name u = .ok { o with tables := if u then update t else t } := by
  have hne : o.stored ≠ [] := fun he => by rw [he] at h; simp at h
  simp [restore, hne, h, fill_eq hn hd]

/-! ### Theorems -/

/-- **C225.** Masks that have been stored are restored, whatever has been done to the masks since then. -/
theorem restored_partial (hu : KeepsNames update) (hd : (o.tables.map Prod.fst).Nodup) {w : Bool} (hs : save o name w = .ok o')
    (ops : List Op) (hk : ∀ op ∈ ops, Keeps name op) :
    (∃ r, restore update (run update o' ops) name false = .ok r ∧ r.tables = o.tables) ∧
      ∃ r, restore update (run update o' ops) name true = .ok r ∧ r.tables = update o.tables := by
  obtain ⟨h1, h2, _⟩ := save_ok hs
  have hl : o'.stored.lookup name = some o.tables := by rw [h2, lookup_put, if_pos rfl]
  obtain ⟨h3, h4⟩ := run_keeps hu ops hk hl
  have hn : o.tables.map Prod.fst = (run update o' ops).tables.map Prod.fst := by rw [h4, h1]
  exact ⟨⟨_, restore_eq h3 hn hd, rfl⟩, ⟨_, restore_eq h3 hn hd, rfl⟩⟩

/-- **C225.** Storing fails exactly if there are masks of this name that are not to be overwritten; masks of other names, and the
masks of the object, stay as they are. -/
theorem save_spec (w : Bool) :
    (save o name w = .error .exists_ ↔ (∃ t, o.stored.lookup name = some t) ∧ w = false) ∧
      ∀ o', save o name w = .ok o' → o'.tables = o.tables ∧ ∀ n, n ≠ name → o'.stored.lookup n = o.stored.lookup n := by
  constructor
  · unfold save
    cases hl : o.stored.lookup name with
    | none => simp
    | some t => cases w <;> simp
  · intro o' h
    obtain ⟨h1, h2, _⟩ := save_ok h
    exact ⟨h1, fun n hn => by rw [h2, lookup_put, if_neg hn]⟩

/-- **C225.** Nothing is restored under names that have no masks. -/
theorem restore_unknown (u : Bool) (h : o.stored.lookup name = none) :
    ∃ e, restore update o name u = .error e := by
  unfold restore
  rw [h]
  dsimp only
  split
  · exact ⟨_, rfl⟩
  · exact ⟨_, rfl⟩

/-- **C225 is false** if another file is read into the object.  The masks of the first file are still there, and are restored for the
tables of the other one, however many rows these have, unless auto-correlations have been left out now and not before. -/
theorem read_counterexample (hd : (o.tables.map Prod.fst).Nodup) {w : Bool} (hs : save o name w = .ok o') {new : Tables}
    {auto : Bool} (hn : o.tables.map Prod.fst = new.map Prod.fst) (ha : auto = true ∨ "ac_data" ∉ o.tables.map Prod.fst) :
    ∃ r, restore update (read o' new auto) name false = .ok r ∧ r.tables = o.tables := by
  obtain ⟨h1, h2, _⟩ := save_ok hs
  have hl : o'.stored.lookup name = some o.tables := by rw [h2, lookup_put, if_pos rfl]
  have hr : read o' new auto = { o' with tables := new } := by
    unfold read
    dsimp only
    rcases ha with rfl | ha
    · rfl
    · have : o'.tables.lookup "ac_data" = none := by
        rw [h1, List.lookup_eq_none_iff]
        intro p hp
        simp only [ne_eq, bne_iff_ne]
        exact fun he => ha (by rw [he]; exact List.mem_map_of_mem hp)
      cases auto
      · simp [clearAuto, this]
      · rfl
  rw [hr]
  exact ⟨_, restore_eq hl hn hd, rfl⟩

/-- Stored masks are forgotten if auto-correlations are left out that were there before. -/
theorem read_clears (new : Tables) (h : "ac_data" ∈ o.tables.map Prod.fst) : (read o new false).stored = [] := by
  have : (o.tables.lookup "ac_data").isSome = true := by
    rw [Option.isSome_iff_ne_none, ne_eq, List.lookup_eq_none_iff]
    intro hc
    obtain ⟨p, hp, he⟩ := List.mem_map.1 h
    have := hc p hp
    simp [he] at this
  simp [read, clearAuto, this]

end Verif.MirMask
