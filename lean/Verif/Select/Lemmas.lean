import Verif.Select.Spec

namespace Verif.Select
open Verif.Np Verif.TimeSel
open Verif.Pol (Str)

variable {K D R C : Type} [Field K] [LinearOrder K]

theorem bind_ok {ε α β : Type} {x : Except ε α} {f : α → Except ε β} {r : β} :
    (x >>= f) = .ok r ↔ ∃ a, x = .ok a ∧ f a = .ok r := by
  cases x with
  | error e => simp [bind, Except.bind]
  | ok a => simp [bind, Except.bind]

theorem map_ok {ε α β : Type} {x : Except ε α} {f : α → β} {r : β} : x.map f = .ok r ↔ ∃ a, x = .ok a ∧ r = f a := by
  cases x with
  | error e => simp [Except.map]
  | ok a => simp [Except.map, eq_comm]

theorem mapM_ok {ε α β : Type} {f : α → Except ε β} : ∀ {l : List α} {r : List β}, l.mapM f = .ok r →
    List.Forall₂ (fun a b => f a = .ok b) l r
  | [], r, h => by
    simp [pure, Except.pure] at h
    subst h; exact .nil
  | a :: l, r, h => by
    rw [List.mapM_cons, bind_ok] at h
    obtain ⟨b, hb, h⟩ := h
    rw [bind_ok] at h
    obtain ⟨bs, hbs, h⟩ := h
    simp [pure, Except.pure] at h
    subst h
    exact .cons hb (mapM_ok hbs)

theorem forall₂_mem_left {α β : Type} {R : α → β → Prop} : ∀ {l : List α} {m : List β}, List.Forall₂ R l m →
    ∀ a ∈ l, ∃ b ∈ m, R a b
  | _, _, .nil, a, h => by simp at h
  | _, _, .cons hab h, a, ha => by
    rcases List.mem_cons.1 ha with rfl | ha
    · exact ⟨_, by simp, hab⟩
    · obtain ⟨b, hb, h'⟩ := forall₂_mem_left h a ha
      exact ⟨b, by simp [hb], h'⟩

theorem forall₂_mem_right {α β : Type} {R : α → β → Prop} : ∀ {l : List α} {m : List β}, List.Forall₂ R l m →
    ∀ b ∈ m, ∃ a ∈ l, R a b
  | _, _, .nil, a, h => by simp at h
  | _, _, .cons hab h, a, ha => by
    rcases List.mem_cons.1 ha with rfl | ha
    · exact ⟨_, by simp, hab⟩
    · obtain ⟨b, hb, h'⟩ := forall₂_mem_right h a ha
      exact ⟨b, by simp [hb], h'⟩

theorem mem_wh {α : Type} {p : α → Bool} {l : List α} {j : Int} :
    j ∈ wh p l ↔ ∃ (i : Nat) (x : α), j = (i : Int) ∧ l[i]? = some x ∧ p x = true := by
  unfold wh
  rw [List.mem_map]
  constructor
  · rintro ⟨i, hi, rfl⟩
    obtain ⟨x, hx, hp⟩ := mem_whereIdx.1 hi
    exact ⟨i, x, rfl, hx, hp⟩
  · rintro ⟨i, x, rfl, hx, hp⟩
    exact ⟨i, mem_whereIdx.2 ⟨x, hx, hp⟩, rfl⟩

/-- An array that is a column of the rows. -/
theorem mem_wh_col {α β : Type} (f : β → α) (p : α → Bool) (rows : List β) (i : Nat) :
    (i : Int) ∈ wh p (rows.map f) ↔ ∃ r, rows[i]? = some r ∧ p (f r) = true := by
  rw [mem_wh]
  constructor
  · rintro ⟨j, x, hj, hx, hp⟩
    have : i = j := by exact_mod_cast hj
    subst this
    rw [List.getElem?_map, Option.map_eq_some_iff] at hx
    obtain ⟨r, hr, rfl⟩ := hx
    exact ⟨r, hr, hp⟩
  · rintro ⟨r, hr, hp⟩
    exact ⟨i, f r, rfl, by rw [List.getElem?_map, hr]; rfl, hp⟩

theorem wh_nonneg {α : Type} {p : α → Bool} {l : List α} {j : Int} (h : j ∈ wh p l) : ∃ i : Nat, j = i ∧ i < l.length := by
  obtain ⟨i, x, rfl, hx, _⟩ := mem_wh.1 h
  exact ⟨i, rfl, (List.getElem?_eq_some_iff.1 hx).1⟩

theorem mem_join {inds : Option (List Int)} {more : List Int} {i : Int} :
    i ∈ join inds more ↔ (∀ l, inds = some l → i ∈ l) ∧ i ∈ more := by
  cases inds with
  | none => simp [join]
  | some l => simp [join]

theorem mem_wh2 (o : Obj K D R C) (rows : List (Row K D R)) (ht : IsTable o rows) (p : Int → Int → Bool) (i : Nat) :
    (i : Int) ∈ wh2 o p ↔ ∃ r, rows[i]? = some r ∧ p r.ant1 r.ant2 = true := by
  unfold wh2
  rw [ht.ant1, ht.ant2]
  have : (rows.map (·.ant1)).zip (rows.map (·.ant2)) = rows.map (fun r => (r.ant1, r.ant2)) := by
    rw [List.zip_map']
  rw [this, mem_wh_col]

/-- `wh2` has only positions of rows. -/
theorem wh2_pos {o : Obj K D R C} {rows : List (Row K D R)} (ht : IsTable o rows) {p : Int → Int → Bool} {j : Int}
    (h : j ∈ wh2 o p) : ∃ i : Nat, j = i ∧ i < rows.length := by
  obtain ⟨i, hi, hl⟩ := wh_nonneg h
  refine ⟨i, hi, ?_⟩
  rw [List.length_zip, ht.ant1] at hl
  simp at hl
  omega

end Verif.Select
