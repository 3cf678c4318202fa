import Verif.FlexPol.Model
import Mathlib.Data.List.Nodup
import Mathlib.Data.List.GetD
import Mathlib.Algebra.BigOperators.Group.List.Lemmas

/-! Facts about lists of channels used for the conversions of polarizations. -/
namespace Verif.FlexPol
open Verif.Np Verif.FreqSort

variable {α β : Type}

section
variable [DecidableEq α] [DecidableEq β]

theorem firsts_nil : firsts ([] : List α) = [] := by simp [firsts]

theorem firsts_concat (l : List α) (a : α) : firsts (l ++ [a]) = if a ∈ l then firsts l else firsts l ++ [a] := by
  unfold firsts
  rw [List.reverse_append]
  simp only [List.reverse_cons, List.reverse_nil, List.nil_append, List.singleton_append]
  by_cases h : a ∈ l
  · rw [List.dedup_cons_of_mem (by simpa using h), if_pos h]
  · rw [List.dedup_cons_of_notMem (by simpa using h), if_neg h]; simp

theorem mem_firsts {l : List α} {a : α} : a ∈ firsts l ↔ a ∈ l := by unfold firsts; simp

theorem firsts_nodup (l : List α) : (firsts l).Nodup := by
  unfold firsts; rw [List.nodup_reverse]; exact List.nodup_dedup _

theorem firsts_of_nodup {l : List α} (h : l.Nodup) : firsts l = l := by
  unfold firsts; rw [(List.nodup_reverse.2 h).dedup]; simp

/-- Repeating what is there already changes nothing. -/
theorem firsts_append_of_subset (a : List α) : ∀ b : List α, (∀ x ∈ b, x ∈ a) → firsts (a ++ b) = firsts a := by
  intro b
  induction b using List.reverseRecOn with
  | nil => intro; simp
  | append_singleton b x ih =>
    intro h
    rw [← List.append_assoc, firsts_concat, if_pos (by
      rw [List.mem_append]; exact Or.inl (h x (by simp))), ih (fun y hy => h y (by simp [hy]))]

theorem firsts_append_of_disjoint (a : List α) : ∀ b : List α, (∀ x ∈ b, x ∉ a) → firsts (a ++ b) = firsts a ++ firsts b := by
  intro b
  induction b using List.reverseRecOn with
  | nil => intro; simp [firsts]
  | append_singleton b x ih =>
    intro h
    have hx : x ∉ a := h x (by simp)
    have ihb := ih (fun y hy => h y (by simp [hy]))
    rw [← List.append_assoc, firsts_concat, firsts_concat]
    by_cases hb : x ∈ b
    · rw [if_pos (by simp [hb]), if_pos hb, ihb]
    · rw [if_neg (by simp [hb, hx]), if_neg hb, ihb, List.append_assoc]

theorem firsts_map (g : α → β) : ∀ l : List α, (∀ x ∈ l, ∀ y ∈ l, g x = g y → x = y) → firsts (l.map g) = (firsts l).map g := by
  intro l
  induction l using List.reverseRecOn with
  | nil => intro; simp [firsts]
  | append_singleton l x ih =>
    intro h
    have ihl := ih (fun a ha b hb => h a (by simp [ha]) b (by simp [hb]))
    rw [List.map_append, List.map_singleton, firsts_concat, firsts_concat, ihl]
    by_cases hx : x ∈ l
    · rw [if_pos (List.mem_map_of_mem hx), if_pos hx]
    · rw [if_neg, if_neg hx]
      · simp
      · intro hm
        obtain ⟨y, hy, he⟩ := List.mem_map.1 hm
        exact hx (h y (by simp [hy]) x (by simp) he ▸ hy)

/-- Copies of one list under functions with separate values. -/
theorem firsts_flatMap (l : List α) (W : Nat → α → β) : ∀ n : Nat,
    (∀ p < n, ∀ q < n, ∀ x ∈ l, ∀ y ∈ l, W p x = W q y → p = q ∧ x = y) →
    firsts ((List.range n).flatMap (fun p => l.map (W p))) = (List.range n).flatMap (fun p => (firsts l).map (W p)) := by
  intro n
  induction n with
  | zero => intro; simp [firsts]
  | succ n ih =>
    intro h
    have ihn := ih (fun p hp q hq => h p (by omega) q (by omega))
    rw [List.range_succ, List.flatMap_append, List.flatMap_append, firsts_append_of_disjoint, ihn]
    · simp only [List.flatMap_cons, List.flatMap_nil, List.append_nil]
      rw [firsts_map]
      intro x hx y hy he
      exact (h n (by omega) n (by omega) x hx y hy he).2
    · intro x hx hx'
      simp only [List.flatMap_cons, List.flatMap_nil, List.append_nil, List.mem_map] at hx
      simp only [List.mem_flatMap, List.mem_range, List.mem_map] at hx'
      obtain ⟨y, hy, rfl⟩ := hx
      obtain ⟨p, hp, z, hz, he⟩ := hx'
      have := (h p (by omega) n (by omega) z hz y hy he).1
      omega

end

/-! ### Channels of a window -/

theorem ofWin_nil (s : Int) : ofWin [] ([] : List α) s = [] := by simp [ofWin]

theorem ofWin_cons (i : Int) (ids : List Int) (x : α) (xs : List α) (s : Int) :
    ofWin (i :: ids) (x :: xs) s = if i = s then x :: ofWin ids xs s else ofWin ids xs s := by
  unfold ofWin
  by_cases h : i = s <;> simp [h]

theorem ofWin_append (a b : List Int) (xs ys : List α) (h : a.length = xs.length) (s : Int) :
    ofWin (a ++ b) (xs ++ ys) s = ofWin a xs s ++ ofWin b ys s := by
  unfold ofWin
  rw [List.zip_append h]; simp

theorem ofWin_map_inj (g : Int → Int) (s : Int) : ∀ (ids : List Int) (xs : List α), (∀ x ∈ ids, g x = g s → x = s) →
    ofWin (ids.map g) xs (g s) = ofWin ids xs s := by
  intro ids
  induction ids with
  | nil => intro xs _; simp [ofWin]
  | cons i ids ih =>
    intro xs h
    cases xs with
    | nil => simp [ofWin]
    | cons x xs =>
      rw [List.map_cons, ofWin_cons, ofWin_cons, ih xs (fun y hy => h y (by simp [hy]))]
      by_cases hi : i = s
      · simp [hi]
      · rw [if_neg hi, if_neg (fun he => hi (h i (by simp) he))]

theorem ofWin_notMem (s : Int) : ∀ (ids : List Int) (xs : List α), s ∉ ids → ofWin ids xs s = [] := by
  intro ids
  induction ids with
  | nil => intro xs _; simp [ofWin]
  | cons i ids ih =>
    intro xs h
    cases xs with
    | nil => simp [ofWin]
    | cons x xs =>
      rw [ofWin_cons, if_neg (by rintro rfl; simp at h), ih xs (fun hm => h (by simp [hm]))]

theorem ofWin_length (s : Int) : ∀ (ids : List Int) (xs : List α), ids.length = xs.length → (ofWin ids xs s).length = ids.count s := by
  intro ids
  induction ids with
  | nil => intro xs _; simp [ofWin]
  | cons i ids ih =>
    intro xs h
    cases xs with
    | nil => simp at h
    | cons x xs =>
      have h' : ids.length = xs.length := by simpa using h
      rw [ofWin_cons, List.count_cons]
      by_cases hi : i = s
      · simp [hi, ih xs h']
      · simp [hi, ih xs h']

/-- Copies of the channels under functions with separate values: the channels of a window are those of the window it copies. -/
theorem ofWin_flatMap (ids : List Int) (xs : List α) (hl : ids.length = xs.length) (W : Nat → Int → Int) (s : Int) (hs : s ∈ ids) (p : Nat) :
    ∀ n : Nat, (∀ a < n, ∀ b < n, ∀ x ∈ ids, ∀ y ∈ ids, W a x = W b y → a = b ∧ x = y) → p < n →
    ofWin ((List.range n).flatMap (fun a => ids.map (W a))) ((List.replicate n xs).flatten) (W p s) = ofWin ids xs s := by
  intro n h hp
  have key : ∀ m ≤ n, ofWin ((List.range m).flatMap (fun a => ids.map (W a))) ((List.replicate m xs).flatten) (W p s)
      = if p < m then ofWin ids xs s else [] := by
    intro m
    induction m with
    | zero => intro; simp [ofWin]
    | succ m ih =>
      intro hm
      rw [List.range_succ, List.flatMap_append, List.replicate_succ', List.flatten_concat,
        ofWin_append _ _ _ _ (by simp [hl]), ih (by omega)]
      simp only [List.flatMap_cons, List.flatMap_nil, List.append_nil]
      by_cases hpm : p = m
      · subst hpm
        rw [if_neg (by omega), if_pos (by omega), List.nil_append, ofWin_map_inj]
        intro x hx he
        exact (h p (by omega) p (by omega) x hx s hs he).2
      · rw [ofWin_notMem _ (ids.map (W m))]
        · by_cases hlt : p < m
          · rw [if_pos hlt, if_pos (by omega), List.append_nil]
          · rw [if_neg hlt, if_neg (by omega), List.append_nil]
        · intro hmem
          obtain ⟨x, hx, he⟩ := List.mem_map.1 hmem
          exact hpm (h m (by omega) p (by omega) x hx s hs he).1.symm
  rw [key n (le_refl n), if_pos hp]

/-- Two lists with the same labels and the same values per label are equal. -/
theorem ofWin_ext : ∀ (ids : List Int) (xs ys : List α), ids.length = xs.length → ids.length = ys.length →
    (∀ s ∈ ids, ofWin ids xs s = ofWin ids ys s) → xs = ys := by
  intro ids
  induction ids with
  | nil => intro xs ys h h' _; cases xs <;> cases ys <;> simp_all
  | cons i ids ih =>
    intro xs ys hx hy h
    cases xs with
    | nil => simp at hx
    | cons x xs =>
      cases ys with
      | nil => simp at hy
      | cons y ys =>
        have h0 := h i (by simp)
        rw [ofWin_cons, ofWin_cons, if_pos rfl, if_pos rfl] at h0
        have hxy : x = y := by simpa using congrArg List.head? h0
        have ht : ofWin ids xs i = ofWin ids ys i := by simpa using congrArg List.tail h0
        rw [hxy, ih xs ys (by simpa using hx) (by simpa using hy)]
        intro s hs
        by_cases hsi : i = s
        · rw [← hsi]; exact ht
        · have := h s (by simp [hs])
          rwa [ofWin_cons, ofWin_cons, if_neg hsi, if_neg hsi] at this

/-- Values per label, label by label, are all the values. -/
theorem ofWin_sum (ids : List Int) (xs : List α) (hl : ids.length = xs.length) (l : List Int) (hn : l.Nodup) (hm : ∀ s, s ∈ l ↔ s ∈ ids) :
    (l.map (fun s => (ofWin ids xs s).length)).sum = ids.length := by
  have e : l.map (fun s => (ofWin ids xs s).length) = l.map (fun s => ids.count s) :=
    List.map_congr_left (fun s _ => ofWin_length s ids xs hl)
  rw [e, ← List.sum_map_count_dedup_eq_length ids]
  exact ((List.perm_ext_iff_of_nodup hn (List.nodup_dedup _)).2 (fun s => by rw [hm, List.mem_dedup])).map _ |>.sum_eq

/-! ### Arrays in memory order -/

theorem reshapeF_flat {V : Type} (n0 n1 m : Nat) (a : Nat → Nat → Nat → V) {i f p : Nat} (hi : i < n0) (hf : f < n1) :
    reshapeF n0 n1 n0 m a i (f + n1 * p) 0 = a i f p := by
  unfold reshapeF
  have h0 : 0 < n0 := by omega
  have h1 : 0 < n1 := by omega
  simp only [Nat.mul_zero, Nat.add_zero]
  rw [Nat.add_mul_mod_self_left, Nat.mod_eq_of_lt hi, Nat.add_mul_div_left _ _ h0, Nat.div_eq_of_lt hi, Nat.zero_add,
    Nat.add_mul_mod_self_left, Nat.mod_eq_of_lt hf, Nat.add_mul_div_left _ _ h1, Nat.div_eq_of_lt hf, Nat.zero_add]

theorem reshapeF_unflat {V : Type} (n0 n1 n : Nat) (a : Nat → Nat → Nat → V) {i f p : Nat} (hi : i < n0) (hf : f < n1) (hp : p < n) :
    reshapeF n0 (n1 * n) n0 n1 a i f p = a i (f + n1 * p) 0 := by
  unfold reshapeF
  have h0 : 0 < n0 := by omega
  have hlt : f + n1 * p < n1 * n := by
    have : n1 * (p + 1) ≤ n1 * n := Nat.mul_le_mul_left _ hp
    rw [Nat.mul_add] at this; omega
  simp only
  rw [Nat.add_mul_mod_self_left, Nat.mod_eq_of_lt hi, Nat.add_mul_div_left _ _ h0, Nat.div_eq_of_lt hi, Nat.zero_add,
    Nat.mod_eq_of_lt hlt, Nat.div_eq_of_lt hlt]

end Verif.FlexPol
