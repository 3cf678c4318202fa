import Verif.ReadSel.Props

/-! # Reading several files -/

namespace Verif.ReadSel

variable {V F A D R : Type}

/-! ## Adding in rounds -/

theorem round_sum {add : D → D → Except Err D} : ∀ {l l' : List D}, round add l = .ok l' →
    ∃ ls : List (List D), ls.flatten = l ∧ List.Forall₂ (Sum add) ls l' ∧ l'.length ≤ l.length ∧
      (2 ≤ l.length → l'.length < l.length) ∧ (l ≠ [] → l' ≠ [])
  | [], l', h => by
    simp only [round] at h
    cases h
    exact ⟨[], rfl, .nil, le_refl _, by simp, by simp⟩
  | [a], l', h => by
    simp only [round] at h
    cases h
    exact ⟨[[a]], rfl, .cons (.one a) .nil, le_refl _, by simp, by simp⟩
  | a :: b :: l, l', h => by
    simp only [round] at h
    cases hadd : add a b with
    | error e => rw [hadd] at h; cases h
    | ok c =>
      rw [hadd] at h
      dsimp only at h
      cases hr : round add l with
      | error e => rw [hr] at h; cases h
      | ok m =>
        rw [hr] at h
        dsimp only at h
        cases h
        obtain ⟨ls, e1, e2, e3, _⟩ := round_sum hr
        refine ⟨([a] ++ [b]) :: ls, by simp [e1], .cons (.join (.one a) (.one b) hadd) e2, ?_, ?_, ?_⟩
        · simp only [List.length_cons]; omega
        · simp only [List.length_cons]; omega
        · simp

theorem Sum.substs {add : D → D → Except Err D} {l' : List D} {d : D} (h : Sum add l' d) :
    ∀ {ls : List (List D)}, List.Forall₂ (Sum add) ls l' → Sum add ls.flatten d := by
  induction h with
  | one a =>
    intro ls hls
    cases hls with
    | cons h1 h2 =>
      cases h2
      simpa using h1
  | join h1 h2 hadd ih1 ih2 =>
    rename_i l m a b c
    intro ls hls
    obtain ⟨l1, l2, hl1, hl2, rfl⟩ : ∃ l1 l2, List.Forall₂ (Sum add) l1 l ∧ List.Forall₂ (Sum add) l2 m ∧ ls = l1 ++ l2 := by
      refine ⟨ls.take l.length, ls.drop l.length, ?_, ?_, (List.take_append_drop _ _).symm⟩
      · have := List.forall₂_take_append ls l m hls
        exact this
      · have := List.forall₂_drop_append ls l m hls
        exact this
    rw [List.flatten_append]
    exact .join (ih1 hl1) (ih2 hl2) hadd

/-- What adding in rounds gives is a sum of all objects, each once, in their order; it always comes to an end. -/
theorem tree_sum {add : D → D → Except Err D} : ∀ (n : Nat) {l : List D} {o : Option D}, l ≠ [] → l.length ≤ n + 1 →
    tree add n l = .ok o → ∃ d, o = some d ∧ Sum add l d
  | 0, l, o, hne, hn, h => by
    match l, hne, hn, h with
    | [a], _, _, h =>
      simp only [tree] at h
      cases h
      exact ⟨a, rfl, .one a⟩
    | _ :: _ :: _, _, hn, _ => simp only [List.length_cons] at hn; omega
  | n + 1, l, o, hne, hn, h => by
    match l, hne, hn, h with
    | [a], _, _, h =>
      simp only [tree] at h
      cases h
      exact ⟨a, rfl, .one a⟩
    | a :: b :: l, _, hn, h =>
      simp only [tree] at h
      cases hr : round add (a :: b :: l) with
      | error e => rw [hr] at h; cases h
      | ok l' =>
        rw [hr] at h
        dsimp only at h
        obtain ⟨ls, e1, e2, _, e4, e5⟩ := round_sum hr
        have hlt := e4 (by simp)
        obtain ⟨d, rfl, hs⟩ := tree_sum n (e5 (by simp)) (by simp only [List.length_cons] at hn hlt; omega) h
        refine ⟨d, rfl, ?_⟩
        rw [← e1]
        exact hs.substs e2

theorem round_total {add : D → D → Except Err D} (h : ∀ a b, ∃ c, add a b = .ok c) : ∀ l, ∃ l', round add l = .ok l'
  | [] => ⟨[], rfl⟩
  | [a] => ⟨[a], rfl⟩
  | a :: b :: l => by
    obtain ⟨c, hc⟩ := h a b
    obtain ⟨l', hl⟩ := round_total h l
    exact ⟨c :: l', by simp [round, hc, hl]⟩

theorem tree_total {add : D → D → Except Err D} (h : ∀ a b, ∃ c, add a b = .ok c) : ∀ n l, ∃ o, tree add n l = .ok o
  | 0, [] => ⟨none, rfl⟩
  | 0, [a] => ⟨some a, rfl⟩
  | 0, _ :: _ :: _ => ⟨none, rfl⟩
  | _ + 1, [] => ⟨none, rfl⟩
  | _ + 1, [a] => ⟨some a, rfl⟩
  | n + 1, a :: b :: l => by
    obtain ⟨l', hl⟩ := round_total h (a :: b :: l)
    obtain ⟨o, ho⟩ := tree_total h n l'
    exact ⟨o, by simp [tree, hl, ho]⟩

/-- Without an axis the objects are added, each of them once and in the order of the files. -/
theorem merge_sum {w : World V F A D} {d d' : D} {ds : List D} (h : merge w false d ds = .ok d') : Sum w.add (d :: ds) d' := by
  unfold merge at h
  rw [if_neg (by decide)] at h
  cases ht : tree w.add (d :: ds).length (d :: ds) with
  | error e => rw [ht] at h; cases h
  | ok o =>
    obtain ⟨x, rfl, hs⟩ := tree_sum _ (by simp) (by omega) ht
    rw [ht] at h
    dsimp only at h
    cases h
    exact hs

theorem Sum.foldl {f : D → D → D} {add : D → D → Except Err D} (hadd : ∀ a b, add a b = .ok (f a b))
    (hf : ∀ a b c, f (f a b) c = f a (f b c)) {l : List D} {d : D} (h : Sum add l d) :
    ∃ a m, l = a :: m ∧ d = m.foldl f a := by
  induction h with
  | one a => exact ⟨a, [], rfl, rfl⟩
  | join h1 h2 hc ih1 ih2 =>
    obtain ⟨a, m, rfl, rfl⟩ := ih1
    obtain ⟨b, n, rfl, rfl⟩ := ih2
    refine ⟨a, m ++ b :: n, rfl, ?_⟩
    rw [hadd] at hc
    cases hc
    rw [List.foldl_append, List.foldl_cons]
    have : ∀ (n : List D) x y, f x (n.foldl f y) = n.foldl f (f x y) := by
      intro n
      induction n with
      | nil => intro x y; rfl
      | cons z n ih => intro x y; rw [List.foldl_cons, List.foldl_cons, ih, hf]
    exact this n _ _

/-- If objects can be added in any brackets, it does not matter that they are added in rounds. -/
theorem merge_fold {w : World V F A D} {f : D → D → D} (hadd : ∀ a b, w.add a b = .ok (f a b))
    (hf : ∀ a b c, f (f a b) c = f a (f b c)) (d : D) (ds : List D) : merge w false d ds = .ok (ds.foldl f d) := by
  obtain ⟨o, ho⟩ := tree_total (fun a b => ⟨_, hadd a b⟩) (d :: ds).length (d :: ds)
  obtain ⟨x, rfl, hs⟩ := tree_sum _ (by simp) (by omega) ho
  obtain ⟨a, m, e, rfl⟩ := hs.foldl hadd hf
  cases e
  unfold merge
  rw [if_neg (by decide), ho]

/-! ## Which files are read -/

/-- None of the keywords that are handed on for some of the files only. -/
def Even (r : Req V) : Prop := r .catalogNames = none ∧ r .corrchunk = none ∧ r .receivers = none ∧ r .sidebands = none

theorem even_first {r : Req V} (h : Even r) : firstReq r = r := by
  funext k
  unfold firstReq without
  split
  · rename_i hk
    rw [List.mem_singleton] at hk
    rw [hk, h.1]
  · rfl

theorem even_later {r : Req V} (h : Even r) : laterReq r = r := by
  funext k
  unfold laterReq without
  split
  · rename_i hk
    simp only [List.mem_cons, List.not_mem_nil, or_false] at hk
    rcases hk with rfl | rfl | rfl
    · exact h.2.1.symm
    · exact h.2.2.1.symm
    · exact h.2.2.2.symm
  · rfl

/-- The files that can be read. -/
def goods (g : F → Except Err D) (fs : List F) : List D := fs.filterMap (fun f => (g f).toOption)

/-- The files that cannot be read. -/
def bads (g : F → Except Err D) (fs : List F) : List F := fs.filter (fun f => (g f).toOption.isNone)

theorem others_skip {w : World V F A D} {ft : FileType} {aux : Option A} {r : Req V} : ∀ {fs : List F},
    (∀ f ∈ fs, ∀ e, readOne w ft f aux (laterReq r) = .error e → e ≠ .other) →
    others w ft true aux r fs = .ok (goods (fun f => readOne w ft f aux (laterReq r)) fs,
      bads (fun f => readOne w ft f aux (laterReq r)) fs)
  | [], _ => rfl
  | f :: fs, h => by
    have ih := others_skip (fs := fs) (fun f hf => h f (List.mem_cons_of_mem _ hf))
    unfold others
    cases hr : readOne w ft f aux (laterReq r) with
    | ok d => simp [ih, goods, bads, hr, Except.toOption]
    | error e =>
      have hc : e.caught = true := by
        have := h f List.mem_cons_self e hr
        cases e <;> simp_all [Err.caught]
      simp [ih, goods, bads, hr, Except.toOption, hc]

theorem firstGood_skip {w : World V F A D} {ft : FileType} {aux : Option A} {r : Req V} : ∀ {fs : List F} (k : Nat),
    (∀ f ∈ fs, ∀ e, readOne w ft f aux (firstReq r) = .error e → e ≠ .other) →
    (firstGood w ft true aux r fs k = .ok none ∧ goods (fun f => readOne w ft f aux (firstReq r)) fs = []) ∨
    ∃ l f m d, fs = l ++ f :: m ∧ firstGood w ft true aux r fs k = .ok (some (k + l.length, d, m)) ∧
      readOne w ft f aux (firstReq r) = .ok d ∧ goods (fun f => readOne w ft f aux (firstReq r)) l = [] 
  | [], _, _ => Or.inl ⟨rfl, rfl⟩
  | f :: fs, k, h => by
    unfold firstGood
    cases hr : readOne w ft f aux (firstReq r) with
    | ok d => exact Or.inr ⟨[], f, fs, d, rfl, rfl, hr, rfl⟩
    | error e =>
      have hc : e.caught = true := by
        have := h f List.mem_cons_self e hr
        cases e <;> simp_all [Err.caught]
      rcases firstGood_skip (fs := fs) (k + 1) (fun f hf => h f (List.mem_cons_of_mem _ hf)) with ⟨h1, h2⟩ | ⟨l, f', m, d, rfl, h1, h2, h3⟩
      · left
        refine ⟨by simp [hc, h1], ?_⟩
        unfold goods at h2 ⊢
        rw [List.filterMap_cons]
        simp only [hr, Except.toOption]
        exact h2
      · right
        refine ⟨f :: l, f', m, d, rfl, ?_, h2, ?_⟩
        · simp only [hc, Bool.and_self, if_true, h1, List.length_cons]
          have : k + 1 + l.length = k + (l.length + 1) := by omega
          rw [this]
        · unfold goods at h3 ⊢
          rw [List.filterMap_cons]
          simp only [hr, Except.toOption]
          exact h3

/-- The two conflicts of keywords. -/
def Conflict (r : Req V) : Prop :=
  (r .times ≠ none ∧ r .timeRange ≠ none) ∨ (r .antennaNums ≠ none ∧ r .antennaNames ≠ none)

theorem no_conflict {r : Req V} (h : ¬ Conflict r) : (((r .timeRange).isSome && (r .times).isSome) ||
    ((r .antennaNames).isSome && (r .antennaNums).isSome)) = false := by
  rw [Bool.eq_false_iff]
  intro hc
  apply h
  simp only [Bool.or_eq_true, Bool.and_eq_true, Option.isSome_iff_ne_none] at hc
  rcases hc with ⟨h1, h2⟩ | ⟨h1, h2⟩
  · exact Or.inl ⟨h2, h1⟩
  · exact Or.inr ⟨h2, h1⟩

/-- With `skip_bad_files` exactly the files that can be read are put together, in their order; if there is none the object stays
as it is. There is a warning exactly if a file is left out. -/
theorem many_skip_partial (w : World V F A D) {ft : FileType} (hft : ft ≠ .fhd) (axis : Bool) (fs : List F) (aux : List A)
    {r : Req V} (hr : Even r) (hc : ¬ Conflict r) (hcaught : ∀ f ∈ fs, ∀ e, readOne w ft f none r = .error e → e ≠ .other) :
    match goods (fun f => readOne w ft f none r) fs with
    | [] => readMany w ft true axis fs aux r = .ok .unread
    | d :: ds => match merge w axis d ds with
      | .error e => readMany w ft true axis fs aux r = .error e
      | .ok d' => ∃ warned, readMany w ft true axis fs aux r = .ok (.read d' warned) ∧
          (warned = [] ↔ ∀ f ∈ fs, ∃ d, readOne w ft f none r = .ok d) := by
  have ha : ∀ k, auxAt ft aux k = none := fun k => if_neg hft
  have e1 := even_first hr
  have e2 := even_later hr
  unfold readMany
  rw [no_conflict hc, if_neg (by decide), if_neg (by simp [hft])]
  rw [ha]
  rcases firstGood_skip (w := w) (ft := ft) (aux := (none : Option A)) (r := r) (fs := fs) 0 (by rw [e1]; exact hcaught) with
    ⟨h1, h2⟩ | ⟨l, f, m, d, rfl, h1, h2, h3⟩
  · rw [e1] at h2
    rw [h1, h2]
  · rw [e1] at h2 h3
    have hm := others_skip (w := w) (ft := ft) (aux := (none : Option A)) (r := r) (fs := m)
      (by rw [e2]; exact fun f hf => hcaught f (by simp [hf]))
    rw [e2] at hm
    have hg : goods (fun f => readOne w ft f none r) (l ++ f :: m) = d :: goods (fun f => readOne w ft f none r) m := by
      unfold goods at h3 ⊢
      rw [List.filterMap_append, h3, List.filterMap_cons]
      simp [h2, Except.toOption]
    rw [hg, h1]
    dsimp only
    rw [ha, hm]
    dsimp only
    cases hmg : merge w axis d (goods (fun f => readOne w ft f none r) m) with
    | error e => rfl
    | ok d' =>
      refine ⟨_, rfl, ?_⟩
      have hbad : ∀ f' ∈ l, ∃ e, readOne w ft f' none r = .error e := by
        intro f' hf'
        cases hrd : readOne w ft f' none r with
        | error e => exact ⟨e, rfl⟩
        | ok x =>
          exfalso
          have : x ∈ goods (fun f => readOne w ft f none r) l :=
            List.mem_filterMap.2 ⟨f', hf', by simp [hrd, Except.toOption]⟩
          rw [h3] at this; cases this
      constructor
      · intro hw f' hf'
        have hw' := List.append_eq_nil_iff.1 hw
        cases hrd : readOne w ft f' none r with
        | ok x => exact ⟨x, rfl⟩
        | error e =>
          exfalso
          rw [List.mem_append, List.mem_cons] at hf'
          rcases hf' with hf' | rfl | hf'
          · have hl : l ≠ [] := List.ne_nil_of_mem hf'
            obtain ⟨a, l', rfl⟩ := List.exists_cons_of_ne_nil hl
            simp [List.replicate_succ] at hw'
          · rw [h2] at hrd; cases hrd
          · have : f' ∈ bads (fun f => readOne w ft f none r) m :=
              List.mem_filter.2 ⟨hf', by simp [hrd, Except.toOption]⟩
            rw [hw'.2] at this; cases this
      · intro hall
        have hl : l = [] := by
          by_contra hl
          obtain ⟨a, ha'⟩ := List.exists_mem_of_ne_nil l hl
          obtain ⟨e, he⟩ := hbad a ha'
          obtain ⟨x, hx⟩ := hall a (by simp [ha'])
          rw [hx] at he; cases he
        subst hl
        have hb : bads (fun f => readOne w ft f none r) m = [] := by
          unfold bads
          rw [List.filter_eq_nil_iff]
          intro f' hf'
          obtain ⟨x, hx⟩ := hall f' (by simp [hf'])
          simp [hx, Except.toOption]
        simp [hb]

theorem others_strict {w : World V F A D} {ft : FileType} {aux : Option A} {r : Req V} {g : F → D} : ∀ {fs : List F},
    (∀ f ∈ fs, readOne w ft f aux (laterReq r) = .ok (g f)) → others w ft false aux r fs = .ok (fs.map g, [])
  | [], _ => rfl
  | f :: fs, h => by
    have ih := others_strict (fs := fs) (fun f hf => h f (List.mem_cons_of_mem _ hf))
    unfold others
    rw [h f List.mem_cons_self]
    simp [ih]

theorem others_error {w : World V F A D} {ft : FileType} {aux : Option A} {r : Req V} {f : F} {m : List F} {e : Err} :
    ∀ {l : List F}, (∀ f ∈ l, ∃ d, readOne w ft f aux (laterReq r) = .ok d) → readOne w ft f aux (laterReq r) = .error e →
    others w ft false aux r (l ++ f :: m) = .error e
  | [], _, h => by
    rw [List.nil_append]
    unfold others
    rw [h]
    simp
  | a :: l, hl, h => by
    have ih := others_error (m := m) (l := l) (fun f hf => hl f (List.mem_cons_of_mem _ hf)) h
    obtain ⟨d, hd⟩ := hl a List.mem_cons_self
    rw [List.cons_append]
    unfold others
    rw [hd]
    simp [ih]

/-- Without `skip_bad_files`, if all files can be read, all are put together, in their order. -/
theorem many_strict_partial (w : World V F A D) {ft : FileType} (hft : ft ≠ .fhd) (axis : Bool) (f : F) (fs : List F) (aux : List A)
    {r : Req V} (hr : Even r) (hc : ¬ Conflict r) {g : F → D} (hg : ∀ f' ∈ f :: fs, readOne w ft f' none r = .ok (g f')) :
    readMany w ft false axis (f :: fs) aux r = match merge w axis (g f) (fs.map g) with
      | .error e => .error e
      | .ok d => .ok (.read d []) := by
  have ha : ∀ k, auxAt ft aux k = none := fun k => if_neg hft
  unfold readMany
  rw [no_conflict hc, if_neg (by decide), if_neg (by simp [hft]), ha]
  have h1 : firstGood w ft false none r (f :: fs) 0 = .ok (some (0, g f, fs)) := by
    unfold firstGood
    rw [even_first hr, hg f List.mem_cons_self]
  rw [h1]
  dsimp only
  rw [ha, others_strict (g := g) (by rw [even_later hr]; exact fun f' hf' => hg f' (List.mem_cons_of_mem _ hf'))]
  rfl

/-- Without `skip_bad_files` the error of the first file that cannot be read is raised. -/
theorem many_error_partial (w : World V F A D) {ft : FileType} (hft : ft ≠ .fhd) (axis : Bool) (l : List F) (f : F) (m : List F)
    (aux : List A) {r : Req V} (hr : Even r) (hc : ¬ Conflict r) (hl : ∀ f' ∈ l, ∃ d, readOne w ft f' none r = .ok d) {e : Err}
    (he : readOne w ft f none r = .error e) : readMany w ft false axis (l ++ f :: m) aux r = .error e := by
  have ha : ∀ k, auxAt ft aux k = none := fun k => if_neg hft
  unfold readMany
  rw [no_conflict hc, if_neg (by decide), if_neg (by simp [hft]), ha]
  match l, hl with
  | [], _ =>
    have h1 : firstGood w ft false none r ([] ++ f :: m) 0 = .error e := by
      rw [List.nil_append]
      unfold firstGood
      rw [even_first hr, he]
      simp
    rw [h1]
  | a :: l, hl =>
    obtain ⟨d, hd⟩ := hl a List.mem_cons_self
    have h1 : firstGood w ft false none r (a :: l ++ f :: m) 0 = .ok (some (0, d, l ++ f :: m)) := by
      rw [List.cons_append]
      unfold firstGood
      rw [even_first hr, hd]
    rw [h1]
    dsimp only
    rw [ha, others_error (e := e) (by rw [even_later hr]; exact fun f' hf' => hl f' (List.mem_cons_of_mem _ hf'))
      (by rw [even_later hr]; exact he)]

/-- Errors of other kinds are raised even with `skip_bad_files`. -/
theorem firstGood_uncaught {w : World V F A D} {ft : FileType} {aux : Option A} {r : Req V} {f : F} {m : List F}
    (he : readOne w ft f aux (firstReq r) = .error .other) : ∀ {l : List F} (k : Nat),
    (∀ f' ∈ l, ∀ d, readOne w ft f' aux (firstReq r) ≠ .ok d) → (∀ f' ∈ l, readOne w ft f' aux (firstReq r) ≠ .error .other) →
    firstGood w ft true aux r (l ++ f :: m) k = .error .other
  | [], k, _, _ => by
    rw [List.nil_append]
    unfold firstGood
    rw [he]
    simp [Err.caught]
  | a :: l, k, h1, h2 => by
    rw [List.cons_append]
    unfold firstGood
    cases hr : readOne w ft a aux (firstReq r) with
    | ok d => exact absurd hr (h1 a List.mem_cons_self d)
    | error e =>
      have hc : e.caught = true := by
        have := h2 a List.mem_cons_self
        rw [hr] at this
        cases e <;> simp_all [Err.caught]
      simp only [hc, Bool.and_self, if_true]
      exact firstGood_uncaught he (k + 1) (fun f' hf' => h1 f' (List.mem_cons_of_mem _ hf')) (fun f' hf' => h2 f' (List.mem_cons_of_mem _ hf'))

theorem others_uncaught {w : World V F A D} {ft : FileType} {aux : Option A} {r : Req V} {f : F} {m : List F}
    (he : readOne w ft f aux (laterReq r) = .error .other) : ∀ {l : List F},
    (∀ f' ∈ l, readOne w ft f' aux (laterReq r) ≠ .error .other) → others w ft true aux r (l ++ f :: m) = .error .other
  | [], _ => by
    rw [List.nil_append]
    unfold others
    rw [he]
    simp [Err.caught]
  | a :: l, h => by
    have ih := others_uncaught (m := m) he (l := l) (fun f' hf' => h f' (List.mem_cons_of_mem _ hf'))
    rw [List.cons_append]
    unfold others
    cases hr : readOne w ft a aux (laterReq r) with
    | ok d => simp [ih]
    | error e =>
      have hc : e.caught = true := by
        have := h a List.mem_cons_self
        rw [hr] at this
        cases e <;> simp_all [Err.caught]
      simp [ih, hc]

/-- With `skip_bad_files` only errors of three kinds are passed over: another one is raised, whichever files come before. -/
theorem many_uncaught_partial (w : World V F A D) {ft : FileType} (hft : ft ≠ .fhd) (axis : Bool) (l : List F) (f : F) (m : List F)
    (aux : List A) {r : Req V} (hr : Even r) (hc : ¬ Conflict r) (hl : ∀ f' ∈ l, readOne w ft f' none r ≠ .error .other)
    (he : readOne w ft f none r = .error .other) : readMany w ft true axis (l ++ f :: m) aux r = .error .other := by
  have ha : ∀ k, auxAt ft aux k = none := fun k => if_neg hft
  have e1 := even_first hr
  have e2 := even_later hr
  unfold readMany
  rw [no_conflict hc, if_neg (by decide), if_neg (by simp [hft]), ha]
  by_cases hg : ∀ f' ∈ l, ∀ d, readOne w ft f' none r ≠ .ok d
  · rw [firstGood_uncaught (by rw [e1]; exact he) 0 (by rw [e1]; exact hg) (by rw [e1]; exact hl)]
  · rcases firstGood_skip (w := w) (ft := ft) (aux := (none : Option A)) (r := r) (fs := l) 0
      (by rw [e1]; intro f' hf' e h e'; exact hl f' hf' (e' ▸ h)) with ⟨_, h2⟩ | ⟨l₁, g, l₂, d, rfl, h1, h2, h3⟩
    · exfalso
      apply hg
      intro f' hf' d hd
      have : d ∈ goods (fun f => readOne w ft f none (firstReq r)) l :=
        List.mem_filterMap.2 ⟨f', hf', by simp [e1, hd, Except.toOption]⟩
      rw [h2] at this
      cases this
    · have key : ∀ (l₁ : List F) (k : Nat), (∀ f' ∈ l₁, readOne w ft f' none (firstReq r) ≠ .error .other) →
          goods (fun f => readOne w ft f none (firstReq r)) l₁ = [] →
          firstGood w ft true none r (l₁ ++ g :: (l₂ ++ f :: m)) k = .ok (some (k + l₁.length, d, l₂ ++ f :: m)) := by
        intro l₁
        induction l₁ with
        | nil =>
          intro k _ _
          rw [List.nil_append]
          unfold firstGood
          rw [h2]
          rfl
        | cons a l₁ ih =>
          intro k h4 h5
          rw [List.cons_append]
          unfold firstGood
          cases hra : readOne w ft a none (firstReq r) with
          | ok x =>
            have : x ∈ goods (fun f => readOne w ft f none (firstReq r)) (a :: l₁) :=
              List.mem_filterMap.2 ⟨a, List.mem_cons_self, by simp [hra, Except.toOption]⟩
            rw [h5] at this
            cases this
          | error e =>
            have hc : e.caught = true := by
              have := h4 a List.mem_cons_self
              rw [hra] at this
              cases e <;> simp_all [Err.caught]
            simp only [hc, Bool.and_self, if_true]
            have h6 : goods (fun f => readOne w ft f none (firstReq r)) l₁ = [] := by
              unfold goods at h5 ⊢
              rw [List.filterMap_cons] at h5
              simp only [hra, Except.toOption] at h5
              exact h5
            rw [ih (k + 1) (fun f' hf' => h4 f' (List.mem_cons_of_mem _ hf')) h6, List.length_cons]
            have : k + 1 + l₁.length = k + (l₁.length + 1) := by omega
            rw [this]
      have h7 := key l₁ 0 (by rw [e1]; exact fun f' hf' => hl f' (by simp [hf'])) h3
      have h8 : l₁ ++ g :: l₂ ++ f :: m = l₁ ++ g :: (l₂ ++ f :: m) := by simp
      rw [h8, h7]
      dsimp only
      rw [ha, others_uncaught (by rw [e2]; exact he) (by rw [e2]; exact fun f' hf' => hl f' (by simp [hf']))]

/-! ## What differs between files -/

/-- `catalog_names` does nothing for the first file: a list of one file is read as if it was not given. -/
theorem one_names_counterexample (w : World V F A D) {ft : FileType} (hft : ft ≠ .fhd) (f : F) (aux : List A) (r : Req V) {d : D}
    (h : readOne w ft f none (without [.catalogNames] r) = .ok d) (hc : ¬ Conflict r) :
    readMany w ft false false [f] aux r = .ok (.read d []) := by
  have ha : ∀ k, auxAt ft aux k = none := fun k => if_neg hft
  unfold readMany
  rw [no_conflict hc, if_neg (by decide), if_neg (by simp [hft]), ha]
  have h1 : firstGood w ft false none r [f] 0 = .ok (some (0, d, [])) := by
    unfold firstGood firstReq
    rw [h]
  rw [h1]
  dsimp only
  unfold others
  dsimp only
  have : merge w false d [] = .ok d := by
    unfold merge
    rw [if_neg (by decide)]
    rfl
  rw [this]
  rfl

/-- The second file is read without chunks, receivers and sidebands, which count for the first one. -/
theorem two_chunks_counterexample (w : World V F A D) {ft : FileType} (hft : ft ≠ .fhd) (f₁ f₂ : F) (aux : List A) (r : Req V)
    (hc : ¬ Conflict r) {d₁ d₂ d : D} (h1 : readOne w ft f₁ none (without [.catalogNames] r) = .ok d₁)
    (h2 : readOne w ft f₂ none (without [.corrchunk, .receivers, .sidebands] r) = .ok d₂) (h : w.add d₁ d₂ = .ok d) :
    readMany w ft false false [f₁, f₂] aux r = .ok (.read d []) := by
  have ha : ∀ k, auxAt ft aux k = none := fun k => if_neg hft
  unfold readMany
  rw [no_conflict hc, if_neg (by decide), if_neg (by simp [hft]), ha]
  have h1 : firstGood w ft false none r [f₁, f₂] 0 = .ok (some (0, d₁, [f₂])) := by
    unfold firstGood firstReq
    rw [h1]
  rw [h1]
  dsimp only
  have h2 : others w ft false (auxAt ft aux 0) r [f₂] = .ok ([d₂], []) := by
    unfold others laterReq
    rw [ha, h2]
    rfl
  rw [h2]
  dsimp only
  have : merge w false d₁ [d₂] = .ok d := by
    unfold merge
    rw [if_neg (by decide)]
    simp [tree, round, h]
  rw [this]
  rfl

/-- Of several FHD data sets all are read with the auxiliary files of the first one. -/
theorem fhd_counterexample (w : World V F A D) (f₁ f₂ : F) (a₁ a₂ : A) (r : Req V) (hr : Even r) (hc : ¬ Conflict r) {d₁ d₂ d : D}
    (h1 : readOne w .fhd f₁ (some a₁) r = .ok d₁) (h2 : readOne w .fhd f₂ (some a₁) r = .ok d₂) (h : w.add d₁ d₂ = .ok d) :
    readMany w .fhd false false [f₁, f₂] [a₁, a₂] r = .ok (.read d []) := by
  unfold readMany
  rw [no_conflict hc, if_neg (by decide), if_neg (by simp)]
  have ha : auxAt .fhd [a₁, a₂] 0 = some a₁ := rfl
  rw [ha]
  have h1 : firstGood w .fhd false (some a₁) r [f₁, f₂] 0 = .ok (some (0, d₁, [f₂])) := by
    unfold firstGood
    rw [even_first hr, h1]
  rw [h1]
  dsimp only
  have h2 : others w .fhd false (auxAt .fhd [a₁, a₂] 0) r [f₂] = .ok ([d₂], []) := by
    unfold others
    rw [even_later hr, ha, h2]
    rfl
  rw [h2]
  dsimp only
  have : merge w false d₁ [d₂] = .ok d := by
    unfold merge
    rw [if_neg (by decide)]
    simp [tree, round, h]
  rw [this]
  rfl

/-- If the first two files cannot be read, the warning names the first one twice. -/
theorem warned_counterexample (w : World V F A D) {ft : FileType} (hft : ft ≠ .fhd) (f₁ f₂ f₃ : F) (aux : List A) (r : Req V)
    (hr : Even r) (hc : ¬ Conflict r) (h1 : readOne w ft f₁ none r = .error .key) (h2 : readOne w ft f₂ none r = .error .key)
    {d : D} (h3 : readOne w ft f₃ none r = .ok d) :
    readMany w ft true false [f₁, f₂, f₃] aux r = .ok (.read d [f₁, f₁]) := by
  have ha : ∀ k, auxAt ft aux k = none := fun k => if_neg hft
  unfold readMany
  rw [no_conflict hc, if_neg (by decide), if_neg (by simp [hft]), ha]
  have h1 : firstGood w ft true none r [f₁, f₂, f₃] 0 = .ok (some (2, d, [])) := by
    simp [firstGood, even_first hr, h1, h2, h3, Err.caught]
  rw [h1]
  dsimp only
  unfold others
  dsimp only
  have : merge w false d [] = .ok d := by
    unfold merge
    rw [if_neg (by decide)]
    rfl
  rw [this]
  rfl

end Verif.ReadSel
