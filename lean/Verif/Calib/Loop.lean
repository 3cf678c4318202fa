import Verif.Calib.Feeds
import Verif.Calib.Axis

/-! The loop over antenna pairs and polarizations touches every visibility once. -/
namespace Verif.Calib
open Verif.Np Verif.Slices
open Verif.AntPair (antpair2ind getAntpairs IsRowsOf)
open Verif.Pol (Str polnum2str polstr2num jnum2str jstr2num parseJpolstr polToFeed)
set_option linter.unusedSectionVars false

variable {R V : Type} [Field R] [LinearOrder R] [Field V]

/-- Everything that `prepare` establishes. -/
structure Prep (e : Env R V) (o : Opts) (c : Cal R V) (d : Dat R V) (uvc uvd : Option Conv) (c' : Cal R V)
    (ind : Option (List Nat)) (ks : List ((Nat × Nat) × Str)) (keepT keepF : Option (List R)) : Prop where
  stokes : ∀ p ∈ d.pols, ¬ 0 < p
  scale : ¬(o.undo = true ∧ c.scale.any (fun s => decide (s ≠ d.units)) = true)
  hc : uvcOf o c d = .ok uvc
  hd : uvdOf o d uvc = .ok uvd
  ants : antStage o c d = .ok ()
  time : timeStage e o c d = .ok ⟨ind, keepT⟩
  freq : freqStage e c d = .ok keepF
  feed : feedStage c d = .ok ()
  sel : c.select e keepT keepF = .ok c'
  keys : keys d = .ok ks

theorem prepare_ok (e : Env R V) (o : Opts) (c : Cal R V) (d : Dat R V) (uvc uvd : Option Conv) (c' : Cal R V)
    (ind : Option (List Nat)) (ks : List ((Nat × Nat) × Str)) :
    prepare e o c d = .ok (uvc, uvd, c', ind, ks) ↔ ∃ keepT keepF, Prep e o c d uvc uvd c' ind ks keepT keepF := by
  constructor
  · intro h
    unfold prepare at h
    split at h
    · simp at h
    rename_i hst
    split at h
    · simp at h
    rename_i hsc
    simp only [bind, Except.bind] at h
    split at h
    · simp at h
    rename_i uvc0 h1
    split at h
    · simp at h
    rename_i uvd0 h2
    split at h
    · simp at h
    rename_i u h3
    split at h
    · simp at h
    rename_i tp h4
    split at h
    · simp at h
    rename_i fp h5
    split at h
    · simp at h
    rename_i u' h6
    split at h
    · simp at h
    rename_i c0 h7
    split at h
    · simp at h
    rename_i ks0 h8
    simp only [Except.ok.injEq, Prod.mk.injEq] at h
    obtain ⟨rfl, rfl, rfl, rfl, rfl⟩ := h
    refine ⟨tp.keep, fp, ?_, hsc, h1, h2, h3, h4, h5, h6, h7, h8⟩
    intro p hp hpos
    exact hst (List.any_eq_true.2 ⟨p, hp, by simpa using hpos⟩)
  · rintro ⟨keepT, keepF, h⟩
    unfold prepare
    rw [if_neg, if_neg h.scale, h.hc]
    · simp only [bind, Except.bind, h.hd, h.ants, h.time, h.freq, h.feed, h.sel, h.keys]
    · intro hst
      obtain ⟨p, hp, hpos⟩ := List.any_eq_true.1 hst
      exact h.stokes p hp (by simpa using hpos)

theorem select_byIndex (e : Env R V) (c c' : Cal R V) (kt kf : Option (List R)) (h : c.select e kt kf = .ok c') :
    ∃ ti fi, c' = c.byIndex ti fi := by
  unfold Cal.select at h
  simp only at h
  split at h
  · simp at h
  · simp only [Except.ok.injEq] at h
    exact ⟨_, _, h.symm⟩

/-- A successful loop is the sequence of its passes. -/
theorem loop_ok (e : Env R V) (o : Opts) (c : Cal R V) (ind : Option (List Nat)) (ks : List ((Nat × Nat) × Str)) (d d' : Dat R V) :
    loop e o c ind ks d = (d', none) ↔
      ∃ ps, List.Forall₂ (fun k p => pass e o c ind d k = .ok p) ks ps ∧ d' = ps.foldl (fun d p => p.apply d) d := by
  induction ks generalizing d with
  | nil =>
    simp only [loop, Prod.mk.injEq, and_true, List.forall₂_nil_left_iff]
    constructor
    · rintro rfl; exact ⟨[], rfl, rfl⟩
    · rintro ⟨ps, rfl, rfl⟩; rfl
  | cons k ks ih =>
    simp only [loop]
    cases hp : pass e o c ind d k with
    | error err =>
      simp only [Prod.mk.injEq, reduceCtorEq, and_false, false_iff, not_exists, not_and]
      intro ps h
      cases h with
      | cons h _ => rw [hp] at h; simp at h
    | ok p =>
      simp only
      rw [ih]
      constructor
      · rintro ⟨ps, h1, h2⟩
        exact ⟨p :: ps, .cons hp h1, h2⟩
      · rintro ⟨ps, h1, h2⟩
        cases h1 with
        | cons h h1 =>
          rw [hp, Except.ok.injEq] at h
          subst h
          exact ⟨_, h1, h2⟩

/-- A pass touches a cell. -/
def Plan.touches (p : Plan V) (r k : Nat) : Prop := k = p.col ∧ r ∈ p.rows

theorem foldl_untouched (ps : List (Plan V)) (d : Dat R V) (r ch k : Nat) (h : ∀ p ∈ ps, ¬ p.touches r k) :
    (ps.foldl (fun d p => p.apply d) d).vis r ch k = d.vis r ch k ∧
    (ps.foldl (fun d p => p.apply d) d).flag r ch k = d.flag r ch k := by
  induction ps generalizing d with
  | nil => exact ⟨rfl, rfl⟩
  | cons p ps ih =>
    rw [List.foldl_cons]
    obtain ⟨h1, h2⟩ := ih (p.apply d) (fun q hq => h q (by simp [hq]))
    have hp := h p (by simp)
    unfold Plan.touches at hp
    rw [h1, h2]
    simp only [Plan.apply, setCells]
    rw [if_neg hp, if_neg hp]
    exact ⟨rfl, rfl⟩

theorem foldl_cell (l₁ l₂ : List (Plan V)) (p : Plan V) (d : Dat R V) (r ch k : Nat) (hp : p.touches r k)
    (h₁ : ∀ q ∈ l₁, ¬ q.touches r k) (h₂ : ∀ q ∈ l₂, ¬ q.touches r k) :
    ((l₁ ++ p :: l₂).foldl (fun d p => p.apply d) d).vis r ch k = p.vis (p.rows.idxOf r) ch (d.vis r ch k) ∧
    ((l₁ ++ p :: l₂).foldl (fun d p => p.apply d) d).flag r ch k = p.flag (p.rows.idxOf r) ch (d.flag r ch k) := by
  rw [List.foldl_append, List.foldl_cons]
  obtain ⟨h3, h4⟩ := foldl_untouched l₂ (p.apply (l₁.foldl (fun d p => p.apply d) d)) r ch k h₂
  obtain ⟨h5, h6⟩ := foldl_untouched l₁ d r ch k h₁
  unfold Plan.touches at hp
  rw [h3, h4]
  constructor
  · show setCells p.rows p.col p.vis _ r ch k = _
    unfold setCells
    rw [if_pos hp, h5]
  · show setCells p.rows p.col p.flag _ r ch k = _
    unfold setCells
    rw [if_pos hp, h6]

theorem foldl_meta (ps : List (Plan V)) (d : Dat R V) : ∃ v f, ps.foldl (fun d p => p.apply d) d = { d with vis := v, flag := f } := by
  induction ps generalizing d with
  | nil => exact ⟨_, _, rfl⟩
  | cons p ps ih =>
    obtain ⟨v, f, h⟩ := ih (p.apply d)
    exact ⟨v, f, h⟩

/-- The keys: every antenna pair that has data with every polarization, each once. -/
theorem keys_spec (d : Dat R V) (hd : d.Ok) (ks : List ((Nat × Nat) × Str)) (h : keys d = .ok ks) :
    ks.Nodup ∧ ∀ a b s, ((a, b), s) ∈ ks ↔
      (∃ i : Nat, d.blts.ant1[i]? = some a ∧ d.blts.ant2[i]? = some b) ∧ ∃ p ∈ d.pols, polnum2str d.xo p = some s := by
  obtain ⟨ps, hps, hnd, hmem⟩ := AntPair.get_antpairs_exact d.blts hd.numbered hd.laidOut
  unfold keys at h
  rw [hps] at h
  cases hss : d.pols.mapM (polnum2str d.xo) with
  | none => rw [hss] at h; simp at h
  | some ss =>
  rw [hss] at h
  simp only [Except.ok.injEq] at h
  subst h
  have hsn : ss.Nodup := by
    rw [List.nodup_iff_pairwise_ne, List.pairwise_iff_getElem]
    intro i j hi hj hij heq
    obtain ⟨hl, hg⟩ := Pol.mapM_getElem? hss
    have hi' : i < d.pols.length := by omega
    have hj' : j < d.pols.length := by omega
    obtain ⟨b, h1, h2⟩ := hg i d.pols[i] (List.getElem?_eq_getElem hi')
    obtain ⟨b', h3, h4⟩ := hg j d.pols[j] (List.getElem?_eq_getElem hj')
    rw [List.getElem?_eq_getElem hi, Option.some.injEq] at h2
    rw [List.getElem?_eq_getElem hj, Option.some.injEq] at h4
    have e1 := Pol.polnum_roundtrip _ _ _ h1
    have e2 := Pol.polnum_roundtrip _ _ _ h3
    rw [← h2, heq, h4, e2, Option.some.injEq] at e1
    have := (List.Nodup.getElem_inj_iff hd.pols).1 e1
    omega
  constructor
  · rw [List.nodup_flatMap]
    constructor
    · intro p _
      exact hsn.map (fun a b h => by simpa using h)
    · apply hnd.imp
      intro p q hpq
      simp only [Function.onFun, List.disjoint_left, List.mem_map, not_exists, not_and]
      rintro x ⟨s, _, rfl⟩ t _ heq
      exact hpq (Prod.mk.inj heq).1.symm
  · intro a b s
    simp only [List.mem_flatMap, List.mem_map, Prod.mk.injEq]
    rw [← hmem a b]
    constructor
    · rintro ⟨p, hp, t, ht, rfl, rfl⟩
      exact ⟨hp, mapM_mem hss t ht⟩
    · rintro ⟨hp, p, hpm, hs⟩
      obtain ⟨t, ht, hs'⟩ := mapM_mem' hss p hpm
      rw [hs, Option.some.injEq] at hs'
      subst hs'
      exact ⟨_, hp, s, ht, rfl, rfl⟩

/-- A pass that succeeds, seen through the specification. -/
theorem pass_ok (e : Env R V) (o : Opts) (c : Cal R V) (ti fi : Option (List Nat)) (ind : Option (List Nat)) (d : Dat R V) (hd : d.Ok)
    (a b : Nat) (hab : ∃ i : Nat, d.blts.ant1[i]? = some a ∧ d.blts.ant2[i]? = some b)
    (p : Int) (k : Nat) (hk : d.pols[k]? = some p) (s f₁ f₂ : Str) (j₁ j₂ : Int) (hf : FeedsOf c d p s f₁ f₂ j₁ j₂) :
    ∃ rows, IsRowsOf d.blts a b rows ∧ rows ≠ [] ∧
      pass e o (c.byIndex ti fi) ind d ((a, b), s) =
        passWith e o (c.byIndex ti fi) ind d rows k (calAnt d.tel c.tel a) (calAnt d.tel c.tel b) j₁ j₂ := by
  obtain ⟨r, l, h1, h2, h3, h4⟩ := AntPair.antpair2ind_exact d.blts hd.numbered hd.laidOut a b
  have hl : l ≠ [] := by
    obtain ⟨i, hi⟩ := hab
    intro h
    have := (h2.2 i).2 hi
    rw [h] at this; simp at this
  rw [if_neg hl] at h3
  refine ⟨l, h2, hl, ?_⟩
  have hxo : (c.byIndex ti fi).xo = c.xo := rfl
  have htel : (c.byIndex ti fi).tel = c.tel := rfl
  unfold pass
  simp only [h1, h3, hxo, htel, hf.number, hf.feeds, hf.first, hf.second]
  rw [argminAbs_eq d.pols hd.pols k p hk]

theorem passWith_rows (e : Env R V) (o : Opts) (c : Cal R V) (ind : Option (List Nat)) (d : Dat R V) (rows : List Nat)
    (col : Nat) (n₁ n₂ : Option Nat) (j₁ j₂ : Int) (q : Plan V) (h : passWith e o c ind d rows col n₁ n₂ j₁ j₂ = .ok q) :
    q.rows = rows ∧ q.col = col := by
  unfold passWith at h
  split at h
  · split at h
    · split at h
      · simp only [Except.ok.injEq] at h
        subst h; exact ⟨rfl, rfl⟩
      · simp at h
    · simp only [Except.ok.injEq] at h
      subst h; exact ⟨rfl, rfl⟩
  · simp only [Except.ok.injEq] at h
    subst h; exact ⟨rfl, rfl⟩

theorem forall₂_split {α β : Type} {S : α → β → Prop} (l₁ l₂ : List α) (x : α) (ps : List β)
    (h : List.Forall₂ S (l₁ ++ x :: l₂) ps) :
    ∃ p₁ q p₂, ps = p₁ ++ q :: p₂ ∧ List.Forall₂ S l₁ p₁ ∧ S x q ∧ List.Forall₂ S l₂ p₂ := by
  induction l₁ generalizing ps with
  | nil =>
    cases h with
    | cons h1 h2 => exact ⟨[], _, _, rfl, .nil, h1, h2⟩
  | cons y l₁ ih =>
    cases h with
    | cons h1 h2 =>
      obtain ⟨p₁, q, p₂, rfl, h3, h4, h5⟩ := ih _ h2
      exact ⟨_ :: p₁, q, p₂, rfl, .cons h1 h3, h4, h5⟩

theorem forall₂_mem {α β : Type} {S : α → β → Prop} {l : List α} {ps : List β} (h : List.Forall₂ S l ps) (q : β) (hq : q ∈ ps) :
    ∃ x ∈ l, S x q := by
  induction h with
  | nil => simp at hq
  | cons h1 _ ih =>
    rcases List.mem_cons.1 hq with rfl | hq
    · exact ⟨_, by simp, h1⟩
    · obtain ⟨x, hx, hs⟩ := ih hq
      exact ⟨x, by simp [hx], hs⟩

/-- The cell after the loop is what the one pass for it makes of it. -/
theorem loop_cell (e : Env R V) (o : Opts) (c : Cal R V) (ti fi ind : Option (List Nat)) (d d' : Dat R V) (hd : d.Ok)
    (ks : List ((Nat × Nat) × Str)) (hks : keys d = .ok ks)
    (hfeeds : ∀ p ∈ d.pols, ∃ s f₁ f₂ j₁ j₂, FeedsOf c d p s f₁ f₂ j₁ j₂)
    (h : loop e o (c.byIndex ti fi) ind ks d = (d', none)) (r ch k : Nat) (a b : Nat) (p : Int)
    (ha : d.blts.ant1[r]? = some a) (hb : d.blts.ant2[r]? = some b) (hk : d.pols[k]? = some p)
    (s f₁ f₂ : Str) (j₁ j₂ : Int) (hf : FeedsOf c d p s f₁ f₂ j₁ j₂) :
    ∃ rows q, IsRowsOf d.blts a b rows ∧ r ∈ rows ∧
      passWith e o (c.byIndex ti fi) ind d rows k (calAnt d.tel c.tel a) (calAnt d.tel c.tel b) j₁ j₂ = .ok q ∧
      d'.vis r ch k = q.vis (rows.idxOf r) ch (d.vis r ch k) ∧
      d'.flag r ch k = q.flag (rows.idxOf r) ch (d.flag r ch k) := by
  obtain ⟨hnd, hmem⟩ := keys_spec d hd ks hks
  rw [loop_ok] at h
  obtain ⟨ps, hall, rfl⟩ := h
  have hin : ((a, b), s) ∈ ks := (hmem a b s).2 ⟨⟨r, ha, hb⟩, p, List.mem_of_getElem? hk, hf.name⟩
  obtain ⟨k1, k2, rfl⟩ := List.append_of_mem hin
  obtain ⟨p1, q, p2, rfl, hq1, hq, hq2⟩ := forall₂_split _ _ _ _ hall
  obtain ⟨rows, hrows, _, hpass⟩ := pass_ok e o c ti fi ind d hd a b ⟨r, ha, hb⟩ p k hk s f₁ f₂ j₁ j₂ hf
  rw [hpass] at hq
  obtain ⟨hqr, hqc⟩ := passWith_rows _ _ _ _ _ _ _ _ _ _ _ _ hq
  have hr : r ∈ rows := (hrows.2 r).2 ⟨ha, hb⟩
  have hother : ∀ key ∈ k1 ++ k2, ∀ q' : Plan V, pass e o (c.byIndex ti fi) ind d key = .ok q' → ¬ q'.touches r k := by
    rintro ⟨⟨a', b'⟩, s'⟩ hkey q' hq' ⟨ht1, ht2⟩
    have hne : ((a', b'), s') ≠ ((a, b), s) := by
      rintro heq
      rw [heq] at hkey
      have hnd' := (List.nodup_middle.1 hnd)
      rw [List.nodup_cons] at hnd'
      exact hnd'.1 hkey
    have hkey' : ((a', b'), s') ∈ k1 ++ ((a, b), s) :: k2 := by
      simp only [List.mem_append, List.mem_cons] at hkey ⊢
      tauto
    obtain ⟨hab, p', hp', hs'⟩ := (hmem a' b' s').1 hkey'
    obtain ⟨k', hk'⟩ := List.mem_iff_getElem?.1 hp'
    obtain ⟨s0, g1, g2, i1, i2, hf'⟩ := hfeeds p' hp'
    have : s0 = s' := by
      have := hf'.name
      rw [hs', Option.some.injEq] at this
      exact this.symm
    subst this
    obtain ⟨rows', hrows', _, hpass'⟩ := pass_ok e o c ti fi ind d hd a' b' hab p' k' hk' s0 g1 g2 i1 i2 hf'
    rw [hpass'] at hq'
    obtain ⟨hqr', hqc'⟩ := passWith_rows _ _ _ _ _ _ _ _ _ _ _ _ hq'
    rw [hqr', hrows'.2, ha, hb] at ht2
    rw [hqc'] at ht1
    subst ht1
    rw [hk, Option.some.injEq] at hk'
    subst hk'
    have hs2 := hf.name
    rw [hs', Option.some.injEq] at hs2
    simp only [Option.some.injEq] at ht2
    exact hne (by rw [ht2.1, ht2.2, hs2])
  refine ⟨rows, q, hrows, hr, hq, ?_⟩
  rw [← hqr]
  apply foldl_cell p1 p2 q d r ch k ⟨hqc.symm, by rw [hqr]; exact hr⟩
  · intro q' hq'
    obtain ⟨key, hkey, hs⟩ := forall₂_mem hq1 q' hq'
    exact hother key (by simp [hkey]) q' hs
  · intro q' hq'
    obtain ⟨key, hkey, hs⟩ := forall₂_mem hq2 q' hq'
    exact hother key (by simp [hkey]) q' hs

end Verif.Calib
