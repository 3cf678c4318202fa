import Verif.Calib.Lemmas
import Mathlib.Tactic.IntervalCases

/-! Polarizations and feeds. -/
namespace Verif.Calib
open Verif.Np
open Verif.Pol (Str polnum2str polstr2num jnum2str jstr2num parseJpolstr polToFeed orients polNum2Str xOrientPolMap)
set_option linter.unusedSectionVars false

variable {R V : Type} [Field R] [LinearOrder R] [Field V]

/-- An orientation that is known. -/
def KnownX (xo : Option Str) : Prop := ∀ s, xo = some s → East s ∨ North s

theorem known_rep (xo : Option Str) (h : KnownX xo) :
    ∃ xo' ∈ orients, xo.bind xOrientPolMap = xo'.bind xOrientPolMap ∧ (xo = none ↔ xo' = none) ∧
      ∀ x y, Linear xo' x y → Linear xo x y := by
  cases xo with
  | none => exact ⟨none, by simp [orients], rfl, by simp, fun _ _ h => h⟩
  | some s =>
    rcases h s rfl with hs | hs
    · refine ⟨some ['e'], by simp [orients], ?_, by simp, ?_⟩
      · simp only [East, List.mem_cons, List.not_mem_nil, or_false] at hs
        simp only [Option.bind_some, xOrientPolMap]
        rcases hs with hs | hs | hs <;> rw [hs] <;> decide +kernel
      · intro x y hl
        rcases hl with hl | hl
        · exact Or.inl ⟨hs, hl.2⟩
        · have : ¬ North ['e'] := by unfold North; decide +kernel
          exact absurd hl.1 this
    · refine ⟨some ['n'], by simp [orients], ?_, by simp, ?_⟩
      · simp only [North, List.mem_cons, List.not_mem_nil, or_false] at hs
        simp only [Option.bind_some, xOrientPolMap]
        rcases hs with hs | hs | hs <;> rw [hs] <;> decide +kernel
      · intro x y hl
        rcases hl with hl | hl
        · have : ¬ East ['n'] := by unfold East; decide +kernel
          exact absurd hl.1 this
        · exact Or.inr ⟨hs, hl.2⟩

/-- The axes of the linear feeds, for the three representative orientations. -/
def axes (xo : Option Str) : Dir × Dir :=
  if xo = none then (.xAxis, .yAxis) else if xo = some ['e'] then (.east, .north) else (.north, .east)

def polDirs (xo : Option Str) (p : Int) : Option (Dir × Dir) :=
  if p = -1 then some (.right, .right) else if p = -2 then some (.left, .left) else if p = -3 then some (.right, .left)
  else if p = -4 then some (.left, .right) else if p = -5 then some ((axes xo).1, (axes xo).1)
  else if p = -6 then some ((axes xo).2, (axes xo).2) else if p = -7 then some (axes xo)
  else if p = -8 then some ((axes xo).2, (axes xo).1) else none

def jonesDir (xo : Option Str) (j : Int) : Option Dir :=
  if j = -1 then some .right else if j = -2 then some .left else if j = -5 then some (axes xo).1
  else if j = -6 then some (axes xo).2 else none

theorem linear_axes (xo : Option Str) (h : xo ∈ orients) : Linear xo (axes xo).1 (axes xo).2 := by
  simp only [orients, List.mem_cons, List.not_mem_nil, or_false] at h
  rcases h with rfl | rfl | rfl
  · exact ⟨rfl, rfl⟩
  · exact Or.inl ⟨by unfold East; decide +kernel, rfl, rfl⟩
  · exact Or.inr ⟨by unfold North; decide +kernel, rfl, rfl⟩

theorem polDirs_spec (xo xo' : Option Str) (h : xo' ∈ orients) (hl : ∀ x y, Linear xo' x y → Linear xo x y) (p : Int)
    (f g : Dir) (hp : polDirs xo' p = some (f, g)) : PolFeeds xo p f g := by
  have hl' := hl _ _ (linear_axes xo' h)
  unfold polDirs at hp
  unfold PolFeeds
  split at hp
  · rename_i h1; simp only [Option.some.injEq, Prod.mk.injEq] at hp; exact Or.inl ⟨h1, hp.1.symm, hp.2.symm⟩
  split at hp
  · rename_i h1; simp only [Option.some.injEq, Prod.mk.injEq] at hp; exact Or.inr (Or.inl ⟨h1, hp.1.symm, hp.2.symm⟩)
  split at hp
  · rename_i h1; simp only [Option.some.injEq, Prod.mk.injEq] at hp
    exact Or.inr (Or.inr (Or.inl ⟨h1, hp.1.symm, hp.2.symm⟩))
  split at hp
  · rename_i h1; simp only [Option.some.injEq, Prod.mk.injEq] at hp
    exact Or.inr (Or.inr (Or.inr (Or.inl ⟨h1, hp.1.symm, hp.2.symm⟩)))
  refine Or.inr (Or.inr (Or.inr (Or.inr ⟨_, _, hl', ?_⟩)))
  split at hp
  · rename_i h1; simp only [Option.some.injEq, Prod.mk.injEq] at hp; exact Or.inl ⟨h1, hp.1.symm, hp.2.symm⟩
  split at hp
  · rename_i h1; simp only [Option.some.injEq, Prod.mk.injEq] at hp; exact Or.inr (Or.inl ⟨h1, hp.1.symm, hp.2.symm⟩)
  split at hp
  · rename_i h1
    simp only [Option.some.injEq] at hp
    rw [hp]
    exact Or.inr (Or.inr (Or.inl ⟨h1, rfl, rfl⟩))
  split at hp
  · rename_i h1; simp only [Option.some.injEq, Prod.mk.injEq] at hp
    exact Or.inr (Or.inr (Or.inr ⟨h1, hp.1.symm, hp.2.symm⟩))
  · simp at hp

theorem jonesDir_spec (xo xo' : Option Str) (h : xo' ∈ orients) (hl : ∀ x y, Linear xo' x y → Linear xo x y) (j : Int)
    (f : Dir) (hj : jonesDir xo' j = some f) : JonesFeed xo j f := by
  have hl' := hl _ _ (linear_axes xo' h)
  unfold jonesDir at hj
  unfold JonesFeed
  split at hj
  · rename_i h1; simp only [Option.some.injEq] at hj; exact Or.inl ⟨h1, hj.symm⟩
  split at hj
  · rename_i h1; simp only [Option.some.injEq] at hj; exact Or.inr (Or.inl ⟨h1, hj.symm⟩)
  refine Or.inr (Or.inr ⟨_, _, hl', ?_⟩)
  split at hj
  · rename_i h1; simp only [Option.some.injEq] at hj; exact Or.inl ⟨h1, hj.symm⟩
  split at hj
  · rename_i h1; simp only [Option.some.injEq] at hj; exact Or.inr ⟨h1, hj.symm⟩
  · simp at hj

/-- The tables agree for every orientation and polarization. -/
def tableOk (dx cx : Option Str) (p : Int) : Bool :=
  match (polnum2str dx p).bind polToFeed.get, (polnum2str (dx.or cx) p).bind polToFeed.get with
  | some (f1, f2), some (F1, F2) =>
    decide (jstr2num cx f1 = jstr2num cx F1) && decide (jstr2num cx f2 = jstr2num cx F2) &&
    decide ((polnum2str dx p).bind (polstr2num (dx.or cx)) = some p) &&
    (match jstr2num cx f1, jstr2num cx f2 with
     | some j1, some j2 =>
       match polDirs dx p, jonesDir (dx.bind fun _ => cx) j1, jonesDir (dx.bind fun _ => cx) j2 with
       | some (f, g), some f', some g' => decide (f = f') && decide (g = g')
       | _, _, _ => false
     | _, _ => true)
  | _, _ => false

theorem tables : ∀ dx ∈ orients, ∀ cx ∈ orients, ∀ p ∈ [-1, -2, -3, -4, -5, -6, -7, -8], tableOk dx cx p = true := by
  decide +kernel

/-- What the checks of lines 443–466 give for one polarization. -/
structure FeedsOf (c : Cal R V) (d : Dat R V) (p : Int) (s f₁ f₂ : Str) (j₁ j₂ : Int) : Prop where
  name : polnum2str d.xo p = some s
  number : polstr2num (d.xo.or c.xo) s = some p
  feeds : polToFeed.get s = some (f₁, f₂)
  first : jstr2num c.xo f₁ = some j₁
  second : jstr2num c.xo f₂ = some j₂
  mem₁ : j₁ ∈ c.jones
  mem₂ : j₂ ∈ c.jones
  dir : ∃ f g, PolFeeds d.xo p f g ∧ JonesFeed (d.xo.bind fun _ => c.xo) j₁ f ∧ JonesFeed (d.xo.bind fun _ => c.xo) j₂ g

theorem mapM_mem {α β : Type} {f : α → Option β} {l : List α} {r : List β} (h : l.mapM f = some r) (b : β) (hb : b ∈ r) :
    ∃ a ∈ l, f a = some b := by
  obtain ⟨hl, hg⟩ := Pol.mapM_getElem? h
  obtain ⟨i, hi⟩ := List.mem_iff_getElem?.1 hb
  have hi' : i < l.length := by rw [← hl]; exact (List.getElem?_eq_some_iff.1 hi).1
  obtain ⟨b', h1, h2⟩ := hg i l[i] (List.getElem?_eq_getElem hi')
  rw [hi, Option.some.injEq] at h2
  exact ⟨l[i], List.getElem_mem hi', by rw [h1, h2]⟩

theorem mapM_mem' {α β : Type} {f : α → Option β} {l : List α} {r : List β} (h : l.mapM f = some r) (a : α) (ha : a ∈ l) :
    ∃ b ∈ r, f a = some b := by
  obtain ⟨hl, hg⟩ := Pol.mapM_getElem? h
  obtain ⟨i, hi⟩ := List.mem_iff_getElem?.1 ha
  obtain ⟨b', h1, h2⟩ := hg i a hi
  exact ⟨b', List.mem_of_getElem? h2, h1⟩

theorem jones_mem (c : Cal R V) (js : List Str) (hj : c.jones.mapM (jnum2str c.xo) = some js) (f : Str)
    (h : (parseJpolstr c.xo f).any (fun j => js.contains j) = true) : ∃ j ∈ c.jones, jstr2num c.xo f = some j := by
  unfold parseJpolstr at h
  cases hn : jstr2num c.xo f with
  | none => rw [hn] at h; simp at h
  | some n =>
    rw [hn] at h
    simp only [Option.bind_some] at h
    cases hs : jnum2str c.xo n with
    | none => rw [hs] at h; simp at h
    | some s =>
      rw [hs] at h
      simp only [Option.any_some, List.contains_iff_mem] at h
      obtain ⟨m, hm, hm'⟩ := mapM_mem hj s h
      have e1 := Pol.jnum_roundtrip c.xo n s hs
      have e2 := Pol.jnum_roundtrip c.xo m s hm'
      rw [e1, Option.some.injEq] at e2
      subst e2
      exact ⟨n, hm, rfl⟩

theorem feeds_ok (c : Cal R V) (d : Dat R V) (hd : KnownX d.xo) (hc : KnownX c.xo) (h : feedStage c d = .ok ())
    (hst : ∀ p ∈ d.pols, ¬ 0 < p) (p : Int) (hp : p ∈ d.pols) :
    ∃ s f₁ f₂ j₁ j₂, FeedsOf c d p s f₁ f₂ j₁ j₂ := by
  unfold feedStage at h
  cases hf : feedsOf (d.xo.or c.xo) d.pols with
  | none => rw [hf] at h; simp at h
  | some fs =>
  cases hj : c.jones.mapM (jnum2str c.xo) with
  | none => rw [hf, hj] at h; simp at h
  | some js =>
  rw [hf, hj] at h
  simp only at h
  split at h
  swap
  · simp at h
  rename_i hall
  rw [List.all_eq_true] at hall
  unfold feedsOf at hf
  rw [Option.map_eq_some_iff] at hf
  obtain ⟨fl, hfl, hfs⟩ := hf
  obtain ⟨⟨F1, F2⟩, hFm, hF⟩ := mapM_mem' hfl p hp
  have h1 := hall F1 (by rw [← hfs, List.mem_flatMap]; exact ⟨_, hFm, by simp⟩)
  have h2 := hall F2 (by rw [← hfs, List.mem_flatMap]; exact ⟨_, hFm, by simp⟩)
  obtain ⟨j1, hm1, hj1⟩ := jones_mem c js hj F1 h1
  obtain ⟨j2, hm2, hj2⟩ := jones_mem c js hj F2 h2
  have hp8 : p ∈ ([-1, -2, -3, -4, -5, -6, -7, -8] : List Int) := by
    have h0 := hst p hp
    have hs : (polnum2str (d.xo.or c.xo) p).isSome := by
      cases hx : polnum2str (d.xo.or c.xo) p with
      | none => rw [hx] at hF; simp at hF
      | some s => rfl
    rcases (Pol.polnum_domain _ _).1.1 hs with hb | hb
    · omega
    · obtain ⟨hb1, hb2⟩ := hb
      interval_cases p <;> decide
  obtain ⟨dx, hdm, hdc, hdn, hdl⟩ := known_rep d.xo hd
  obtain ⟨cx, hcm, hcc, hcn, hcl⟩ := known_rep c.xo hc
  have hor : (d.xo.or c.xo).bind xOrientPolMap = (dx.or cx).bind xOrientPolMap := by
    by_cases hx : d.xo = none
    · rw [hx, hdn.1 hx]; simpa using hcc
    · have hx' : dx ≠ none := fun h => hx (hdn.2 h)
      obtain ⟨a, ha⟩ := Option.ne_none_iff_exists'.1 hx
      obtain ⟨b, hb⟩ := Option.ne_none_iff_exists'.1 hx'
      rw [ha, hb] at hdc
      rw [ha, hb]
      simpa using hdc
  have htab := tables dx hdm cx hcm p hp8
  unfold tableOk at htab
  rw [← Pol.polnum2str_congr hdc, ← Pol.polnum2str_congr hor, ← Pol.polstr2num_congr hor, ← Pol.jstr2num_congr hcc, hF] at htab
  cases hf' : (polnum2str d.xo p).bind polToFeed.get with
  | none => rw [hf'] at htab; simp at htab
  | some ff =>
  obtain ⟨f1, f2⟩ := ff
  rw [hf'] at htab
  simp only [Bool.and_eq_true, decide_eq_true_eq] at htab
  obtain ⟨⟨⟨t1, t2⟩, t3⟩, t4⟩ := htab
  rw [hj1] at t1
  rw [hj2] at t2
  rw [t1, t2] at t4
  simp only at t4
  cases hs : polnum2str d.xo p with
  | none => rw [hs] at hf'; simp at hf'
  | some s =>
  rw [hs] at hf' t3
  simp only [Option.bind_some] at hf' t3
  have hl : ∀ x y, Linear (dx.bind fun _ => cx) x y → Linear (d.xo.bind fun _ => c.xo) x y := by
    by_cases hx : d.xo = none
    · rw [hx, hdn.1 hx]; exact fun _ _ h => h
    · have hx' : dx ≠ none := fun h => hx (hdn.2 h)
      obtain ⟨a, ha⟩ := Option.ne_none_iff_exists'.1 hx
      obtain ⟨b, hb⟩ := Option.ne_none_iff_exists'.1 hx'
      rw [ha, hb]; exact hcl
  have hbm : (dx.bind fun _ => cx) ∈ orients := by
    cases dx with
    | none => simp [orients]
    | some _ => exact hcm
  cases hp1 : polDirs dx p with
  | none => rw [hp1] at t4; simp at t4
  | some q =>
  obtain ⟨f, g⟩ := q
  cases hq1 : jonesDir (dx.bind fun _ => cx) j1 with
  | none => rw [hp1, hq1] at t4; simp at t4
  | some f' =>
  cases hq2 : jonesDir (dx.bind fun _ => cx) j2 with
  | none => rw [hp1, hq1, hq2] at t4; simp at t4
  | some g' =>
  rw [hp1, hq1, hq2] at t4
  simp only [Bool.and_eq_true, decide_eq_true_eq] at t4
  obtain ⟨rfl, rfl⟩ := t4
  exact ⟨s, f1, f2, j1, j2, hs, t3, hf', t1, t2, hm1, hm2, f, g, polDirs_spec _ _ hdm hdl _ _ _ hp1,
    jonesDir_spec _ _ hbm hl _ _ hq1, jonesDir_spec _ _ hbm hl _ _ hq2⟩

end Verif.Calib
