import Mathlib.Algebra.Order.Group.Abs
import Verif.NewBeam.Spec

/-! Theorems about new beams. -/

namespace Verif.NewBeam
open Verif.Pol (Str)

variable {K V : Type}

theorem mapM_some {α β : Type} (f : α → Option β) : ∀ (l : List α) (r : List β), l.mapM f = some r ↔ l.map f = r.map some := by
  intro l
  induction l with
  | nil =>
    intro r
    cases r <;> simp
  | cons x l ih =>
    intro r
    rw [List.mapM_cons, List.map_cons]
    cases h1 : f x with
    | none =>
      cases r <;> simp
    | some y =>
      cases h2 : l.mapM f with
      | none =>
        constructor
        · intro h; cases h
        · intro h
          cases r with
          | nil => simp at h
          | cons z r =>
            simp only [List.map_cons, List.cons.injEq] at h
            rw [(ih r).2 h.2] at h2
            cases h2
      | some r' =>
        have := (ih r').1 h2
        constructor
        · intro h
          obtain rfl : y :: r' = r := by simpa using h
          rw [this]; rfl
        · intro h
          cases r with
          | nil => simp at h
          | cons z r =>
            simp only [List.map_cons, List.cons.injEq, Option.some.injEq] at h
            have e := (ih r).2 h.2
            rw [h2] at e
            cases e
            rw [h.1]
            rfl

theorem kindArgs_iff {a : Args K V} {k : Kind} : kindArgs a = .ok k ↔ KindIs a k := by
  unfold kindArgs KindIs
  cases hf : a.feeds with
  | some f =>
    cases hp : a.pols with
    | some p => cases k <;> simp
    | none => cases k <;> simp
  | none =>
    cases hp : a.pols with
    | none => cases k <;> simp
    | some p =>
      cases p with
      | nums l => cases k <;> simp
      | names n =>
        dsimp only
        cases hm : n.mapM (Pol.polstr2num none) with
        | none =>
          cases k with
          | efield f => simp
          | power l =>
            simp only [reduceCtorEq, false_iff]
            rintro ⟨-, h | ⟨n', h, e⟩⟩
            · cases h
            · cases h
              rw [(mapM_some _ _ _).2 e] at hm
              cases hm
        | some r =>
          cases k with
          | efield f => simp
          | power l =>
            constructor
            · intro h
              cases h
              exact ⟨rfl, .inr ⟨n, rfl, (mapM_some _ _ _).1 hm⟩⟩
            · rintro ⟨-, h | ⟨n', h, e⟩⟩
              · cases h
              · cases h
                rw [(mapM_some _ _ _).2 e] at hm
                cases hm
                rfl

theorem gridArgs_iff {a : Args K V} : (∃ g, gridArgs a = .ok g) ↔
    (a.nside.isSome ∧ a.axis1 = none ∧ a.axis2 = none) ∨ (a.nside = none ∧ a.pixels = none ∧ a.axis1.isSome ∧ a.axis2.isSome ∧ a.system = none) := by
  unfold gridArgs
  cases a.nside <;> cases a.axis1 <;> cases a.axis2 <;> cases a.pixels <;> cases a.system <;> simp

theorem gridArgs_is {a : Args K V} {g : Grid K} (h : gridArgs a = .ok g) : GridIs a g := by
  have hr : ∀ n : Nat, ((List.range n).map Int.ofNat).length = n ∧ ∀ i, i < n → ((List.range n).map Int.ofNat)[i]? = some (i : Int) := by
    intro n
    refine ⟨by simp, fun i hi => ?_⟩
    rw [List.getElem?_map, List.getElem?_range hi]
    rfl
  unfold gridArgs at h
  unfold GridIs
  cases h1 : a.nside with
  | some n =>
    rw [h1] at h
    cases h2 : a.axis1 <;> cases h3 : a.axis2 <;> rw [h2, h3] at h <;> try (simp at h; done)
    cases h4 : a.pixels with
    | none =>
      rw [h4] at h
      rw [if_neg (by simp), if_pos (by simp)] at h
      cases h
      refine ⟨rfl, rfl, rfl, ?_, ?_⟩
      · cases a.ordering <;> rfl
      · exact hr _
    | some p =>
      rw [h4] at h
      rw [if_neg (by simp), if_pos (by simp)] at h
      cases h
      refine ⟨rfl, rfl, rfl, ?_, rfl⟩
      cases a.ordering <;> rfl
  | none =>
    rw [h1] at h
    cases h4 : a.pixels with
    | some p => rw [h4] at h; simp at h
    | none =>
      rw [h4] at h
      cases h2 : a.axis1 <;> cases h3 : a.axis2 <;> rw [h2, h3] at h <;> try (simp at h; done)
      cases h5 : a.system with
      | some s => rw [h5] at h; simp at h
      | none =>
        rw [h5] at h
        rw [if_neg (by simp), if_neg (by simp)] at h
        dsimp only at h
        rw [if_neg (by simp)] at h
        cases h
        exact ⟨rfl, rfl, rfl, rfl, rfl⟩

theorem GridIs.shape {a : Args K V} {g : Grid K} (h : GridIs a g) : g.shape = a.pix := by
  cases g with
  | healpix n o p =>
    obtain ⟨h1, -, -, -, h5⟩ := h
    unfold Grid.shape Args.pix
    rw [h1]
    cases h6 : a.pixels with
    | none => rw [h6] at h5; simp [h5.1]
    | some q => rw [h6] at h5; simp [h5]
  | axes s x y =>
    obtain ⟨h1, -, h3, h4, -⟩ := h
    simp [Grid.shape, Args.pix, h1, h3, h4]

theorem orientArgs_iff (o : Option Str) : (∃ r, orientArgs o = .ok r) ↔
    ∀ s, o = some s → (s.map Char.toLower ∈ ["east".toList, "north".toList, "e".toList, "n".toList, "ew".toList, "ns".toList]) := by
  cases o with
  | none => simp [orientArgs]
  | some s =>
    have e : (∀ s', some s = some s' → (s'.map Char.toLower ∈ ["east".toList, "north".toList, "e".toList, "n".toList, "ew".toList, "ns".toList])) ↔
        (Pol.lower s ∈ ["east".toList, "north".toList, "e".toList, "n".toList, "ew".toList, "ns".toList]) := by
      constructor
      · intro h; exact h s rfl
      · rintro h s' ⟨⟩; exact h
    rw [e]
    unfold orientArgs
    dsimp only
    generalize Pol.lower s = t
    constructor
    · rintro ⟨r, h⟩
      by_contra hc
      have : Pol.xorientMap.get t = none := by
        unfold Pol.Dict.get Pol.xorientMap
        simp only [List.mem_cons, List.not_mem_nil, or_false, not_or] at hc
        obtain ⟨c1, c2, c3, c4, c5, c6⟩ := hc
        have c1 : ¬ (['e','a','s','t'] = t) := fun h => c1 h.symm
        have c2 : ¬ (['n','o','r','t','h'] = t) := fun h => c2 h.symm
        have c3 : ¬ (['e'] = t) := fun h => c3 h.symm
        have c4 : ¬ (['n'] = t) := fun h => c4 h.symm
        have c5 : ¬ (['e','w'] = t) := fun h => c5 h.symm
        have c6 : ¬ (['n','s'] = t) := fun h => c6 h.symm
        simp [c1, c2, c3, c4, c5, c6]
      rw [this] at h
      cases h
    · intro h
      simp only [List.mem_cons, List.not_mem_nil, or_false] at h
      rcases h with rfl | rfl | rfl | rfl | rfl | rfl <;> exact ⟨_, rfl⟩

theorem orientArgs_is {o r : Option Str} : orientArgs o = .ok r → match o with
    | none => r = none
    | some s => (s.map Char.toLower).head? = some 'e' ∧ r = some "east".toList ∨ (s.map Char.toLower).head? = some 'n' ∧ r = some "north".toList := by
  intro h
  cases o with
  | none => exact (Except.ok.inj h).symm
  | some s =>
    have hm := (orientArgs_iff (some s)).1 ⟨r, h⟩ s rfl
    unfold orientArgs Pol.lower at h
    dsimp only at h ⊢
    generalize s.map Char.toLower = t at h hm ⊢
    simp only [List.mem_cons, List.not_mem_nil, or_false] at hm
    rcases hm with rfl | rfl | rfl | rfl | rfl | rfl
    · exact .inl ⟨rfl, (Except.ok.inj h).symm⟩
    · exact .inr ⟨rfl, (Except.ok.inj h).symm⟩
    · exact .inl ⟨rfl, (Except.ok.inj h).symm⟩
    · exact .inr ⟨rfl, (Except.ok.inj h).symm⟩
    · exact .inl ⟨rfl, (Except.ok.inj h).symm⟩
    · exact .inr ⟨rfl, (Except.ok.inj h).symm⟩

theorem kindOk_iff (k : Kind) : k.ok = true ↔ KindFits k := by
  cases k with
  | efield f =>
    simp only [Kind.ok, KindFits, Bool.and_eq_true, Bool.or_eq_true, decide_eq_true_eq, List.all_eq_true, Pol.lower, List.mem_cons,
      List.not_mem_nil, or_false, exists_eq_or_imp, exists_eq_left]
  | power p => simp [Kind.ok, KindFits]

theorem ty_iff (k : Kind) : k.ty = .complex ↔ ComplexKind k := by
  cases k with
  | efield f => simp [Kind.ty, ComplexKind]
  | power p =>
    have : (p.any (fun x => decide (x ∈ [(-3 : Int), -4, -7, -8]))) = true ↔ ∃ q ∈ p, IsCross q := by
      simp [IsCross]
    show (if _ then Ty.complex else Ty.real) = _ ↔ ∃ q ∈ p, IsCross q
    rw [← this]
    split
    · rename_i h; simp only [h]
    · rename_i h; simp only [reduceCtorEq, h]

theorem ty_eq {t u : Ty} : t = u ↔ (t = .complex ↔ u = .complex) := by
  cases t <;> cases u <;> simp

section
variable [Field K] [LinearOrder K]

/-- All parts of a beam that is made. -/
theorem new_parts [Zero V] [One V] {pi : K} {short : Arr K → Bool} {a : Args K V} {b : Beam K V} : new pi short a = .ok b ↔
    ∃ k g o bv bp ph d, KindIs a k ∧ gridArgs a = .ok g ∧ orientArgs a.orient = .ok o ∧ basisArgs k g a.basis = .ok bv ∧
      bandArgs a.freqs.length a.bandpass = .ok bp ∧ phasedArgs a k = .ok ph ∧ dataArgs k g a.freqs.length a.data = .ok d ∧
      b = ⟨a.norm, a.freqs, k, g, k.nvec, o, bv, bp, ph, d.1, d.2⟩ ∧ check pi short b = true := by
  constructor
  · intro h
    unfold new at h
    cases h1 : kindArgs a with
    | error e => rw [h1] at h; cases h
    | ok k =>
    rw [h1] at h
    cases h2 : gridArgs a with
    | error e => rw [h2] at h; cases h
    | ok g =>
    rw [h2] at h
    cases h3 : orientArgs a.orient with
    | error e => rw [h3] at h; cases h
    | ok o =>
    rw [h3] at h
    cases h4 : basisArgs k g a.basis with
    | error e => simp only [h4] at h; cases h
    | ok bv =>
    cases h5 : bandArgs a.freqs.length a.bandpass with
    | error e => simp only [h4, h5] at h; cases h
    | ok bp =>
    cases h6 : phasedArgs a k with
    | error e => simp only [h4, h5, h6] at h; cases h
    | ok ph =>
    cases h7 : dataArgs k g a.freqs.length a.data with
    | error e => simp only [h4, h5, h6, h7] at h; cases h
    | ok d =>
    simp only [h4, h5, h6, h7] at h
    split at h
    · rename_i hc
      obtain rfl := Except.ok.inj h
      exact ⟨k, g, o, bv, bp, ph, d, kindArgs_iff.1 h1, rfl, rfl, h4, rfl, h6, h7, rfl, hc⟩
    · cases h
  · rintro ⟨k, g, o, bv, bp, ph, d, h1, h2, h3, h4, h5, h6, h7, rfl, h8⟩
    unfold new
    rw [kindArgs_iff.2 h1]
    dsimp only
    rw [h2, h3]
    dsimp only
    rw [h4, h5, h6]
    dsimp only
    rw [h7]
    dsimp only
    rw [if_pos h8]

theorem meanOk_iff (c : K) (l : List K) : meanOk c l = true ↔ (l.map abs).sum ≤ c * l.length := by
  unfold meanOk
  rw [decide_eq_true_eq]
  rfl

theorem grid_iff {pi : K} {a : Args K V} : (∃ g, gridArgs a = .ok g ∧ g.ok pi = true) ↔ GridFits pi a := by
  have ring : Pol.lower sRing = "ring".toList := by decide +kernel
  have az : Pol.lower sAzZa = sAzZa := by decide +kernel
  have mem2 : ∀ o : Str, (Pol.lower o ∈ [sRing, sNested]) ↔ (o.map Char.toLower = "ring".toList ∨ o.map Char.toLower = "nested".toList) := by
    intro o
    simp only [List.mem_cons, List.not_mem_nil, or_false]
    rfl
  constructor
  · rintro ⟨g, h, hg⟩
    have hi := gridArgs_is h
    unfold GridFits
    cases g with
    | healpix n o p =>
      obtain ⟨h1, h2, h3, h4, h5⟩ := hi
      simp only [Grid.ok, Bool.and_eq_true, decide_eq_true_eq] at hg
      rw [h1]
      refine ⟨h2, h3, ?_, ?_⟩
      · intro x hx
        rw [hx] at h4
        dsimp only at h4
        rw [← h4]
        exact (mem2 o).1 hg.1
      · cases h6 : a.pixels with
        | some q => rw [h6] at h5; dsimp only at h5 ⊢; rw [← h5]; exact hg.2
        | none =>
          rw [h6] at h5
          dsimp only at h5 ⊢
          rintro rfl
          exact hg.2 (List.length_eq_zero_iff.1 (by simpa using h5.1))
    | axes s x y =>
      obtain ⟨h1, h2, h3, h4, rfl⟩ := hi
      simp only [Grid.ok, Bool.and_eq_true, decide_eq_true_eq] at hg
      rw [h1]
      have hs : a.system = none := by
        rcases gridArgs_iff.1 ⟨_, h⟩ with h' | h'
        · rw [h1] at h'; simp at h'
        · exact h'.2.2.2.2
      obtain ⟨m1, m2⟩ := hg.2 rfl
      exact ⟨h2, hs, x, y, h3, h4, hg.1.1.2, hg.1.2, (meanOk_iff _ _).1 m1, (meanOk_iff _ _).1 m2⟩
  · intro h
    unfold GridFits at h
    cases h1 : a.nside with
    | some n =>
      rw [h1] at h
      obtain ⟨h2, h3, h4, h5⟩ := h
      obtain ⟨g, hg⟩ := (gridArgs_iff (a := a)).2 (.inl ⟨by simp [h1], h2, h3⟩)
      refine ⟨g, hg, ?_⟩
      have hi := gridArgs_is hg
      cases g with
      | axes s x y => rw [hi.1] at h1; cases h1
      | healpix n' o p =>
        obtain ⟨i1, -, -, i4, i5⟩ := hi
        rw [h1] at i1
        cases i1
        simp only [Grid.ok, Bool.and_eq_true, decide_eq_true_eq]
        constructor
        · rw [mem2]
          cases h6 : a.ordering with
          | none => rw [h6] at i4; dsimp only at i4; rw [i4]; exact .inl ring
          | some x => rw [h6] at i4; dsimp only at i4; rw [i4]; exact h4 x h6
        · cases h6 : a.pixels with
          | some q => rw [h6] at h5 i5; dsimp only at h5 i5; rw [i5]; exact h5
          | none =>
            rw [h6] at h5 i5
            dsimp only at h5 i5
            rintro rfl
            have := i5.1
            simp at this
            exact h5 this
    | none =>
      rw [h1] at h
      obtain ⟨h2, h3, x, y, h4, h5, h6, h7, h8, h9⟩ := h
      obtain ⟨g, hg⟩ := (gridArgs_iff (a := a)).2 (.inr ⟨h1, h2, by simp [h4], by simp [h5], h3⟩)
      refine ⟨g, hg, ?_⟩
      have hi := gridArgs_is hg
      cases g with
      | healpix n o p => rw [hi.1] at h1; cases h1
      | axes s x' y' =>
        obtain ⟨-, -, i3, i4, rfl⟩ := hi
        rw [h4] at i3
        rw [h5] at i4
        cases i3
        cases i4
        simp only [Grid.ok, Bool.and_eq_true, decide_eq_true_eq]
        refine ⟨⟨⟨?_, h6⟩, h7⟩, fun _ => ⟨(meanOk_iff _ _).2 h8, (meanOk_iff _ _).2 h9⟩⟩
        have : Pol.lower "az_za".toList = sAzZa := az
        rw [this]
        simp

theorem arrArg_iff {α : Type} {shape : List Nat} {d : List Nat → α} {o : Option (Arr α)} {r : Arr α} : arrArg shape d o = .ok r ↔
    match o with
    | some b => b.shape = shape ∧ r = b
    | none => r = ⟨shape, d⟩ := by
  cases o with
  | none => exact ⟨fun h => (Except.ok.inj h).symm, fun h => by rw [h]; rfl⟩
  | some b =>
    unfold arrArg
    dsimp only
    by_cases h : b.shape = shape
    · rw [if_neg (by simpa using h)]
      exact ⟨fun e => ⟨h, (Except.ok.inj e).symm⟩, fun e => by rw [e.2]⟩
    · rw [if_pos (by simpa using h)]
      exact ⟨fun e => (by cases e), fun e => absurd e.1 h⟩

theorem arrArg_ex {α : Type} {shape : List Nat} {d : List Nat → α} {o : Option (Arr α)} : (∃ r, arrArg shape d o = .ok r) ↔
    ∀ b, o = some b → b.shape = shape := by
  simp only [arrArg_iff]
  cases o with
  | none => simp
  | some b => simp

/-- The parts of a phased array. -/
theorem phasedArgs_iff [Zero V] [One V] {a : Args K V} {k : Kind} {r : Option (Phased K V)} : phasedArgs a k = .ok r ↔
    match a.elements with
    | none => r = none
    | some e => ∃ f n d g c, k = .efield f ∧ e.shape = [2, n] ∧ 2 ≤ n ∧ arrArg [n] (fun _ => 0) a.delays = .ok d ∧
        arrArg [n] (fun _ => 1) a.gains = .ok g ∧
        arrArg [n, n, f.length, f.length, a.freqs.length] (fun p => if p.getD 0 0 = p.getD 1 0 then (1 : V) else 0) a.coupling = .ok c ∧
        r = some ⟨a.elementSys.getD sXY, n, e, d, g, c⟩ := by
  unfold phasedArgs
  cases he : a.elements with
  | none => exact ⟨fun h => (Except.ok.inj h).symm, fun h => by rw [h]⟩
  | some e =>
    dsimp only
    cases k with
    | power p =>
      dsimp only
      exact ⟨fun h => (by cases h), fun ⟨f, n, d, g, c, h, _⟩ => (by cases h)⟩
    | efield f =>
      constructor
      · intro h
        split at h
        · cases h
        · rename_i x1 x2 f' m n hk hs
          cases hk
          split at h
          · cases h
          · rename_i hmn
            have hmn : m = 2 ∧ 2 ≤ n := by omega
            unfold phasedOf at h
            cases h1 : arrArg [n] (fun _ => 0) a.delays with
            | error x => rw [h1] at h; cases h
            | ok d =>
            cases h2 : arrArg [n] (fun _ => 1) a.gains with
            | error x => rw [h1, h2] at h; cases h
            | ok g =>
            cases h3 : arrArg [n, n, f.length, f.length, a.freqs.length] (fun p => if p.getD 0 0 = p.getD 1 0 then (1 : V) else 0) a.coupling with
            | error x => rw [h1, h2] at h; dsimp only at h; rw [h3] at h; cases h
            | ok c =>
              rw [h1, h2] at h
              dsimp only at h
              rw [h3] at h
              refine ⟨f, n, d, g, c, rfl, by rw [hs, hmn.1], hmn.2, h1, h2, h3, (Except.ok.inj h).symm⟩
        · cases h
      · rintro ⟨f', n, d, g, c, hk, hs, hn, h1, h2, h3, rfl⟩
        cases hk
        rw [hs]
        dsimp only
        rw [if_neg (by omega)]
        unfold phasedOf
        rw [h1, h2]
        dsimp only
        rw [h3]

theorem phased_iff [Zero V] [One V] {a : Args K V} {k : Kind} : (∃ r, phasedArgs a k = .ok r ∧ phasedOk r = true) ↔ PhasedFits a k := by
  have mem2 : ∀ o : Str, (Pol.lower o ∈ [sNE, sXY]) ↔ (o.map Char.toLower = "n-e".toList ∨ o.map Char.toLower = "x-y".toList) := by
    intro o
    simp only [List.mem_cons, List.not_mem_nil, or_false]
    rfl
  unfold PhasedFits
  simp only [phasedArgs_iff]
  cases he : a.elements with
  | none => simp [phasedOk]
  | some e =>
    constructor
    · rintro ⟨r, ⟨f, n, d, g, c, hk, hs, hn, h1, h2, h3, rfl⟩, hok⟩ e' ⟨⟩
      refine ⟨f, n, hk, hs, hn, ?_, arrArg_ex.1 ⟨d, h1⟩, arrArg_ex.1 ⟨g, h2⟩, arrArg_ex.1 ⟨c, h3⟩⟩
      intro s hs'
      simp only [phasedOk, decide_eq_true_eq, hs', Option.getD_some] at hok
      exact (mem2 s).1 hok
    · intro h
      obtain ⟨f, n, hk, hs, hn, h0, h1, h2, h3⟩ := h e rfl
      obtain ⟨d, h1⟩ := arrArg_ex.2 h1
      obtain ⟨g, h2⟩ := arrArg_ex.2 h2
      obtain ⟨c, h3⟩ := arrArg_ex.2 h3
      refine ⟨_, ⟨f, n, d, g, c, hk, hs, hn, h1, h2, h3, rfl⟩, ?_⟩
      simp only [phasedOk, decide_eq_true_eq]
      rw [mem2]
      cases h4 : a.elementSys with
      | none => exact .inr (by decide +kernel)
      | some s => exact h0 s h4

/-- The basis vectors of the axes. -/
def axesBasis (g : List Nat) : Arr K := ⟨[2, 2] ++ g, fun p => if p.getD 0 0 = p.getD 1 0 then 1 else 0⟩

theorem basis_iff {k : Kind} {g : Grid K} {b r : Option (Arr K)} : basisArgs k g b = .ok r ↔
    match b, k with
    | some v, _ => v.shape = [k.nvec, 2] ++ g.shape ∧ r = some v
    | none, .efield _ => r = some (axesBasis g.shape)
    | none, .power _ => r = none := by
  cases b with
  | none => cases k <;> exact ⟨fun h => (Except.ok.inj h).symm, fun h => by rw [h]; rfl⟩
  | some v =>
    unfold basisArgs
    dsimp only
    by_cases h : v.shape = [k.nvec, 2] ++ g.shape
    · rw [if_neg (by simpa using h)]
      exact ⟨fun e => ⟨h, (Except.ok.inj e).symm⟩, fun e => by rw [e.2]⟩
    · rw [if_pos (by simpa using h)]
      exact ⟨fun e => (by cases e), fun e => absurd e.1 h⟩

theorem band_iff {n : Nat} {b : Option (Arr K)} {r : Arr K} : bandArgs n b = .ok r ↔
    match b with
    | some v => v.shape = [n] ∧ r = v
    | none => r = ⟨[n], fun _ => 1⟩ := by
  cases b with
  | none => exact ⟨fun h => (Except.ok.inj h).symm, fun h => by rw [h]; rfl⟩
  | some v =>
    unfold bandArgs
    dsimp only
    by_cases h : v.shape = [n]
    · rw [if_neg (by simpa using h)]
      exact ⟨fun e => ⟨h, (Except.ok.inj e).symm⟩, fun e => by rw [e.2]⟩
    · rw [if_pos (by simpa using h)]
      exact ⟨fun e => (by cases e), fun e => absurd e.1 h⟩

theorem data_iff [Zero V] {k : Kind} {g : Grid K} {n : Nat} {d : Option (Arr V × Ty)} {r : Arr V × Ty} : dataArgs k g n d = .ok r ↔
    match d with
    | some v => v.1.shape = [k.nvec, k.size, n] ++ g.shape ∧ r = v
    | none => r.1 = ⟨[k.nvec, k.size, n] ++ g.shape, fun _ => 0⟩ ∧ (r.2 = .complex ↔ ∃ f, k = .efield f) := by
  cases d with
  | none =>
    unfold dataArgs
    dsimp only
    obtain ⟨r1, r2⟩ := r
    cases k <;> cases r2 <;> simp [eq_comm]
  | some v =>
    unfold dataArgs
    dsimp only
    by_cases h : v.1.shape = [k.nvec, k.size, n] ++ g.shape
    · rw [if_neg (by simpa using h)]
      exact ⟨fun e => ⟨h, (Except.ok.inj e).symm⟩, fun e => by rw [e.2]⟩
    · rw [if_pos (by simpa using h)]
      exact ⟨fun e => (by cases e), fun e => absurd e.1 h⟩

theorem check_iff {pi : K} {short : Arr K → Bool} {b : Beam K V} : check pi short b = true ↔
    KindFits b.kind ∧ b.grid.ok pi = true ∧ b.freqs ≠ [] ∧ (b.norm.map Char.toLower ∈ ["physical".toList, "peak".toList, "solid_angle".toList]) ∧
    basisOk short b.basis = true ∧ phasedOk b.phased = true ∧ (b.ty = .complex ↔ ComplexKind b.kind) := by
  unfold check
  simp only [Bool.and_eq_true, decide_eq_true_eq, kindOk_iff]
  rw [← ty_iff, ← ty_eq]
  simp only [and_assoc]
  rfl

/-- C212: a beam is made exactly if the arguments belong together. -/
theorem accept [Zero V] [One V] (pi : K) (short : Arr K → Bool) (hs : ∀ g, short (axesBasis g) = true) (a : Args K V) :
    (∃ b, new pi short a = .ok b) ↔ Acceptable pi short a := by
  simp only [new_parts]
  unfold Acceptable
  constructor
  · rintro ⟨b, k, g, o, bv, bp, ph, d, h1, h2, h3, h4, h5, h6, h7, rfl, h8⟩
    obtain ⟨c1, c2, c3, c4, c5, c6, c7⟩ := check_iff.1 h8
    dsimp only at c1 c2 c3 c4 c5 c6 c7
    have hsh := (gridArgs_is h2).shape
    refine ⟨c3, c4, grid_iff.1 ⟨g, h2, c2⟩, (orientArgs_iff _).1 ⟨o, h3⟩, ?_, k, h1, c1, phased_iff.1 ⟨ph, h6, c6⟩, ?_, ?_⟩
    · intro v hv
      rw [hv] at h5
      exact (band_iff.1 h5).1
    · intro v hv
      rw [hv] at h4
      obtain ⟨e1, rfl⟩ := basis_iff.1 h4
      rw [hsh] at e1
      refine ⟨?_, c5⟩
      rw [e1]
      cases k <;> rfl
    · cases hd : a.data with
      | some v =>
        rw [hd] at h7
        obtain ⟨e1, rfl⟩ := data_iff.1 h7
        rw [hsh] at e1
        cases k with
        | efield f => exact ⟨e1, c7.2 trivial⟩
        | power l => exact ⟨e1, c7⟩
      | none =>
        rw [hd] at h7
        obtain ⟨-, e2⟩ := data_iff.1 h7
        cases k with
        | efield f => trivial
        | power l =>
          intro p hp hx
          have := e2.1 (c7.2 ⟨p, hp, hx⟩)
          obtain ⟨f, hf⟩ := this
          cases hf
  · rintro ⟨h1, h2, h3, h4, h5, k, h6, h7, h8, h9, h10⟩
    obtain ⟨g, g1, g2⟩ := grid_iff.2 h3
    have hsh := (gridArgs_is g1).shape
    obtain ⟨o, ho⟩ := (orientArgs_iff _).2 h4
    obtain ⟨ph, p1, p2⟩ := phased_iff.2 h8
    have hb : ∃ bv, basisArgs k g a.basis = .ok bv ∧ basisOk short bv = true := by
      simp only [basis_iff]
      cases hv : a.basis with
      | some v =>
        obtain ⟨e1, e2⟩ := h9 v hv
        refine ⟨some v, ⟨?_, rfl⟩, e2⟩
        rw [e1, hsh]
        cases k <;> rfl
      | none =>
        cases k with
        | efield f => exact ⟨_, rfl, hs _⟩
        | power l => exact ⟨_, rfl, rfl⟩
    obtain ⟨bv, b1, b2⟩ := hb
    have hp : ∃ bp, bandArgs a.freqs.length a.bandpass = .ok bp := by
      simp only [band_iff]
      cases hv : a.bandpass with
      | some v => exact ⟨v, h5 v hv, rfl⟩
      | none => exact ⟨_, rfl⟩
    obtain ⟨bp, hp⟩ := hp
    have hd : ∃ d, dataArgs k g a.freqs.length a.data = .ok d ∧ (d.2 = .complex ↔ ComplexKind k) := by
      simp only [data_iff]
      cases hv : a.data with
      | some v =>
        rw [hv] at h10
        rw [hsh]
        cases k with
        | efield f => exact ⟨v, ⟨h10.1, rfl⟩, by simp [h10.2, ComplexKind]⟩
        | power l => exact ⟨v, ⟨h10.1, rfl⟩, h10.2⟩
      | none =>
        rw [hv] at h10
        cases k with
        | efield f => exact ⟨(_, .complex), ⟨rfl, by simp⟩, by simp [ComplexKind]⟩
        | power l =>
          refine ⟨(_, .real), ⟨rfl, by simp⟩, ?_⟩
          simp only [reduceCtorEq, false_iff]
          rintro ⟨p, hp, hx⟩
          exact h10 p hp hx
    obtain ⟨d, d1, d2⟩ := hd
    exact ⟨_, k, g, o, bv, bp, ph, d, h6, g1, ho, b1, hp, p1, d1, rfl, check_iff.2 ⟨h7, g2, h1, h2, b2, p2, d2⟩⟩

/-- C212: the beam that is made is the one that was asked for. -/
theorem made [Zero V] [One V] (pi : K) (short : Arr K → Bool) (a : Args K V) (b : Beam K V) (h : new pi short a = .ok b) : Made a b := by
  obtain ⟨k, g, o, bv, bp, ph, d, h1, h2, h3, h4, h5, h6, h7, rfl, h8⟩ := new_parts.1 h
  obtain ⟨-, -, -, -, -, -, c7⟩ := check_iff.1 h8
  have hi := gridArgs_is h2
  have hsh := hi.shape
  constructor
  case norm => rfl
  case freqs => rfl
  case kind => exact h1
  case grid => exact hi
  case orient => exact orientArgs_is h3
  case basis =>
    cases hv : a.basis with
    | some v =>
      rw [hv] at h4
      exact (basis_iff.1 h4).2
    | none =>
      rw [hv] at h4
      cases k with
      | power l => exact basis_iff.1 h4
      | efield f =>
        have e : bv = some (axesBasis g.shape) := basis_iff.1 h4
        refine ⟨_, e, by rw [← hsh]; rfl, ?_⟩
        intro i j p
        rfl
  case bandpass =>
    cases hv : a.bandpass with
    | some v =>
      rw [hv] at h5
      exact (band_iff.1 h5).2
    | none =>
      rw [hv] at h5
      have e : bp = ⟨[a.freqs.length], fun _ => 1⟩ := band_iff.1 h5
      rw [e]
      exact ⟨rfl, fun _ => rfl⟩
  case simple =>
    intro he
    have := phasedArgs_iff.1 h6
    rw [he] at this
    exact this
  case phased =>
    intro e he
    have := phasedArgs_iff.1 h6
    rw [he] at this
    obtain ⟨f, n, x, y, z, e1, e2, -, e4, e5, e6, e7⟩ := this
    refine ⟨_, n, f, e7, e1, rfl, e2, rfl, ?_, ?_, ?_, ?_⟩
    · cases a.elementSys <;> rfl
    · have := arrArg_iff.1 e4
      cases hv : a.delays with
      | some v => rw [hv] at this; exact this.2
      | none =>
        rw [hv] at this
        dsimp only at this ⊢
        rw [this]
        exact ⟨rfl, fun _ => rfl⟩
    · have := arrArg_iff.1 e5
      cases hv : a.gains with
      | some v => rw [hv] at this; exact this.2
      | none =>
        rw [hv] at this
        dsimp only at this ⊢
        rw [this]
        exact ⟨rfl, fun _ => rfl⟩
    · have := arrArg_iff.1 e6
      cases hv : a.coupling with
      | some v => rw [hv] at this; exact this.2
      | none =>
        rw [hv] at this
        dsimp only at this ⊢
        rw [this]
        exact ⟨rfl, fun _ _ _ => rfl⟩
  case data =>
    cases hv : a.data with
    | some v =>
      rw [hv] at h7
      obtain ⟨-, rfl⟩ := data_iff.1 h7
      exact ⟨rfl, rfl⟩
    | none =>
      rw [hv] at h7
      obtain ⟨e1, -⟩ := data_iff.1 h7
      dsimp only
      rw [e1, hsh]
      refine ⟨fun _ => rfl, ?_⟩
      cases k <;> rfl
  case ty => exact c7

/-- C212: a coordinate system that is given for two axes is refused, whatever it is. -/
theorem system_counterexample [Zero V] [One V] (pi : K) (short : Arr K → Bool) (a : Args K V) (s : Str) (hs : a.system = some s) (hn : a.nside = none) :
    ∀ b, new pi short a ≠ .ok b := by
  intro b h
  obtain ⟨k, g, o, bv, bp, ph, d, -, h2, -⟩ := new_parts.1 h
  rcases gridArgs_iff.1 ⟨g, h2⟩ with h | h
  · rw [hn] at h; simp at h
  · rw [hs] at h; simp at h

/-- C212: a power beam with a cross polarization is refused if no data are given: the zeros that are made are real. -/
theorem cross_counterexample [Zero V] [One V] (pi : K) (short : Arr K → Bool) (a : Args K V) (l : List Int) (p : Int) (hl : a.pols = some (.nums l))
    (hp : p ∈ l) (hx : IsCross p) (hd : a.data = none) : ∀ b, new pi short a ≠ .ok b := by
  intro b h
  obtain ⟨k, g, o, bv, bp, ph, d, h1, -, -, -, -, -, h7, rfl, h8⟩ := new_parts.1 h
  obtain ⟨-, -, -, -, -, -, c7⟩ := check_iff.1 h8
  rw [hd] at h7
  obtain ⟨-, e2⟩ := data_iff.1 h7
  cases k with
  | efield f => exact absurd h1.2 (by simp [hl])
  | power l' =>
    have e : l' = l := by
      rcases h1.2 with e | ⟨n, e, -⟩
      · rw [hl] at e; cases e; rfl
      · rw [hl] at e; cases e
    rw [e] at c7
    obtain ⟨f, hf⟩ := e2.1 (c7.2 ⟨p, hp, hx⟩)
    cases hf

/-- C212: names of polarizations that need the orientation are refused though it is given. -/
theorem names_counterexample [Zero V] [One V] (pi : K) (short : Arr K → Bool) (a : Args K V) (n : List Str) (hn : a.pols = some (.names n))
    (he : "ee".toList ∈ n) : ∀ b, new pi short a ≠ .ok b := by
  intro b h
  obtain ⟨k, g, o, bv, bp, ph, d, h1, -⟩ := new_parts.1 h
  cases k with
  | efield f => exact absurd h1.2 (by simp [hn])
  | power l =>
    rcases h1.2 with e | ⟨n', e, em⟩
    · rw [hn] at e; cases e
    · rw [hn] at e
      cases e
      have : Pol.polstr2num none "ee".toList ∈ n.map (Pol.polstr2num none) := List.mem_map_of_mem he
      rw [em, show Pol.polstr2num none "ee".toList = none by decide +kernel] at this
      simp at this

end
end Verif.NewBeam
