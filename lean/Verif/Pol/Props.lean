import Verif.Pol.Lemmas

/-!
C16–C18: polarization tables, conjugate ordering, polarization reordering.
-/
namespace Verif.Pol
open Verif.Np

/-! ### C16 -/

/-- Every number that has a name gets its number back from that name, for every x_orientation string. -/
theorem polnum_roundtrip (xo : Option Str) (n : Int) (s : Str) (h : polnum2str xo n = some s) :
    polstr2num xo s = some n := by
  obtain ⟨xo', hm, hc⟩ := orient_cases xo
  rw [polnum2str_congr hc] at h
  rw [polstr2num_congr hc]
  have key : ∀ o ∈ orients, ∀ p ∈ orientedNames polNum2Str o, polstr2num o p.2 = some p.1 := by
    decide +kernel
  exact key xo' hm (n, s) (Dict.mem_of_get h)

example : polnum2str (some ['N', 'S']) (-7) = some ['n', 'e'] := by decide +kernel

/-- The names mean what the orientation says: with x pointing east, x is e and y is n; with x pointing north,
x is n and y is e; with no orientation the letters stay x and y. -/
theorem oriented_names (xo : Str) :
    ((lower xo = ['e','a','s','t'] ∨ lower xo = ['e'] ∨ lower xo = ['e','w']) →
      [-5, -6, -7, -8].map (polnum2str (some xo)) =
        [some ['e','e'], some ['n','n'], some ['e','n'], some ['n','e']] ∧
      [-5, -6, -7, -8].map (jnum2str (some xo)) =
        [some ['J','e','e'], some ['J','n','n'], some ['J','e','n'], some ['J','n','e']]) ∧
    ((lower xo = ['n','o','r','t','h'] ∨ lower xo = ['n'] ∨ lower xo = ['n','s']) →
      [-5, -6, -7, -8].map (polnum2str (some xo)) =
        [some ['n','n'], some ['e','e'], some ['n','e'], some ['e','n']] ∧
      [-5, -6, -7, -8].map (jnum2str (some xo)) =
        [some ['J','n','n'], some ['J','e','e'], some ['J','n','e'], some ['J','e','n']]) ∧
    [-5, -6, -7, -8].map (polnum2str none) = [some ['x','x'], some ['y','y'], some ['x','y'], some ['y','x']] ∧
    [-1, -2, -3, -4].map (polnum2str (some xo)) = [some ['r','r'], some ['l','l'], some ['r','l'], some ['l','r']] ∧
    [1, 2, 3, 4].map (polnum2str (some xo)) = [some ['p','I'], some ['p','Q'], some ['p','U'], some ['p','V']] := by
  have e1 : ∀ o : Str, lower o = lower xo → ∀ n, polnum2str (some xo) n = polnum2str (some o) n := by
    intro o ho n; simp [polnum2str, orientedNames, xOrientPolMap, ho]
  have e2 : ∀ o : Str, lower o = lower xo → ∀ n, jnum2str (some xo) n = jnum2str (some o) n := by
    intro o ho n; simp [jnum2str, orientedNames, xOrientPolMap, ho]
  refine ⟨?_, ?_, by decide +kernel, ?_, ?_⟩
  · rintro (h | h | h) <;>
    · constructor
      · rw [List.map_congr_left (fun n _ => e1 (lower xo) (by rw [h]; decide) n), h]; decide +kernel
      · rw [List.map_congr_left (fun n _ => e2 (lower xo) (by rw [h]; decide) n), h]; decide +kernel
  · rintro (h | h | h) <;>
    · constructor
      · rw [List.map_congr_left (fun n _ => e1 (lower xo) (by rw [h]; decide) n), h]; decide +kernel
      · rw [List.map_congr_left (fun n _ => e2 (lower xo) (by rw [h]; decide) n), h]; decide +kernel
  · obtain ⟨xo', hm, hc⟩ := orient_cases (some xo)
    rw [List.map_congr_left (fun n _ => by rw [polnum2str_congr hc])]
    revert hm; revert xo'
    have key : ∀ o ∈ orients, List.map (polnum2str o) [-1, -2, -3, -4] =
        [some ['r','r'], some ['l','l'], some ['r','l'], some ['l','r']] := by decide +kernel
    intro o _ ho
    exact key o ho
  · obtain ⟨xo', hm, hc⟩ := orient_cases (some xo)
    rw [List.map_congr_left (fun n _ => by rw [polnum2str_congr hc])]
    have key : ∀ o ∈ orients, List.map (polnum2str o) [1, 2, 3, 4] =
        [some ['p','I'], some ['p','Q'], some ['p','U'], some ['p','V']] := by decide +kernel
    exact key xo' hm

example : lower ['E', 'a', 's', 'T'] = ['e', 'a', 's', 't'] := by decide +kernel

/-- The same for Jones names. -/
theorem jnum_roundtrip (xo : Option Str) (n : Int) (s : Str) (h : jnum2str xo n = some s) :
    jstr2num xo s = some n := by
  obtain ⟨xo', hm, hc⟩ := orient_cases xo
  rw [jnum2str_congr hc] at h
  rw [jstr2num_congr hc]
  have key : ∀ o ∈ orients, ∀ p ∈ orientedNames jonesNum2Str o, jstr2num o p.2 = some p.1 := by
    decide +kernel
  exact key xo' hm (n, s) (Dict.mem_of_get h)

example : jnum2str (some ['e', 'a', 's', 't']) (-8) = some ['J', 'n', 'e'] := by decide +kernel

/-- Exactly the twelve AIPS polarization numbers have names, whatever the orientation; exactly eight Jones
numbers do. -/
theorem polnum_domain (xo : Option Str) (n : Int) :
    ((polnum2str xo n).isSome ↔ (1 ≤ n ∧ n ≤ 4) ∨ (-8 ≤ n ∧ n ≤ -1)) ∧
    ((jnum2str xo n).isSome ↔ -8 ≤ n ∧ n ≤ -1) := by
  obtain ⟨xo', hm, hc⟩ := orient_cases xo
  rw [polnum2str_congr hc, jnum2str_congr hc]
  have k1 : ∀ o ∈ orients, ∀ p ∈ orientedNames polNum2Str o, (1 ≤ p.1 ∧ p.1 ≤ 4) ∨ (-8 ≤ p.1 ∧ p.1 ≤ -1) := by
    decide +kernel
  have k2 : ∀ o ∈ orients, ∀ k ∈ ([1, 2, 3, 4, -1, -2, -3, -4, -5, -6, -7, -8] : List Int),
      (polnum2str o k).isSome := by decide +kernel
  have k3 : ∀ o ∈ orients, ∀ p ∈ orientedNames jonesNum2Str o, -8 ≤ p.1 ∧ p.1 ≤ -1 := by
    decide +kernel
  have k4 : ∀ o ∈ orients, ∀ k ∈ ([-1, -2, -3, -4, -5, -6, -7, -8] : List Int),
      (jnum2str o k).isSome := by decide +kernel
  constructor
  · constructor
    · intro h
      obtain ⟨s, hs⟩ := Option.isSome_iff_exists.1 h
      exact k1 xo' hm (n, s) (Dict.mem_of_get hs)
    · intro h
      apply k2 xo' hm
      simp only [List.mem_cons, List.not_mem_nil, or_false]
      omega
  · constructor
    · intro h
      obtain ⟨s, hs⟩ := Option.isSome_iff_exists.1 h
      exact k3 xo' hm (n, s) (Dict.mem_of_get hs)
    · intro h
      apply k4 xo' hm
      simp only [List.mem_cons, List.not_mem_nil, or_false]
      omega

example : (polnum2str (some ['z']) (-8)).isSome ∧ ¬ (polnum2str none 0).isSome := by decide +kernel

/-- Whole lists of polarizations are converted back and forth without loss. -/
theorem pollist_roundtrip (xo : Option Str) (ns : List Int) (ss : List Str)
    (h : onList (polnum2str xo) ns = some ss) : onList (polstr2num xo) ss = some ns := by
  unfold onList at *
  rw [mapM_forall₂] at *
  exact (h.imp (fun n s hs => polnum_roundtrip xo n s hs)).flip

example : onList (polnum2str none) [-5, 1] = some [['x', 'x'], ['p', 'I']] := by decide +kernel

/-- Names are recognised regardless of case. -/
theorem polstr_case_insensitive (xo : Option Str) (s t : Str) (h : lower s = lower t) :
    polstr2num xo s = polstr2num xo t ∧ jstr2num xo s = jstr2num xo t ∧ conjStr s = conjStr t := by
  simp only [polstr2num, jstr2num, conjStr, h, and_self]

example : lower ['P', 'i'] = lower ['p', 'I'] := by decide +kernel

/-- Standardising a name (`parse_polstr`) keeps its number and is idempotent. -/
theorem parse_polstr_stable (xo : Option Str) (s t : Str) (h : parsePolstr xo s = some t) :
    polstr2num xo t = polstr2num xo s ∧ parsePolstr xo t = some t := by
  unfold parsePolstr at h
  cases hn : polstr2num xo s with
  | none => simp [hn] at h
  | some n =>
    simp [hn] at h
    have := polnum_roundtrip xo n t h
    exact ⟨this, by simp [parsePolstr, this, h]⟩

example : parsePolstr (some ['e']) ['N', 'n'] = some ['n', 'n'] := by decide +kernel

/-- Conjugating a polarization number twice gives it back. -/
theorem conj_involution (n m : Int) (h : conjNum n = some m) : conjNum m = some n := by
  have key : ∀ p ∈ polNum2Str, (conjNum p.1).bind conjNum = some p.1 := by decide +kernel
  have hs : (polnum2str none n).isSome := by
    cases hp : polnum2str none n with
    | none => simp [conjNum, hp] at h
    | some s => rfl
  obtain ⟨s, hs⟩ := Option.isSome_iff_exists.1 hs
  have hk := key (n, s) (Dict.mem_of_get (d := polNum2Str) hs)
  simp only [h, Option.bind_some] at hk
  exact hk

example : conjNum (-7) = some (-8) := by decide +kernel

/-- Every named polarization number has a conjugate. -/
theorem conj_total (n : Int) : (conjNum n).isSome ↔ (1 ≤ n ∧ n ≤ 4) ∨ (-8 ≤ n ∧ n ≤ -1) := by
  rw [← (polnum_domain none n).1]
  constructor
  · intro h
    cases hp : polnum2str none n with
    | none => simp [conjNum, hp] at h
    | some s => rfl
  · intro h
    obtain ⟨s, hs⟩ := Option.isSome_iff_exists.1 h
    have key : ∀ p ∈ polNum2Str, (conjNum p.1).isSome := by decide +kernel
    exact key (n, s) (Dict.mem_of_get (d := polNum2Str) hs)

example : conjNum (-7) = some (-8) ∧ conjNum 0 = none := by decide +kernel

/-- What conjugation means: pseudo-Stokes parameters are unchanged, and a feed-pair polarization `ab`
becomes `ba` — in every orientation's naming. -/
theorem conj_swaps_feeds (xo : Option Str) (n m : Int) (s t : Str) (h : conjNum n = some m)
    (hs : polnum2str xo n = some s) (ht : polnum2str xo m = some t) :
    (0 < n → m = n) ∧ (n < 0 → t = s.reverse) := by
  obtain ⟨xo', hm, hc⟩ := orient_cases xo
  rw [polnum2str_congr hc] at hs ht
  have key : ∀ o ∈ orients, ∀ p ∈ orientedNames polNum2Str o, ∀ q ∈ orientedNames polNum2Str o,
      conjNum p.1 = some q.1 → (0 < p.1 → q.1 = p.1) ∧ (p.1 < 0 → q.2 = p.2.reverse) := by decide +kernel
  exact key xo' hm (n, s) (Dict.mem_of_get hs) (m, t) (Dict.mem_of_get ht) h

example : conjNum (-8) = some (-7) ∧ polnum2str (some ['n']) (-8) = some ['e', 'n'] ∧
    polnum2str (some ['n']) (-7) = some ['n', 'e'] := by decide +kernel

/-- Conjugating a name agrees with conjugating its number, in every orientation. -/
theorem conj_name_number (xo : Option Str) (n m : Int) (s t : Str) (hs : polnum2str xo n = some s)
    (ht : conjStr s = some t) (h : conjNum n = some m) : polstr2num xo t = some m := by
  obtain ⟨xo', hm, hc⟩ := orient_cases xo
  rw [polnum2str_congr hc] at hs
  rw [polstr2num_congr hc]
  have key : ∀ o ∈ orients, ∀ p ∈ orientedNames polNum2Str o,
      ∀ t, conjStr p.2 = some t → polstr2num o t = conjNum p.1 := by
    have : ∀ o ∈ orients, ∀ p ∈ orientedNames polNum2Str o,
      (conjStr p.2).bind (polstr2num o) = conjNum p.1 := by decide +kernel
    intro o ho p hp t ht
    have := this o ho p hp
    rwa [ht] at this
  rw [key xo' hm (n, s) (Dict.mem_of_get hs) t ht, h]

example : polnum2str (some ['e']) (-7) = some ['e', 'n'] ∧ conjStr ['e', 'n'] = some ['n', 'e'] ∧
    conjNum (-7) = some (-8) := by decide +kernel

/-- Conjugating a name twice gives the name back up to letter case. -/
theorem conj_name_involution (s t : Str) (h : conjStr s = some t) :
    ∃ u, conjStr t = some u ∧ lower u = lower s := by
  have key : ∀ p ∈ lowerKeys conjTable, ∃ u, conjStr p.2 = some u ∧ lower u = p.1 := by
    have : ∀ p ∈ lowerKeys conjTable, (conjStr p.2).map lower = some p.1 := by decide +kernel
    intro p hp
    have := this p hp
    cases hc : conjStr p.2 with
    | none => simp [hc] at this
    | some u => simp [hc] at this; exact ⟨u, rfl, this⟩
  exact key (lower s, t) (Dict.mem_of_get h)

example : conjStr ['X', 'y'] = some ['y', 'x'] := by decide +kernel

/-- The feeds listed for a polarization are exchanged by conjugation. -/
theorem conj_feed_table (s t : Str) (f g : Str × Str) (hs : polToFeed.get s = some f)
    (ht : conjStr s = some t) (hg : polToFeed.get t = some g) : g = f.swap := by
  have key : ∀ p ∈ polToFeed, (conjStr p.1).bind polToFeed.get = some p.2.swap := by decide +kernel
  have := key (s, f) (Dict.mem_of_get hs)
  simp only [ht, Option.bind_some, hg, Option.some.injEq] at this
  exact this

example : polToFeed.get ['r', 'l'] = some (['r'], ['l']) ∧ conjStr ['r', 'l'] = some ['l', 'r'] := by
  decide +kernel

/-- `hh`, `vv`, `hv`, `vh` are accepted polarization names but `conj_pol` raises `KeyError` on them. -/
theorem conj_hv_counterexample :
    polstr2num none ['h', 'v'] = some (-7) ∧ conjStr ['h', 'v'] = none := by decide +kernel

/-! ### C17 -/

/-- `reorder_conj_pols` succeeds exactly when every polarization is a known one whose conjugate is listed. -/
theorem reorder_conj_succeeds_iff (pols : List Int) :
    (reorderConjPols pols).isSome ↔ ∀ p ∈ pols, ∃ q ∈ pols, conjNum p = some q := by
  constructor
  · intro h
    obtain ⟨o, ho⟩ := Option.isSome_iff_exists.1 h
    unfold reorderConjPols at ho
    cases hc : pols.mapM conjNum with
    | none => simp [hc] at ho
    | some cp =>
      simp only [hc, Option.bind_eq_bind, Option.bind_some] at ho
      intro p hp
      obtain ⟨k, hk, hkp⟩ := List.getElem_of_mem hp
      obtain ⟨i, hi, _⟩ := (mapM_getElem? ho).2 k p (by rw [List.getElem?_eq_getElem hk, hkp])
      have hcp := firstIdx_spec hi
      have hlen := (mapM_getElem? hc).1
      have hil : i < pols.length := by
        have := (List.getElem?_eq_some_iff.1 hcp).1
        omega
      obtain ⟨b, hb, hb2⟩ := (mapM_getElem? hc).2 i pols[i] (List.getElem?_eq_getElem hil)
      rw [hcp] at hb2
      simp at hb2
      subst hb2
      exact ⟨pols[i], List.getElem_mem hil, conj_involution _ _ hb⟩
  · intro h
    have hc : ∃ cp, pols.mapM conjNum = some cp := by
      have : ∀ l : List Int, (∀ p ∈ l, ∃ q, conjNum p = some q) → ∃ cp, l.mapM conjNum = some cp := by
        intro l
        induction l with
        | nil => intro _; exact ⟨[], by simp⟩
        | cons a l ih =>
          intro hl
          obtain ⟨q, hq⟩ := hl a (by simp)
          obtain ⟨cp, hcp⟩ := ih (fun p hp => hl p (by simp [hp]))
          exact ⟨q :: cp, by simp [hq, hcp]⟩
      exact this pols (fun p hp => by obtain ⟨q, _, hq⟩ := h p hp; exact ⟨q, hq⟩)
    obtain ⟨cp, hcp⟩ := hc
    have hmem : ∀ p ∈ pols, p ∈ cp := by
      intro p hp
      obtain ⟨q, hq, hpq⟩ := h p hp
      have hqp := conj_involution _ _ hpq
      obtain ⟨k, hk, hkq⟩ := List.getElem_of_mem hq
      obtain ⟨b, hb, hb2⟩ := (mapM_getElem? hcp).2 k q (by rw [List.getElem?_eq_getElem hk, hkq])
      rw [hqp] at hb
      simp at hb
      subst hb
      exact List.mem_of_getElem? hb2
    unfold reorderConjPols
    simp only [hcp, Option.bind_eq_bind, Option.bind_some]
    have : ∀ l : List Int, (∀ p ∈ l, p ∈ cp) → (l.mapM (fun p => firstIdx cp p)).isSome := by
      intro l
      induction l with
      | nil => intro _; simp
      | cons a l ih =>
        intro hl
        obtain ⟨i, hi⟩ := Option.isSome_iff_exists.1 (firstIdx_isSome.2 (hl a (by simp)))
        obtain ⟨r, hr⟩ := Option.isSome_iff_exists.1 (ih (fun p hp => hl p (by simp [hp])))
        simp [hi, hr]
    exact this pols hmem

example : ∀ p ∈ [-7, -5, -8, -6], ∃ q ∈ [-7, -5, -8, -6], conjNum p = some q := by decide +kernel

/-- The returned order points every polarization to its conjugate; for distinct polarizations it is a
self-inverse permutation of the axis. -/
theorem reorder_conj_correct (pols : List Int) (o : List Nat) (h : reorderConjPols pols = some o)
    (hn : pols.Nodup) :
    o.length = pols.length ∧
    (∀ i j : Nat, o[i]? = some j → ∃ p q, pols[i]? = some p ∧ pols[j]? = some q ∧ conjNum p = some q) ∧
    (∀ i j : Nat, o[i]? = some j → o[j]? = some i) ∧
    o.Perm (List.range pols.length) := by
  unfold reorderConjPols at h
  cases hc : pols.mapM conjNum with
  | none => simp [hc] at h
  | some cp =>
    simp only [hc, Option.bind_eq_bind, Option.bind_some] at h
    have hlen := (mapM_getElem? h).1
    have hlenc := (mapM_getElem? hc).1
    have hpair : ∀ i j : Nat, o[i]? = some j →
        ∃ p q, pols[i]? = some p ∧ pols[j]? = some q ∧ conjNum p = some q := by
      intro i j hij
      have hi : i < pols.length := by
        have := (List.getElem?_eq_some_iff.1 hij).1; omega
      obtain ⟨b, hb, hb2⟩ := (mapM_getElem? h).2 i pols[i] (List.getElem?_eq_getElem hi)
      rw [hij] at hb2; simp at hb2; subst hb2
      have hcp := firstIdx_spec hb
      have hj : j < pols.length := by
        have := (List.getElem?_eq_some_iff.1 hcp).1; omega
      obtain ⟨b, hb, hb2⟩ := (mapM_getElem? hc).2 j pols[j] (List.getElem?_eq_getElem hj)
      rw [hcp] at hb2; simp at hb2; subst hb2
      exact ⟨pols[i], pols[j], List.getElem?_eq_getElem hi, List.getElem?_eq_getElem hj, conj_involution _ _ hb⟩
    have hinv : ∀ i j : Nat, o[i]? = some j → o[j]? = some i := by
      intro i j hij
      obtain ⟨p, q, hp, hq, hpq⟩ := hpair i j hij
      have hj : j < o.length := by
        have := (List.getElem?_eq_some_iff.1 hq).1; omega
      obtain ⟨p', q', hp', hq', hpq'⟩ := hpair j o[j] (List.getElem?_eq_getElem hj)
      rw [hq] at hp'; simp at hp'; subst hp'
      rw [conj_involution _ _ hpq] at hpq'; simp at hpq'; subst hpq'
      rw [List.getElem?_eq_getElem hj]
      congr 1
      have hi : i < pols.length := (List.getElem?_eq_some_iff.1 hp).1
      exact ((List.getElem?_inj hi hn).1 (by rw [hp, hq'])).symm
    refine ⟨hlen, hpair, hinv, ?_⟩
    have hnod : o.Nodup := by
      rw [List.nodup_iff_getElem?_ne_getElem?]
      intro i j hij hj heq
      have hi : i < o.length := by omega
      have h1 := hinv i _ (List.getElem?_eq_getElem hi)
      have h2 := hinv j _ (List.getElem?_eq_getElem hj)
      rw [List.getElem?_eq_getElem hi, List.getElem?_eq_getElem hj] at heq
      simp only [Option.some.injEq] at heq
      rw [heq, h2] at h1
      simp at h1
      omega
    have hsub : o ⊆ List.range pols.length := by
      intro j hj
      obtain ⟨i, hi, hij⟩ := List.getElem_of_mem hj
      obtain ⟨_, _, _, hq, _⟩ := hpair i j (by rw [List.getElem?_eq_getElem hi, hij])
      simpa using (List.getElem?_eq_some_iff.1 hq).1
    exact (List.subperm_of_subset hnod hsub).perm_of_length_le (by simp [hlen])

example : reorderConjPols [-5, -7, -8, -6] = some [0, 2, 1, 3] ∧ [-5, -7, -8, -6].Nodup := by decide +kernel

/-- When every conjugate is missing the function refuses. -/
example : reorderConjPols [-5, -7] = none := by decide +kernel

/-! ### C18 -/

/-- The documented CASA sequence by name: pseudo-Stokes, then RR RL LR LL, then XX XY YX YY. -/
def casaNames : List Str :=
  [['p','I'], ['p','Q'], ['p','U'], ['p','V'], ['r','r'], ['r','l'], ['l','r'], ['l','l'], ['x','x'], ['x','y'],
   ['y','x'], ['y','y']]

theorem casa_names_order (p : Int) (s : Str) (a : Nat) (h : polnum2str none p = some s) (ha : casaNames[a]? = some s) :
    casaOrder[a]? = some p := by
  have key : ∀ q ∈ polNum2Str, ∀ b < 12, casaNames[b]? = some q.2 → casaOrder[b]? = some q.1 := by decide +kernel
  exact key (p, s) (Dict.mem_of_get (by simpa [polnum2str, orientedNames] using h)) a
    (List.getElem?_eq_some_iff.1 ha).1 ha

/-- Data travel with their labels: after reordering, slab `k` of every array and label `k` come from one and
the same old position, every old position is used exactly once, and the labels are in the requested order
(by |p| for AIPS, by position in the CASA sequence for CASA). -/
theorem reorder_pols_correct {β : Type} (o : PolObj β) (ord : PolOrder) (idx : List Nat)
    (d n f : List β) (ha : o.arrays = some (d, n, f))
    (hd : d.length = o.pols.length) (hn : n.length = o.pols.length) (hf : f.length = o.pols.length)
    (hord : ord = .aips ∨ ord = .casa) (hr : PolOrderResult o.pols ord idx) :
    ∃ o' d' n' f', applyPolIndex o idx = some o' ∧ o'.arrays = some (d', n', f') ∧
      idx.Perm (List.range o.pols.length) ∧
      (∀ k i : Nat, idx[k]? = some i → o'.pols[k]? = o.pols[i]? ∧ d'[k]? = d[i]? ∧ n'[k]? = n[i]? ∧ f'[k]? = f[i]?) ∧
      o'.pols.length = o.pols.length ∧ d'.length = d.length ∧ n'.length = n.length ∧ f'.length = f.length ∧
      (ord = .aips → o'.pols.Pairwise (fun p q => p.natAbs ≤ q.natAbs)) ∧
      (ord = .casa → o'.pols.Pairwise (fun p q => ∀ (a b : Nat) (s t : Str), polnum2str none p = some s →
        polnum2str none q = some t → casaNames[a]? = some s → casaNames[b]? = some t → a ≤ b)) := by
  have hperm : idx.Perm (List.range o.pols.length) := by
    rcases hord with rfl | rfl
    · have := hr.1; simpa using this
    · obtain ⟨ranks, h1, h2⟩ := hr
      have := h2.1; rwa [(mapM_getElem? h1).1] at this
  have hbd : ∀ i ∈ idx, i < o.pols.length := by
    intro i hi; simpa using hperm.mem_iff.1 hi
  have hex : ∀ {γ : Type} (l : List γ), l.length = o.pols.length → ∃ l', take? l idx = some l' := by
    intro γ l hl
    exact Option.isSome_iff_exists.1 (take?_isSome_iff.2 (fun i hi => by rw [hl]; exact hbd i hi))
  obtain ⟨p', hp'⟩ := hex o.pols rfl
  obtain ⟨d', hd'⟩ := hex d hd
  obtain ⟨n', hn'⟩ := hex n hn
  obtain ⟨f', hf'⟩ := hex f hf
  have hidx : idx.length = o.pols.length := by simpa using hperm.length_eq
  have P := take?_eq_some.1 hp'
  have D := take?_eq_some.1 hd'
  have N := take?_eq_some.1 hn'
  have F := take?_eq_some.1 hf'
  refine ⟨⟨p', some (d', n', f')⟩, d', n', f', ?_, rfl, hperm, ?_, ?_, ?_, ?_, ?_, ?_, ?_⟩
  · unfold applyPolIndex
    simp [hp', ha, hd', hn', hf']
  · intro k i hk
    exact ⟨(P.2 k i hk).1, (D.2 k i hk).1, (N.2 k i hk).1, (F.2 k i hk).1⟩
  · simp [P.1, hidx]
  · rw [D.1, hidx, hd]
  · rw [N.1, hidx, hn]
  · rw [F.1, hidx, hf]
  · rintro rfl
    rw [List.pairwise_iff_getElem]
    intro i j hi hj hij
    have hi' : i < idx.length := by simpa [P.1] using hi
    have hj' : j < idx.length := by simpa [P.1] using hj
    have hs := (List.pairwise_iff_getElem.1 hr.2) i j hi' hj' hij
    have e1 := (P.2 i _ (List.getElem?_eq_getElem hi')).1
    have e2 := (P.2 j _ (List.getElem?_eq_getElem hj')).1
    rw [List.getElem?_eq_getElem hi] at e1
    rw [List.getElem?_eq_getElem hj] at e2
    exact hs _ _ (by rw [List.getElem?_map, ← e1]; rfl) (by rw [List.getElem?_map, ← e2]; rfl)
  · rintro rfl
    obtain ⟨ranks, h1, h2⟩ := hr
    rw [List.pairwise_iff_getElem]
    intro i j hi hj hij a b s t hps hqt has hbt
    have ha' := casa_names_order _ _ _ hps has
    have hb' := casa_names_order _ _ _ hqt hbt
    have hi' : i < idx.length := by simpa [P.1] using hi
    have hj' : j < idx.length := by simpa [P.1] using hj
    have hs := (List.pairwise_iff_getElem.1 h2.2) i j hi' hj' hij
    have e1 := (P.2 i _ (List.getElem?_eq_getElem hi')).1
    have e2 := (P.2 j _ (List.getElem?_eq_getElem hj')).1
    rw [List.getElem?_eq_getElem hi] at e1
    rw [List.getElem?_eq_getElem hj] at e2
    obtain ⟨r1, hr1, hr1'⟩ := (mapM_getElem? h1).2 _ _ e1.symm
    obtain ⟨r2, hr2, hr2'⟩ := (mapM_getElem? h1).2 _ _ e2.symm
    have hle := hs r1 r2 hr1' hr2'
    have hcn : casaOrder.Nodup := by decide
    have q1 := firstIdx_spec hr1
    have q2 := firstIdx_spec hr2
    have hal : a < casaOrder.length := (List.getElem?_eq_some_iff.1 ha').1
    have hbl : b < casaOrder.length := (List.getElem?_eq_some_iff.1 hb').1
    have : a = r1 := (List.getElem?_inj hal hcn).1 (by rw [ha', q1])
    have : b = r2 := (List.getElem?_inj hbl hcn).1 (by rw [hb', q2])
    omega

example : PolOrderResult [-8, -5, -7, -6] .casa [1, 2, 0, 3] :=
  ⟨[10, 8, 9, 11], by decide +kernel, by
    refine ⟨by decide, by simp⟩⟩

/-- An explicit index array is only checked for length and range: a repeated entry is accepted and a
polarization is lost. -/
theorem reorder_pols_index_counterexample :
    ∃ o' : PolObj Nat, PolOrderResult [-5, -6] (.index [0, 0]) [0, 0] ∧
      applyPolIndex ⟨[-5, -6], some ([10, 20], [1, 2], [3, 4])⟩ [0, 0] = some o' ∧ o'.pols = [-5, -5] :=
  ⟨⟨[-5, -5], some ([10, 10], [1, 1], [3, 3])⟩, ⟨rfl, rfl, by decide⟩, rfl, rfl⟩

end Verif.Pol
