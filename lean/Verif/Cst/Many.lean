import Verif.Cst.Model

/-! # Several files and settings files -/

namespace Verif.Cst

open Verif.Pol (Str)

variable {N F P B : Type} [DecidableEq P]

/-- Files with their frequencies and polarizations, position by position. -/
def Matches (js : List (Job N F P)) (names : List N) (fs : List (Option F)) (ps : List P) : Prop :=
  js.map Job.name = names ∧ js.map Job.freq = fs ∧ js.map Job.pol = ps

/-- Beams of all files, added from the left. -/
def AddsTo (add : B → B → Option B) (bs : List B) (b : B) : Prop :=
  match bs with
  | [] => False
  | a :: l => l.foldlM add a = some b

omit [DecidableEq P] in
theorem zip_matches {names : List N} {fs : List (Option F)} {ps : List P} (hf : fs.length = names.length) (hp : ps.length = names.length) :
    Matches ((names.zip (fs.zip ps)).map fun x => (⟨x.1, x.2.1, x.2.2⟩ : Job N F P)) names fs ps := by
  have h1 : (fs.zip ps).length = names.length := by simp [hf, hp]
  refine ⟨?_, ?_, ?_⟩
  · rw [List.map_map]
    exact (List.map_fst_zip (by omega) : (names.zip (fs.zip ps)).map Prod.fst = names)
  · rw [List.map_map]
    have : (names.zip (fs.zip ps)).map (Prod.fst ∘ Prod.snd) = fs := by
      rw [← List.map_map, List.map_snd_zip (by omega), List.map_fst_zip (by omega)]
    exact this
  · rw [List.map_map]
    have : (names.zip (fs.zip ps)).map (Prod.snd ∘ Prod.snd) = ps := by
      rw [← List.map_map, List.map_snd_zip (by omega), List.map_snd_zip (by omega)]
    exact this

omit [DecidableEq P] in
theorem foldlM_sum {readOne : Job N F P → Option B} {add : B → B → Option B} {b : B} : ∀ {js : List (Job N F P)} {a : B},
    js.foldlM (fun b j => (readOne j).bind fun b2 => add b b2) a = some b ↔ ∃ bs : List B, js.map readOne = bs.map some ∧ bs.foldlM add a = some b
  | [], a => by
    constructor
    · intro h; exact ⟨[], rfl, h⟩
    · rintro ⟨bs, h, e⟩
      cases bs with
      | nil => exact e
      | cons x l => simp at h
  | j :: js, a => by
    simp only [List.foldlM_cons, Option.bind_eq_bind]
    constructor
    · intro h
      rw [Option.bind_eq_some_iff] at h
      obtain ⟨c, hc, h⟩ := h
      rw [Option.bind_eq_some_iff] at hc
      obtain ⟨b2, hb2, hc⟩ := hc
      obtain ⟨bs, hbs, e⟩ := foldlM_sum.1 h
      refine ⟨b2 :: bs, by simp [hb2, hbs], ?_⟩
      simp [List.foldlM_cons, hc, e]
    · rintro ⟨bs, h, e⟩
      cases bs with
      | nil => simp at h
      | cons x l =>
        simp only [List.map_cons, List.cons.injEq] at h
        simp only [List.foldlM_cons, Option.bind_eq_bind, Option.bind_eq_some_iff] at e
        obtain ⟨c, hc, e⟩ := e
        rw [h.1]
        simp only [Option.bind_some, hc]
        exact foldlM_sum.2 ⟨l, h.2, e⟩

omit [DecidableEq P] in
/-- What is read from files is the sum of what is read from each file. -/
theorem readJobs_iff {readOne : Bool → Job N F P → Option B} {add : B → B → Option B} {rotate : Bool} {js : List (Job N F P)} {b : B} :
    readJobs readOne add rotate js = some b ↔ ∃ bs : List B, js.map (readOne rotate) = bs.map some ∧ AddsTo add bs b := by
  cases js with
  | nil =>
    simp only [readJobs, List.map_nil]
    constructor
    · intro h; exact absurd h (by simp)
    · rintro ⟨bs, h, e⟩
      cases bs with
      | nil => exact e.elim
      | cons x l => simp at h
  | cons j js =>
    simp only [readJobs, Option.bind_eq_some_iff, foldlM_sum]
    constructor
    · rintro ⟨a, ha, bs, hbs, e⟩
      exact ⟨a :: bs, by simp [ha, hbs], e⟩
    · rintro ⟨bs, h, e⟩
      cases bs with
      | nil => simp at h
      | cons x l =>
        simp only [List.map_cons, List.cons.injEq] at h
        exact ⟨x, h.1, l, h.2, e⟩

omit [DecidableEq P] in
theorem norm_spread {α : Type} {l : List α} {n : Nat} (h : l.length = n) : (Arg.many l).norm.spread n = some l := by
  match l, h with
  | [], h => simp [Arg.norm, Arg.spread, ← h]
  | [a], h => simp [Arg.norm, Arg.spread, ← h]
  | a :: b :: l, h =>
    have : (Arg.many (a :: b :: l)).norm = Arg.many (a :: b :: l) := rfl
    simp only [this, Arg.spread, h, if_true]

omit [DecidableEq P] in
theorem norm_spread_none {α : Type} {l : List α} {n : Nat} (h : l.length ≠ n) (h1 : l.length ≠ 1) : (Arg.many l).norm.spread n = none := by
  match l, h1 with
  | [], _ => simp only [List.length_nil] at h; simp [Arg.norm, Arg.spread, h]
  | [a], h1 => simp at h1
  | a :: b :: l, h1 =>
    have : (Arg.many (a :: b :: l)).norm = Arg.many (a :: b :: l) := rfl
    simp only [this, Arg.spread, h, if_false]

/-- All polarizations are the same one. -/
def AllSame (ps : List P) : Prop := ∀ p ∈ ps, ∀ p' ∈ ps, p = p'

theorem rotDefault_norm {ps : List P} : rotDefault (Arg.many ps).norm = true ↔ AllSame ps := by
  match ps with
  | [] => simp [Arg.norm, rotDefault, AllSame]
  | [a] => simp [Arg.norm, rotDefault, AllSame]
  | a :: b :: l =>
    have : (Arg.many (a :: b :: l)).norm = Arg.many (a :: b :: l) := rfl
    rw [this]
    simp only [rotDefault, List.head?_cons, Option.some.injEq, List.all_eq_true, decide_eq_true_eq]
    constructor
    · intro h p hp p' hp'
      rw [← h p hp, ← h p' hp']
    · intro h p hp
      exact h a (by simp) p hp

theorem rotDefault_many {ps : List P} : rotDefault (Arg.many ps) = true ↔ AllSame ps := by
  match ps with
  | [] => simp [rotDefault, AllSame]
  | a :: l =>
    simp only [rotDefault, List.head?_cons, Option.some.injEq, List.all_eq_true, decide_eq_true_eq]
    constructor
    · intro h p hp p' hp'
      rw [← h p hp, ← h p' hp']
    · intro h p hp
      exact h a (by simp) p hp

/-- **C186.** Lists of files, frequencies and feeds of the same length: each file is read with its own frequency and feed, and the beams are added.
Unless it is said otherwise, the other polarization is made by rotation exactly if all feeds are the same. -/
theorem files_lists {readOne : Bool → Job N F P → Option B} {add : B → B → Option B} {rotate : Option Bool} {names : List N} {fs : List F} {ps : List P}
    (hf : fs.length = names.length) (hp : ps.length = names.length) (b : B) :
    ∃ js rot, Matches js names (fs.map some) ps ∧ (∀ r, rotate = some r → rot = r) ∧ (rotate = none → (rot = true ↔ AllSame ps)) ∧
      (readFiles readOne add rotate (.many names) (some (.many fs)) (.many ps) = some b ↔
        ∃ bs : List B, js.map (readOne rot) = bs.map some ∧ AddsTo add bs b) := by
  refine ⟨_, rotate.getD (rotDefault (Arg.many ps).norm), zip_matches (by simpa using hf) hp, ?_, ?_, ?_⟩
  · rintro r rfl; rfl
  · rintro rfl; exact rotDefault_norm
  · unfold readFiles freqs
    simp only [norm_spread hf, norm_spread hp, Option.map_some, Option.bind_some]
    exact readJobs_iff

/-- **C186.** A single frequency and feed, or none, is used for all files. -/
theorem files_single {readOne : Bool → Job N F P → Option B} {add : B → B → Option B} {rotate : Option Bool} {names : List N} (f : Option F) (p : P)
    (b : B) :
    readFiles readOne add rotate (.many names) (f.map .one) (.one p) = some b ↔
      ∃ bs : List B, (names.map fun n => readOne (rotate.getD true) ⟨n, f, p⟩) = bs.map some ∧ AddsTo add bs b := by
  have hjobs : ((names.zip ((List.replicate names.length f).zip (List.replicate names.length p))).map fun x => (⟨x.1, x.2.1, x.2.2⟩ : Job N F P)) =
      names.map fun n => ⟨n, f, p⟩ := by
    apply List.ext_getElem
    · simp
    · intro i h1 h2
      simp
  unfold readFiles
  have hfs : freqs names.length (f.map Arg.one) = some (List.replicate names.length f) := by
    cases f with
    | none => rfl
    | some f => simp [freqs, Arg.norm, Arg.spread]
  simp only [hfs, Option.bind_some]
  have hps : (Arg.one p).norm.spread names.length = some (List.replicate names.length p) := rfl
  rw [hps, Option.bind_some, hjobs, readJobs_iff, List.map_map]
  rfl

/-- **C186.** Lists of other lengths than that of the files are refused. -/
theorem files_refused {readOne : Bool → Job N F P → Option B} {add : B → B → Option B} {rotate : Option Bool} {names : List N} {freq : Option (Arg F)}
    {fs : List F} {pol : Arg P} {ps : List P}
    (h : (freq = some (.many fs) ∧ fs.length ≠ names.length ∧ fs.length ≠ 1) ∨ (pol = .many ps ∧ ps.length ≠ names.length ∧ ps.length ≠ 1)) :
    readFiles readOne add rotate (.many names) freq pol = none := by
  unfold readFiles
  rcases h with ⟨rfl, h1, h2⟩ | ⟨rfl, h1, h2⟩
  · simp [freqs, norm_spread_none h1 h2]
  · simp [norm_spread_none h1 h2]

/-! ### Settings files -/

omit [DecidableEq P] in
theorem pick_mem {isClose : F → F → Bool} {fs sel : List F} {inds : List Nat} (h : pick isClose fs sel = some inds) :
    ∀ (i : Nat), i ∈ inds ↔ ∃ g, fs[i]? = some g ∧ ∃ f ∈ sel, isClose g f = true := by
  unfold pick at h
  split at h
  · exact absurd h (by simp)
  rw [Option.map_eq_some_iff] at h
  obtain ⟨ls, hls, rfl⟩ := h
  clear * - hls
  induction sel generalizing ls with
  | nil =>
    simp only [List.mapM_nil, Option.pure_def, Option.some.injEq] at hls
    subst hls
    intro i; simp
  | cons f sel ih =>
    simp only [List.mapM_cons, Option.pure_def, Option.bind_eq_bind, Option.bind_eq_some_iff, Option.some.injEq] at hls
    obtain ⟨x, hx, l, hl, rfl⟩ := hls
    split at hx
    · exact absurd hx (by simp)
    obtain rfl := Option.some.inj hx
    intro i
    rw [List.flatten_cons, List.mem_append, ih l hl, Np.mem_whereIdx]
    constructor
    · rintro (⟨g, hg, hc⟩ | ⟨g, hg, f', hf', hc⟩)
      · exact ⟨g, hg, f, by simp, hc⟩
      · exact ⟨g, hg, f', by simp [hf'], hc⟩
    · rintro ⟨g, hg, f', hf', hc⟩
      rcases List.mem_cons.1 hf' with rfl | hf'
      · exact Or.inl ⟨g, hg, hc⟩
      · exact Or.inr ⟨g, hg, f', hf', hc⟩

omit [DecidableEq P] in
theorem pick_none {isClose : F → F → Bool} {fs sel : List F} : pick isClose fs sel = none ↔ sel = [] ∨ ∃ f ∈ sel, ∀ g ∈ fs, isClose g f = false := by
  unfold pick
  by_cases h0 : sel = []
  · subst h0; simp
  · have : sel.isEmpty = false := by cases sel <;> simp_all
    simp only [this, Bool.false_eq_true, if_false, Option.map_eq_none_iff, h0, false_or]
    clear this h0
    induction sel with
    | nil => simp
    | cons f sel ih =>
      have hw : Np.whereIdx (fun g => isClose g f) fs = [] ↔ ∀ g ∈ fs, isClose g f = false := by
        rw [List.eq_nil_iff_forall_not_mem]
        constructor
        · intro h g hg
          obtain ⟨i, hi⟩ := List.mem_iff_getElem?.1 hg
          by_contra hc
          exact h i (by rw [Np.mem_whereIdx]; exact ⟨g, hi, by simpa using hc⟩)
        · intro h i hi
          rw [Np.mem_whereIdx] at hi
          obtain ⟨g, hg, hc⟩ := hi
          simp [h g (List.mem_of_getElem? hg)] at hc
      rw [List.mapM_cons]
      by_cases hf : Np.whereIdx (fun g => isClose g f) fs = []
      · simp only [hf, if_true]
        simp only [Option.bind_eq_bind, Option.bind_none, true_iff]
        exact ⟨f, by simp, hw.1 hf⟩
      · simp only [hf, if_false, Option.bind_eq_bind, Option.bind_some, Option.pure_def]
        have hex : (∃ f' ∈ f :: sel, ∀ g ∈ fs, isClose g f' = false) ↔ ∃ f' ∈ sel, ∀ g ∈ fs, isClose g f' = false := by
          constructor
          · rintro ⟨f', hf', h⟩
            rcases List.mem_cons.1 hf' with rfl | hf'
            · exact absurd (hw.2 h) hf
            · exact ⟨f', hf', h⟩
          · rintro ⟨f', hf', h⟩
            exact ⟨f', by simp [hf'], h⟩
        refine Iff.trans ?_ (Iff.trans ih hex.symm)
        cases List.mapM (fun f => if Np.whereIdx (fun g => isClose g f) fs = [] then none else some (Np.whereIdx (fun g => isClose g f) fs)) sel <;> simp

omit [DecidableEq P] in
theorem take_length {α : Type} {l l' : List α} {inds : List Nat} (h : Np.take? l inds = some l') : l'.length = inds.length := by
  exact (Np.take?_eq_some.1 h).1

omit [DecidableEq P] in
theorem take_some {α : Type} {l : List α} {inds : List Nat} (h : ∀ i ∈ inds, i < l.length) : ∃ l', Np.take? l inds = some l' :=
  Option.isSome_iff_exists.1 (Np.take?_isSome_iff.2 h)

/-- **C186.** A settings file with frequencies to select: exactly the files whose frequency is close to one that was asked for are read, each with its
own frequency and feed; whether to rotate is decided by the feeds of all files of the settings. A frequency that no file has is an error. -/
theorem settings_select {isClose : F → F → Bool} {readOne : Bool → Job N F P → Option B} {add : B → B → Option B} {rotate : Option Bool}
    {names : List N} {fs : List F} {ps : List P} {sel : List F} (b : B)
    (hb : readSettings isClose readOne add rotate names fs (.many ps) none none (some sel) = some b) :
    (∀ f ∈ sel, ∃ g ∈ fs, isClose g f = true) ∧
    ∃ (inds : List Nat) (js : List (Job N F P)) (rot : Bool),
      (∀ i, i ∈ inds ↔ ∃ g, fs[i]? = some g ∧ ∃ f ∈ sel, isClose g f = true) ∧
      (∀ (k i : Nat) (j : Job N F P), inds[k]? = some i → js[k]? = some j →
        names[i]? = some j.name ∧ (fs[i]?).map some = some j.freq ∧ ps[i]? = some j.pol) ∧ js.length = inds.length ∧
      (∀ r, rotate = some r → rot = r) ∧ (rotate = none → (rot = true ↔ AllSame ps)) ∧
      ∃ bs : List B, js.map (readOne rot) = bs.map some ∧ AddsTo add bs b := by
  unfold readSettings at hb
  simp only [Option.getD_none, Option.bind_eq_some_iff] at hb
  obtain ⟨inds, hi, fs', hfs, names', hn, ps', hps, hb⟩ := hb
  have hm := pick_mem hi
  refine ⟨?_, inds, ?_⟩
  · intro f hf'
    by_contra hc
    have : pick isClose fs sel = none := pick_none.2 (Or.inr ⟨f, hf', fun g hg => by
      by_contra h; exact hc ⟨g, hg, by simpa using h⟩⟩)
    rw [this] at hi
    exact absurd hi (by simp)
  · have l1 := take_length hfs
    have l2 := take_length hn
    have l3 := take_length hps
    obtain ⟨js, rot, ⟨m1, m2, m3⟩, r1, _, e⟩ := files_lists (readOne := readOne) (add := add)
      (rotate := some (rotate.getD (rotDefault (.many ps)))) (names := names') (fs := fs') (ps := ps') (by omega) (by omega) b
    refine ⟨js, rot, hm, ?_, ?_, ?_, ?_, e.1 hb⟩
    · intro k i j hk hj
      have a1 : names'[k]? = some j.name := by rw [← m1, List.getElem?_map, hj]; rfl
      have a2 : (fs'.map some)[k]? = some j.freq := by rw [← m2, List.getElem?_map, hj]; rfl
      have a3 : ps'[k]? = some j.pol := by rw [← m3, List.getElem?_map, hj]; rfl
      have t1 := ((Np.take?_eq_some.1 hn).2 k i hk).1
      have t2 := ((Np.take?_eq_some.1 hfs).2 k i hk).1
      have t3 := ((Np.take?_eq_some.1 hps).2 k i hk).1
      rw [List.getElem?_map] at a2
      exact ⟨by rw [← t1]; exact a1, by rw [← t2]; exact a2, by rw [← t3]; exact a3⟩
    · have := congrArg List.length m1
      simp at this
      omega
    · rintro r rfl
      exact r1 r rfl
    · rintro rfl
      rw [r1 _ rfl]
      exact rotDefault_many

/-- **C186.** Keywords override what is in the settings. -/
theorem settings_override {isClose : F → F → Bool} {readOne : Bool → Job N F P → Option B} {add : B → B → Option B} {rotate : Option Bool}
    {names : List N} {fs fs' : List F} {pol pol' : Arg P} {sel : Option (List F)} :
    readSettings isClose readOne add rotate names fs pol (some fs') (some pol') sel =
      readSettings isClose readOne add rotate names fs' pol' none none sel := rfl

/-- **C186.** A frequency that is asked for twice is read twice, and since the beam cannot be added to itself, it is refused. -/
theorem twice_counterexample {isClose : F → F → Bool} {readOne : Bool → Job N F P → Option B} {add : B → B → Option B} {rotate : Option Bool}
    {n : N} {f : F} {p : P} (hc : isClose f f = true) (hadd : ∀ b, add b b = none) :
    readSettings isClose readOne add rotate [n] [f] (.many [p]) none none (some [f, f]) = none := by
  have hw : Np.whereIdx (fun g => isClose g f) [f] = [0] := by
    unfold Np.whereIdx
    simp [hc]
  have hp : pick isClose [f] [f, f] = some [0, 0] := by
    unfold pick
    simp [hw, List.mapM_cons]
  unfold readSettings
  simp only [Option.getD_none, hp, Option.bind_some]
  have t : ∀ {α : Type} (a : α), Np.take? [a] [0, 0] = some [a, a] := fun a => rfl
  simp only [t, Option.bind_some]
  unfold readFiles freqs
  simp only [List.length_cons, List.length_nil, norm_spread (l := [f, f]) (n := 0 + 1 + 1) rfl, norm_spread (l := [p, p]) (n := 0 + 1 + 1) rfl, Option.map_some, Option.bind_some,
    List.map_cons, List.map_nil, List.zip_cons_cons, List.zip_nil_right, readJobs, Option.getD_some, List.foldlM_cons, List.foldlM_nil]
  generalize readOne (rotate.getD (rotDefault (Arg.many [p]))) ⟨n, some f, p⟩ = o
  cases o with
  | none => rfl
  | some b => simp [hadd]

/-! ### Extra keywords -/

variable {V : Type}

omit [DecidableEq P] in
/-- The name under which a keyword is kept. -/
theorem extra_foldl {l : List (Str × V)} {d : List (Str × V)} {k : Str} (h : ∀ kv ∈ l, (if kv.1 = "sim_beam_type".toList then "sim_type".toList else kv.1) ≠ k) :
    (l.foldl (fun d kv => ((if kv.1 = "sim_beam_type".toList then "sim_type".toList else kv.1), kv.2) ::
      d.filter (fun x => x.1 ≠ (if kv.1 = "sim_beam_type".toList then "sim_type".toList else kv.1))) d).lookup k = d.lookup k := by
  induction l generalizing d with
  | nil => rfl
  | cons kv l ih =>
    rw [List.foldl_cons, ih (fun x hx => h x (by simp [hx]))]
    have hk := h kv (by simp)
    generalize (if kv.1 = "sim_beam_type".toList then "sim_type".toList else kv.1) = k' at hk
    rw [List.lookup_cons]
    have : (k == k') = false := by simpa using (Ne.symm hk)
    rw [this]
    dsimp only
    clear ih h
    induction d with
    | nil => rfl
    | cons x d ihd =>
      by_cases hx : x.1 = k'
      · rw [List.filter_cons_of_neg (by simpa using hx), ihd, List.lookup_cons]
        have : (k == x.1) = false := by rw [hx]; exact this
        rw [this]
      · rw [List.filter_cons_of_pos (by simpa using hx), List.lookup_cons, List.lookup_cons, ihd]

omit [DecidableEq P] in
/-- **C186.** Extra keywords that are not in the settings are kept as given. -/
theorem extra_kept {known : Str → Bool} {given settings : List (Str × V)} {k : Str}
    (h : ∀ kv ∈ settings, known kv.1 = false → (if kv.1 = "sim_beam_type".toList then "sim_type".toList else kv.1) ≠ k) :
    (extraKeywords known given settings).lookup k = given.lookup k := by
  unfold extraKeywords
  apply extra_foldl
  intro kv hkv
  rw [List.mem_filter] at hkv
  exact h kv hkv.1 (by simpa using hkv.2)

omit [DecidableEq P] in
/-- **C186.** For extra keywords it is the other way round than documented: those of the settings replace what was given. -/
theorem extra_counterexample {known : Str → Bool} {given s1 s2 : List (Str × V)} {k : Str} {v : V} (hk : known k = false)
    (hs : k ≠ "sim_beam_type".toList) (h2 : ∀ kv ∈ s2, (if kv.1 = "sim_beam_type".toList then "sim_type".toList else kv.1) ≠ k) :
    (extraKeywords known given (s1 ++ (k, v) :: s2)).lookup k = some v := by
  unfold extraKeywords
  rw [List.filter_append, List.filter_cons_of_pos (by simp [hk]), List.foldl_append, List.foldl_cons]
  rw [extra_foldl (fun kv hkv => h2 kv (List.mem_filter.1 hkv).1)]
  rw [if_neg hs, List.lookup_cons, beq_self_eq_true]

end Verif.Cst
