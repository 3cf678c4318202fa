import Verif.FlagIo.Model

/-!
# What files of flags keep
-/

namespace Verif.FlagIo
open Verif.Pol (Str)
open Verif.History (hasVersion squash)

/-! ## The text about the version -/

theorem squash_append (a b : Str) : squash (a ++ b) = squash a ++ squash b := by simp [squash]

theorem hasVersion_append_left {h v : Str} (x : Str) (hv : hasVersion h v = true) : hasVersion (h ++ x) v = true := by
  simp only [hasVersion, decide_eq_true_eq] at hv ⊢
  rw [squash_append]
  obtain ⟨s, t, e⟩ := hv
  exact ⟨s, t ++ squash x, by rw [← e]; simp⟩

theorem hasVersion_append_right (h v : Str) (hn : '\n' ∉ v) : hasVersion (h ++ v) v = true := by
  simp only [hasVersion, decide_eq_true_eq]
  rw [squash_append]
  have : v.filter (fun c => decide (c ≠ ' ')) = squash v := by
    have : v.filter (fun c => decide (c ≠ '\n')) = v := by
      rw [List.filter_eq_self]
      intro c hc
      exact decide_eq_true (fun e => hn (e ▸ hc))
    unfold squash
    rw [this]
  rw [this]
  exact ⟨squash h, [], by simp⟩

theorem withVersion_has (v h : Str) (hn : '\n' ∉ v) : hasVersion (withVersion v h) v = true := by
  unfold withVersion
  split
  · assumption
  · exact hasVersion_append_right _ _ hn

theorem withVersion_idem (v h : Str) (hn : '\n' ∉ v) : withVersion v (withVersion v h) = withVersion v h := by
  conv_lhs => rw [withVersion]
  rw [if_pos (withVersion_has v h hn)]

theorem withVersion_prefix (v h : Str) : h <+: withVersion v h := by
  unfold withVersion
  split
  · exact List.prefix_rfl
  · exact List.prefix_append _ _

/-! ## Files, also old ones -/

variable {α P X V : Type}

/-- The array as it was stored when there was an axis for spectral windows. -/
def OldShape {D : Type} (a b : Arr D) : Prop := ∃ n r, a.shape = n :: r ∧ b.shape = n :: 1 :: r ∧ b.flat = a.flat

/-- The data in the file are those of the object, or those in the old shape. -/
def SameData {D : Type} (a b : Option (Arr D)) : Prop := b = a ∨ ∃ x y, a = some x ∧ b = some y ∧ OldShape x y

/-- Antennas, windows or frequencies, times and polarizations for antennas; rows or times, frequencies and polarizations otherwise. -/
def axes (t : FType) : Nat := if t = .antenna then 4 else 3

theorem ndim_axes (t : FType) : t.ndim = axes t := by cases t <;> rfl

/-- The data of an object: those of its mode, with the axes of its type. -/
structure GoodData (f : Flg α P X V) : Prop where
  metric : f.mode = .metric → (∃ m, f.metric = some m ∧ m.shape.length = axes f.type) ∧
    (∃ w, f.weights = some w ∧ w.shape.length = axes f.type) ∧ (∀ q, f.wsq = some q → q.shape.length = axes f.type) ∧ f.flags = none
  flag : f.mode = .flag → (∃ x, f.flags = some x ∧ x.shape.length = axes f.type) ∧ f.metric = none ∧ f.weights = none ∧ f.wsq = none

/-- The antennas of an object: those of its type; baselines are numbered by the rule of this package. -/
structure GoodAnts (blNum : Option Nat → Nat → Nat → Nat) (f : Flg α P X V) : Prop where
  baseline : f.type = .baseline → ∃ r, f.rows = some r ∧ f.ant = none ∧ r.bl = List.zipWith (blNum f.tel.nants) r.a1 r.a2 ∧
    r.nbls = r.bl.dedup.length ∧ f.nants = some (r.a1 ++ r.a2).dedup.length
  antenna : f.type = .antenna → f.rows = none ∧ ∃ a n, f.ant = some a ∧ f.nants = some n
  waterfall : f.type = .waterfall → f.rows = none ∧ f.ant = none ∧ f.nants = none

/-- Everything about the telescope is known. -/
def FullTel (t : Tel P X) : Prop := t.name.isSome ∧ t.loc.isSome ∧ t.nums.isSome ∧ t.names.isSome ∧ t.pos.isSome ∧ t.nants.isSome

/-- The file tells of this object, perhaps with entries that old versions did not write. An entry may be missing when it can be
told from the others: counts, the spectral window 0, and widths of channels that are the steps to the next frequency. -/
structure Tells [LinearOrder α] [Sub α] (even : List α → Bool) (f : Flg α P X V) (h : Hdr α P X V) : Prop where
  type : h.type = f.type.text
  mode : h.mode = f.mode.text
  times : h.times = f.times
  lsts : h.lsts = f.lsts
  freqs : h.freqs = f.freqs
  pols : h.pols = f.pols
  tel : h.tel = f.tel
  kws : h.kws = f.kws
  ntimes : h.ntimes = some f.ntimes ∨ h.ntimes = none ∧ f.ntimes = f.times.dedup.length
  nfreqs : h.nfreqs = some f.nfreqs ∨ h.nfreqs = none ∧ f.nfreqs = f.freqs.dedup.length
  npols : h.npols = some f.npols ∨ h.npols = none ∧ (∀ l, f.pols = .nums l → f.npols = l.length) ∧ (∀ l, f.pols = .texts l → f.npols = l.length)
  spws : h.spws = some f.spws ∨ h.spws = none ∧ f.spws = [0]
  nspws : h.nspws = some f.nspws ∨ h.nspws = none ∧ f.nspws = f.spws.length
  flex : h.flex = some f.flex ∨ h.flex = none ∧ ∃ s, f.nspws = 1 ∧ f.spws = [s] ∧ f.flex = List.replicate f.nfreqs s
  widths : h.widths = some (.inr f.widths) ∨ (∃ w, h.widths = some (.inl w) ∧ f.widths = List.replicate f.nfreqs w) ∨
    (h.widths = none ∧ 2 ≤ f.freqs.length ∧ f.nfreqs = f.freqs.length ∧ f.widths.length = f.freqs.length ∧
      (∀ i a b, f.freqs[i]? = some a → f.freqs[i + 1]? = some b → f.widths[i]? = some (b - a)) ∧
      f.widths[f.freqs.length - 1]? = f.widths[f.freqs.length - 2]? ∧
      (even f.freqs = true → ∀ i j, i < f.freqs.length → j < f.freqs.length → f.widths[i]? = f.widths[j]?))
  a1 : f.type = .baseline → h.a1 = f.rows.map Rows.a1
  a2 : f.type = .baseline → h.a2 = f.rows.map Rows.a2
  nblts : ∀ r, f.type = .baseline → f.rows = some r → h.nblts = some r.nblts ∨ h.nblts = none ∧ r.nblts = r.bl.length
  ant : f.type = .antenna → h.ant = f.ant
  nants : ∀ a, f.type = .antenna → f.ant = some a → h.nants = f.nants ∨ h.nants = none ∧ f.nants = some a.length
  label : h.label = some f.label ∨ h.label = none ∧ f.label = []
  metric : f.mode = .metric → SameData f.metric h.metric
  weights : f.mode = .metric → SameData f.weights h.weights
  wsq : f.mode = .metric → SameData f.wsq h.wsq
  flags : f.mode = .flag → SameData f.flags h.flags

theorem ofText_text (t : FType) : FType.ofText t.text = some t := by cases t <;> decide

theorem mode_ofText_text (m : FMode) : FMode.ofText m.text = some m := by cases m <;> decide

theorem fixAxes_same {D : Type} {n : Nat} {a : Arr D} {b : Option (Arr D)} (h : SameData (some a) b) (hn : a.shape.length = n) :
    b.bind (fixAxes n) = some a := by
  rcases h with rfl | ⟨x, y, e, rfl, k, r, h1, h2, h3⟩
  · simp [fixAxes, hn]
  · cases e
    have : y.shape.length ≠ n := by rw [← hn, h1, h2]; simp
    simp only [Option.bind_some, fixAxes, squeeze1, h2]
    cases a
    simp_all

theorem readData_tells [LinearOrder α] [Sub α] {even : List α → Bool} {f : Flg α P X V} {h : Hdr α P X V} (ht : Tells even f h)
    (hg : GoodData f) : readData f.type f.mode h = some (f.metric, f.weights, f.wsq, f.flags) := by
  cases hm : f.mode with
  | metric =>
    obtain ⟨⟨m, em, lm⟩, ⟨w, ew, lw⟩, hq, ef⟩ := hg.metric hm
    have h1 := ht.metric hm
    have h2 := ht.weights hm
    have h3 := ht.wsq hm
    rw [em] at h1
    rw [ew] at h2
    unfold readData
    rw [ndim_axes]
    simp only [fixAxes_same h1 lm, fixAxes_same h2 lw]
    cases eq : f.wsq with
    | none =>
      rw [eq] at h3
      have : h.wsq = none := by
        rcases h3 with h3 | ⟨x, y, e, -⟩
        · exact h3
        · cases e
      rw [this, em, ew, ef]
    | some q =>
      rw [eq] at h3
      have := fixAxes_same h3 (hq q eq)
      cases e : h.wsq with
      | none => rw [e] at this; cases this
      | some z =>
        rw [e, Option.bind_some] at this
        simp only [this, em, ew, ef, Option.map_some]
  | flag =>
    obtain ⟨⟨x, ex, lx⟩, e1, e2, e3⟩ := hg.flag hm
    have h1 := ht.flags hm
    rw [ex] at h1
    unfold readData
    rw [ndim_axes]
    simp only [fixAxes_same h1 lx]
    rw [e1, e2, e3, ex]

theorem diffs_length [Sub α] : ∀ l : List α, (diffs l).length = l.length - 1
  | [] => rfl
  | [_] => rfl
  | a :: b :: r => by
    rw [diffs, List.length_cons, diffs_length (b :: r)]
    simp

theorem diffs_get [Sub α] : ∀ (l : List α) (i : Nat) (a b : α), l[i]? = some a → l[i + 1]? = some b → (diffs l)[i]? = some (b - a)
  | [], i, a, b, h, _ => by simp at h
  | [_], i, a, b, _, h => by simp at h
  | x :: y :: r, 0, a, b, h1, h2 => by
    simp at h1 h2
    rw [diffs, h1, h2]
    rfl
  | x :: y :: r, i + 1, a, b, h1, h2 => by
    rw [diffs, List.getElem?_cons_succ]
    rw [List.getElem?_cons_succ] at h1 h2
    exact diffs_get (y :: r) i a b h1 h2

theorem readWidths_tells [LinearOrder α] [Sub α] {even : List α → Bool} {f : Flg α P X V} {h : Hdr α P X V} (ht : Tells even f h) :
    readWidths even f.nfreqs f.freqs h.widths = some f.widths := by
  rcases ht.widths with e | ⟨w, e, e'⟩ | ⟨e, h2, hn, hl, hs, hlast, hev⟩
  · rw [e]; rfl
  · rw [e, e']; rfl
  · rw [e]
    have hdl := diffs_length f.freqs
    have hget : ∀ i, i + 1 < f.freqs.length → (diffs f.freqs)[i]? = f.widths[i]? := by
      intro i hi
      have a1 : f.freqs[i]? = some f.freqs[i] := List.getElem?_eq_getElem (by omega)
      have a2 : f.freqs[i + 1]? = some f.freqs[i + 1] := List.getElem?_eq_getElem hi
      rw [diffs_get _ _ _ _ a1 a2, hs _ _ _ a1 a2]
    cases ed : diffs f.freqs with
    | nil => rw [ed] at hdl; simp at hdl; omega
    | cons d r =>
      simp only [readWidths, ed]
      rw [ed] at hget hdl
      have hr : r.length + 2 = f.freqs.length := by simp at hdl; omega
      split
      next hev' =>
        congr 1
        refine List.ext_getElem? (fun i => ?_)
        rw [List.getElem?_replicate]
        have h0 := hget 0 (by omega)
        simp only [List.getElem?_cons_zero] at h0
        split
        · rename_i hi
          rw [h0]
          exact hev hev' 0 i (by omega) (by omega)
        · rename_i hi
          rw [eq_comm, List.getElem?_eq_none_iff]
          omega
      next =>
        congr 1
        refine List.ext_getElem? (fun i => ?_)
        by_cases hi : i + 1 < f.freqs.length
        · rw [List.getElem?_append_left (by simp; omega)]
          exact hget i hi
        · rw [List.getElem?_append_right (by simp; omega)]
          by_cases hi2 : i + 1 = f.freqs.length
          · have : i - (d :: r).length = 0 := by simp; omega
            rw [this, List.getElem?_cons_zero]
            have e1 : i = f.freqs.length - 1 := by omega
            rw [e1, hlast, ← hget (f.freqs.length - 2) (by omega), List.getLast_eq_getElem, List.getElem?_eq_getElem (by simp; omega)]
            congr 2
            simp; omega
          · rw [List.getElem?_eq_none (by simp; omega), List.getElem?_eq_none (by omega)]

theorem fillTel_full (text : Nat → Str) (type : FType) (seen : List Nat) (n : Option Nat) {t : Tel P X} (h : FullTel t) :
    fillTel text type seen n t = t := by
  obtain ⟨name, loc, nums, names, pos, nants, rest⟩ := t
  obtain ⟨h1, h2, h3, h4, h5, h6⟩ := h
  obtain ⟨x3, rfl⟩ := Option.isSome_iff_exists.mp h3
  obtain ⟨x4, rfl⟩ := Option.isSome_iff_exists.mp h4
  obtain ⟨x6, rfl⟩ := Option.isSome_iff_exists.mp h6
  simp [fillTel]

theorem askKnown_full (known : Tel P X → Tel P X) {t : Tel P X} (h : FullTel t) : askKnown known t = t := by
  obtain ⟨h1, h2, h3, h4, h5, h6⟩ := h
  unfold askKnown
  split
  · rfl
  · rw [if_neg]
    rintro (e | e | e | e) <;> simp_all

/-- An object is read from any file that tells of it: the present form or older ones, where counts, the label, windows, widths or
the baselines' count can be missing and data can have an extra axis. Only the history gains texts and the name of the file is new. -/
theorem tells_read [LinearOrder α] [Sub α] (version : Str) (known : Tel P X → Tel P X) (text : Nat → Str)
    (blNum : Option Nat → Nat → Nat → Nat) (even : List α → Bool) (base : Str) (f : Flg α P X V) (h : Hdr α P X V) (history : Str)
    (ht : Tells even f h) (hd : GoodData f) (ha : GoodAnts blNum f) (htel : FullTel f.tel) :
    readFile version known text blNum even base h history none =
      some { f with history := withVersion version (h.history ++ history), files := [base] } := by
  have e1 : h.nfreqs.getD h.freqs.dedup.length = f.nfreqs := by
    rcases ht.nfreqs with e | ⟨e, e'⟩
    · rw [e]; rfl
    · rw [e, e', ht.freqs]; rfl
  have e2 : h.spws.getD [0] = f.spws := by
    rcases ht.spws with e | ⟨e, e'⟩
    · rw [e]; rfl
    · rw [e, e']; rfl
  have e3 : h.nspws.getD f.spws.length = f.nspws := by
    rcases ht.nspws with e | ⟨e, e'⟩
    · rw [e]; rfl
    · rw [e, e']; rfl
  have e4 : h.npols.getD h.pols.count = f.npols := by
    rw [ht.pols]
    rcases ht.npols with e | ⟨e, e', e''⟩
    · rw [e]; rfl
    · rw [e]
      cases hp : f.pols with
      | nums l => exact (e' l hp).symm
      | texts l => exact (e'' l hp).symm
  have e5 : h.flex.or (if f.nspws = 1 then f.spws.head?.map (fun s => List.replicate f.nfreqs s) else none) = some f.flex := by
    rcases ht.flex with e | ⟨e, s, k1, k2, k3⟩
    · rw [e]; rfl
    · rw [e, if_pos k1, k2, k3]; rfl
  have e6 : h.ntimes.getD h.times.dedup.length = f.ntimes := by
    rcases ht.ntimes with e | ⟨e, e'⟩
    · rw [e]; rfl
    · rw [e, e', ht.times]; rfl
  have e7 : h.label.getD [] = f.label := by
    rcases ht.label with e | ⟨e, e'⟩
    · rw [e]; rfl
    · rw [e, e']; rfl
  have e8 : askKnown known { f.tel with name := none.or f.tel.name } = f.tel := askKnown_full known htel
  unfold readFile
  rw [ht.type, ht.mode, ofText_text, mode_ofText_text]
  dsimp only
  rw [e1, e2, e3, e4, e5, e6, e7, readData_tells ht hd, ht.freqs, readWidths_tells ht, ht.tel, e8]
  simp only [fillTel_full text _ _ _ htel, ht.times, ht.lsts, ht.pols, ht.kws]
  cases hty : f.type with
  | baseline =>
    obtain ⟨r, hr, hant, hbl, hnb, hna⟩ := ha.baseline hty
    have hrows : readRows blNum h = some r := by
      unfold readRows
      rw [ht.a1 hty, ht.a2 hty, hr, ht.tel]
      dsimp only [Option.map_some]
      rw [← hbl, ← hnb]
      rcases ht.nblts r hty hr with e | ⟨e, e'⟩
      · rw [e]; rfl
      · rw [e, ← e']; rfl
    have hu : (union r.a1 r.a2).length = (r.a1 ++ r.a2).dedup.length := Np.unique_length _
    simp only [hrows, Option.map_some, hu]
    cases f
    simp_all
  | antenna =>
    obtain ⟨hr, a, n, ea, en⟩ := ha.antenna hty
    have : h.nants.getD a.length = n := by
      rcases ht.nants a hty ea with e | ⟨e, e'⟩
      · rw [e, en]; rfl
      · rw [e]
        rw [en] at e'
        injection e' with e'
        exact e'.symm
    simp only [ht.ant hty, ea, Option.map_some, this]
    cases f
    simp_all
  | waterfall =>
    obtain ⟨hr, ea, en⟩ := ha.waterfall hty
    cases f
    simp_all

/-- The file that is written tells of the object. -/
theorem write_tells [LinearOrder α] [Sub α] (version : Str) (even : List α → Bool) (f : Flg α P X V) : Tells even f (writeFile version f) := by
  refine { type := rfl, mode := rfl, times := rfl, lsts := rfl, freqs := rfl, pols := rfl, tel := rfl, kws := rfl,
           ntimes := Or.inl rfl, nfreqs := Or.inl rfl, npols := Or.inl rfl, spws := Or.inl rfl, nspws := Or.inl rfl, flex := Or.inl rfl,
           widths := Or.inl rfl, label := Or.inl rfl, a1 := ?_, a2 := ?_, nblts := ?_, ant := ?_, nants := ?_, metric := ?_, weights := ?_,
           wsq := ?_, flags := ?_ }
  · intro e; simp [writeFile, e]
  · intro e; simp [writeFile, e]
  · intro r e e'; left; simp [writeFile, e, e']
  · intro e; simp [writeFile, e]
  · intro a e _; left; simp [writeFile, e]
  · intro e; left; simp [writeFile, e]
  · intro e; left; simp [writeFile, e]
  · intro e; left; simp [writeFile, e]
  · intro e; left; simp [writeFile, e]

/-- What is written is read: the object as writing left it, with the name of the file; the file is the same when it is written again. -/
theorem write_read [LinearOrder α] [Sub α] (version : Str) (known : Tel P X → Tel P X) (text : Nat → Str)
    (blNum : Option Nat → Nat → Nat → Nat) (even : List α → Bool) (base : Str) (f : Flg α P X V) (hn : '\n' ∉ version)
    (hd : GoodData f) (ha : GoodAnts blNum f) (htel : FullTel f.tel) :
    readFile version known text blNum even base (writeFile version f) [] none = some { afterWrite version f with files := [base] } ∧
      writeFile version { afterWrite version f with files := [base] } = writeFile version f := by
  constructor
  · rw [tells_read version known text blNum even base f _ [] (write_tells version even f) hd ha htel]
    simp only [writeFile, List.append_nil, withVersion_idem version f.history hn, afterWrite]
  · simp only [writeFile, afterWrite, withVersion_idem version f.history hn]
    rfl

/-- The text given to `read` is in the history, behind that of the file, and so is the version. -/
theorem read_history [LinearOrder α] [Sub α] (version : Str) (known : Tel P X → Tel P X) (text : Nat → Str)
    (blNum : Option Nat → Nat → Nat → Nat) (even : List α → Bool) (base : Str) (h : Hdr α P X V) (history : Str) (tn : Option Str)
    (f : Flg α P X V) (hn : '\n' ∉ version) (hf : readFile version known text blNum even base h history tn = some f) :
    (h.history ++ history) <+: f.history ∧ hasVersion f.history version = true ∧ f.files = [base] := by
  have : f.history = withVersion version (h.history ++ history) ∧ f.files = [base] := by
    unfold readFile at hf
    split at hf
    · dsimp only at hf
      split at hf
      · split at hf
        · obtain ⟨r, -, rfl⟩ := Option.map_eq_some_iff.mp hf
          exact ⟨rfl, rfl⟩
        · obtain ⟨r, -, rfl⟩ := Option.map_eq_some_iff.mp hf
          exact ⟨rfl, rfl⟩
        · injection hf with hf
          subst hf
          exact ⟨rfl, rfl⟩
      · cases hf
    · cases hf
  rw [this.1]
  exact ⟨withVersion_prefix _ _, withVersion_has _ _ hn, this.2⟩

/-- Files with another type or mode are refused. -/
theorem strange_refused [LinearOrder α] [Sub α] (version : Str) (known : Tel P X → Tel P X) (text : Nat → Str)
    (blNum : Option Nat → Nat → Nat → Nat) (even : List α → Bool) (base : Str) (h : Hdr α P X V) (history : Str) (tn : Option Str)
    (hs : (∀ t : FType, h.type ≠ t.text) ∨ ∀ m : FMode, h.mode ≠ m.text) :
    readFile version known text blNum even base h history tn = none := by
  unfold readFile
  rcases hs with hs | hs
  · have : FType.ofText h.type = none := by
      unfold FType.ofText
      rw [show "antenna".toList = FType.antenna.text from rfl, show "baseline".toList = FType.baseline.text from rfl,
        show "waterfall".toList = FType.waterfall.text from rfl, if_neg (hs .antenna), if_neg (hs .baseline), if_neg (hs .waterfall)]
    rw [this]
  · have : FMode.ofText h.mode = none := by
      unfold FMode.ofText
      rw [show "metric".toList = FMode.metric.text from rfl, show "flag".toList = FMode.flag.text from rfl, if_neg (hs .metric), if_neg (hs .flag)]
    rw [this]
    split
    · rename_i h1 h2; cases h2
    · rfl

/-! ## Widths that are guessed -/

theorem read_widths [LinearOrder α] [Sub α] {version : Str} {known : Tel P X → Tel P X} {text : Nat → Str}
    {blNum : Option Nat → Nat → Nat → Nat} {even : List α → Bool} {base : Str} {h : Hdr α P X V} {history : Str} {tn : Option Str}
    {f : Flg α P X V} (hf : readFile version known text blNum even base h history tn = some f) :
    readWidths even (h.nfreqs.getD h.freqs.dedup.length) h.freqs h.widths = some f.widths ∧ f.freqs = h.freqs := by
  unfold readFile at hf
  split at hf
  · dsimp only at hf
    split at hf
    · rename_i e _
      rw [e]
      split at hf
      · obtain ⟨r, -, rfl⟩ := Option.map_eq_some_iff.mp hf
        exact ⟨rfl, rfl⟩
      · obtain ⟨r, -, rfl⟩ := Option.map_eq_some_iff.mp hf
        exact ⟨rfl, rfl⟩
      · injection hf with hf
        subst hf
        exact ⟨rfl, rfl⟩
    · cases hf
  · cases hf

theorem diffs_neg [AddCommGroup α] [LinearOrder α] [IsOrderedAddMonoid α] : ∀ l : List α, l.Pairwise (· > ·) → ∀ d ∈ diffs l, d < 0
  | [], _, d, h => by simp [diffs] at h
  | [_], _, d, h => by simp [diffs] at h
  | a :: b :: r, hp, d, h => by
    rw [diffs, List.mem_cons] at h
    rw [List.pairwise_cons] at hp
    rcases h with rfl | h
    · exact sub_neg.mpr (hp.1 b (by simp))
    · exact diffs_neg (b :: r) hp.2 d h

/-- "Widths are never negative" fails: when a file without widths has frequencies that go down, every width that is guessed is negative. -/
theorem descending_counterexample [AddCommGroup α] [LinearOrder α] [IsOrderedAddMonoid α] (version : Str) (known : Tel P X → Tel P X)
    (text : Nat → Str) (blNum : Option Nat → Nat → Nat → Nat) (even : List α → Bool) (base : Str) (h : Hdr α P X V) (history : Str)
    (tn : Option Str) (f : Flg α P X V) (hf : readFile version known text blNum even base h history tn = some f) (hw : h.widths = none)
    (hp : h.freqs.Pairwise (· > ·)) : ∀ w ∈ f.widths, w < 0 := by
  obtain ⟨hr, -⟩ := read_widths hf
  rw [hw] at hr
  have hneg := diffs_neg _ hp
  cases ed : diffs h.freqs with
  | nil => rw [readWidths] at hr; simp only [ed] at hr; cases hr
  | cons d r =>
    rw [readWidths] at hr
    simp only [ed] at hr
    rw [ed] at hneg
    split at hr
    · injection hr with hr
      rw [← hr]
      intro w hw
      rw [List.mem_replicate] at hw
      rw [hw.2]
      exact hneg d (by simp)
    · injection hr with hr
      rw [← hr]
      intro w hw
      rw [List.mem_append] at hw
      rcases hw with hw | hw
      · exact hneg w hw
      · rw [List.mem_singleton] at hw
        rw [hw]
        exact hneg _ (List.getLast_mem _)

/-- "Old files can be read" fails: without widths, a file of one channel cannot. -/
theorem oneChannel_counterexample [LinearOrder α] [Sub α] (version : Str) (known : Tel P X → Tel P X) (text : Nat → Str)
    (blNum : Option Nat → Nat → Nat → Nat) (even : List α → Bool) (base : Str) (h : Hdr α P X V) (history : Str) (tn : Option Str)
    (hw : h.widths = none) (h1 : h.freqs.length = 1) : readFile version known text blNum even base h history tn = none := by
  cases e : readFile version known text blNum even base h history tn with
  | none => rfl
  | some f =>
    obtain ⟨hr, -⟩ := read_widths e
    obtain ⟨a, ea⟩ := List.length_eq_one_iff.mp h1
    rw [hw, ea, readWidths] at hr
    simp [diffs] at hr

/-! ## Baseline numbers and antennas -/

/-- Baselines of what is read are numbered anew. -/
theorem read_baselines [LinearOrder α] [Sub α] (version : Str) (known : Tel P X → Tel P X) (text : Nat → Str)
    (blNum : Option Nat → Nat → Nat → Nat) (even : List α → Bool) (base : Str) (h : Hdr α P X V) (history : Str) (tn : Option Str)
    (f : Flg α P X V) (r : Rows) (hf : readFile version known text blNum even base h history tn = some f) (hr : f.rows = some r) :
    h.a1 = some r.a1 ∧ h.a2 = some r.a2 ∧ r.bl = List.zipWith (blNum h.tel.nants) r.a1 r.a2 ∧ r.nbls = r.bl.dedup.length ∧
      f.nants = some (r.a1 ++ r.a2).dedup.length := by
  unfold readFile at hf
  split at hf
  · dsimp only at hf
    split at hf
    · split at hf
      · obtain ⟨r', hr', rfl⟩ := Option.map_eq_some_iff.mp hf
        injection hr with hr
        subst hr
        unfold readRows at hr'
        split at hr'
        · rename_i a1 a2 k1 k2
          injection hr' with hr'
          subst hr'
          refine ⟨k1, k2, rfl, rfl, ?_⟩
          exact congrArg some (Np.unique_length _)
        · cases hr'
      · obtain ⟨r', -, rfl⟩ := Option.map_eq_some_iff.mp hf
        cases hr
      · injection hf with hf
        subst hf
        cases hr
    · cases hf
  · cases hf

/-- "A file keeps baseline numbers" fails: an object with another numbering is read with other numbers than it was written with. -/
theorem numbering_counterexample [LinearOrder α] [Sub α] (version : Str) (known : Tel P X → Tel P X) (text : Nat → Str)
    (blNum : Option Nat → Nat → Nat → Nat) (even : List α → Bool) (base : Str) (f g : Flg α P X V) (r s : Rows)
    (hty : f.type = .baseline) (hr : f.rows = some r) (hs : g.rows = some s)
    (hne : r.bl ≠ List.zipWith (blNum f.tel.nants) r.a1 r.a2)
    (hg : readFile version known text blNum even base (writeFile version f) [] none = some g) : s.bl ≠ r.bl := by
  obtain ⟨h1, h2, h3, -⟩ := read_baselines version known text blNum even base _ _ _ g s hg hs
  simp only [writeFile, hty, if_true, hr, Option.map_some, Option.some.injEq] at h1 h2
  rw [h3, ← h1, ← h2]
  exact fun e => hne e.symm

theorem read_tel [LinearOrder α] [Sub α] {version : Str} {known : Tel P X → Tel P X} {text : Nat → Str}
    {blNum : Option Nat → Nat → Nat → Nat} {even : List α → Bool} {base : Str} {h : Hdr α P X V} {history : Str} {tn : Option Str}
    {f : Flg α P X V} (hf : readFile version known text blNum even base h history tn = some f) :
    ∃ seen, f.tel = fillTel text f.type seen f.nants (askKnown known { h.tel with name := tn.or h.tel.name }) ∧
      (∀ r, f.rows = some r → seen = Np.unique (r.a1 ++ r.a2) ∧ f.type = .baseline ∧ f.nants = some seen.length) ∧
      (∀ a, f.ant = some a → seen = Np.unique a ∧ f.type = .antenna) := by
  unfold readFile at hf
  split at hf
  · dsimp only at hf
    split at hf
    · split at hf
      · obtain ⟨r', hr', rfl⟩ := Option.map_eq_some_iff.mp hf
        refine ⟨_, rfl, ?_, ?_⟩
        · intro r e
          injection e with e
          subst e
          exact ⟨rfl, rfl, rfl⟩
        · intro a e
          cases e
      · obtain ⟨r', -, rfl⟩ := Option.map_eq_some_iff.mp hf
        refine ⟨_, rfl, ?_, ?_⟩
        · intro r e
          cases e
        · intro a e
          injection e with e
          subst e
          exact ⟨rfl, rfl⟩
      · injection hf with hf
        subst hf
        refine ⟨[], rfl, ?_, ?_⟩
        · intro r e; cases e
        · intro a e; cases e
    · cases hf
  · cases hf

/-- The name of the telescope is the one that is given, or else that of the file. -/
theorem read_name [LinearOrder α] [Sub α] (version : Str) (known : Tel P X → Tel P X) (text : Nat → Str)
    (blNum : Option Nat → Nat → Nat → Nat) (even : List α → Bool) (base : Str) (h : Hdr α P X V) (history : Str) (tn : Option Str)
    (f : Flg α P X V) (hk : ∀ t, (known t).name = t.name) (hf : readFile version known text blNum even base h history tn = some f) :
    (∀ n, tn = some n → f.tel.name = some n) ∧ (tn = none → f.tel.name = h.tel.name) := by
  obtain ⟨seen, ht, -⟩ := read_tel hf
  have h1 : ∀ t : Tel P X, (askKnown known t).name = t.name := by
    intro t
    unfold askKnown
    split
    · rfl
    · split
      · rw [hk]
        split <;> rfl
      · rfl
  have h2 : ∀ (type : FType) (n : Option Nat) (t : Tel P X), (fillTel text type seen n t).name = t.name := by
    intro type n t
    unfold fillTel
    dsimp only
    split <;> split <;> split <;> rfl
  have h3 : f.tel.name = tn.or h.tel.name := by rw [ht, h2, h1]
  constructor
  · rintro n rfl
    exact h3
  · rintro rfl
    exact h3

/-- A file of baselines without antennas, of a telescope that is not known: the antennas are those in the rows, in order, their names
are their numbers, and as many are counted, whatever count the file had. -/
theorem read_antennas [LinearOrder α] [Sub α] (version : Str) (known : Tel P X → Tel P X) (text : Nat → Str)
    (blNum : Option Nat → Nat → Nat → Nat) (even : List α → Bool) (base : Str) (h : Hdr α P X V) (history : Str) (name : Str)
    (f : Flg α P X V) (r : Rows) (hname : h.tel.name = some name) (h1 : h.tel.nums = none) (h2 : h.tel.names = none) (h3 : h.tel.pos = none)
    (hk : ∀ t, known t = t) (hf : readFile version known text blNum even base h history none = some f) (hr : f.rows = some r) :
    ∃ l, f.tel.nums = some l ∧ l.Pairwise (· < ·) ∧ (∀ x, x ∈ l ↔ x ∈ r.a1 ∨ x ∈ r.a2) ∧ f.tel.names = some (l.map text) ∧
      f.tel.nants = some l.length ∧ f.tel.name = some name ∧ f.tel.loc = h.tel.loc ∧ f.tel.pos = none := by
  obtain ⟨seen, ht, hb, -⟩ := read_tel hf
  obtain ⟨hs, hty, hn⟩ := hb r hr
  refine ⟨seen, ?_⟩
  have e : askKnown known h.tel = { h.tel with nants := none } := by
    unfold askKnown
    rw [if_neg (by rw [hname]; simp), if_pos (Or.inr (Or.inl h1)), hk, if_pos ⟨h1, h2, h3⟩]
  have e' : askKnown known { h.tel with name := none.or h.tel.name } = { h.tel with nants := none } := e
  rw [e', hty] at ht
  have e2 : f.tel = { h.tel with nums := some seen, names := some (seen.map text), nants := some seen.length } := by
    rw [ht]
    simp [fillTel, h1, h2]
  rw [e2]
  refine ⟨rfl, hs ▸ Np.unique_sorted _, ?_, rfl, rfl, hname, rfl, h3⟩
  intro x
  rw [hs, Np.mem_unique, List.mem_append]

/-- When positions of more antennas than have data are in the file but not their numbers, the object has no antenna numbers. -/
theorem unknown_antennas [LinearOrder α] [Sub α] (version : Str) (known : Tel P X → Tel P X) (text : Nat → Str)
    (blNum : Option Nat → Nat → Nat → Nat) (even : List α → Bool) (base : Str) (h : Hdr α P X V) (history : Str)
    (f : Flg α P X V) (n : Nat) (h1 : h.tel.nums = none) (hp : h.tel.pos.isSome)
    (hn : h.tel.nants = some n) (hk : ∀ t, known t = t)
    (hf : readFile version known text blNum even base h history none = some f) (hne : f.nants ≠ some n) :
    f.tel.nums = none ∧ f.tel.names = h.tel.names ∧ f.tel.nants = some n := by
  obtain ⟨seen, ht, -⟩ := read_tel hf
  have e : askKnown known h.tel = h.tel := by
    unfold askKnown
    split
    · rfl
    · split
      · rw [hk, if_neg]
        rintro ⟨-, -, e⟩
        rw [e] at hp
        cases hp
      · rfl
  have e' : askKnown known { h.tel with name := none.or h.tel.name } = h.tel := e
  rw [e'] at ht
  rw [ht]
  have hne' : ¬ (some n = f.nants) := fun e => hne e.symm
  unfold fillTel
  dsimp only
  rw [if_neg (by rw [hn]; rintro ⟨-, -, e | e⟩; exact absurd e (by simp); exact hne' e)]
  cases en : h.tel.names <;> simp [h1, hn, en]

end Verif.FlagIo
