import Verif.FlagIo.Props

/-!
# What objects of flags are when they are made from visibilities or calibrations, and lists of files and objects
-/

namespace Verif.FlagIo
open Verif.Pol (Str)
open Verif.History (hasVersion)

variable {α P X V : Type}

/-- An array of this shape with the same entry everywhere. -/
def AllAre {D : Type} (a : Option (Arr D)) (shape : List Nat) (x : D) : Prop :=
  ∃ b, a = some b ∧ b.shape = shape ∧ b.flat.length = shape.prod ∧ ∀ y ∈ b.flat, y = x

theorem full_allAre {D : Type} (shape : List Nat) (x : D) : AllAre (some (full shape x)) shape x :=
  ⟨_, rfl, rfl, List.length_replicate, fun _ hy => (List.mem_replicate.mp hy).2⟩

/-- New data: no flags, or metrics 0 with weights 1. -/
structure NewData [Zero α] [One α] (f : Flg α P X V) (m : FMode) (shape : List Nat) : Prop where
  mode : f.mode = m
  flag : m = .flag → AllAre f.flags shape false ∧ f.metric = none ∧ f.weights = none ∧ f.wsq = none
  metric : m = .metric → AllAre f.metric shape 0 ∧ AllAre f.weights shape 1 ∧ f.flags = none

/-- What the object has from the visibilities, but for times and rows. -/
structure CopyOf (f : Flg α P X V) (d : Vis α P X V) : Prop where
  ntimes : f.ntimes = d.ntimes
  nfreqs : f.nfreqs = d.nfreqs
  freqs : f.freqs = d.freqs
  widths : f.widths = d.widths
  nspws : f.nspws = d.nspws
  spws : f.spws = d.spws
  flex : f.flex = d.flex
  npols : f.npols = d.npols
  pols : f.pols = .nums d.pols
  tel : f.tel = d.tel
  kws : ∀ k, d.kws = some k → f.kws = k
  files : f.files = d.files

/-- What the object has from the calibrations, but for antennas. -/
structure CopyOfCal (f : Flg α P X V) (d : Cal α P X) : Prop where
  ntimes : f.ntimes = d.ntimes
  times : f.times = d.times
  lsts : f.lsts = d.lsts
  nfreqs : f.nfreqs = d.nfreqs
  freqs : f.freqs = d.freqs
  widths : f.widths = d.widths
  nspws : f.nspws = d.nspws
  spws : f.spws = d.spws
  flex : f.flex = d.flex
  npols : f.npols = d.njones
  pols : f.pols = .nums d.jones
  tel : f.tel = d.tel
  files : f.files = d.files

/-- What the history of a new object tells: what was there before, what was made, the version and the text that was given. -/
structure HistoryOf (version old history h : Str) (t : FType) : Prop where
  old : old <+: h
  created : createdText t <:+: h
  version : hasVersion h version = true
  given : history <:+: h

theorem newHistory_tells (version old : Str) (t : FType) (copied : Option Str) (history : Str) (hn : '\n' ∉ version) :
    HistoryOf version old history (newHistory version old t copied history) t ∧
      ∀ cls, copied = some cls → copiedText cls <:+: newHistory version old t copied history := by
  have h0 : (old ++ createdText t) <+: withVersion version (old ++ createdText t) := withVersion_prefix _ _
  have hv := withVersion_has version (old ++ createdText t) hn
  have key : ∀ h : Str, h <+: newHistory version old t copied history → hasVersion h version = true →
      hasVersion (newHistory version old t copied history) version = true := by
    rintro h ⟨s, e⟩ hh
    rw [← e]
    exact hasVersion_append_left _ hh
  have step : ∃ h, withVersion version (old ++ createdText t) <+: h ∧ h <+: newHistory version old t copied history ∧
      ∀ cls, copied = some cls → copiedText cls <:+: h := by
    refine ⟨withVersion version (old ++ createdText t) ++ (copied.map copiedText).getD [], List.prefix_append _ _, ?_, ?_⟩
    · unfold newHistory
      dsimp only
      split
      · exact List.prefix_rfl
      · exact List.prefix_append _ _
    · intro cls e
      subst e
      exact (List.suffix_append _ _).isInfix
  obtain ⟨h, s1, s2, s3⟩ := step
  refine ⟨⟨?_, ?_, key _ (s1.trans s2) hv, ?_⟩, fun cls e => (s3 cls e).trans s2.isInfix⟩
  · exact (List.prefix_append _ _).trans (h0.trans (s1.trans s2))
  · exact (List.suffix_append _ _).isInfix.trans (h0.trans (s1.trans s2)).isInfix
  · unfold newHistory
    dsimp only
    split
    · assumption
    · exact (List.suffix_append _ _).isInfix

theorem askMode_some (mode : Str) (m : FMode) (hm : mode.map Char.toLower = m.text) : askMode mode = some m := by
  rw [askMode, hm, mode_ofText_text]

theorem askMode_none (mode : Str) (hm : ∀ m : FMode, mode.map Char.toLower ≠ m.text) : askMode mode = none := by
  unfold askMode FMode.ofText
  rw [show "metric".toList = FMode.metric.text from rfl, show "flag".toList = FMode.flag.text from rfl, if_neg (hm .metric), if_neg (hm .flag)]

section
variable [LinearOrder α] [Zero α] [One α]

/-- A new object with a row for every row of the visibilities: nothing is flagged, or all metrics are 0 with weight 1. -/
theorem vis_baseline (version : Str) (old : Old α V) (d : Vis α P X V) (mode history label : Str) (m : FMode) (hn : '\n' ∉ version)
    (hm : mode.map Char.toLower = m.text) :
    ∃ f, fromVis version old d mode false false history label = some f ∧ f.type = .baseline ∧ CopyOf f d ∧ f.times = d.times ∧
      f.lsts = d.lsts ∧ f.rows = some d.rows ∧ f.ant = none ∧ f.nants = some d.nants ∧ NewData f m [d.rows.nblts, d.nfreqs, d.npols] ∧
      HistoryOf version old.history history f.history .baseline ∧ f.label = old.label ++ label := by
  unfold fromVis
  rw [askMode_some mode m hm]
  simp only [Bool.false_eq_true, if_false, Option.bind_some]
  refine ⟨_, rfl, rfl, ?_, rfl, rfl, rfl, rfl, rfl, ?_, (newHistory_tells _ _ _ _ _ hn).1, rfl⟩
  · exact ⟨rfl, rfl, rfl, rfl, rfl, rfl, rfl, rfl, rfl, rfl, fun k e => by simp [e], rfl⟩
  · refine ⟨rfl, ?_, ?_⟩
    · rintro rfl
      exact ⟨full_allAre _ _, rfl, rfl, rfl⟩
    · rintro rfl
      exact ⟨full_allAre _ _, full_allAre _ _, rfl⟩

/-- When flags are to be copied, they are, whatever mode is asked for, and the object has the mode of flags. -/
theorem vis_flags (version : Str) (old : Old α V) (d : Vis α P X V) (mode history label : Str) (m : FMode) (hn : '\n' ∉ version)
    (hm : mode.map Char.toLower = m.text) :
    ∃ f, fromVis version old d mode true false history label = some f ∧ f.type = .baseline ∧ CopyOf f d ∧ f.times = d.times ∧
      f.lsts = d.lsts ∧ f.rows = some d.rows ∧ f.ant = none ∧ f.nants = some d.nants ∧ f.mode = .flag ∧ f.flags = d.flags ∧
      f.metric = none ∧ f.weights = none ∧ f.wsq = none ∧ HistoryOf version old.history history f.history .baseline ∧
      copiedText d.cls <:+: f.history ∧ f.label = old.label ++ label := by
  unfold fromVis
  rw [askMode_some mode m hm]
  simp only [Bool.false_eq_true, if_false, Option.bind_some, if_true]
  refine ⟨_, rfl, rfl, ?_, rfl, rfl, rfl, rfl, rfl, rfl, rfl, rfl, rfl, rfl, (newHistory_tells _ _ _ _ _ hn).1,
    (newHistory_tells version old.history .baseline (some d.cls) history hn).2 _ rfl, rfl⟩
  exact ⟨rfl, rfl, rfl, rfl, rfl, rfl, rfl, rfl, rfl, rfl, fun k e => by simp [e], rfl⟩

end

theorem mapM_all {β γ : Type} (g : β → Option γ) : ∀ l : List β, (∀ x ∈ l, (g x).isSome) →
    ∃ m, l.mapM g = some m ∧ m.length = l.length ∧ ∀ (i : Nat) x, l[i]? = some x → m[i]? = g x
  | [], _ => ⟨[], rfl, rfl, by simp⟩
  | x :: l, h => by
    obtain ⟨m, h1, h2, h3⟩ := mapM_all g l (fun y hy => h y (List.mem_cons_of_mem _ hy))
    obtain ⟨y, hy⟩ := Option.isSome_iff_exists.mp (h x (by simp))
    refine ⟨y :: m, ?_, by simp [h2], ?_⟩
    · rw [List.mapM_cons, hy, h1]
      rfl
    · intro i z hz
      cases i with
      | zero => simp at hz; subst hz; simp [hy]
      | succ i => simp only [List.getElem?_cons_succ] at hz ⊢; exact h3 i z hz

section
variable [LinearOrder α] [Zero α] [One α]

/-- A new waterfall has the distinct times in order, each with the sidereal time of the first row of that time. -/
theorem vis_waterfall (version : Str) (old : Old α V) (d : Vis α P X V) (mode history label : Str) (m : FMode) (hn : '\n' ∉ version)
    (hm : mode.map Char.toLower = m.text) (hl : d.lsts.length = d.times.length) :
    ∃ f, fromVis version old d mode false true history label = some f ∧ f.type = .waterfall ∧ CopyOf f d ∧
      f.times.Pairwise (· < ·) ∧ (∀ t, t ∈ f.times ↔ t ∈ d.times) ∧ f.lsts.length = f.times.length ∧
      (∀ (i : Nat) t, f.times[i]? = some t → ∃ k : Nat, d.times[k]? = some t ∧ (∀ j : Nat, j < k → d.times[j]? ≠ some t) ∧ f.lsts[i]? = d.lsts[k]?) ∧
      f.rows = none ∧ f.ant = none ∧ f.nants = none ∧ NewData f m [d.ntimes, d.nfreqs, d.npols] ∧
      HistoryOf version old.history history f.history .waterfall ∧ f.label = old.label ++ label := by
  have hidx : ∀ t ∈ Np.unique d.times, d.times.idxOf t < d.times.length := by
    intro t ht
    rw [Np.mem_unique] at ht
    exact List.idxOf_lt_length_of_mem ht
  obtain ⟨ls, h1, h2, h3⟩ := mapM_all (fun t => d.lsts[d.times.idxOf t]?) (Np.unique d.times) (by
    intro t ht
    have := hidx t ht
    rw [List.getElem?_eq_getElem (by omega)]
    rfl)
  unfold fromVis
  rw [askMode_some mode m hm]
  simp only [Option.bind_some, if_true, Bool.false_eq_true, if_false, h1, Option.map_some]
  refine ⟨_, rfl, rfl, ?_, Np.unique_sorted _, fun t => Np.mem_unique, h2, ?_, rfl, rfl, rfl, ?_, (newHistory_tells _ _ _ _ _ hn).1, rfl⟩
  · exact ⟨rfl, rfl, rfl, rfl, rfl, rfl, rfl, rfl, rfl, rfl, fun k e => by simp [e], rfl⟩
  · intro i t ht
    have hlt := hidx t (List.mem_of_getElem? ht)
    refine ⟨d.times.idxOf t, ?_, ?_, h3 i t ht⟩
    · rw [List.getElem?_eq_getElem hlt, List.getElem_idxOf]
    · intro j hj e
      rw [List.getElem?_eq_some_iff] at e
      obtain ⟨hj', e⟩ := e
      have := List.not_of_lt_findIdx hj
      simp [e] at this
  · refine ⟨rfl, ?_, ?_⟩
    · rintro rfl
      exact ⟨full_allAre _ _, rfl, rfl, rfl⟩
    · rintro rfl
      exact ⟨full_allAre _ _, full_allAre _ _, rfl⟩

/-- No waterfall is made with flags copied, and nothing with another mode. -/
theorem vis_refused (version : Str) (old : Old α V) (d : Vis α P X V) (mode : Str) (c w : Bool) (history label : Str)
    (h : (c = true ∧ w = true) ∨ ∀ m : FMode, mode.map Char.toLower ≠ m.text) :
    fromVis version old d mode c w history label = none := by
  unfold fromVis
  rcases h with ⟨rfl, rfl⟩ | h
  · cases askMode mode <;> rfl
  · rw [askMode_none mode h]
    rfl

omit [LinearOrder α] in
/-- A new object with an entry for every antenna of the calibrations. -/
theorem cal_antenna (version : Str) (old : Old α V) (d : Cal α P X) (mode history label : Str) (m : FMode) (hn : '\n' ∉ version)
    (hm : mode.map Char.toLower = m.text) (hw : d.wide = false) :
    ∃ f, fromCal version old d mode false false history label = some f ∧ f.type = .antenna ∧ CopyOfCal f d ∧ f.ant = some d.ant ∧
      f.rows = none ∧ f.nants = some d.ant.length ∧ NewData f m [d.ant.length, d.nfreqs, d.ntimes, d.njones] ∧
      HistoryOf version old.history history f.history .antenna ∧ f.label = old.label ++ label := by
  unfold fromCal
  rw [askMode_some mode m hm]
  simp only [hw, Bool.false_eq_true, if_false, Option.bind_some]
  refine ⟨_, rfl, rfl, ?_, rfl, rfl, rfl, ?_, (newHistory_tells _ _ _ _ _ hn).1, rfl⟩
  · exact ⟨rfl, rfl, rfl, rfl, rfl, rfl, rfl, rfl, rfl, rfl, rfl, rfl, rfl⟩
  · refine ⟨rfl, ?_, ?_⟩
    · rintro rfl
      exact ⟨full_allAre _ _, rfl, rfl, rfl⟩
    · rintro rfl
      exact ⟨full_allAre _ _, full_allAre _ _, rfl⟩

omit [LinearOrder α] in
theorem cal_flags (version : Str) (old : Old α V) (d : Cal α P X) (mode history label : Str) (m : FMode) (hn : '\n' ∉ version)
    (hm : mode.map Char.toLower = m.text) (hw : d.wide = false) :
    ∃ f, fromCal version old d mode true false history label = some f ∧ f.type = .antenna ∧ CopyOfCal f d ∧ f.ant = some d.ant ∧
      f.rows = none ∧ f.nants = some d.ant.length ∧ f.mode = .flag ∧ f.flags = d.flags ∧ f.metric = none ∧ f.weights = none ∧ f.wsq = none ∧
      HistoryOf version old.history history f.history .antenna ∧ copiedText d.cls <:+: f.history ∧ f.label = old.label ++ label := by
  unfold fromCal
  rw [askMode_some mode m hm]
  simp only [hw, Bool.false_eq_true, if_false, Option.bind_some, if_true]
  refine ⟨_, rfl, rfl, ?_, rfl, rfl, rfl, rfl, rfl, rfl, rfl, rfl, (newHistory_tells _ _ _ _ _ hn).1,
    (newHistory_tells version old.history .antenna (some d.cls) history hn).2 _ rfl, rfl⟩
  exact ⟨rfl, rfl, rfl, rfl, rfl, rfl, rfl, rfl, rfl, rfl, rfl, rfl, rfl⟩

omit [LinearOrder α] in
theorem cal_waterfall (version : Str) (old : Old α V) (d : Cal α P X) (mode history label : Str) (m : FMode) (hn : '\n' ∉ version)
    (hm : mode.map Char.toLower = m.text) (hw : d.wide = false) :
    ∃ f, fromCal version old d mode false true history label = some f ∧ f.type = .waterfall ∧ CopyOfCal f d ∧ f.ant = none ∧
      f.rows = none ∧ f.nants = none ∧ NewData f m [d.ntimes, d.nfreqs, d.njones] ∧
      HistoryOf version old.history history f.history .waterfall ∧ f.label = old.label ++ label := by
  unfold fromCal
  rw [askMode_some mode m hm]
  simp only [hw, Bool.false_eq_true, if_false, Option.bind_some, if_true]
  refine ⟨_, rfl, rfl, ?_, rfl, rfl, rfl, ?_, (newHistory_tells _ _ _ _ _ hn).1, rfl⟩
  · exact ⟨rfl, rfl, rfl, rfl, rfl, rfl, rfl, rfl, rfl, rfl, rfl, rfl, rfl⟩
  · refine ⟨rfl, ?_, ?_⟩
    · rintro rfl
      exact ⟨full_allAre _ _, rfl, rfl, rfl⟩
    · rintro rfl
      exact ⟨full_allAre _ _, full_allAre _ _, rfl⟩

omit [LinearOrder α] in
theorem cal_refused (version : Str) (old : Old α V) (d : Cal α P X) (mode : Str) (c w : Bool) (history label : Str)
    (h : d.wide = true ∨ (c = true ∧ w = true) ∨ ∀ m : FMode, mode.map Char.toLower ≠ m.text) :
    fromCal version old d mode c w history label = none := by
  unfold fromCal
  rcases h with h | ⟨rfl, rfl⟩ | h
  · rw [h]; rfl
  · split
    · rfl
    · cases askMode mode <;> rfl
  · split
    · rfl
    · rw [askMode_none mode h]
      rfl

omit [LinearOrder α] in
/-- "Keywords come along" fails for calibrations: the object keeps the keywords it had, so a new one has none. -/
theorem calKeywords_counterexample (version : Str) (old : Old α V) (d : Cal α P X) (mode : Str) (c w : Bool) (history label : Str)
    (f : Flg α P X V) (hf : fromCal version old d mode c w history label = some f) : f.kws = old.kws := by
  unfold fromCal at hf
  split at hf
  · cases hf
  · obtain ⟨m, -, hf⟩ := Option.bind_eq_some_iff.mp hf
    split at hf
    · split at hf
      · cases hf
      · injection hf with hf; subst hf; rfl
    · injection hf with hf; subst hf; rfl

/-- "What an object was before does not matter" fails: the history and the label of the object stay in front, and in the mode of metrics
squares of weights stay, although they belong to other data. -/
theorem used_counterexample (version : Str) (old : Old α V) (d : Vis α P X V) (mode : Str) (history label : Str) (f : Flg α P X V)
    (hm : mode.map Char.toLower = FMode.metric.text) (hn : '\n' ∉ version)
    (hf : fromVis version old d mode false false history label = some f) :
    old.history <+: f.history ∧ f.label = old.label ++ label ∧ f.wsq = old.wsq := by
  obtain ⟨g, h1, -, -, -, -, -, -, -, -, h2, h3⟩ := vis_baseline version old d mode history label .metric hn hm
  rw [hf] at h1
  injection h1 with h1
  subst h1
  refine ⟨h2.old, h3, ?_⟩
  unfold fromVis at hf
  rw [askMode_some mode _ hm] at hf
  injection hf with hf
  subst hf
  rfl

end

/-- Files keep new objects: one made from visibilities with a telescope that is complete is read as it was made. -/
theorem vis_file [LinearOrder α] [Ring α] (version : Str) (known : Tel P X → Tel P X) (text : Nat → Str)
    (blNum : Option Nat → Nat → Nat → Nat) (even : List α → Bool) (base : Str) (d : Vis α P X V) (mode history label : Str)
    (m : FMode) (hn : '\n' ∉ version) (hm : mode.map Char.toLower = m.text) (htel : FullTel d.tel)
    (hbl : d.rows.bl = List.zipWith (blNum d.tel.nants) d.rows.a1 d.rows.a2) (hnb : d.rows.nbls = d.rows.bl.dedup.length)
    (hna : d.nants = (d.rows.a1 ++ d.rows.a2).dedup.length) :
    ∃ f, fromVis version Old.fresh d mode false false history label = some f ∧
      readFile version known text blNum even base (writeFile version f) [] none = some { f with files := [base] } := by
  obtain ⟨f, h1, h2, h3, h4, h5, h6, h7, h8, h9, h10, h11⟩ := vis_baseline version Old.fresh d mode history label m hn hm
  refine ⟨f, h1, ?_⟩
  have hg : GoodData f := by
    constructor
    · intro e
      have e' : m = .metric := h9.mode ▸ e
      obtain ⟨⟨a, ka, sa, -⟩, ⟨b, kb, sb, -⟩, kf⟩ := h9.metric e'
      refine ⟨⟨a, ka, ?_⟩, ⟨b, kb, ?_⟩, ?_, kf⟩
      · rw [sa, h2]; rfl
      · rw [sb, h2]; rfl
      · have := (used_counterexample version Old.fresh d mode history label f (e' ▸ hm) hn h1).2.2
        rw [this]
        intro q hq
        cases hq
    · intro e
      have e' : m = .flag := h9.mode ▸ e
      obtain ⟨⟨a, ka, sa, -⟩, k1, k2, k3⟩ := h9.flag e'
      refine ⟨⟨a, ka, ?_⟩, k1, k2, k3⟩
      rw [sa, h2]; rfl
  have ha : GoodAnts blNum f := by
    constructor
    · intro _
      refine ⟨d.rows, h6, h7, ?_, hnb, ?_⟩
      · rw [h3.tel]; exact hbl
      · rw [h8, hna]
    · intro e; rw [h2] at e; cases e
    · intro e; rw [h2] at e; cases e
  rw [(write_read version known text blNum even base f hn hg ha (h3.tel ▸ htel)).1]
  have : withVersion version f.history = f.history := by rw [withVersion, if_pos h10.version]
  simp only [afterWrite, this]

/-! ## Lists of files and of objects -/

/-- "The history and the telescope's name that are given to `read` are used" fails: the first of a list of files is read without them,
so they do not matter for a list of one file; the name is used for none. -/
theorem readMany_counterexample {F D : Type} (read1 : F → Str → Option Str → Option D) (add : D → D → Option D) (f : F) (fs : List F)
    (history history' : Str) (tn tn' : Option Str) :
    readMany read1 add [f] history tn = readMany read1 add [f] history' tn' ∧ readMany read1 add [f] history tn = read1 f [] none ∧
      readMany read1 add fs history tn = readMany read1 add fs history tn' := by
  refine ⟨?_, ?_, ?_⟩
  · cases e : read1 f [] none <;> simp [readMany, e]
  · cases e : read1 f [] none <;> simp [readMany, e]
  · cases fs <;> rfl

/-- Files in a list are added in order: with one more file, it is read with the history and added to what the others gave. -/
theorem readMany_append {F D : Type} (read1 : F → Str → Option Str → Option D) (add : D → D → Option D) (fs : List F) (g : F)
    (history : Str) (tn : Option Str) (hne : fs ≠ []) :
    readMany read1 add (fs ++ [g]) history tn =
      (readMany read1 add fs history tn).bind fun d => (read1 g history none).bind (add d) := by
  cases fs with
  | nil => exact absurd rfl hne
  | cons f r =>
    simp only [readMany, List.cons_append, List.foldlM_append, List.foldlM_cons, List.foldlM_nil, Option.bind_assoc]
    cases read1 f [] none with
    | none => rfl
    | some d => simp

section
variable [LinearOrder α] [Zero α] [One α] {F : Type}

/-- Objects in a list are made in turn and added in order; all but the first are made without the label. -/
theorem initMany_append (version : Str) (read1 : F → Str → Option Str → Option (Flg α P X V))
    (add : Flg α P X V → Flg α P X V → Option (Flg α P X V)) (ss : List (Source F α P X V)) (s : Source F α P X V) (mode : Str) (c w : Bool)
    (history label : Str) (tn : Option Str) (hne : ss ≠ []) :
    initMany version read1 add (ss ++ [s]) mode c w history label tn =
      (initMany version read1 add ss mode c w history label tn).bind fun f =>
        (initOne version read1 s mode c w history [] none).bind (add f) := by
  cases ss with
  | nil => exact absurd rfl hne
  | cons f r =>
    simp only [initMany, List.cons_append, List.foldlM_append, List.foldlM_cons, List.foldlM_nil, Option.bind_assoc]
    cases initOne version read1 f mode c w history label none with
    | none => rfl
    | some d => simp

/-- "Keywords are used" fails: for a file, the label, the mode and the requests for flags and waterfalls do not matter; for a list, nor does
the telescope's name. -/
theorem ignored_counterexample (version : Str) (read1 : F → Str → Option Str → Option (Flg α P X V))
    (add : Flg α P X V → Flg α P X V → Option (Flg α P X V)) (f : F) (ss : List (Source F α P X V)) (mode mode' : Str) (c c' w w' : Bool)
    (history label label' : Str) (tn tn' : Option Str) :
    initOne version read1 (.path f) mode c w history label tn = initOne version read1 (.path f) mode' c' w' history label' tn ∧
      initMany version read1 add ss mode c w history label tn = initMany version read1 add ss mode c w history label tn' := by
  refine ⟨rfl, ?_⟩
  cases ss <;> rfl

/-- One object alone is made with all that was given: a file is read with the history and the telescope's name, an object of data gives
its rows or antennas with the label and the history. -/
theorem initOne_given (version : Str) (read1 : F → Str → Option Str → Option (Flg α P X V)) (mode : Str) (m : FMode) (c : Bool)
    (history label : Str) (tn : Option Str) (hn : '\n' ∉ version) (hm : mode.map Char.toLower = m.text) :
    (∀ f, initOne version read1 (.path f) mode c false history label tn = read1 f history tn) ∧
      (∀ d, ∃ f, initOne version read1 (.vis d) mode c false history label tn = some f ∧ CopyOf f d ∧ f.rows = some d.rows ∧
        f.mode = (if c then .flag else m) ∧ HistoryOf version [] history f.history .baseline ∧ f.label = label) ∧
      (∀ d, d.wide = false → ∃ f, initOne version read1 (.cal d) mode c false history label tn = some f ∧ CopyOfCal f d ∧ f.ant = some d.ant ∧
        f.mode = (if c then .flag else m) ∧ HistoryOf version [] history f.history .antenna ∧ f.label = label) := by
  refine ⟨fun f => rfl, ?_, ?_⟩
  · intro d
    cases c with
    | false =>
      obtain ⟨f, h1, h2, h3, h4, h5, h6, h7, h8, h9, h10, h11⟩ := vis_baseline version Old.fresh d mode history label m hn hm
      exact ⟨f, h1, h3, h6, h9.mode, h10, h11⟩
    | true =>
      obtain ⟨f, h1, h2, h3, h4, h5, h6, h7, h8, h9, h10, h11, h12, h13, h14, h15, h16⟩ :=
        vis_flags version Old.fresh d mode history label m hn hm
      exact ⟨f, h1, h3, h6, h9, h14, h16⟩
  · intro d hw
    cases c with
    | false =>
      obtain ⟨f, h1, h2, h3, h4, h5, h6, h7, h8, h9⟩ := cal_antenna version Old.fresh d mode history label m hn hm hw
      exact ⟨f, h1, h3, h4, h7.mode, h8, h9⟩
    | true =>
      obtain ⟨f, h1, h2, h3, h4, h5, h6, h7, h8, h9, h10, h11, h12, h13, h14⟩ :=
        cal_flags version Old.fresh d mode history label m hn hm hw
      exact ⟨f, h1, h3, h4, h7, h12, h14⟩

/-- A list of one is the one, made without the name of a telescope. -/
theorem initMany_one (version : Str) (read1 : F → Str → Option Str → Option (Flg α P X V))
    (add : Flg α P X V → Flg α P X V → Option (Flg α P X V)) (s : Source F α P X V) (mode : Str) (c w : Bool)
    (history label : Str) (tn : Option Str) :
    initMany version read1 add [s] mode c w history label tn = initOne version read1 s mode c w history label none := by
  cases e : initOne version read1 s mode c w history label none <;> simp [initMany, e]

end

end Verif.FlagIo
