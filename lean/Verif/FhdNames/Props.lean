import Verif.FhdNames.Model
import Mathlib.Data.List.Basic

/-!
# Which warnings the names of FHD files give (C230)
-/
namespace Verif.FhdNames

/-! ### The specification -/

/-- `f` is the file of type `k` in the folder `d` of a run, for the data `p`: `d/<sub folder>/<p><suffix><anything>`. -/
structure IsFile (k : Kind) (d p f : Path) : Prop where
  path : ∃ r, '/' ∉ r ∧ f = d ++ '/' :: (subFolder k ++ '/' :: (p ++ suffix k ++ r))
  folder : d ≠ [] ∧ d.getLast? ≠ some '/'
  name : '/' ∉ p

/-- The file is an argument. -/
def Given (args : Kind → Option (List Path)) (k : Kind) (f : Path) : Prop := ∃ l, args k = some l ∧ f ∈ l

/-! ### Paths -/

theorem split_join {d n : Path} (hd : d ≠ []) (hl : d.getLast? ≠ some '/') (hn : '/' ∉ n) : split (d ++ '/' :: n) = (d, n) := by
  have hr : (d ++ '/' :: n).reverse = n.reverse ++ '/' :: d.reverse := by simp
  have hall : ∀ c ∈ n.reverse, (c != '/') = true := by
    intro c hc
    simp only [bne_iff_ne]
    rintro rfl
    exact hn (List.mem_reverse.mp hc)
  have h1 : (d ++ '/' :: n).reverse.dropWhile (· != '/') = '/' :: d.reverse := by
    rw [hr, List.dropWhile_append_of_pos hall]
    simp
  have h2 : (d ++ '/' :: n).reverse.takeWhile (· != '/') = n.reverse := by
    rw [hr, List.takeWhile_append_of_pos hall]
    simp
  have h3 : ('/' :: d.reverse).dropWhile (· == '/') = d.reverse := by
    cases hd' : d.reverse with
    | nil => exact absurd (List.reverse_eq_nil_iff.mp hd') hd
    | cons c t =>
      have hc : c ≠ '/' := by
        rintro rfl
        apply hl
        rw [← List.head?_reverse, hd']
        rfl
      simp [hc]
  unfold split
  simp only [h1, h2, List.reverse_reverse, h3]
  rw [if_neg]
  intro h
  rw [List.all_eq_true] at h
  cases hd' : d.getLast? with
  | none => exact hd (List.getLast?_eq_none_iff.mp hd')
  | some c =>
    have hm : c ∈ ('/' :: d.reverse).reverse := by
      simp only [List.reverse_cons, List.reverse_reverse, List.mem_append]
      exact .inl (List.mem_of_getLast? hd')
    have := h c hm
    simp only [beq_iff_eq] at this
    rw [this] at hd'
    exact hl hd'

theorem before_spec {w p r : Path} (hw : '_' ∉ w) (hp : ¬ ('_' :: w) <:+: p) : before ('_' :: w) (p ++ ('_' :: w) ++ r) = some p := by
  induction p with
  | nil => simp [before]
  | cons c t ih =>
    have ht : ¬ ('_' :: w) <:+: t := fun h => hp (h.trans (List.infix_cons List.infix_rfl))
    have hn : ¬ ('_' :: w) <+: (c :: t) ++ (('_' :: w) ++ r) := by
      intro h
      rcases Nat.lt_or_ge (c :: t).length ('_' :: w).length with hl | hl
      · have h' := List.prefix_of_prefix_length_le (List.prefix_append (c :: t) (('_' :: w) ++ r)) h (Nat.le_of_lt hl)
        obtain ⟨z, hz⟩ := h'
        have h0 : (c :: t) ++ z <+: (c :: t) ++ (('_' :: w) ++ r) := by rw [hz]; exact h
        rw [List.prefix_append_right_inj] at h0
        cases z with
        | nil => rw [List.append_nil] at hz; rw [← hz] at hl; exact Nat.lt_irrefl _ hl
        | cons a z' =>
          rw [List.cons_append, List.cons_prefix_cons] at h0
          rw [List.cons_append, List.cons.injEq] at hz
          apply hw
          rw [← hz.2, h0.1]
          simp
      · exact hp (List.prefix_of_prefix_length_le h (List.prefix_append _ _) hl).isInfix
    have hb : ('_' :: w).isPrefixOf (c :: (t ++ ('_' :: w) ++ r)) = false := by
      rw [Bool.eq_false_iff]
      intro h
      apply hn
      rw [List.isPrefixOf_iff_prefix] at h
      simpa [List.append_assoc] using h
    rw [List.cons_append, List.cons_append]
    unfold before
    rw [hb, ih ht]
    rfl

/-- What `before` finds is followed by the pattern. -/
theorem before_sound {pat s q : Path} (h : before pat s = some q) : ∃ r, s = q ++ pat ++ r := by
  induction s generalizing q with
  | nil =>
    unfold before at h
    split at h
    · rename_i hp
      rw [List.isPrefixOf_iff_prefix] at hp
      obtain ⟨r, hr⟩ := hp
      simp only [Option.some.injEq] at h
      exact ⟨r, by rw [← h, List.nil_append, hr]⟩
    · simp at h
  | cons c t ih =>
    unfold before at h
    split at h
    · rename_i hp
      rw [List.isPrefixOf_iff_prefix] at hp
      obtain ⟨r, hr⟩ := hp
      simp only [Option.some.injEq] at h
      exact ⟨r, by rw [← h, List.nil_append, hr]⟩
    · simp only [Option.map_eq_some_iff] at h
      obtain ⟨q', h1, h2⟩ := h
      obtain ⟨r, hr⟩ := ih h1
      exact ⟨r, by rw [← h2, hr]; rfl⟩

/-- If the pattern is in what is before some other place of it, less is found. -/
theorem before_shorter {pat p r : Path} (hp : pat <:+: p) (hne : pat ≠ []) : ∃ q, before pat (p ++ r) = some q ∧ q.length < p.length := by
  induction p with
  | nil => exact absurd (List.infix_nil.mp hp) hne
  | cons c t ih =>
    rw [List.cons_append]
    unfold before
    by_cases hb : pat.isPrefixOf (c :: (t ++ r)) = true
    · rw [if_pos hb]
      exact ⟨[], rfl, by simp⟩
    · rw [if_neg hb]
      rcases List.infix_cons_iff.mp hp with h | h
      · exact absurd (List.isPrefixOf_iff_prefix.mpr (h.trans (List.prefix_append (c :: t) r))) hb
      · obtain ⟨q, h1, h2⟩ := ih h
        exact ⟨c :: q, by rw [h1]; rfl, by simpa using h2⟩

theorem suffix_form (k : Kind) : ∃ w, suffix k = '_' :: w ∧ '_' ∉ w ∧ '/' ∉ suffix k := by
  cases k <;> exact ⟨_, rfl, by decide, by decide⟩

theorem sub_noslash (k : Kind) : '/' ∉ subFolder k := by cases k <;> decide

theorem sub_dir (k : Kind) {d : Path} : d ++ '/' :: subFolder k ≠ [] ∧ (d ++ '/' :: subFolder k).getLast? ≠ some '/' := by
  refine ⟨by simp, ?_⟩
  cases k <;> simp [subFolder]

theorem file_split {k : Kind} {d p f : Path} (h : IsFile k d p f) : ∃ r, '/' ∉ r ∧ split f = (d ++ '/' :: subFolder k, p ++ suffix k ++ r) := by
  obtain ⟨r, hr, hf⟩ := h.path
  refine ⟨r, hr, ?_⟩
  have : f = (d ++ '/' :: subFolder k) ++ '/' :: (p ++ suffix k ++ r) := by rw [hf]; simp
  rw [this]
  obtain ⟨w, hw, _, hs⟩ := suffix_form k
  refine split_join (sub_dir k).1 (sub_dir k).2 ?_
  simp only [List.mem_append, not_or]
  exact ⟨⟨h.name, hs⟩, hr⟩

theorem file_folder {k : Kind} {d p f : Path} (h : IsFile k d p f) : folderOf (k, f) = some d := by
  obtain ⟨r, _, hs⟩ := file_split h
  unfold folderOf
  simp only [hs]
  rw [split_join h.folder.1 h.folder.2 (sub_noslash k)]
  simp

theorem file_prefix {k : Kind} {d p f : Path} (h : IsFile k d p f) (hp : ¬ suffix k <:+: p) : prefixOf (k, f) = some p := by
  obtain ⟨r, _, hs⟩ := file_split h
  obtain ⟨w, hw, hu, _⟩ := suffix_form k
  unfold prefixOf
  simp only [hs]
  rw [hw] at hp ⊢
  exact before_spec hu hp

theorem mem_given {args : Kind → Option (List Path)} {k : Kind} {f : Path} : (k, f) ∈ given args ↔ Given args k f := by
  have hk : k ∈ kinds := by cases k <;> decide
  simp only [given, List.mem_flatMap, List.mem_map, Prod.mk.injEq, Given]
  constructor
  · rintro ⟨k', _, f', hf, rfl, rfl⟩
    cases ha : args k' with
    | none => rw [ha] at hf; simp at hf
    | some l => rw [ha] at hf; exact ⟨l, rfl, hf⟩
  · rintro ⟨l, hl, hf⟩
    exact ⟨k, hk, f, by rw [hl]; exact hf, rfl, rfl⟩

theorem several_iff (l : List Path) : several l = true ↔ ∃ a ∈ l, ∃ b ∈ l, a ≠ b := by
  cases l with
  | nil => simp [several]
  | cons a t =>
    simp only [several, List.any_eq_true, bne_iff_ne]
    constructor
    · rintro ⟨b, hb, hn⟩
      exact ⟨b, List.mem_cons_of_mem _ hb, a, List.mem_cons_self, hn⟩
    · rintro ⟨x, hx, y, hy, hn⟩
      by_cases hxa : x = a
      · rcases List.mem_cons.mp hy with rfl | hy
        · exact absurd hxa hn
        · exact ⟨y, hy, fun h => hn (by rw [hxa, h])⟩
      · rcases List.mem_cons.mp hx with rfl | hx
        · exact absurd rfl hxa
        · exact ⟨x, hx, hxa⟩

/-! ### C230 -/

/-- **C230**: the names that are returned are those of all files, without folders, those of visibilities first. -/
theorem names (args : Kind → Option (List Path)) :
    (fhdFilenames args).names.length = (kinds.map (fun k => ((args k).getD []).length)).sum ∧
    (∀ k f, Given args k f → ∀ d n, f = d ++ '/' :: n → '/' ∉ n → n ∈ (fhdFilenames args).names) ∧
    ∀ l, args .vis = some l → (l.map (fun f => (split f).2)) <+: (fhdFilenames args).names := by
  refine ⟨?_, ?_, ?_⟩
  · simp only [fhdFilenames, List.length_map, given, List.length_flatMap]
  · intro k f hf d n he hn
    simp only [fhdFilenames, List.mem_map]
    refine ⟨(k, f), mem_given.mpr hf, ?_⟩
    subst he
    have hall : ∀ c ∈ n.reverse, (c != '/') = true := by
      intro c hc
      simp only [bne_iff_ne]
      rintro rfl
      exact hn (List.mem_reverse.mp hc)
    have hr : (d ++ '/' :: n).reverse = n.reverse ++ '/' :: d.reverse := by simp
    simp only [split]
    rw [hr, List.takeWhile_append_of_pos hall]
    simp
  · intro l hl
    simp only [fhdFilenames, given, kinds, List.flatMap_cons, hl, Option.getD_some, List.map_append, List.map_map]
    exact List.prefix_append _ _

/-- **C230** (data whose name has none of the suffixes in it): the files of one run for one set of data give no warning. -/
theorem one_run_partial {args : Kind → Option (List Path)} {d p : Path} (h : ∀ k f, Given args k f → IsFile k d p f)
    (hp : ∀ k f, Given args k f → ¬ suffix k <:+: p) :
    (fhdFilenames args).missingSuffix = [] ∧ (fhdFilenames args).missingSub = [] ∧ (fhdFilenames args).prefixes = false ∧
      (fhdFilenames args).folders = false := by
  have hpre : ∀ x ∈ given args, prefixOf x = some p := fun x hx =>
    file_prefix (h x.1 x.2 (mem_given.mp hx)) (hp x.1 x.2 (mem_given.mp hx))
  have hfol : ∀ x ∈ given args, folderOf x = some d := fun x hx => file_folder (h x.1 x.2 (mem_given.mp hx))
  refine ⟨?_, ?_, ?_, ?_⟩
  · simp only [fhdFilenames, List.map_eq_nil_iff, List.filter_eq_nil_iff]
    intro x hx
    simp [hpre x hx]
  · simp only [fhdFilenames, List.map_eq_nil_iff, List.filter_eq_nil_iff]
    intro x hx
    simp [hfol x hx]
  · rw [Bool.eq_false_iff]
    simp only [fhdFilenames, ne_eq, several_iff, List.mem_filterMap]
    rintro ⟨a, ⟨x, hx, hxa⟩, b, ⟨y, hy, hyb⟩, hn⟩
    rw [hpre x hx, Option.some.injEq] at hxa
    rw [hpre y hy, Option.some.injEq] at hyb
    exact hn (hxa.symm.trans hyb)
  · rw [Bool.eq_false_iff]
    simp only [fhdFilenames, ne_eq, several_iff, List.mem_filterMap]
    rintro ⟨a, ⟨x, hx, hxa⟩, b, ⟨y, hy, hyb⟩, hn⟩
    rw [hfol x hx, Option.some.injEq] at hxa
    rw [hfol y hy, Option.some.injEq] at hyb
    exact hn (hxa.symm.trans hyb)

/-- **C230**: files of two runs give a warning. -/
theorem two_runs {args : Kind → Option (List Path)} {k l : Kind} {d e p q f g : Path} (hf : Given args k f) (hg : Given args l g)
    (h1 : IsFile k d p f) (h2 : IsFile l e q g) (hn : d ≠ e) : (fhdFilenames args).folders = true := by
  simp only [fhdFilenames, several_iff, List.mem_filterMap]
  exact ⟨d, ⟨_, mem_given.mpr hf, file_folder h1⟩, e, ⟨_, mem_given.mpr hg, file_folder h2⟩, hn⟩

/-- **C230** (data whose names have none of the suffixes in them): files for different data give a warning. -/
theorem two_data_partial {args : Kind → Option (List Path)} {k l : Kind} {d e p q f g : Path} (hf : Given args k f) (hg : Given args l g)
    (h1 : IsFile k d p f) (h2 : IsFile l e q g) (hk : ¬ suffix k <:+: p) (hl : ¬ suffix l <:+: q) (hn : p ≠ q) :
    (fhdFilenames args).prefixes = true := by
  simp only [fhdFilenames, several_iff, List.mem_filterMap]
  exact ⟨p, ⟨_, mem_given.mpr hf, file_prefix h1 hk⟩, q, ⟨_, mem_given.mpr hg, file_prefix h2 hl⟩, hn⟩

/-- **C230**: a file that does not have the suffix in its name is named in a warning, and no others are. -/
theorem missing_suffix (args : Kind → Option (List Path)) (k : Kind) :
    k ∈ (fhdFilenames args).missingSuffix ↔ ∃ f, Given args k f ∧ ¬ suffix k <:+: (split f).2 := by
  simp only [fhdFilenames, List.mem_map, List.mem_filter]
  have key : ∀ f, (prefixOf (k, f)).isNone = true ↔ ¬ suffix k <:+: (split f).2 := by
    intro f
    have hne : suffix k ≠ [] := by obtain ⟨w, hw, _⟩ := suffix_form k; rw [hw]; simp
    constructor
    · intro h hi
      obtain ⟨q, hq, _⟩ := before_shorter (r := []) hi hne
      rw [List.append_nil] at hq
      simp [prefixOf, hq] at h
    · intro h
      cases hb : prefixOf (k, f) with
      | none => rfl
      | some q =>
        obtain ⟨r, hr⟩ := before_sound hb
        exact absurd ⟨q, r, hr.symm⟩ h
  constructor
  · rintro ⟨⟨k', f⟩, ⟨h1, h2⟩, rfl⟩
    exact ⟨f, mem_given.mp h1, (key f).mp h2⟩
  · rintro ⟨f, h1, h2⟩
    exact ⟨(k, f), ⟨mem_given.mpr h1, (key f).mpr h2⟩, rfl⟩

/-- **C230**: a file that is in a folder of another name is named in a warning. -/
theorem missing_sub {args : Kind → Option (List Path)} {k : Kind} {d s n : Path} (hf : Given args k (d ++ '/' :: (s ++ '/' :: n)))
    (hd : d ≠ [] ∧ d.getLast? ≠ some '/') (hs : s ≠ [] ∧ '/' ∉ s) (hn : '/' ∉ n) (hk : s ≠ subFolder k) : k ∈ (fhdFilenames args).missingSub := by
  have e : d ++ '/' :: (s ++ '/' :: n) = (d ++ '/' :: s) ++ '/' :: n := by simp
  have hl : (d ++ '/' :: s).getLast? ≠ some '/' := by
    intro h
    have hm : s.getLast? = some '/' := by
      rw [List.getLast?_append, List.getLast?_cons] at h
      cases hs' : s.getLast? with
      | none => exact absurd (List.getLast?_eq_none_iff.mp hs') hs.1
      | some c => rw [hs'] at h; simpa using h
    exact hs.2 (List.mem_of_getLast? hm)
  simp only [fhdFilenames, List.mem_map, List.mem_filter]
  refine ⟨(k, _), ⟨mem_given.mpr hf, ?_⟩, rfl⟩
  unfold folderOf
  simp only
  rw [e, split_join (by simp) hl hn]
  simp only
  rw [split_join hd.1 hd.2 hs.2]
  simp [hk]

/-- **C230 is false** in general: if the name of the data has the suffix of one file in it and not that of another one, there is a warning that
these are not for the same data, though they are. -/
theorem same_data_counterexample {args : Kind → Option (List Path)} {k l : Kind} {d p f g : Path} (hf : Given args k f) (hg : Given args l g)
    (h1 : IsFile k d p f) (h2 : IsFile l d p g) (hk : suffix k <:+: p) (hl : ¬ suffix l <:+: p) : (fhdFilenames args).prefixes = true := by
  obtain ⟨r, _, hs⟩ := file_split h1
  have hne : suffix k ≠ [] := by obtain ⟨w, hw, _⟩ := suffix_form k; rw [hw]; simp
  obtain ⟨q, hq, hlt⟩ := before_shorter (r := suffix k ++ r) hk hne
  have hpre : prefixOf (k, f) = some q := by
    unfold prefixOf
    simp only [hs]
    rw [List.append_assoc]
    exact hq
  simp only [fhdFilenames, several_iff, List.mem_filterMap]
  exact ⟨q, ⟨_, mem_given.mpr hf, hpre⟩, p, ⟨_, mem_given.mpr hg, file_prefix h2 hl⟩, fun h => by rw [h] at hlt; exact Nat.lt_irrefl _ hlt⟩

end Verif.FhdNames
