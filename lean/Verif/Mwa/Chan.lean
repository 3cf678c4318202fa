import Mathlib.Tactic.Ring
import Mathlib.Tactic.Linarith
import Mathlib.Tactic.FieldSimp
import Mathlib.Tactic.LinearCombination
import Verif.Mwa.ChanModel

/-! # Where files go -/

namespace Verif.Mwa
open Verif.Np

theorem filter_at {p : Nat → Bool} : ∀ (l : List Nat) (b : Nat), (l.filter p)[b]? = ((whereIdx p l)[b]?).bind (fun s => l[s]?) := by
  intro l
  have h : whereIdx p l = ((l.zipIdx).filter (fun x => p x.1)).map (fun x => x.2) := by
    apply strictSorted_ext (whereIdx_sorted _ _)
    · rw [List.pairwise_map]
      refine List.Pairwise.filter _ ?_
      rw [← List.pairwise_map (f := Prod.snd) (R := (· < ·)), List.zipIdx_map_snd]
      exact List.pairwise_lt_range'
    · intro i
      rw [mem_whereIdx, List.mem_map]
      constructor
      · rintro ⟨x, hx, hp⟩
        exact ⟨(x, i), List.mem_filter.2 ⟨List.mem_zipIdx_iff_getElem?.2 hx, hp⟩, rfl⟩
      · rintro ⟨⟨x, j⟩, hx, rfl⟩
        obtain ⟨h1, h2⟩ := List.mem_filter.1 hx
        exact ⟨x, List.mem_zipIdx_iff_getElem?.1 h1, h2⟩
  have h2 : l.filter p = ((l.zipIdx).filter (fun x => p x.1)).map (fun x => x.1) := by
    conv_lhs => rw [← List.zipIdx_map_fst 0 l]
    rw [List.filter_map]
    rfl
  intro b
  rw [h, h2, List.getElem?_map, List.getElem?_map]
  cases hz : ((l.zipIdx).filter (fun x => p x.1))[b]? with
  | none => rfl
  | some x =>
    have hm := (List.mem_filter.1 (List.mem_of_getElem? hz)).1
    exact (List.mem_zipIdx_iff_getElem?.1 hm).symm

theorem block_of {nums : List Nat} (hn : nums.Nodup) {f b : Nat} : blockOf nums f = some b ↔ nums[b]? = some f := by
  have key : ∀ {b : Nat}, nums[b]? = some f → blockOf nums f = some b := by
    intro b hb
    have hw : whereIdx (fun g => g == f) nums = [b] := by
      apply strictSorted_ext (whereIdx_sorted _ _) (by simp)
      intro k
      rw [mem_whereIdx, List.mem_singleton]
      constructor
      · rintro ⟨x, hx, he⟩
        obtain rfl : x = f := by simpa using he
        obtain ⟨h1, h2⟩ := List.getElem?_eq_some_iff.1 hx
        obtain ⟨h3, h4⟩ := List.getElem?_eq_some_iff.1 hb
        exact (List.Nodup.getElem_inj_iff hn).1 (h2.trans h4.symm)
      · rintro rfl
        exact ⟨f, hb, by simp⟩
    unfold blockOf
    rw [hw]
    rfl
  constructor
  · intro h
    unfold blockOf at h
    have hm := List.mem_of_head? h
    obtain ⟨x, hx, he⟩ := mem_whereIdx.1 hm
    obtain rfl : x = f := by simpa using he
    exact hx
  · exact key

theorem fileChans_perm (coarse : List Nat) : (fileChans coarse).Perm coarse := by
  unfold fileChans
  have h1 : (coarse.filter (fun c => decide (c ≤ 128)) ++ (coarse.filter (fun c => decide (128 < c))).reverse).Perm
      (coarse.filter (fun c => decide (c ≤ 128)) ++ coarse.filter (fun c => decide (128 < c))) :=
    List.Perm.append_left _ (List.reverse_perm _)
  refine h1.trans ?_
  have h2 : coarse.filter (fun c => decide (128 < c)) = coarse.filter (fun c => !decide (c ≤ 128)) := by
    apply List.filter_congr
    intro x _
    by_cases h : x ≤ 128
    · simp [h]
    · simp [h]; omega
  rw [h2]
  exact List.filter_append_perm _ _

/-- A file of the correlator: its number and its coarse channel. Those of the first correlator are numbered from one, first channels
up to 128 upwards, then the others downwards; those of MWAX have the number of the channel. -/
def IsFile (mwax : Bool) (coarse : List Nat) (f c : Nat) : Prop :=
  if mwax then f = c ∧ c ∈ coarse
  else c ∈ coarse ∧ f = 1 + (if c ≤ 128 then (coarse.filter (fun d => decide (d < c))).length
    else (coarse.filter (fun d => decide (d ≤ 128))).length + (coarse.filter (fun d => decide (c < d))).length)

theorem sorted_get_lt : ∀ {l : List Nat}, l.Pairwise (· < ·) → ∀ {k c : Nat}, l[k]? = some c → (l.filter (fun d => decide (d < c))).length = k := by
  intro l
  induction l with
  | nil => intro _ k c h; simp at h
  | cons a l ih =>
    intro hs k c h
    obtain ⟨h1, h2⟩ := List.pairwise_cons.1 hs
    cases k with
    | zero =>
      obtain rfl : a = c := by simpa using h
      rw [List.filter_cons_of_neg (by simp), List.length_eq_zero_iff, List.filter_eq_nil_iff]
      intro x hx
      have := h1 x hx
      simp
      omega
    | succ k =>
      have h' : l[k]? = some c := by simpa using h
      have := h1 c (List.mem_of_getElem? h')
      rw [List.filter_cons_of_pos (by simpa using this), List.length_cons, ih h2 h']

theorem sorted_get_gt : ∀ {l : List Nat}, l.Pairwise (· < ·) → ∀ {k c : Nat}, l[k]? = some c →
    (l.filter (fun d => decide (c < d))).length = l.length - 1 - k := by
  intro l
  induction l with
  | nil => intro _ k c h; simp at h
  | cons a l ih =>
    intro hs k c h
    obtain ⟨h1, h2⟩ := List.pairwise_cons.1 hs
    cases k with
    | zero =>
      obtain rfl : a = c := by simpa using h
      rw [List.filter_cons_of_neg (by simp), List.filter_eq_self.2 (fun x hx => by simpa using h1 x hx)]
      simp
    | succ k =>
      have h' : l[k]? = some c := by simpa using h
      have := h1 c (List.mem_of_getElem? h')
      rw [List.filter_cons_of_neg (by simp; omega), ih h2 h', List.length_cons]
      omega

/-- The model's list of channels has the channel of each file at its number. -/
theorem fileChans_get {coarse : List Nat} (hs : coarse.Pairwise (· < ·)) {f c : Nat} (h : IsFile false coarse f c) :
    ∃ g, f = g + 1 ∧ (fileChans coarse)[g]? = some c := by
  obtain ⟨hc, hf⟩ : c ∈ coarse ∧ _ := by simpa only [IsFile, Bool.false_eq_true, if_false] using h
  refine ⟨f - 1, by omega, ?_⟩
  unfold fileChans
  by_cases h128 : c ≤ 128
  · rw [if_pos h128] at hf
    have hm : c ∈ coarse.filter (fun c => decide (c ≤ 128)) := List.mem_filter.2 ⟨hc, by simpa using h128⟩
    obtain ⟨k, hk⟩ := List.mem_iff_getElem?.1 hm
    have hl := sorted_get_lt (List.Pairwise.filter _ hs) hk
    rw [List.filter_filter] at hl
    have he : coarse.filter (fun a => decide (a < c) && decide (a ≤ 128)) = coarse.filter (fun d => decide (d < c)) := by
      apply List.filter_congr
      intro x _
      by_cases hx : x < c
      · simp [hx]; omega
      · simp [hx]
    rw [he] at hl
    have hk' : f - 1 = k := by omega
    rw [hk', List.getElem?_append_left (List.getElem?_eq_some_iff.1 hk).1]
    exact hk
  · rw [if_neg h128] at hf
    have hm : c ∈ coarse.filter (fun c => decide (128 < c)) := List.mem_filter.2 ⟨hc, by simp; omega⟩
    obtain ⟨k, hk⟩ := List.mem_iff_getElem?.1 hm
    have hl := sorted_get_gt (List.Pairwise.filter _ hs) hk
    rw [List.filter_filter] at hl
    have he : coarse.filter (fun a => decide (c < a) && decide (128 < a)) = coarse.filter (fun d => decide (c < d)) := by
      apply List.filter_congr
      intro x _
      by_cases hx : c < x
      · simp [hx]; omega
      · simp [hx]
    rw [he] at hl
    have hlt := (List.getElem?_eq_some_iff.1 hk).1
    rw [List.getElem?_append_right (by omega)]
    rw [List.getElem?_reverse (by omega)]
    rw [← hk]
    congr 1
    omega

/-- What `argsort` gives for the channels of files: at each position the file of the channel there. -/
theorem argsort_chans {coarse idx : List Nat} (hs : coarse.Pairwise (· < ·)) (ho : IsArgsort (fileChans coarse) idx) {k c : Nat}
    (hk : coarse[k]? = some c) : ∃ g : Nat, idx[k]? = some g ∧ (fileChans coarse)[g]? = some c := by
  obtain ⟨h1, h2⟩ := ho
  have hnd : (fileChans coarse).Nodup := (fileChans_perm coarse).nodup_iff.2 (hs.imp (fun h => h.ne))
  have hget : ∀ x ∈ idx, ∃ a, (fileChans coarse)[x]? = some a := by
    intro x hx
    have := List.mem_range.1 (h1.mem_iff.1 hx)
    exact ⟨_, List.getElem?_eq_getElem this⟩
  have hvals : idx.map (fun x => ((fileChans coarse)[x]?).getD 0) = coarse := by
    apply strictSorted_ext
    · rw [List.pairwise_map]
      have hnd' : idx.Pairwise (· ≠ ·) := h1.nodup_iff.2 List.nodup_range
      refine (h2.and hnd').imp_of_mem ?_
      rintro x y hx hy ⟨g1, g2⟩
      obtain ⟨a, ha⟩ := hget x hx
      obtain ⟨b, hb⟩ := hget y hy
      rw [ha, hb]
      refine lt_of_le_of_ne (g1 a b ha hb) ?_
      rintro (rfl : a = b)
      obtain ⟨x1, x2⟩ := List.getElem?_eq_some_iff.1 ha
      obtain ⟨y1, y2⟩ := List.getElem?_eq_some_iff.1 hb
      exact g2 ((List.Nodup.getElem_inj_iff hnd).1 (x2.trans y2.symm))
    · exact hs
    · intro v
      rw [List.mem_map, ← (fileChans_perm coarse).mem_iff]
      constructor
      · rintro ⟨x, hx, rfl⟩
        obtain ⟨a, ha⟩ := hget x hx
        rw [ha]
        exact List.mem_of_getElem? ha
      · intro hv
        obtain ⟨q, hq⟩ := List.mem_iff_getElem?.1 hv
        refine ⟨q, h1.mem_iff.2 (List.mem_range.2 (List.getElem?_eq_some_iff.1 hq).1), ?_⟩
        rw [hq]
        rfl
  have h3 : (idx.map (fun x => ((fileChans coarse)[x]?).getD 0))[k]? = some c := by rw [hvals]; exact hk
  rw [List.getElem?_map] at h3
  obtain ⟨g, hg, he⟩ := Option.map_eq_some_iff.1 h3
  obtain ⟨a, ha⟩ := hget g (List.mem_of_getElem? hg)
  rw [ha] at he
  have he : a = c := he
  exact ⟨g, hg, by rw [ha, he]⟩

/-- The list of files has the file of each channel at the place of the channel. -/
theorem ordered_get {mwax : Bool} {coarse idx : List Nat} (hs : coarse.Pairwise (· < ·)) (ho : IsArgsort (fileChans coarse) idx)
    {f c k : Nat} (hf : IsFile mwax coarse f c) (hk : coarse[k]? = some c) : (orderedFiles mwax coarse idx)[k]? = some f := by
  unfold orderedFiles
  cases mwax with
  | true =>
    obtain ⟨rfl, -⟩ : f = c ∧ c ∈ coarse := by simpa only [IsFile, if_true] using hf
    rw [if_pos rfl]
    exact hk
  | false =>
    rw [if_neg (by simp)]
    obtain ⟨g, rfl, hg⟩ := fileChans_get hs hf
    obtain ⟨g', h1, h2⟩ := argsort_chans hs ho hk
    have hnd : (fileChans coarse).Nodup := (fileChans_perm coarse).nodup_iff.2 (hs.imp (fun h => h.ne))
    obtain ⟨x1, x2⟩ := List.getElem?_eq_some_iff.1 hg
    obtain ⟨y1, y2⟩ := List.getElem?_eq_some_iff.1 h2
    have := (List.Nodup.getElem_inj_iff hnd).1 (x2.trans y2.symm)
    rw [List.getElem?_map, h1, ← this]
    rfl

theorem ordered_nodup {mwax : Bool} {coarse idx : List Nat} (hs : coarse.Pairwise (· < ·)) (ho : IsArgsort (fileChans coarse) idx) :
    (orderedFiles mwax coarse idx).Nodup := by
  unfold orderedFiles
  cases mwax with
  | true => exact hs.imp (fun h => h.ne)
  | false =>
    rw [if_neg (by simp)]
    exact (ho.1.nodup_iff.2 List.nodup_range).map (fun a b h => by simpa using h)

/-- **A file goes to the block of its channel**: the block has the position of the channel in the list of coarse channels. -/
theorem file_block {mwax : Bool} {coarse idx included : List Nat} (hs : coarse.Pairwise (· < ·)) (ho : IsArgsort (fileChans coarse) idx)
    {f c : Nat} (hf : IsFile mwax coarse f c) (hi : f ∈ included) :
    ∃ b k : Nat, blockOf (fileNums (orderedFiles mwax coarse idx) included) f = some b ∧
      (spwInds (orderedFiles mwax coarse idx) included)[b]? = some k ∧ coarse[k]? = some c := by
  have hc : c ∈ coarse := by
    cases mwax with
    | true => exact (show f = c ∧ c ∈ coarse by simpa only [IsFile, if_true] using hf).2
    | false => exact (show c ∈ coarse ∧ _ by simpa only [IsFile, Bool.false_eq_true, if_false] using hf).1
  obtain ⟨k, hk⟩ := List.mem_iff_getElem?.1 hc
  have hok := ordered_get hs ho hf hk
  have hm : f ∈ fileNums (orderedFiles mwax coarse idx) included :=
    List.mem_filter.2 ⟨List.mem_of_getElem? hok, by simpa [isin] using hi⟩
  obtain ⟨b, hb⟩ := List.mem_iff_getElem?.1 hm
  have hnd : (fileNums (orderedFiles mwax coarse idx) included).Nodup := (ordered_nodup hs ho).filter _
  have hat := filter_at (p := fun f => isin f included) (orderedFiles mwax coarse idx) b
  have hb' := hb
  unfold fileNums at hb'
  rw [hat] at hb'
  obtain ⟨s, hs1, hs2⟩ := Option.bind_eq_some_iff.1 hb'
  refine ⟨b, s, (block_of hnd).2 hb, hs1, ?_⟩
  obtain ⟨x1, x2⟩ := List.getElem?_eq_some_iff.1 hs2
  obtain ⟨y1, y2⟩ := List.getElem?_eq_some_iff.1 hok
  have := (List.Nodup.getElem_inj_iff (ordered_nodup hs ho)).1 (x2.trans y2.symm)
  rw [this]
  exact hk

/-- Blocks are in the order of channels. -/
theorem blocks_sorted (ordered included : List Nat) : (spwInds ordered included).Pairwise (· < ·) := whereIdx_sorted _ _

/-! ## Frequencies -/

section
variable {K : Type} [Field K]

/-- The frequency of a fine channel of a coarse channel, if `center` is that of the first fine channel of the coarse channel `cm`. -/
def TrueFreq (center w : K) (nfc cm c j : Nat) : K := center + ((c : K) - cm) * (nfc * w) + j * w

theorem consecutive {coarse : List Nat} (h : ∀ (k a b : Nat), coarse[k]? = some a → coarse[k + 1]? = some b → b = a + 1) :
    ∀ (d k a b : Nat), coarse[k]? = some a → coarse[k + d]? = some b → b = a + d := by
  intro d
  induction d with
  | zero =>
    intro k a b ha hb
    rw [Nat.add_zero, ha] at hb
    exact (Option.some.inj hb).symm
  | succ d ih =>
    intro k a b ha hb
    have hlt := (List.getElem?_eq_some_iff.1 hb).1
    have hc := List.getElem?_eq_getElem (l := coarse) (i := k + d) (by omega)
    have h1 := ih k a _ ha hc
    have h2 := h (k + d) _ b hc hb
    omega

/-- **Frequencies are those of the coarse channel** if coarse channels follow each other. -/
theorem freq_true {coarse spw : List Nat} (h : ∀ (k a b : Nat), coarse[k]? = some a → coarse[k + 1]? = some b → b = a + 1) (center w : K)
    (nfc : Nat) {b k c cm j : Nat} (hb : spw[b]? = some k) (hk : coarse[k]? = some c) (hm : coarse[coarse.length / 2]? = some cm) :
    freqOf center w nfc coarse.length spw b j = some (TrueFreq center w nfc cm c j) := by
  unfold freqOf TrueFreq
  rw [hb, Option.map_some]
  congr 1
  have : (k : K) - ((coarse.length / 2 : Nat) : K) = (c : K) - cm := by
    rcases Nat.le_total k (coarse.length / 2) with hle | hle
    · have h1 := consecutive h (coarse.length / 2 - k) k c cm hk (by rw [Nat.add_sub_cancel' hle]; exact hm)
      rw [h1, Nat.cast_add, Nat.cast_sub hle]
      ring
    · have h1 := consecutive h (k - coarse.length / 2) (coarse.length / 2) cm c hm (by rw [Nat.add_sub_cancel' hle]; exact hk)
      rw [h1, Nat.cast_add, Nat.cast_sub hle]
      ring
  rw [this]
  ring

/-- **Frequencies are wrong whenever a channel is not as far from the middle channel as it is in the list** (observations whose
coarse channels do not follow each other). -/
theorem freq_counterexample [CharZero K] {coarse spw : List Nat} (center w : K) (hw : w ≠ 0) (nfc : Nat) (hn : 0 < nfc) {b k c cm j : Nat}
    (hb : spw[b]? = some k) (hfar : (c : Int) - cm ≠ (k : Int) - (coarse.length / 2 : Nat)) :
    freqOf center w nfc coarse.length spw b j ≠ some (TrueFreq center w nfc cm c j) := by
  unfold freqOf TrueFreq
  rw [hb, Option.map_some]
  intro h
  have h := Option.some.inj h
  have h1 : (((k : K) - ((coarse.length / 2 : Nat) : K)) - ((c : K) - cm)) * (nfc * w) = 0 := by linear_combination h
  rcases mul_eq_zero.1 h1 with h2 | h2
  · apply hfar
    have h3 : ((c : K) - cm) = (k : K) - ((coarse.length / 2 : Nat) : K) := by linear_combination -h2
    exact_mod_cast h3
  · rcases mul_eq_zero.1 h2 with h3 | h3
    · exact absurd (Nat.cast_eq_zero.1 h3) (by omega)
    · exact hw h3

/-- The center of the first fine channel for MWAX: coarse channel `c` is centered at `c` widths; an odd number of fine channels is
around the center, with an even number one is at the center and one at the lower edge. -/
theorem mwax_center [CharZero K] (cent n nh : Nat) (bandwidth w : K) (hW : bandwidth / n = nh * w) :
    mwaxCenter cent bandwidth n nh w + ((nh / 2 : Nat) : K) * w = cent * (nh * w) ∧
    (nh % 2 = 0 → mwaxCenter cent bandwidth n nh w = cent * (nh * w) - (nh * w) / 2) ∧
    (nh % 2 = 1 → mwaxCenter cent bandwidth n nh w = cent * (nh * w) - (nh * w) / 2 + w / 2) := by
  unfold mwaxCenter
  rw [hW]
  refine ⟨by ring, ?_, ?_⟩
  · intro h
    obtain ⟨m, hm⟩ : ∃ m, nh = 2 * m := ⟨nh / 2, by omega⟩
    have : nh / 2 = m := by omega
    rw [this, hm]
    push_cast
    ring
  · intro h
    obtain ⟨m, hm⟩ : ∃ m, nh = 2 * m + 1 := ⟨nh / 2, by omega⟩
    have : nh / 2 = m := by omega
    rw [this, hm]
    push_cast
    ring

/-- **Channels of a window are one width apart**, whatever files are there. -/
theorem window_steps {coarse spw : List Nat} (hs : spw.Pairwise (· < ·)) (center w : K) (nfc n : Nat) (hnd : coarse.Nodup)
    {b1 b2 k1 k2 W j1 j2 : Nat} {x y : K} (h1 : spw[b1]? = some k1) (h2 : spw[b2]? = some k2)
    (hw1 : windowOf coarse spw b1 = some W) (hw2 : windowOf coarse spw b2 = some W)
    (hnext : b2 * nfc + j2 = b1 * nfc + j1 + 1) (hj1 : j1 < nfc) (hj2 : j2 < nfc)
    (hx : freqOf center w nfc n spw b1 j1 = some x) (hy : freqOf center w nfc n spw b2 j2 = some y) : y = x + w := by
  unfold freqOf at hx hy
  rw [h1, Option.map_some] at hx
  rw [h2, Option.map_some] at hy
  obtain rfl := Option.some.inj hx
  obtain rfl := Option.some.inj hy
  have hb : (b2 = b1 ∧ j2 = j1 + 1) ∨ (b2 = b1 + 1 ∧ j2 = 0 ∧ j1 + 1 = nfc) := by
    rcases lt_trichotomy b1 b2 with hlt | heq | hgt
    · obtain ⟨d, rfl⟩ : ∃ d, b2 = b1 + 1 + d := ⟨b2 - b1 - 1, by omega⟩
      have e : (b1 + 1 + d) * nfc = b1 * nfc + nfc + d * nfc := by ring
      rcases Nat.eq_zero_or_pos d with rfl | hd
      · right
        omega
      · have := Nat.mul_le_mul_right nfc hd
        omega
    · left
      subst heq
      omega
    · obtain ⟨d, rfl⟩ : ∃ d, b1 = b2 + 1 + d := ⟨b1 - b2 - 1, by omega⟩
      have e : (b2 + 1 + d) * nfc = b2 * nfc + nfc + d * nfc := by ring
      omega
  rcases hb with ⟨rfl, rfl⟩ | ⟨rfl, rfl, hn⟩
  · rw [h1] at h2
    cases h2
    push_cast
    ring
  · -- the next block is the next channel
    have hk : k2 = k1 + 1 := by
      obtain ⟨l1, e1⟩ := List.getElem?_eq_some_iff.1 h1
      obtain ⟨l2, e2⟩ := List.getElem?_eq_some_iff.1 h2
      have hlt : k1 < k2 := by
        have := List.pairwise_iff_getElem.1 hs b1 (b1 + 1) l1 l2 (by omega)
        rwa [e1, e2] at this
      by_contra hne
      have hany : (List.range (spw.length - 1)).any (fun k => decide ((spw[k + 1]?).getD 0 - (spw[k]?).getD 0 > 1)) = true := by
        rw [List.any_eq_true]
        refine ⟨b1, List.mem_range.2 (by omega), ?_⟩
        rw [h1, h2]
        simp
        omega
      unfold windowOf at hw1 hw2
      rw [if_pos hany, h1] at hw1
      rw [if_pos hany, h2] at hw2
      rw [Option.bind_some] at hw1 hw2
      obtain ⟨_, g1⟩ := List.getElem?_eq_some_iff.1 hw1
      obtain ⟨_, g2⟩ := List.getElem?_eq_some_iff.1 hw2
      have := (List.Nodup.getElem_inj_iff hnd).1 (g1.trans g2.symm)
      omega
    subst hk
    have hn' : (nfc : K) = (j1 : K) + 1 := by rw [← hn]; push_cast; ring
    push_cast
    rw [hn']
    ring

end

end Verif.Mwa
