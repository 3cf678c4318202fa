import Mathlib.Data.List.Nodup
import Verif.MirPack.Group
import Verif.MirPack.Plan

/-!
# What files keep
-/

namespace Verif.MirPack

theorem dec4_le4 (n : Nat) (h : n < 2147483648) (l : List Nat) : dec4 (le4 n ++ l) = n := by
  unfold dec4 le4
  simp only [List.cons_append, List.nil_append, List.getD_cons_zero, List.getD_cons_succ]
  have : n % 256 + 256 * (n / 256 % 256) + 65536 * (n / 65536 % 256) + 16777216 * (n / 16777216 % 256) = n := by omega
  rw [this, if_pos h]

theorem view_le2 (v : List Int) (h : ∀ x ∈ v, -32768 ≤ x ∧ x < 32768) : view (v.flatMap le2) = v := by
  induction v with
  | nil => rfl
  | cons x v ih =>
    rw [List.flatMap_cons]
    have hx := h x (by simp)
    show dec2 _ _ :: view (v.flatMap le2) = x :: v
    rw [ih (fun y hy => h y (List.mem_cons_of_mem _ hy))]
    congr 1
    unfold dec2
    split <;> omega

/-- The table and the data fit together and can be stored. -/
structure Row.Ok (r : Row) : Prop where
  len : r.data.length = 2 * r.nch
  scale : -32768 ≤ r.scale ∧ r.scale < 32768
  data : ∀ x ∈ r.data, -32768 ≤ x ∧ x < 32768

/-- What is stored of a spectrum. -/
def vals (r : Row) : List Int := r.scale :: r.data

theorem vals_length {r : Row} (h : r.Ok) : (vals r).length = r.size := by
  unfold vals Row.size
  rw [List.length_cons, h.len]
  omega

theorem zipWith_ends (g : List Row) : ∀ k m : Nat, m ≤ k →
    ((List.zipWith (fun r s => (r.id, s, s + r.size)) g (startsFrom k (g.map Row.size))).map (fun x : Nat × Nat × Nat => x.2.2)).foldl max m =
      if g = [] then m else k + (g.map Row.size).sum := by
  induction g with
  | nil => intro k m _; rfl
  | cons r g ih =>
    intro k m hm
    rw [List.map_cons, startsFrom, List.zipWith_cons_cons, List.map_cons, List.foldl_cons, ih _ _ (by simp; omega)]
    by_cases hg : g = []
    · subst hg
      simp
      omega
    · rw [if_neg hg, if_neg (by simp), List.sum_cons, Nat.add_assoc]

theorem recSize_recpos (g : List Row) : recSize (recpos g) = 2 * (g.map Row.size).sum := by
  unfold recSize recpos starts
  rw [zipWith_ends g 0 0 (Nat.le_refl _)]
  split
  · rename_i h; subst h; rfl
  · omega

theorem startsFrom_double (l : List Nat) : ∀ k, startsFrom (2 * k) (l.map fun x => 2 * x) = (startsFrom k l).map fun x => 2 * x := by
  induction l with
  | nil => intro k; rfl
  | cons x l ih =>
    intro k
    rw [List.map_cons, startsFrom, startsFrom, List.map_cons, ← ih (k + x), Nat.mul_add]

/-- Positions that are made from the offsets in the table are those that were used for writing. -/
theorem readPos_eq (g : List Row) : readPos g = recpos g := by
  unfold readPos recpos starts
  have e : (g.map fun r => 2 * r.size) = (g.map Row.size).map fun x => 2 * x := by
    rw [List.map_map]
    rfl
  have h := startsFrom_double (g.map Row.size) 0
  rw [Nat.mul_zero] at h
  rw [e, h, List.zipWith_map_right]
  congr 1
  funext r s
  simp

theorem fill_from (g : List Row) : ∀ (_ : ∀ r ∈ g, r.Ok) (pre rest : List Int), rest.length = (g.map Row.size).sum →
    (List.zip g (List.zipWith (fun r s => (r.id, s, s + r.size)) g (startsFrom pre.length (g.map Row.size)))).foldl
      (fun a x => put (put a x.2.2.1 [x.1.scale]) (x.2.2.1 + 1) x.1.data) (pre ++ rest) = pre ++ g.flatMap vals := by
  induction g with
  | nil =>
    intro _ pre rest h
    have : rest = [] := List.eq_nil_of_length_eq_zero h
    simp [this]
  | cons r g ih =>
    intro hg pre rest h
    have hr := hg r (by simp)
    have hl := vals_length hr
    rw [List.map_cons, List.sum_cons] at h
    have e : put (put (pre ++ rest) pre.length [r.scale]) (pre.length + 1) r.data = (pre ++ vals r) ++ rest.drop r.size := by
      unfold put vals
      have e1 : (pre ++ rest).take pre.length = pre := by simp
      have e2 : (pre ++ rest).drop (pre.length + [r.scale].length) = rest.drop 1 := by
        rw [List.drop_append]
        simp
      rw [e1, e2]
      have e3 : (pre ++ [r.scale] ++ rest.drop 1).take (pre.length + 1) = pre ++ [r.scale] := by
        have : pre.length + 1 = (pre ++ [r.scale]).length := by simp
        rw [this, List.take_left]
      have e4 : (pre ++ [r.scale] ++ rest.drop 1).drop (pre.length + 1 + r.data.length) = rest.drop r.size := by
        have hd : rest.drop r.size = (rest.drop 1).drop r.data.length := by
          rw [List.drop_drop]
          congr 1
          unfold Row.size
          rw [hr.len]
        rw [hd, ← List.drop_drop]
        congr 1
        rw [List.drop_append]
        simp
      rw [e3, e4]
      simp
    rw [List.map_cons, startsFrom, List.zipWith_cons_cons, List.zip_cons_cons, List.foldl_cons]
    dsimp only
    rw [e]
    have hpl : pre.length + r.size = (pre ++ vals r).length := by rw [List.length_append, hl]
    rw [hpl, ih (fun x hx => hg x (List.mem_cons_of_mem _ hx)) (pre ++ vals r) (rest.drop r.size) (by rw [List.length_drop]; omega)]
    simp

/-- Whatever was in memory, the values of an integration are those of its spectra, one after the other. -/
theorem fill_eq (g : List Row) (hg : ∀ r ∈ g, r.Ok) (junk : List Int) (hj : junk.length = recSize (recpos g) / 2) : fill junk g = g.flatMap vals := by
  rw [recSize_recpos, Nat.mul_div_cancel_left _ (by decide)] at hj
  have := fill_from g hg [] junk hj
  simpa [fill, recpos, starts] using this

/-- What `np.empty` gives has the right size. -/
def JunkOk (junk : Nat → List Int) : Prop := ∀ n, (junk n).length = n

/-- The record of an integration. -/
def block (g : Nat × List Row) : List Nat := le4 g.1 ++ le4 (2 * (g.2.map Row.size).sum) ++ (g.2.flatMap vals).flatMap le2

theorem record_eq (junk : Nat → List Int) (hj : JunkOk junk) (g : Nat × List Row) (hg : ∀ r ∈ g.2, r.Ok) : record junk g = block g := by
  unfold record block
  rw [fill_eq g.2 hg _ (hj _), recSize_recpos]

theorem vals_sum (g : List Row) (hg : ∀ r ∈ g, r.Ok) : (g.flatMap vals).length = (g.map Row.size).sum := by
  rw [List.length_flatMap]
  congr 1
  exact List.map_congr_left (fun r hr => vals_length (hg r hr))

theorem bytes_length (v : List Int) : (v.flatMap le2).length = 2 * v.length := by
  induction v with
  | nil => rfl
  | cons x v ih =>
    rw [List.flatMap_cons, List.length_append, ih, List.length_cons]
    show 2 + _ = _
    omega

theorem block_length (g : Nat × List Row) (hg : ∀ r ∈ g.2, r.Ok) : (block g).length = 2 * (g.2.map Row.size).sum + headerSize := by
  unfold block headerSize
  rw [List.length_append, List.length_append, bytes_length, vals_sum g.2 hg]
  show 4 + 4 + _ = _
  omega

/-- Integrations whose spectra can be stored. -/
structure GroupsOk (gs : List (Nat × List Row)) : Prop where
  rows : ∀ g ∈ gs, ∀ r ∈ g.2, r.Ok
  some : ∀ g ∈ gs, g.2 ≠ []
  keys : (gs.map fun g => g.1).Nodup

theorem size_pos {g : List Row} (h : g ≠ []) : 0 < (g.map Row.size).sum := by
  cases g with
  | nil => exact absurd rfl h
  | cons r g =>
    rw [List.map_cons, List.sum_cons]
    unfold Row.size
    omega

theorem intDict_eq (pos : List Row → List (Nat × Nat × Nat)) (hp : ∀ g, pos g = recpos g) (gs : List (Nat × List Row)) :
    intDict pos gs = List.zipWith (fun g s => ⟨g.1, 2 * (g.2.map Row.size).sum, s⟩) gs
      (startsFrom 0 (gs.map fun g => 2 * (g.2.map Row.size).sum + headerSize)) := by
  unfold intDict starts
  simp only [hp, recSize_recpos]

/-- Values of an integration, where its record is. -/
theorem slices_from (gs : List (Nat × List Row)) : ∀ (_ : ∀ g ∈ gs, ∀ r ∈ g.2, r.Ok) (pre : List Nat) (file : List Nat), file = pre ++ gs.flatMap block →
    ((List.zipWith (fun (g : Nat × List Row) s => (⟨g.1, 2 * (g.2.map Row.size).sum, s⟩ : Rec)) gs
      (startsFrom pre.length (gs.map fun g => 2 * (g.2.map Row.size).sum + headerSize))).map (place headerSize)).map
        (fun x => (x.1, view ((slice file x.2.1 x.2.2).drop headerSize))) = gs.map fun g => (g.1, g.2.flatMap vals) := by
  induction gs with
  | nil => intro _ pre file _; rfl
  | cons g gs ih =>
    intro hg pre file hf
    have h1 := hg g (by simp)
    have hl := block_length g h1
    rw [List.map_cons, startsFrom, List.zipWith_cons_cons, List.map_cons, List.map_cons, List.map_cons]
    congr 1
    · show (g.1, view ((slice file pre.length (headerSize + 2 * (g.2.map Row.size).sum)).drop headerSize)) = _
      have hs : slice file pre.length (headerSize + 2 * (g.2.map Row.size).sum) = block g := by
        unfold slice
        rw [hf, List.flatMap_cons, List.drop_left, Nat.add_comm, ← hl, List.take_left]
      rw [hs]
      have hd : (block g).drop headerSize = (g.2.flatMap vals).flatMap le2 := by
        unfold block headerSize
        rfl
      rw [hd, view_le2]
      intro x hx
      obtain ⟨r, hr, hx⟩ := List.mem_flatMap.mp hx
      have hok := h1 r hr
      unfold vals at hx
      rcases List.mem_cons.mp hx with rfl | hx
      · exact hok.scale
      · exact hok.data x hx
    · have hpl : pre.length + (2 * (g.2.map Row.size).sum + headerSize) = (pre ++ block g).length := by rw [List.length_append, hl]
      rw [hpl]
      exact ih (fun g' hg' => hg g' (List.mem_cons_of_mem _ hg')) (pre ++ block g) file (by rw [hf, List.flatMap_cons, List.append_assoc])

theorem lookup_map {β : Type} (gs : List (Nat × List Row)) (f : Nat × List Row → β) (hn : (gs.map fun g => g.1).Nodup) (g : Nat × List Row) (hg : g ∈ gs) :
    (gs.map fun g => (g.1, f g)).lookup g.1 = some (f g) := by
  induction gs with
  | nil => simp at hg
  | cons h gs ih =>
    rw [List.map_cons, List.nodup_cons] at hn
    rw [List.map_cons, List.lookup_cons]
    rcases List.mem_cons.mp hg with rfl | hg
    · simp
    · have : g.1 ≠ h.1 := by
        intro e
        exact hn.1 (List.mem_map.mpr ⟨g, hg, e⟩)
      rw [show (g.1 == h.1) = false from by simpa using this]
      exact ih hn.2 hg

theorem cut_from (g : List Row) : ∀ (_ : ∀ r ∈ g, r.Ok) (pre : List Int) (v : List Int), v = pre ++ g.flatMap vals →
    (List.zipWith (fun r s => (r.id, s, s + r.size)) g (startsFrom pre.length (g.map Row.size))).map
      (fun x => (x.1, v.getD x.2.1 0, slice v (x.2.1 + 1) (x.2.2 - (x.2.1 + 1)))) = g.map fun r => (r.id, r.scale, r.data) := by
  induction g with
  | nil => intro _ pre v _; rfl
  | cons r g ih =>
    intro hg pre v hv
    have hr := hg r (by simp)
    have hl := vals_length hr
    rw [List.map_cons, startsFrom, List.zipWith_cons_cons, List.map_cons, List.map_cons]
    congr 1
    · dsimp only
      have h1 : v.getD pre.length 0 = r.scale := by
        rw [hv, List.flatMap_cons]
        unfold vals
        simp [List.getD_eq_getElem?_getD]
      have h2 : slice v (pre.length + 1) (pre.length + r.size - (pre.length + 1)) = r.data := by
        have e : pre.length + r.size - (pre.length + 1) = r.data.length := by
          unfold Row.size
          rw [hr.len]
          omega
        rw [e]
        unfold slice
        rw [hv, List.flatMap_cons, ← List.append_assoc, ← List.drop_drop, List.append_assoc, List.drop_left]
        unfold vals
        simp
      rw [h1, h2]
    · have hpl : pre.length + r.size = (pre ++ vals r).length := by rw [List.length_append, hl]
      rw [hpl]
      exact ih (fun x hx => hg x (List.mem_cons_of_mem _ hx)) (pre ++ vals r) v (by rw [hv, List.flatMap_cons, List.append_assoc])

theorem read_groups (gs : List (Nat × List Row)) (hg : GroupsOk gs) :
    readFile (gs.flatMap block) gs = gs.flatMap fun g => g.2.map fun r => (r.id, r.scale, r.data) := by
  have hpk : (mmapAll headerSize (intDict readPos gs)).map (fun x => (x.1, view ((slice (gs.flatMap block) x.2.1 x.2.2).drop headerSize))) =
      gs.map fun g => (g.1, g.2.flatMap vals) := by
    rw [mmapAll_exact, intDict_eq readPos readPos_eq]
    · exact slices_from gs hg.rows [] _ rfl
    · rw [intDict_eq readPos readPos_eq]
      intro r hr
      obtain ⟨g, s, hgm, rfl⟩ := mem_zipWith hr
      have := size_pos (hg.some g hgm)
      show 2 * _ ≠ 0
      omega
  unfold readFile
  rw [hpk]
  dsimp only
  apply List.flatMap_congr
  intro g hgm
  rw [lookup_map gs (fun g => g.2.flatMap vals) hg.keys g hgm, Option.getD_some, readPos_eq]
  exact cut_from g.2 (hg.rows g hgm) [] _ rfl
where
  mem_zipWith {α β γ : Type} {f : α → β → γ} {l : List α} {m : List β} {c : γ} (h : c ∈ List.zipWith f l m) : ∃ a b, a ∈ l ∧ f a b = c := by
    induction l generalizing m with
    | nil => simp at h
    | cons a l ih =>
      cases m with
      | nil => simp at h
      | cons b m =>
        rw [List.zipWith_cons_cons] at h
        rcases List.mem_cons.mp h with rfl | h
        · exact ⟨a, b, by simp, rfl⟩
        · obtain ⟨a', b', h1, h2⟩ := ih h
          exact ⟨a', b', List.mem_cons_of_mem _ h1, h2⟩

/-! ## Groups of rows -/

theorem filterMap_rows (rows : List Row) : ((List.range rows.length).filterMap fun i => rows[i]?) = rows := by
  induction rows with
  | nil => rfl
  | cons r rows ih =>
    rw [List.length_cons, List.range_succ_eq_map, List.filterMap_cons]
    simp only [List.getElem?_cons_zero]
    congr 1
    rw [List.filterMap_map]
    exact ih

theorem ints_perm (rows : List Row) : ((ints rows).flatMap fun g => g.2).Perm rows := by
  unfold ints
  rw [groupBy_eq, List.map_map, List.flatMap_map]
  have e : ((keysOf (fun i => (rows[i]?.map (fun r => r.int)).getD 0) rows.length).flatMap fun k =>
      (rowsOf (fun i => (rows[i]?.map (fun r => r.int)).getD 0) rows.length k).filterMap fun i => rows[i]?) =
      (lexsort (fun i => (rows[i]?.map (fun r => r.int)).getD 0) rows.length).filterMap fun i => rows[i]? := by
    rw [lexsort_eq]
    rw [List.filterMap_flatten, List.map_map, List.flatMap_def]
    rfl
  show List.Perm ((keysOf (fun i => (rows[i]?.map (fun r => r.int)).getD 0) rows.length).flatMap fun k =>
      (rowsOf (fun i => (rows[i]?.map (fun r => r.int)).getD 0) rows.length k).filterMap fun i => rows[i]?) rows
  rw [e]
  have hp : (lexsort (fun i => (rows[i]?.map (fun r => r.int)).getD 0) rows.length).Perm (List.range rows.length) := List.perm_insertionSort _ _
  have := hp.filterMap fun i => rows[i]?
  rwa [filterMap_rows] at this

/-- Each spectrum is in the integration that it belongs to, and integrations are in order. -/
theorem ints_mem (rows : List Row) (g : Nat × List Row) (hg : g ∈ ints rows) : g.2 ≠ [] ∧ ∀ r ∈ g.2, r ∈ rows ∧ r.int = g.1 := by
  unfold ints at hg
  obtain ⟨⟨k, idx⟩, hk, rfl⟩ := List.mem_map.mp hg
  obtain ⟨⟨i, hi, he⟩, rfl⟩ := (groupBy_mem _ _ _ _).mp hk
  constructor
  · apply List.ne_nil_of_mem (a := rows[i])
    rw [List.mem_filterMap]
    exact ⟨i, List.mem_filter.mpr ⟨List.mem_range.mpr hi, decide_eq_true he⟩, by simp [hi]⟩
  · intro r hr
    obtain ⟨j, hj, hr⟩ := List.mem_filterMap.mp hr
    rw [List.mem_filter] at hj
    refine ⟨List.mem_of_getElem? hr, ?_⟩
    have := hj.2
    rw [hr] at this
    simpa using this

theorem ints_keys (rows : List Row) : ((ints rows).map fun g => g.1).Pairwise (· < ·) := by
  have := groupBy_keys (fun i => (rows[i]?.map (fun r => r.int)).getD 0) rows.length
  unfold ints
  rw [List.map_map]
  exact this

theorem ints_ok (rows : List Row) (h : ∀ r ∈ rows, r.Ok) : GroupsOk (ints rows) :=
  ⟨fun g hg r hr => h r ((ints_mem rows g hg).2 r hr).1, fun g hg => (ints_mem rows g hg).1, (ints_keys rows).imp fun h => h.ne⟩

theorem writeFile_eq (junk : Nat → List Int) (hj : JunkOk junk) (rows : List Row) (h : ∀ r ∈ rows, r.Ok) :
    writeFile junk rows = (ints rows).flatMap block := by
  unfold writeFile
  apply List.flatMap_congr
  intro g hg
  exact record_eq junk hj g ((ints_ok rows h).rows g hg)

/-- Packed data that are written are read back: all spectra, with exponent and values. -/
theorem write_read (junk : Nat → List Int) (hj : JunkOk junk) (rows : List Row) (h : ∀ r ∈ rows, r.Ok) :
    (readFile (writeFile junk rows) (ints rows)).Perm (rows.map fun r => (r.id, r.scale, r.data)) := by
  rw [writeFile_eq junk hj rows h, read_groups _ (ints_ok rows h)]
  have := (ints_perm rows).map fun r => (r.id, r.scale, r.data)
  rwa [List.map_flatMap] at this

/-! ## Scanning -/

/-- The number of an integration and the size of its record can be stored. -/
def Fits (g : Nat × List Row) : Prop := g.1 < 2147483648 ∧ 2 * (g.2.map Row.size).sum < 2147483648

theorem block_header (g : Nat × List Row) (hf : Fits g) :
    dec4 (((block g).take headerSize).take 4) = g.1 ∧ dec4 (((block g).take headerSize).drop 4) = ((2 * (g.2.map Row.size).sum : Nat) : Int) := by
  constructor
  · have := dec4_le4 g.1 hf.1 []
    rw [List.append_nil] at this
    exact this
  · have := dec4_le4 _ hf.2 []
    rw [List.append_nil] at this
    exact this

theorem block_pos (g : Nat × List Row) (hg : ∀ r ∈ g.2, r.Ok) (h : g.2 ≠ []) : headerSize < (block g).length := by
  rw [block_length g hg]
  have := size_pos h
  omega

/-- Where records are that end before `n`. -/
def complete (n : Nat) (gs : List (Nat × List Row)) (k : Nat) : List Rec :=
  (List.zipWith (fun (g : Nat × List Row) s => (⟨g.1, 2 * (g.2.map Row.size).sum, s⟩ : Rec)) gs
    (startsFrom k (gs.map fun g => 2 * (g.2.map Row.size).sum + headerSize))).filter (fun r => r.start + headerSize + r.size ≤ n)

theorem complete_nil (n : Nat) (gs : List (Nat × List Row)) : ∀ k, n < k → complete n gs k = [] := by
  induction gs with
  | nil => intro k _; rfl
  | cons g gs ih =>
    intro k hk
    unfold complete
    rw [List.map_cons, startsFrom, List.zipWith_cons_cons, List.filter_cons_of_neg]
    · exact ih _ (by omega)
    · simp only [decide_eq_true_eq]
      omega

theorem scan_from (n : Nat) (gs : List (Nat × List Row)) : ∀ (_ : GroupsOk gs) (_ : ∀ g ∈ gs, Fits g) (pre : List Nat) (fuel : Nat) (acc : List Rec)
    (_ : ∀ r ∈ acc, ∀ g ∈ gs, r.int ≠ g.1) (file : List Nat) (_ : file = pre ++ gs.flatMap block) (_ : n ≤ file.length) (_ : n - pre.length < fuel),
    scanLoop (file.take n) fuel pre.length acc = .ok (acc ++ complete n gs pre.length) := by
  induction gs with
  | nil =>
    intro _ _ pre fuel acc _ file hf hn hfu
    cases fuel with
    | zero => omega
    | succ fuel =>
      rw [scanLoop, if_neg]
      · simp [complete]
      · rw [hf] at hn
        rw [List.flatMap_nil, List.append_nil] at hn
        rw [List.length_take]
        omega
  | cons g gs ih =>
    intro hok hfit pre fuel acc hacc file hf hn hfu
    have hg := hok.rows g (by simp)
    have hne := hok.some g (by simp)
    have hb := block_pos g hg hne
    have hbl := block_length g hg
    cases fuel with
    | zero => omega
    | succ fuel =>
      have htl : (file.take n).length = n := by rw [List.length_take]; omega
      rw [scanLoop, htl]
      have hcons : complete n (g :: gs) pre.length = (if pre.length + headerSize + 2 * (g.2.map Row.size).sum ≤ n then
          [⟨g.1, 2 * (g.2.map Row.size).sum, pre.length⟩] else []) ++ complete n gs (pre.length + (2 * (g.2.map Row.size).sum + headerSize)) := by
        unfold complete
        rw [List.map_cons, startsFrom, List.zipWith_cons_cons]
        split
        · rename_i hc
          rw [List.filter_cons_of_pos (by simpa using hc)]
          rfl
        · rename_i hc
          rw [List.filter_cons_of_neg (by simpa using hc)]
          rfl
      by_cases hlt : pre.length + headerSize < n
      · rw [if_pos hlt]
        have hh : ((file.take n).drop pre.length).take headerSize = (block g).take headerSize := by
          rw [List.drop_take, List.take_take, hf, List.drop_left, List.flatMap_cons, Nat.min_eq_left (by omega), List.take_append_of_le_length (by omega)]
        obtain ⟨d1, d2⟩ := block_header g (hfit g (by simp))
        simp only [hh, d1, d2]
        rw [if_neg (by omega), Int.toNat_natCast, Int.toNat_natCast]
        have hpl : pre.length + headerSize + 2 * (g.2.map Row.size).sum = (pre ++ block g).length := by
          rw [List.length_append, hbl]
          omega
        have hpl' : pre.length + (2 * (g.2.map Row.size).sum + headerSize) = (pre ++ block g).length := by
          rw [List.length_append, hbl]
        have hfa : acc.filter (fun r => r.int ≠ g.1) = acc := by
          rw [List.filter_eq_self]
          intro r hr
          simpa using hacc r hr g (by simp)
        have hok' : GroupsOk gs := ⟨fun g' hg' => hok.rows g' (List.mem_cons_of_mem _ hg'), fun g' hg' => hok.some g' (List.mem_cons_of_mem _ hg'),
          (List.nodup_cons.mp hok.keys).2⟩
        rw [hcons, hpl, hpl', hfa]
        rw [ih hok' (fun g' hg' => hfit g' (List.mem_cons_of_mem _ hg')) (pre ++ block g) fuel _ ?_ file
          (by rw [hf, List.flatMap_cons, List.append_assoc]) hn (by rw [← hpl]; omega)]
        · split
          · rw [List.append_assoc]
          · simp
        · intro r hr g' hg'
          split at hr
          · rcases List.mem_append.mp hr with hr | hr
            · exact hacc r hr g' (List.mem_cons_of_mem _ hg')
            · rw [List.mem_singleton] at hr
              subst hr
              intro e
              exact (List.nodup_cons.mp hok.keys).1 (List.mem_map.mpr ⟨g', hg', e.symm⟩)
          · exact hacc r hr g' (List.mem_cons_of_mem _ hg')
      · rw [if_neg hlt, hcons, if_neg (by omega), complete_nil n gs _ (by omega)]
        simp

/-- Scanning a file that is cut off after `n` bytes finds all records that are complete, and no others. -/
theorem scan_cut (junk : Nat → List Int) (hj : JunkOk junk) (rows : List Row) (h : ∀ r ∈ rows, r.Ok) (hf : ∀ g ∈ ints rows, Fits g) (n : Nat)
    (hn : n ≤ (writeFile junk rows).length) :
    scan ((writeFile junk rows).take n) =
      .ok ((intDict recpos (ints rows)).filter (fun r => r.start + headerSize + r.size ≤ n)) := by
  rw [writeFile_eq junk hj rows h] at hn ⊢
  unfold scan
  have htl : (((ints rows).flatMap block).take n).length = n := by rw [List.length_take]; omega
  have := scan_from n (ints rows) (ints_ok rows h) hf [] (n + 1) [] (by simp) _ rfl (by simpa using hn) (by simp)
  rw [htl, intDict_eq recpos (fun _ => rfl)]
  simpa [complete] using this

theorem intDict_ends (gs : List (Nat × List Row)) (hg : ∀ g ∈ gs, ∀ r ∈ g.2, r.Ok) : ∀ k, ∀ r ∈ (List.zipWith (fun (g : Nat × List Row) s => (⟨g.1, 2 * (g.2.map Row.size).sum, s⟩ : Rec)) gs
    (startsFrom k (gs.map fun g => 2 * (g.2.map Row.size).sum + headerSize))), r.start + headerSize + r.size ≤ k + (gs.flatMap block).length := by
  induction gs with
  | nil => intro k r hr; simp at hr
  | cons g gs ih =>
    intro k r hr
    have hbl := block_length g (hg g (by simp))
    rw [List.map_cons, startsFrom, List.zipWith_cons_cons] at hr
    rw [List.flatMap_cons, List.length_append, hbl]
    rcases List.mem_cons.mp hr with rfl | hr
    · dsimp only
      omega
    · have := ih (fun g' hg' => hg g' (List.mem_cons_of_mem _ hg')) _ r hr
      omega

/-- Scanning a file that was written gives the same places as the table. -/
theorem scan_write (junk : Nat → List Int) (hj : JunkOk junk) (rows : List Row) (h : ∀ r ∈ rows, r.Ok) (hf : ∀ g ∈ ints rows, Fits g) :
    scan (writeFile junk rows) = .ok (intDict readPos (ints rows)) := by
  have := scan_cut junk hj rows h hf (writeFile junk rows).length (Nat.le_refl _)
  rw [List.take_length] at this
  rw [this, intDict_eq readPos readPos_eq, intDict_eq recpos (fun _ => rfl), List.filter_eq_self.mpr]
  intro r hr
  have hb := intDict_ends (ints rows) (ints_ok rows h).rows 0 r hr
  rw [writeFile_eq junk hj rows h, decide_eq_true_eq]
  omega

end Verif.MirPack
