import Verif.MsHist.Model

/-! Theorems about histories in measurement sets. -/

namespace Verif.MsHist

/-- A line of a history that does not look like a part of the table. -/
structure Plain (l : Str) : Prop where
  header : isHeader l = false
  ends : isEnd l = false
  begins : isBegin l = false

/-- A row of another program, without semicolons. -/
structure Foreign (r : Row) : Prop where
  nine : r.length = 9
  semi : ∀ p ∈ r, ';' ∉ p
  own : isOwn r = false
  header : isHeader (join r) = false
  ends : isEnd (join r) = false

theorem split_free {a : Str} (h : ';' ∉ a) : split a = [a] := by
  induction a with
  | nil => rfl
  | cons c a ih =>
    rw [List.mem_cons, not_or] at h
    unfold split
    rw [if_neg (fun e => h.1 e.symm), ih h.2]

theorem split_append {a t : Str} (h : ';' ∉ a) : split (a ++ ';' :: t) = a :: split t := by
  induction a with
  | nil => rw [List.nil_append]; unfold split; rw [if_pos rfl]; cases t <;> rfl
  | cons c a ih =>
    rw [List.mem_cons, not_or] at h
    rw [List.cons_append]
    show (if c = ';' then [] :: split (a ++ ';' :: t) else _) = _
    rw [if_neg (fun e => h.1 e.symm), ih h.2]

theorem split_join {r : List Str} (hr : r ≠ []) (h : ∀ p ∈ r, ';' ∉ p) : split (join r) = r := by
  induction r with
  | nil => exact absurd rfl hr
  | cons a r ih =>
    cases r with
    | nil => exact split_free (h a List.mem_cons_self)
    | cons b r =>
      show split (a ++ ';' :: join (b :: r)) = _
      rw [split_append (h a List.mem_cons_self), ih (by simp) (fun p hp => h p (List.mem_cons_of_mem _ hp))]

theorem split_count (l : Str) : (split l).length = l.count ';' + 1 := by
  induction l with
  | nil => rfl
  | cons c l ih =>
    unfold split
    by_cases hc : c = ';'
    · rw [if_pos hc, List.length_cons, ih, hc, List.count_cons_self]
    · rw [if_neg hc, List.count_cons_of_ne hc]
      cases hs : split l with
      | nil => rw [hs] at ih; cases ih
      | cons h r => rw [hs] at ih; exact ih

theorem join_count {r : List Str} (hr : r ≠ []) : (join r).count ';' + 1 = (r.map (List.count ';')).sum + r.length := by
  induction r with
  | nil => exact absurd rfl hr
  | cons a r ih =>
    cases r with
    | nil => show a.count ';' + 1 = _; simp
    | cons b r =>
      show (a ++ ';' :: join (b :: r)).count ';' + 1 = _
      rw [List.count_append, List.count_cons_self, List.map_cons, List.sum_cons, List.length_cons]
      have := ih (by simp)
      omega

/-- C219: entries with semicolons cannot be found again. -/
theorem semicolon {r : Row} (h9 : r.length = 9) (h : ∃ p ∈ r, ';' ∈ p) : parse (join r) = none := by
  unfold parse
  rw [if_neg]
  rw [split_count, join_count (by intro e; rw [e] at h9; cases h9), h9]
  obtain ⟨p, hp, hc⟩ := h
  have h1 : 0 < p.count ';' := List.count_pos_iff.2 hc
  have h2 : p.count ';' ≤ (r.map (List.count ';')).sum := by
    clear h9
    induction r with
    | nil => cases hp
    | cons a r ih =>
      rw [List.map_cons, List.sum_cons]
      rcases List.mem_cons.1 hp with rfl | hp
      · omega
      · have := ih hp
        omega
  omega

theorem parse_join {r : Row} (h : Foreign r) : parse (join r) = some r := by
  have hr : r ≠ [] := by
    rintro rfl
    have := h.nine
    cases this
  unfold parse
  rw [split_join hr h.semi, if_pos h.nine]

theorem own_own (now l : Str) : isOwn (ownRow now l) = true := by
  unfold isOwn ownRow
  exact decide_eq_true (List.infix_refl _)

theorem own_message (now l : Str) : message (ownRow now l) = l := rfl

/-- What reading gives, without positions: rows of pyuvdata before the first other row come first, in reversed order. -/
theorem read_eq {rows : List Row} (hr : rows ≠ []) : read rows =
    (((rows.take (limit rows)).filter isOwn).map message).reverse ++ block rows ++ ((rows.drop (limit rows)).filter isOwn).map message := by
  unfold read
  rw [if_neg hr]
  generalize limit rows = m
  generalize block rows = b
  have key : ∀ n, n ≤ rows.length → (List.range n).foldl (fun h i =>
      if isOwn (rows.getD i []) then (if i < m then message (rows.getD i []) :: h else h ++ [message (rows.getD i [])]) else h) b =
      ((((rows.take n).take m).filter isOwn).map message).reverse ++ b ++ (((rows.take n).drop m).filter isOwn).map message := by
    intro n
    induction n with
    | zero => intro _; simp
    | succ n ih =>
      intro hn
      rw [List.range_succ, List.foldl_append, ih (by omega), List.foldl_cons, List.foldl_nil]
      have hg : rows.getD n [] = rows[n]'(by omega) := by
        rw [List.getD_eq_getElem?_getD, List.getElem?_eq_getElem (by omega)]
        rfl
      have ht : rows.take (n + 1) = rows.take n ++ [rows[n]'(by omega)] := by rw [List.take_succ_eq_append_getElem]
      have hlen : (rows.take n).length = n := by rw [List.length_take]; omega
      rw [ht, hg]
      by_cases hm : n < m
      · have e1 : (rows.take n ++ [rows[n]'(by omega)]).take m = rows.take n ++ [rows[n]'(by omega)] :=
          List.take_of_length_le (by rw [List.length_append, hlen, List.length_singleton]; omega)
        have e2 : (rows.take n).take m = rows.take n := List.take_of_length_le (by omega)
        have e3 : (rows.take n ++ [rows[n]'(by omega)]).drop m = [] :=
          List.drop_of_length_le (by rw [List.length_append, hlen, List.length_singleton]; omega)
        have e4 : (rows.take n).drop m = [] := List.drop_of_length_le (by omega)
        rw [e1, e2, e3, e4, List.filter_append, List.map_append, List.reverse_append]
        by_cases ho : isOwn (rows[n]'(by omega)) = true
        · rw [if_pos ho, if_pos hm, List.filter_cons_of_pos ho]
          simp
        · rw [if_neg ho, List.filter_cons_of_neg ho]
          simp
      · have e1 : (rows.take n ++ [rows[n]'(by omega)]).take m = (rows.take n).take m := List.take_append_of_le_length (by omega)
        have e3 : (rows.take n ++ [rows[n]'(by omega)]).drop m = (rows.take n).drop m ++ [rows[n]'(by omega)] :=
          List.drop_append_of_le_length (by omega)
        rw [e1, e3, List.filter_append, List.map_append]
        by_cases ho : isOwn (rows[n]'(by omega)) = true
        · rw [if_pos ho, if_neg hm, List.filter_cons_of_pos ho]
          simp
        · rw [if_neg ho, List.filter_cons_of_neg ho]
          simp
  have := key rows.length le_rfl
  rw [List.take_length] at this
  exact this

/-- Lines before the table. -/
theorem scan_pre {pre : List Str} (h : ∀ l ∈ pre, Plain l) (acc : List Str) :
    pre.foldl step ⟨false, false, acc, [], [], true⟩ = ⟨false, false, acc ++ pre, [], [], true⟩ := by
  induction pre generalizing acc with
  | nil => rw [List.append_nil]; rfl
  | cons l pre ih =>
    have hl := h l List.mem_cons_self
    have e : step ⟨false, false, acc, [], [], true⟩ l = ⟨false, false, acc ++ [l], [], [], true⟩ := by
      unfold step
      simp [hl.header, hl.ends, hl.begins]
    rw [List.foldl_cons, e, ih (fun l hl => h l (List.mem_cons_of_mem _ hl)), List.append_assoc]
    rfl

theorem scan_rows {rows : List Row} (h : ∀ r ∈ rows, Foreign r) (pre : List Str) (acc : List Row) :
    (rows.map join).foldl step ⟨true, false, pre, acc, [], true⟩ = ⟨true, false, pre, acc ++ rows, [], true⟩ := by
  induction rows generalizing acc with
  | nil => rw [List.append_nil]; rfl
  | cons r rows ih =>
    have hr := h r List.mem_cons_self
    have e : step ⟨true, false, pre, acc, [], true⟩ (join r) = ⟨true, false, pre, acc ++ [r], [], true⟩ := by
      unfold step
      simp [hr.header, hr.ends, parse_join hr]
    rw [List.map_cons, List.foldl_cons, e, ih (fun r hr => h r (List.mem_cons_of_mem _ hr)), List.append_assoc]
    rfl

theorem scan_post {post : List Str} (h : ∀ l ∈ post, Plain l) (pre : List Str) (rows : List Row) (acc : List Str) :
    post.foldl step ⟨true, true, pre, rows, acc, true⟩ = ⟨true, true, pre, rows, acc ++ post, true⟩ := by
  induction post generalizing acc with
  | nil => rw [List.append_nil]; rfl
  | cons l post ih =>
    have hl := h l List.mem_cons_self
    have e : step ⟨true, true, pre, rows, acc, true⟩ l = ⟨true, true, pre, rows, acc ++ [l], true⟩ := by
      unfold step
      simp [hl.header, hl.ends]
    rw [List.foldl_cons, e, ih (fun l hl => h l (List.mem_cons_of_mem _ hl)), List.append_assoc]
    rfl

theorem header_is : isHeader header = true := decide_eq_true (List.prefix_append _ _).isInfix

theorem begin_not_header : isHeader begins = false ∧ isEnd begins = false ∧ isBegin begins = true := by decide +kernel

theorem end_is : isHeader ends = false ∧ isEnd ends = true := by decide +kernel

/-- The lines of a history with a table. -/
def lines (pre : List Str) (rows : List Row) (post : List Str) : List Str := pre ++ [begins, header] ++ rows.map join ++ [ends] ++ post

theorem scan_head {pre : List Str} (hp : ∀ l ∈ pre, Plain l) {rows : List Row} (hr : ∀ r ∈ rows, Foreign r) :
    (pre ++ [begins, header] ++ rows.map join).foldl step ⟨false, false, [], [], [], true⟩ = ⟨true, false, pre, rows, [], true⟩ := by
  rw [List.foldl_append, List.foldl_append, scan_pre hp, List.foldl_cons, List.foldl_cons, List.foldl_nil]
  have e1 : step ⟨false, false, [] ++ pre, [], [], true⟩ begins = ⟨false, false, pre, [], [], true⟩ := by
    unfold step
    simp [begin_not_header.1, begin_not_header.2.1, begin_not_header.2.2]
  have e2 : step ⟨false, false, pre, [], [], true⟩ header = ⟨true, false, pre, [], [], true⟩ := by
    unfold step
    simp [header_is]
  rw [e1, e2, scan_rows hr]
  rfl

/-- C219: rows of other programs are found again, lines of pyuvdata are messages. -/
theorem write_lines (now : Str) {pre post : List Str} {rows : List Row} (hp : ∀ l ∈ pre, Plain l) (hr : ∀ r ∈ rows, Foreign r) (hq : ∀ l ∈ post, Plain l) :
    write now (lines pre rows post) = pre.map (ownRow now) ++ rows ++ post.map (ownRow now) := by
  unfold write
  have ha : (lines pre rows post).any isHeader = true := List.any_eq_true.2 ⟨header, by unfold lines; simp, header_is⟩
  have hs : (lines pre rows post).foldl step ⟨false, false, [], [], [], true⟩ = ⟨true, true, pre, rows, post, true⟩ := by
    unfold lines
    rw [List.foldl_append, List.foldl_append, scan_head hp hr, List.foldl_cons, List.foldl_nil]
    have e : step ⟨true, false, pre, rows, [], true⟩ ends = ⟨true, true, pre, rows, [], true⟩ := by
      unfold step
      simp [end_is.1, end_is.2]
    rw [e, scan_post hq]
    rfl
  rw [if_pos ha, hs]
  rfl

theorem filter_own (now : Str) (l : List Str) : (l.map (ownRow now)).filter isOwn = l.map (ownRow now) ∧ (l.map (ownRow now)).filter (fun r => !isOwn r) = [] := by
  constructor
  · refine List.filter_eq_self.2 (fun r hr => ?_)
    obtain ⟨x, -, rfl⟩ := List.mem_map.1 hr
    exact own_own now x
  · refine List.filter_eq_nil_iff.2 (fun r hr => ?_)
    obtain ⟨x, -, rfl⟩ := List.mem_map.1 hr
    simp [own_own]

theorem filter_foreign {rows : List Row} (h : ∀ r ∈ rows, isOwn r = false) : rows.filter isOwn = [] ∧ rows.filter (fun r => !isOwn r) = rows :=
  ⟨List.filter_eq_nil_iff.2 (fun r hr => by simp [h r hr]), List.filter_eq_self.2 (fun r hr => by simp [h r hr])⟩

theorem messages (now : Str) (l : List Str) : (l.map (ownRow now)).map message = l := by
  rw [List.map_map]
  exact List.map_id'' (fun _ => rfl) _

/-- Reading a table with rows of pyuvdata before and after those of other programs. -/
theorem read_table (now : Str) (pre post : List Str) {rows : List Row} (h : ∀ r ∈ rows, isOwn r = false) (hne : rows ≠ []) :
    read (pre.map (ownRow now) ++ rows ++ post.map (ownRow now)) = lines pre.reverse rows post := by
  obtain ⟨r0, rows', rfl⟩ := List.exists_cons_of_ne_nil hne
  have hall : (pre.map (ownRow now) ++ (r0 :: rows') ++ post.map (ownRow now)).all isOwn = false := by
    rw [List.all_eq_false]
    exact ⟨r0, by simp, by simp [h r0 List.mem_cons_self]⟩
  have hlim : limit (pre.map (ownRow now) ++ (r0 :: rows') ++ post.map (ownRow now)) = pre.length := by
    unfold limit
    rw [hall]
    simp only [Bool.false_eq_true, if_false]
    clear hall
    induction pre with
    | nil =>
      rw [List.map_nil, List.nil_append, List.cons_append, List.findIdx_cons, h r0 List.mem_cons_self]
      rfl
    | cons x pre ih =>
      rw [List.map_cons, List.cons_append, List.cons_append, List.findIdx_cons, own_own, ih]
      rfl
  rw [read_eq (by simp), hlim]
  have ht : (pre.map (ownRow now) ++ (r0 :: rows') ++ post.map (ownRow now)).take pre.length = pre.map (ownRow now) := by
    rw [List.append_assoc, List.take_append_of_le_length (by simp), List.take_of_length_le (by simp)]
  have hd : (pre.map (ownRow now) ++ (r0 :: rows') ++ post.map (ownRow now)).drop pre.length = (r0 :: rows') ++ post.map (ownRow now) := by
    rw [List.append_assoc, List.drop_append_of_le_length (by simp), List.drop_of_length_le (by simp), List.nil_append]
  rw [ht, hd, (filter_own now pre).1, messages, List.filter_append, (filter_foreign h).1, List.nil_append, (filter_own now post).1, messages]
  unfold block lines
  rw [List.filter_append, List.filter_append, (filter_own now pre).2, (filter_own now post).2, (filter_foreign h).2]
  simp

/-- Reading a table that has only rows of pyuvdata. -/
theorem read_own (now : Str) {l : List Str} (h : l ≠ []) : read (l.map (ownRow now)) = lines [] [] l := by
  have hlim : limit (l.map (ownRow now)) = 0 := by
    unfold limit
    rw [if_pos]
    rw [List.all_eq_true]
    intro r hr
    obtain ⟨x, -, rfl⟩ := List.mem_map.1 hr
    exact own_own now x
  rw [read_eq (by simpa using h), hlim, List.take_zero, List.drop_zero, (filter_own now l).1, messages]
  unfold block lines
  rw [(filter_own now l).2]
  simp

/-- C219: a history with the table of a measurement set comes back, if at most one line is before the table. -/
theorem trip_partial (now : Str) {pre post : List Str} {rows : List Row} (hp : ∀ l ∈ pre, Plain l) (hr : ∀ r ∈ rows, Foreign r) (hq : ∀ l ∈ post, Plain l)
    (hne : rows ≠ []) (h1 : pre.length ≤ 1) : read (write now (lines pre rows post)) = lines pre rows post := by
  rw [write_lines now hp hr hq, read_table now pre post (fun r h => (hr r h).own) hne]
  match pre, h1 with
  | [], _ => rfl
  | [_], _ => rfl

/-- C219: a history without a table comes back after an empty table. -/
theorem plain_trip (now : Str) {h : List Str} (hp : ∀ l ∈ h, isHeader l = false) : read (write now h) = if h = [] then [] else lines [] [] h := by
  have ha : h.any isHeader = false := List.any_eq_false.2 (fun l hl => by simp [hp l hl])
  unfold write
  rw [ha]
  simp only [Bool.false_eq_true, if_false]
  split
  · rename_i e
    subst e
    rfl
  · rename_i e
    exact read_own now e

/-- C219: and the same from then on. -/
theorem second_trip (now now' : Str) {h : List Str} (hp : ∀ l ∈ h, Plain l) :
    read (write now' (read (write now h))) = read (write now h) := by
  rw [plain_trip now (fun l hl => (hp l hl).header)]
  split
  · rfl
  · rename_i e
    rw [write_lines now' (pre := []) (rows := []) (fun l hl => by cases hl) (fun r hr => by cases hr) hp, List.map_nil, List.nil_append, List.nil_append, read_own now' e]

/-- C219: no line and no row is lost. -/
theorem kept (now : Str) {pre post : List Str} {rows : List Row} (hp : ∀ l ∈ pre, Plain l) (hr : ∀ r ∈ rows, Foreign r) (hq : ∀ l ∈ post, Plain l)
    (hne : rows ≠ []) : (read (write now (lines pre rows post))).Perm (lines pre rows post) ∧
      ∃ a, a.Perm pre ∧ read (write now (lines pre rows post)) = lines a rows post := by
  rw [write_lines now hp hr hq, read_table now pre post (fun r h => (hr r h).own) hne]
  refine ⟨?_, _, List.reverse_perm _, rfl⟩
  unfold lines
  simp only [List.append_assoc]
  exact (List.reverse_perm _).append_right _

/-- Lines 935-938: lines before the table come back in reversed order. -/
theorem order_counterexample (now : Str) {pre post : List Str} {rows : List Row} (hp : ∀ l ∈ pre, Plain l) (hr : ∀ r ∈ rows, Foreign r)
    (hq : ∀ l ∈ post, Plain l) (hne : rows ≠ []) (hx : pre.reverse ≠ pre) :
    read (write now (lines pre rows post)) = lines pre.reverse rows post ∧ read (write now (lines pre rows post)) ≠ lines pre rows post := by
  rw [write_lines now hp hr hq, read_table now pre post (fun r h => (hr r h).own) hne]
  refine ⟨rfl, fun e => hx ?_⟩
  unfold lines at e
  simp only [List.append_assoc] at e
  exact (List.append_inj e (by simp)).1

/-- Lines 929-931: without rows of other programs, lines before the table come back after it. -/
theorem empty_counterexample (now : Str) {pre post : List Str} (hp : ∀ l ∈ pre, Plain l) (hq : ∀ l ∈ post, Plain l) (hne : pre ≠ []) :
    read (write now (lines pre [] post)) = lines [] [] (pre ++ post) ∧ read (write now (lines pre [] post)) ≠ lines pre [] post := by
  rw [write_lines now (rows := []) hp (fun r hr => by cases hr) hq, List.append_nil, ← List.map_append, read_own now (by simp [hne])]
  refine ⟨rfl, fun e => ?_⟩
  obtain ⟨x, pre', rfl⟩ := List.exists_cons_of_ne_nil hne
  have e := congrArg List.head? e
  simp only [lines, List.nil_append, List.cons_append, List.head?_cons, Option.some.injEq] at e
  have := (hp x List.mem_cons_self).begins
  rw [← e, begin_not_header.2.2] at this
  cases this

/-- Lines 1016-1026: if a row has a semicolon, rows before it are in the table twice, and the history grows. -/
theorem semicolon_counterexample (now : Str) {pre : List Str} {rows : List Row} (hp : ∀ l ∈ pre, Plain l) (hr : ∀ r ∈ rows, Foreign r) (hne : rows ≠ [])
    {b : Str} (hb : parse b = none) (h1 : isHeader b = false) (h2 : isEnd b = false) (rest : List Str) :
    write now (pre ++ [begins, header] ++ rows.map join ++ b :: rest) =
      rows ++ (pre ++ [begins, header] ++ rows.map join ++ b :: rest).map (ownRow now) ∧
    read (write now (pre ++ [begins, header] ++ rows.map join ++ b :: rest)) = lines [] rows (pre ++ [begins, header] ++ rows.map join ++ b :: rest) := by
  have hw : write now (pre ++ [begins, header] ++ rows.map join ++ b :: rest) =
      rows ++ (pre ++ [begins, header] ++ rows.map join ++ b :: rest).map (ownRow now) := by
    have ha : (pre ++ [begins, header] ++ rows.map join ++ b :: rest).any isHeader = true := List.any_eq_true.2 ⟨header, by simp, header_is⟩
    have hs : (pre ++ [begins, header] ++ rows.map join ++ b :: rest).foldl step ⟨false, false, [], [], [], true⟩ = ⟨true, false, [], rows, [], false⟩ := by
      rw [List.foldl_append, scan_head hp hr, List.foldl_cons]
      have e : step ⟨true, false, pre, rows, [], true⟩ b = ⟨true, false, [], rows, [], false⟩ := by
        unfold step
        simp [h1, h2, hb]
      rw [e]
      clear ha e
      induction rest with
      | nil => rfl
      | cons l rest ih => exact ih
    unfold write
    rw [if_pos ha, hs]
    simp
  refine ⟨hw, ?_⟩
  rw [hw]
  exact read_table now [] _ (fun r h => (hr r h).own) hne

end Verif.MsHist
