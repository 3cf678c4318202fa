import Mathlib.Tactic.Ring
import Verif.MirPack.Model

/-!
# Which bytes are read
-/

namespace Verif.MirPack

/-- The bytes of a record, header included. -/
def place (hdr : Nat) (r : Rec) : Nat × Nat × Nat := (r.int, r.start, hdr + r.size)

/-- What the loop has so far. -/
structure Inv (hdr : Nat) (seen : List Rec) (p : Plan) : Prop where
  all : p.reads.flatMap (mmapPos hdr) ++ mmapPos hdr ⟨p.keys, p.lastSize, p.num, p.del, p.lastOff⟩ = seen.map (place hdr)
  num : p.num = p.keys.length
  zero : p.lastSize = 0 → p.num = 0

theorem planStep_inv (hdr : Nat) (seen : List Rec) (p : Plan) (r : Rec) (hr : r.size ≠ 0) (h : Inv hdr seen p) :
    Inv hdr (seen ++ [r]) (planStep hdr p r) := by
  have hz := h.zero
  have hn := h.num
  have ha := h.all
  unfold planStep
  split
  · refine ⟨?_, rfl, fun e => absurd e hr⟩
    dsimp only
    rw [List.map_append, ← ha]
    have e1 : mmapPos hdr ⟨[r.int], r.size, 1, (r.start : Int) - (p.lastOff + p.num * p.lastSize : Nat), r.start⟩ = [r].map (place hdr) := by
      simp [mmapPos, place]
    rw [e1]
    congr 1
    split
    · rw [List.flatMap_append]
      simp
    · rename_i hc
      have h0 : p.num = 0 := by
        by_cases h0 : p.num = 0
        · exact h0
        · by_cases hs : p.lastSize = 0
          · exact hz hs
          · exact absurd ⟨h0, hs⟩ hc
      have hk : p.keys = [] := by
        rw [h0] at hn
        exact List.eq_nil_of_length_eq_zero hn.symm
      simp [mmapPos, hk]
  · rename_i hc
    have hc1 : r.size = p.lastSize := by
      by_contra e
      exact hc (Or.inl e)
    have hc2 : p.lastOff + (hdr + p.lastSize) * p.num = r.start := by
      by_contra e
      exact hc (Or.inr e)
    refine ⟨?_, ?_, ?_⟩
    · dsimp only
      rw [List.map_append, ← ha, List.append_assoc]
      congr 1
      simp only [mmapPos]
      rw [List.mapIdx_append]
      congr 1
      simp only [List.mapIdx_cons, List.mapIdx_nil, List.map_cons, List.map_nil, place, ← hc2, hc1, ← hn]
      rw [Nat.zero_add, Nat.mul_comm]
    · dsimp only
      rw [List.length_append, hn]
      rfl
    · intro e
      exact absurd (hc1.trans e) hr

theorem plan_inv (hdr : Nat) (recs : List Rec) (h : ∀ r ∈ recs, r.size ≠ 0) :
    ∀ seen p, Inv hdr seen p → Inv hdr (seen ++ recs) (recs.foldl (planStep hdr) p) := by
  induction recs with
  | nil => intro seen p hp; simpa using hp
  | cons r recs ih =>
    intro seen p hp
    have := ih (fun x hx => h x (List.mem_cons_of_mem _ hx)) _ _ (planStep_inv hdr seen p r (h r (by simp)) hp)
    simpa using this

/-- With `np.memmap`, the bytes of each record are those from its start on, in the order in which they are asked for, whatever the order,
the sizes and the gaps are. -/
theorem mmapAll_exact (hdr : Nat) (recs : List Rec) (h : ∀ r ∈ recs, r.size ≠ 0) : mmapAll hdr recs = recs.map (place hdr) := by
  have h0 : Inv hdr [] ⟨[], 0, 0, 0, 0, []⟩ := ⟨by simp [mmapPos], rfl, fun _ => rfl⟩
  have h1 := plan_inv hdr recs h [] _ h0
  rw [List.nil_append] at h1
  unfold mmapAll plan
  generalize recs.foldl (planStep hdr) ⟨[], 0, 0, 0, 0, []⟩ = p at h1
  have ha := h1.all
  rw [← ha]
  unfold planStep
  dsimp only
  by_cases hs : p.lastSize = 0
  · have hn := h1.zero hs
    have hk : p.keys = [] := by
      have := h1.num
      rw [hn] at this
      exact List.eq_nil_of_length_eq_zero this.symm
    split
    · simp [hn, hs, mmapPos, hk]
    · simp [mmapPos, hk]
  · rw [if_pos (Or.inl (fun e => hs e.symm))]
    by_cases hn : p.num = 0
    · have hk : p.keys = [] := by
        have := h1.num
        rw [hn] at this
        exact List.eq_nil_of_length_eq_zero this.symm
      simp [hn, mmapPos, hk]
    · simp [hn, hs]

/-- Records of the same size that follow each other. -/
def Contig (hdr size : Nat) : Nat → List Rec → Prop
  | _, [] => True
  | at_, r :: l => r.size = size ∧ r.start = at_ ∧ Contig hdr size (at_ + hdr + size) l

theorem contig_fold (hdr size : Nat) (recs : List Rec) : ∀ p : Plan, p.lastSize = size → Contig hdr size (p.lastOff + (hdr + size) * p.num) recs →
    recs.foldl (planStep hdr) p = { p with num := p.num + recs.length, keys := p.keys ++ recs.map (fun r => r.int) } := by
  induction recs with
  | nil => intro p _ _; simp
  | cons r recs ih =>
    intro p hp hc
    obtain ⟨h1, h2, h3⟩ := hc
    have e : planStep hdr p r = { p with num := p.num + 1, keys := p.keys ++ [r.int] } := by
      unfold planStep
      rw [if_neg]
      rintro (h | h)
      · exact h (h1.trans hp.symm)
      · rw [hp] at h
        exact h h2.symm
    rw [List.foldl_cons, e, ih]
    · simp [Nat.add_assoc, Nat.add_comm 1]
    · exact hp
    · dsimp only
      have : p.lastOff + (hdr + size) * (p.num + 1) = p.lastOff + (hdr + size) * p.num + hdr + size := by ring
      rw [this]
      exact h3

/-- With `np.fromfile`, the same bytes are read if all records have the same size and follow each other. -/
theorem fileAll_partial (hdr size at_ : Nat) (hs : size ≠ 0) (recs : List Rec) (h : Contig hdr size at_ recs) :
    fileAll hdr recs = recs.map (fun r => (r.int, (r.start : Int), hdr + r.size)) := by
  cases recs with
  | nil => simp [fileAll, plan, planStep, filePos]
  | cons r recs =>
    obtain ⟨h1, h2, h3⟩ := h
    have e : planStep hdr ⟨[], 0, 0, 0, 0, []⟩ r = ⟨[r.int], at_, size, 1, (at_ : Int), []⟩ := by
      unfold planStep
      rw [if_pos]
      · simp [h1, h2]
      · left
        rw [h1]
        exact hs
    have hf := contig_fold hdr size recs ⟨[r.int], at_, size, 1, (at_ : Int), []⟩ rfl (by
      dsimp only
      rw [Nat.mul_one, ← Nat.add_assoc]
      exact h3)
    unfold fileAll plan
    rw [List.foldl_cons, e, hf]
    unfold planStep
    dsimp only
    rw [if_pos (Or.inl (fun e => hs e.symm))]
    have hn : 1 + recs.length ≠ 0 := by omega
    rw [if_pos ⟨hn, hs⟩]
    simp only [List.nil_append, filePos, List.append_nil]
    have key : ∀ (l : List Rec) (k : Nat), Contig hdr size (at_ + k * (hdr + size)) l →
        (l.map (fun r => r.int)).mapIdx (fun i x => (x, (0 : Int) + (at_ : Int) + ((i + k : Nat) : Int) * ((hdr : Int) + (size : Int)), hdr + size)) =
          l.map (fun r => (r.int, (r.start : Int), hdr + r.size)) := by
      intro l
      induction l with
      | nil => intro k _; rfl
      | cons r l ih =>
        intro k hc
        obtain ⟨c1, c2, c3⟩ := hc
        rw [List.map_cons, List.mapIdx_cons, List.map_cons]
        congr 1
        · rw [c1, c2]
          push_cast
          simp
        · rw [← ih (k + 1)]
          · congr 1
            funext i x
            congr 3
            push_cast
            ring
          · have : at_ + (k + 1) * (hdr + size) = at_ + k * (hdr + size) + hdr + size := by ring
            rw [this]
            exact c3
    have := key (r :: recs) 0 (by
      rw [Nat.zero_mul, Nat.add_zero]
      exact ⟨h1, h2, h3⟩)
    rw [← this]
    simp

/-- "Each record is read from its start on" fails with `np.fromfile`: after a gap or a change of size, the place is wrong by the header. -/
theorem fileAll_counterexample (hdr : Nat) (r s : Rec) (hr : r.size ≠ 0) (hs : s.size ≠ 0)
    (h : s.size ≠ r.size ∨ s.start ≠ r.start + hdr + r.size) :
    fileAll hdr [r, s] = [(r.int, (r.start : Int), hdr + r.size), (s.int, (s.start : Int) + hdr, hdr + s.size)] := by
  have e1 : planStep hdr ⟨[], 0, 0, 0, 0, []⟩ r = ⟨[r.int], r.start, r.size, 1, (r.start : Int), []⟩ := by
    unfold planStep
    rw [if_pos (Or.inl hr)]
    simp
  have e2 : planStep hdr ⟨[r.int], r.start, r.size, 1, (r.start : Int), []⟩ s =
      ⟨[s.int], s.start, s.size, 1, (s.start : Int) - (r.start + r.size : Nat), [⟨[r.int], r.size, 1, r.start, r.start⟩]⟩ := by
    unfold planStep
    rw [if_pos]
    · simp [hr]
    · rcases h with h | h
      · exact Or.inl h
      · right
        dsimp only
        omega
  unfold fileAll plan
  rw [List.foldl_cons, List.foldl_cons, List.foldl_nil, e1, e2]
  unfold planStep
  dsimp only
  rw [if_pos (Or.inl (fun e => hs e.symm)), if_pos ⟨by decide, hs⟩]
  simp only [List.cons_append, List.nil_append, filePos, List.mapIdx_cons, List.mapIdx_nil, List.append_nil]
  congr 2
  · simp
  · push_cast
    congr 2
    ring

end Verif.MirPack
