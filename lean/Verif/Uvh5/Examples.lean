import Verif.Uvh5.Props

/-!
Examples for the theorems about parts of uvh5 files, and what a refused part does to the object.
-/

namespace Verif.Uvh5

open Verif.Np Verif.Hdf5

/-- Irregular rows, regular channels, irregular polarizations. -/
def reqA : Req := ⟨some [0, 1, 4], some [1, 3], some [0, 1, 3]⟩

theorem validA : ValidReq (5, 4, 4) reqA := by
  refine ⟨?_, ?_, ?_⟩ <;> (intro l h; cases h; decide)

example : InPart (5, 4, 4) reqA (2, 1, 2) (4, 3, 3) := ⟨rfl, rfl, rfl⟩

/-- A dataset whose elements tell where they are. -/
def ds (old : Bool) : Arr (List Nat) := ⟨pos old 1 (5, 4, 4), fun ix => ix⟩

example : (getData 5 4 4 true reqA (ds true)).map (fun o => (o.shape, o.get [2, 1, 2])) =
    some ([3, 2, 3], some [4, 0, 3, 3]) := by decide +kernel

/-- Rows in two pieces that are read as slices, all channels, one polarization, all axes at once. -/
def reqB : Req := ⟨some ((List.range 24).filter (fun i => i ≠ 12)), none, some [2]⟩

theorem validB : ValidReq (24, 4, 4) reqB := by
  refine ⟨?_, ?_, ?_⟩ <;> (intro l h; cases h; try decide)

example : multiOf true reqB = true ∧ selOf (1/10) reqB.blt = .slices [⟨some 0, some 12, some 1⟩, ⟨some 13, some 24, some 1⟩]
    ∧ isListSel (selOf (1/10) reqA.blt) = true := by decide +kernel

/-- Values in the file are rounded down to tens; histories are lists of letters and are compared as they are. -/
def cst (n : Nat) : Nat := n / 10 * 10

def same (h : Nat) (s : List Char) (h' : Nat) (s' : List Char) : Bool := decide (h = h' ∧ s = s')

def arr (k : Nat) : Block Nat := ⟨(5, 4, 4), fun c => 1000 * k + 100 * c.1 + 10 * c.2.1 + c.2.2⟩

def obj : Obj Nat (List Char) Nat Bool Nat :=
  { shape := (5, 4, 4), data := some (arr 1), flags := some ⟨(5, 4, 4), fun c => decide (c.1 = 4)⟩,
    nsamp := some (arr 2), header := 7, history := ['h'] }

def file : File Nat (List Char) Nat Bool Nat := initFile 0 0 obj

example : file.shape = obj.shape ∧ ValidReq obj.shape reqA ∧
    (partOf obj.shape reqA (arr 1)).shape = partShape obj.shape reqA ∧
    same obj.header obj.history file.header file.history = true := ⟨rfl, validA, rfl, rfl⟩

/-- What a file has in three cells, in two arrays, and its history. -/
structure View where
  a : Nat × Nat × Nat
  b : Nat × Nat × Nat
  hist : List Char
  err : Option Err
  kept : Bool
deriving DecidableEq

def view (x : Option Err × Obj Nat (List Char) Nat Bool Nat × Option (File Nat (List Char) Nat Bool Nat)) : Option View :=
  x.2.2.map (fun f => { a := (f.vis (4, 3, 3), f.vis (4, 2, 3), f.vis (0, 0, 0)),
                        b := (f.nsamp (4, 3, 3), f.nsamp (4, 2, 3), f.nsamp (0, 0, 0)),
                        hist := f.history, err := x.1, kept := x.2.1.data.isSome })

def wr (check : Bool) (r : Req) (add : Option (List Char))
    (x : Option Err × Obj Nat (List Char) Nat Bool Nat × Option (File Nat (List Char) Nat Bool Nat)) :=
  writePart same (· ++ ·) cst id check r (partOf obj.shape r (arr 1))
    (partOf obj.shape r ⟨(5, 4, 4), fun c => decide (c.1 = 4)⟩) (partOf obj.shape r (arr 2)) add x.2.1 x.2.2

example : view (wr true reqA none (none, obj, some file)) =
    some ⟨(1430, 0, 0), (2433, 0, 0), ['h'], none, true⟩ := by decide +kernel

/-- The rest of the channels: together with `reqC` and `reqD` everything is covered. -/
def reqC : Req := ⟨none, some [0, 2], none⟩

def reqD : Req := ⟨none, some [1, 3], none⟩

example : (∀ r ∈ [reqA, reqC, reqD], ValidReq obj.shape r) ∧
    (∀ t : Cell, t.1 < 5 → t.2.1 < 4 → t.2.2 < 4 → ∃ r ∈ [reqA, reqC, reqD], ∃ s, InPart obj.shape r s t) := by
  refine ⟨?_, ?_⟩
  · intro r hr
    simp only [List.mem_cons, List.not_mem_nil, or_false] at hr
    rcases hr with rfl | rfl | rfl
    · exact validA
    · refine ⟨?_, ?_, ?_⟩ <;> (intro l h; cases h; try decide)
    · refine ⟨?_, ?_, ?_⟩ <;> (intro l h; cases h; try decide)
  · rintro ⟨x, y, z⟩ hx hy hz
    simp only at hx hy hz
    have : y = 0 ∨ y = 1 ∨ y = 2 ∨ y = 3 := by omega
    rcases this with rfl | rfl | rfl | rfl
    · exact ⟨reqC, by simp, (x, 0, z), by simp [InPart, wanted, reqC, obj, hx, hz]⟩
    · exact ⟨reqD, by simp, (x, 0, z), by simp [InPart, wanted, reqD, obj, hx, hz]⟩
    · exact ⟨reqC, by simp, (x, 1, z), by simp [InPart, wanted, reqC, obj, hx, hz]⟩
    · exact ⟨reqD, by simp, (x, 1, z), by simp [InPart, wanted, reqD, obj, hx, hz]⟩

/-- An array of another shape. -/
example : ¬ ((arr 1).shape = partShape obj.shape reqA ∧ (arr 1).shape = (arr 1).shape ∧
    (arr 2).shape = (arr 1).shape) := by decide

/-- C135 fails as a whole: a part that is refused because the metadata differ takes the arrays of the object away. -/
theorem refused_counterexample :
    (writePart same (· ++ ·) cst id true reqA (partOf obj.shape reqA (arr 1))
      (partOf obj.shape reqA ⟨(5, 4, 4), fun _ => false⟩) (partOf obj.shape reqA (arr 2)) none obj
      (some { file with header := 8 })).1 = some .header ∧ obj.data.isSome = true ∧
    (writePart same (· ++ ·) cst id true reqA (partOf obj.shape reqA (arr 1))
      (partOf obj.shape reqA ⟨(5, 4, 4), fun _ => false⟩) (partOf obj.shape reqA (arr 2)) none obj
      (some { file with header := 8 })).2.1.data.isNone = true := by decide +kernel

/-- Two parts that both add to the history: the second one is refused and the object loses its arrays, although nothing
else was changed; without comparing the metadata the first addition is lost. -/
theorem history_counterexample :
    view (wr true reqC (some ['a']) (none, obj, some file)) =
        some ⟨(0, 1420, 1000), (0, 2423, 2000), ['h', 'a'], none, true⟩ ∧
      view (wr true reqD (some ['b']) (wr true reqC (some ['a']) (none, obj, some file))) =
        some ⟨(0, 1420, 1000), (0, 2423, 2000), ['h', 'a'], some .header, false⟩ ∧
      view (wr false reqD (some ['b']) (wr false reqC (some ['a']) (none, obj, some file))) =
        some ⟨(1430, 1420, 1000), (2433, 2423, 2000), ['h', 'b'], none, true⟩ := by decide +kernel

/-- The hypotheses of `second_refused`. -/
example : same obj.header obj.history file.header file.history = true ∧
    same obj.header obj.history file.header (obj.history ++ ['a']) = false := by decide

end Verif.Uvh5
