import Verif.SumVis.Props
import Mathlib.Algebra.Group.Int.Defs

/-! Sums of two objects, and sums that are refused or left half done. -/

namespace Verif.SumVis
open Verif.Pol (Str)

/-- One parameter, an integer; keywords are integers. -/
def ex (flags data : Int) (file : Option (List Str)) (extra : List (Str × Int)) : Obj Int Int Int :=
  { params := [("flag_array".toList, flags)], data := data, history := "a".toList, extra := extra, filename := file,
    form := 1 }

def sum (ov : List (Option Str)) (x y : Obj Int Int Int) : Obj Int Int Int × Option Err :=
  sumVis (fun p q => decide (p = q)) (fun _ => true) false false true ov x y

def diff (ov : List (Option Str)) (x y : Obj Int Int Int) : Obj Int Int Int × Option Err :=
  sumVis (fun p q => decide (p = q)) (fun _ => true) true false true ov x y

structure View where
  params : List (Str × Int)
  data : Int
  history : Str
  extra : List (Str × Int)
  filename : Option (List Str)
  err : Option Err
deriving DecidableEq

def view (z : Obj Int Int Int × Option Err) : View := ⟨z.1.params, z.1.data, z.1.history, z.1.extra, z.1.filename, z.2⟩

def file1 : Option (List Str) := some [['a']]
def file2 : Option (List Str) := some [['b']]

def exX : Obj Int Int Int := ex 7 20 file1 [(['k'], 1), (['l'], 2)]
def exY : Obj Int Int Int := ex 7 22 file1 [(['m'], 3), (['k'], 4)]

example : view (sum [] exX exY) = ⟨[("flag_array".toList, 7)], 42, "a Visibilities summed using pyuvdata.".toList,
    [(['m'], 3), (['k'], 1), (['l'], 2)], file1, none⟩ := by decide +kernel

example : (view (diff [] (sum [] exX exY).1 exY)).data = 20 ∧ (diff [] (sum [] exX exY).1 exY).2 = none := by
  decide +kernel

theorem ex_sound (f d : Int) (file : Option (List Str)) (e : List (Str × Int)) : Sound (ex f d file e) := by
  constructor
  · simp [ex]
  · intro n hn
    have : n = "flag_array".toList := by simpa [ex] using hn
    subst this
    decide

/-- The hypotheses of `accepted_iff` with an override. -/
example : Sound exX ∧ Sound (ex 8 1 file1 []) ∧ check (fun _ => true) exX = true ∧
    Understood exX [some "flag_array".toList] ∧ Agree (fun p q : Int => decide (p = q)) exX (ex 8 1 file1 []) (Named [some "flag_array".toList]) := by
  refine ⟨ex_sound _ _ _ _, ex_sound _ _ _ _, by decide +kernel, ?_, ?_, ?_⟩
  · intro e he
    simp only [List.mem_singleton] at he
    exact ⟨_, he, by decide, by decide⟩
  · intro n p hnp hne
    have : n = "flag_array".toList := by
      have : (n, p) = ("flag_array".toList, (7 : Int)) := by simpa [exX, ex] using hnp
      exact (Prod.mk.inj this).1
    subst this
    exact absurd (Or.inl ⟨by simp, by decide⟩) hne
  · intro _; rfl

/-- Different flags are refused, unless they are overridden. -/
example : (sum [] exX (ex 8 1 file1 [])).2 = some .differs ∧
    (sum [some "flag_array".toList] exX (ex 8 1 file1 [])).2 = none ∧
    (sum [some "_flag_array".toList] exX (ex 8 1 file1 [])).2 = none ∧
    (sum [some "flag".toList] exX (ex 8 1 file1 [])).2 = some .unknownParam := by decide +kernel

/-- Objects that differ in nothing but their data and the file they were read from are refused, though objects count as
equal whatever their files. -/
theorem files_counterexample : (sum [] exX { exY with filename := file2 }).2 = some .differs := by decide +kernel

/-- If the file name is overridden, the check of the sum fails, since it has two names and one is expected; the object
has been changed in place. -/
theorem files_override_counterexample :
    (sum [some nameFile] exX { exY with filename := file2 }).2 = some .checkFinal ∧
      (sum [some nameFile] exX { exY with filename := file2 }).1.data = 42 := by decide +kernel

/-- One override that is not a string switches all of them off, without an error. -/
theorem nonstring_counterexample :
    (sum [some "flag_array".toList, none] exX (ex 8 1 file1 [])).2 = some .differs ∧
      (sum [none, some "no name".toList] exX exY).2 = none := by decide +kernel

end Verif.SumVis
