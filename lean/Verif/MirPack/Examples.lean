import Verif.MirPack.File

/-!
# Cases that meet the hypotheses
-/

namespace Verif.MirPack

/-- Rows with two fields; the last one counts first. -/
example : groupBy (fun i => [3, 1, 3, 2, 1].getD i 0) 5 = [(1, [1, 4]), (2, [3]), (3, [0, 2])] := by decide +kernel

example := groupBy_mem (fun i => [3, 1, 3, 2, 1].getD i 0) 5 3 [0, 2]

/-- Records out of order, with a gap and of other size. -/
def recs : List Rec := [⟨7, 6, 100⟩, ⟨8, 6, 114⟩, ⟨3, 10, 0⟩]

example : mmapAll 8 recs = [(7, 100, 14), (8, 114, 14), (3, 0, 18)] := by decide +kernel

example := mmapAll_exact 8 recs (by decide)

example : fileAll 8 recs = [(7, 100, 14), (8, 114, 14), (3, 16, 18)] := by decide +kernel

example := fileAll_partial 8 6 100 (by decide) [⟨7, 6, 100⟩, ⟨8, 6, 114⟩] ⟨rfl, rfl, rfl, rfl, trivial⟩

example := fileAll_counterexample 8 ⟨7, 6, 100⟩ ⟨3, 10, 0⟩ (by decide) (by decide) (Or.inl (by decide))

def rows : List Row := [⟨1, 9, 1, -3, [5, -7]⟩, ⟨2, 4, 2, 300, [1, 2, -32768, 32767]⟩, ⟨3, 9, 1, 0, [256, -256]⟩]

theorem rows_ok : ∀ r ∈ rows, r.Ok := by
  intro r hr
  simp only [rows, List.mem_cons, List.not_mem_nil, or_false] at hr
  rcases hr with rfl | rfl | rfl <;> exact ⟨by decide, by decide, by decide⟩

def junk (n : Nat) : List Int := List.replicate n 17

theorem junk_ok : JunkOk junk := fun _ => List.length_replicate

example : ints rows = [(4, [⟨2, 4, 2, 300, [1, 2, -32768, 32767]⟩]), (9, [⟨1, 9, 1, -3, [5, -7]⟩, ⟨3, 9, 1, 0, [256, -256]⟩])] := by decide +kernel

example : writeFile junk rows = [4, 0, 0, 0, 10, 0, 0, 0, 44, 1, 1, 0, 2, 0, 0, 128, 255, 127,
    9, 0, 0, 0, 12, 0, 0, 0, 253, 255, 5, 0, 249, 255, 0, 0, 0, 1, 0, 255] := by decide +kernel

example : readFile (writeFile junk rows) (ints rows) = [(2, 300, [1, 2, -32768, 32767]), (1, -3, [5, -7]), (3, 0, [256, -256])] := by decide +kernel

example := write_read junk junk_ok rows rows_ok

theorem rows_fit : ∀ g ∈ ints rows, Fits g := by
  have : ints rows = [(4, [⟨2, 4, 2, 300, [1, 2, -32768, 32767]⟩]), (9, [⟨1, 9, 1, -3, [5, -7]⟩, ⟨3, 9, 1, 0, [256, -256]⟩])] := by decide +kernel
  rw [this]
  intro g hg
  simp only [List.mem_cons, List.not_mem_nil, or_false] at hg
  rcases hg with rfl | rfl <;> exact ⟨by decide, by decide⟩

example : scan (writeFile junk rows) = .ok [⟨4, 10, 0⟩, ⟨9, 12, 18⟩] := by decide +kernel

example := scan_write junk junk_ok rows rows_ok rows_fit

example := scan_cut junk junk_ok rows rows_ok rows_fit 30 (by decide +kernel)

example : scan ((writeFile junk rows).take 30) = .ok [⟨4, 10, 0⟩] := by decide +kernel

end Verif.MirPack
