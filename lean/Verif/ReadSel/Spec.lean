import Verif.ReadSel.Model

/-! What reading with selections and reading several files is supposed to give. -/

namespace Verif.ReadSel

variable {V F A D R : Type}

/-- The keywords that only MIR files know. -/
def mirOnly : List Kw := [.corrchunk, .receivers, .sidebands, .selectWhere]

/-- A visibility meets all keywords that are given; `meets k v x` says that visibility `x` is asked for if keyword `k` is `v`. -/
def Asked (meets : Kw → V → R → Prop) (r : Req V) (x : R) : Prop := ∀ k v, r k = some v → meets k v x

/-- Selecting the visibilities that are asked for; it is refused if there is none. -/
def Selects (meets : Kw → V → R → Prop) (l : List R) (r : Req V) (out : Except Err (List R)) : Prop :=
  ∃ p : R → Bool, (∀ x ∈ l, p x = true ↔ Asked meets r x) ∧
    out = if l.filter p = [] then .error .value else .ok (l.filter p)

/-- Files are lists of visibilities; functions that read them and `select` keep those that meet the keywords they are given.
Keywords that count positions mean positions in the file, so `select` obeys them only if nothing was selected before. -/
structure Keeps (w : World V F A (List R)) (meets : Kw → V → R → Prop) (rows : F → List R) : Prop where
  full : ∀ f, rows f ≠ []
  reader : ∀ ft f aux r, ft ≠ .mir → Selects meets (rows f) r (w.reader ft f aux r)
  select : ∀ r l, l ≠ [] → (r .bltInds = none ∧ r .freqChans = none ∨ ∃ f, l = rows f) → Selects meets l r (w.select r l)

/-- `d` is a sum of these objects, each of them once and in this order, with some brackets. -/
inductive Sum (add : D → D → Except Err D) : List D → D → Prop
  | one (a : D) : Sum add [a] a
  | join {l m : List D} {a b c : D} : Sum add l a → Sum add m b → add a b = .ok c → Sum add (l ++ m) c

end Verif.ReadSel
