import Verif.FastMeta.Model

/-!
What the header of a file says, and when it is right.
-/

namespace Verif.FastMeta

open Verif.BltAxis

variable {τ L : Type} [LinearOrder τ]

/-- The number of different baselines of the data. -/
def nBl (h : Hdr τ L) : Nat := ((h.rows.map Row.bl).dedup).length

/-- The rows are baseline by baseline with time faster (`true`), or time by time (`false`). -/
def Lay (h : Hdr τ L) : Bool → Prop
  | true => BaselineMajor (h.rows.map Row.t) (h.rows.map Row.bl) (nBl h) h.ntimes
  | false => TimeMajor (h.rows.map Row.t) (h.rows.map Row.bl) (nBl h) h.ntimes

/-- The rows are a grid. -/
def Grid (h : Hdr τ L) : Prop := ∃ b, Lay h b

/-- What the header says of the rows is right.  Nothing is said of the number of baselines. -/
structure FileOK (h : Hdr τ L) : Prop where
  some_rows : h.rows ≠ []
  nblts : h.nblts = h.rows.length
  ntimes : ((h.rows.map Row.t).dedup).length = h.ntimes
  bl : ∀ r ∈ h.rows, ∀ s ∈ h.rows, r.bl = s.bl ↔ (r.a = s.a ∧ r.b = s.b)
  once : (h.rows.map (fun r => (r.bl, r.t))).Nodup
  order : ∀ ks, h.order = some ks → SortedBy ks h.rows
  rect : h.rect = some true → Grid h
  first : ∀ b, h.timeFirst = some b → Grid h → Lay h b

/-- What the caller says of the rows is right. -/
structure OptsOK (o : Opts) (h : Hdr τ L) : Prop where
  order : ∀ ks, o.order = .given ks → SortedBy ks h.rows
  rect : o.rect = some true → Grid h
  first : ∀ b, o.timeFirst = some b → Grid h → Lay h b

/-- A list of all things of a kind that the rows have, each once. -/
def Lists {β γ : Type} (l : List β) (f : γ → β) (rows : List γ) : Prop :=
  l.Nodup ∧ ∀ x, x ∈ l ↔ ∃ r ∈ rows, f r = x

end Verif.FastMeta
