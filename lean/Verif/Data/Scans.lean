import Verif.Data.Arith

/-!
# Model of `neutronpy/data/scans.py`

`Scans` keeps the dictionary object it is given, so that dictionary is modelled as
a cell of a store shared with the caller.  Scan values are arbitrary (`σ`).
-/

namespace Verif.Data.Scans

/-- Exceptions of this module. -/
inductive Err
  | attributeError
  | runtimeError
  | indexError
  | keyError
deriving DecidableEq, Repr

/-- An `OrderedDict`: keys in insertion order. -/
abbrev ODict (σ : Type) := List (String × σ)

/-- `d[key] = v`: an existing key keeps its place. -/
def ODict.set {σ : Type} (d : ODict σ) (k : String) (v : σ) : ODict σ :=
  if d.any (·.1 = k) then d.map fun p => if p.1 = k then (p.1, v) else p else d ++ [(k, v)]

/-- `d.update(e)`. -/
def ODict.update {σ : Type} (d e : ODict σ) : ODict σ := e.foldl (fun d p => d.set p.1 p.2) d

/-- The dictionaries in memory, by address. -/
abbrev Store (σ : Type) := List (ODict σ)

/-- A `Scans` object: `scans` is the address of the dictionary, `num_scans` is
missing (`none`) for an object made without one. -/
structure Coll where
  scans : Option Nat
  numScans : Option Nat
deriving DecidableEq, Repr

variable {σ : Type}

/-- `Scans(scans_dict)` (scans.py 35-41); the argument is an `OrderedDict` or
missing. -/
def create (st : Store σ) (arg : Option Nat) : Coll where
  scans := arg
  numScans := arg.map fun a => (st.getD a []).length

/-- `update` (scans.py 43-58): the stored dictionary is updated in place;
`num_scans` becomes the length of the *argument*. -/
def update (st : Store σ) (c : Coll) (arg : Nat) : Except Err (Store σ × Coll) :=
  match c.scans with
  | none => .error .attributeError
  | some a =>
    .ok (st.set a ((st.getD a []).update (st.getD arg [])),
      { c with numScans := some ((st.getD arg []).length) })

/-- `func_col` (scans.py 141-159): an array of `num_scans` entries, filled from the
scans in order; entries that are not filled are uninitialised memory (`none`).  The
first scan without a place is still evaluated, those after it are not. -/
def funcCol {α : Type} (st : Store σ) (c : Coll) (f : σ → Except Err α) :
    Except Err (List (Option α)) := do
  match c.scans with
  | none => .error .runtimeError
  | some a =>
    match c.numScans with
    | none => .error .attributeError
    | some n =>
      let d := st.getD a []
      let vals ← (d.take (n + 1)).mapM fun p => f p.2
      if vals.length ≤ n then return vals.map some ++ List.replicate (n - vals.length) none
      else .error .indexError

/-- A sequence of updates. -/
def updates (st : Store σ) (c : Coll) : List Nat → Except Err (Store σ × Coll)
  | [] => .ok (st, c)
  | a :: r => do
    let (st, c) ← update st c a
    updates st c r

variable {α : Type} [Field α]

/-- `pcolor` (scans.py 233-243, 268-270): cell boundaries from the centres: midpoints
inside, reflected at the two ends.  One centre gives `biny[0] = 2m - biny[1]` computed
from the zero-initialised array, then `biny[1] = 2m - biny[0]`; no centre raises. -/
def edges : List α → Except Err (List α)
  | [] => .error .indexError
  | [m] => .ok [2 * m - 0, 2 * m - (2 * m - 0)]
  | m :: m' :: r =>
    let ms := m :: m' :: r
    let mids := List.zipWith (fun a b => (a + b) / 2) ms ms.tail
    .ok ((2 * m - mids.headD 0) :: mids ++ [2 * ms.getLastD 0 - mids.getLastD 0])

end Verif.Data.Scans
