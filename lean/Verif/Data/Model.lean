import Mathlib.Algebra.Order.Field.Basic
import Mathlib.Algebra.Order.Ring.Abs
import Mathlib.Data.List.Lex
import Verif.Common.Sort

/-!
# Model of `neutronpy/data/data.py`

Columns of a data set are kept in an insertion-ordered dictionary
(`OrderedDict`, data/data.py 94), modelled as an association list.  Numbers are an
arbitrary linearly ordered field `α` (exact arithmetic instead of floating
point; NaN and infinities are not modelled).  Python exceptions are values of
`Err`.
-/

namespace Verif.Data

/-- The Python exception classes that occur in the modelled code. -/
inductive Err
  | typeError | indexError | keyError | valueError | nameError | attributeError
  deriving DecidableEq, Repr

/-- `Data._data` (data/data.py 94): an ordered dictionary from column name to a
one-dimensional array. -/
abbrev Table (α : Type) := List (String × List α)

/-- `Data.data_keys` (data/data.py 95): names of the three count columns. -/
structure DataKeys where
  monitor : String
  detector : String
  time : String
  deriving DecidableEq, Repr

/-- `Data.Q_keys` (data/data.py 96): names of the five coordinate columns. -/
structure QKeys where
  h : String
  k : String
  l : String
  e : String
  temp : String
  deriving DecidableEq, Repr

/-- data/data.py 95, the default names. -/
def DataKeys.default : DataKeys := ⟨"monitor", "detector", "time"⟩

/-- data/data.py 96, the default names. -/
def QKeys.default : QKeys := ⟨"h", "k", "l", "e", "temp"⟩

/-- `list(self.data_keys.values())`, used as a membership test only. -/
def DataKeys.values (dk : DataKeys) : List String := [dk.monitor, dk.detector, dk.time]

/-- `list(self.Q_keys.values())` in the order of data/data.py 96. -/
def QKeys.values (qk : QKeys) : List String := [qk.h, qk.k, qk.l, qk.e, qk.temp]

/-- A `Data` object (data/data.py 92-132).  `err` is the attribute `_err`, a missing
attribute and the value `None` are both `none` (data/data.py 379-386 treats them
alike).  Attributes set through `**kwargs` are not modelled. -/
structure DataObj (α : Type) where
  cols : Table α
  dk : DataKeys
  qk : QKeys
  m0 : α
  t0 : α
  timeNorm : Bool
  err : Option (List α)
  deriving DecidableEq, Repr

variable {α β γ : Type}

/-- `xs[i]` for a non-negative index. -/
def getE (xs : List α) (i : Nat) : Except Err α :=
  match xs[i]? with
  | some x => .ok x
  | none => .error .indexError

/-- `d[key]` on a dictionary. -/
def Table.get (t : Table α) (key : String) : Except Err (List α) :=
  match t.lookup key with
  | some c => .ok c
  | none => .error .keyError

/-- `d[key] = value` on an ordered dictionary: replaces in place or appends. -/
def Table.put (t : Table α) (key : String) (v : List α) : Table α :=
  if (t.lookup key).isSome then t.map (fun c => if c.1 = key then (c.1, v) else c)
  else t ++ [(key, v)]

/-- numpy broadcasting of a binary operation over two one-dimensional arrays:
equal lengths are zipped, a length-one operand is repeated, anything else is a
`ValueError`. -/
def bcast (f : α → β → γ) (xs : List α) (ys : List β) : Except Err (List γ) :=
  if xs.length = ys.length then .ok (List.zipWith f xs ys)
  else match xs, ys with
    | [x], ys => .ok (ys.map (f x))
    | xs, [y] => .ok (xs.map (fun x => f x y))
    | _, _ => .error .valueError

/-- `k not in list(data_keys.values())` (data/data.py 453, 456, 467). -/
def isCount (dk : DataKeys) (key : String) : Bool := decide (key ∈ dk.values)

/-- The columns that are not count columns, in dictionary order. -/
def coordCols (dk : DataKeys) (t : Table α) : Table α := t.filter (fun c => !isCount dk c.1)

/-- `[val[i] for k, val in t.items()]` (data/data.py 453, 455-456). -/
def valsAt (t : Table α) (i : Nat) : Except Err (List α) := t.mapM (fun c => getE c.2 i)

/-- The `tols` argument of `combine_data`: a float or an array. -/
inductive Tols (α : Type)
  | scalar (t : α)
  | vec (ts : List α)
  deriving Repr

section combine
variable [Field α] [LinearOrder α]

/-- `(np.abs(orig_vals - new_vals) <= tols).all()` (data/data.py 457). -/
def within (tols : Tols α) (orig new : List α) : Except Err Bool := do
  let d ← bcast (fun x y => |x - y|) orig new
  let b ← match tols with
    | .scalar t => .ok (d.map (fun x => decide (x ≤ t)))
    | .vec ts => bcast (fun x t => decide (x ≤ t)) d ts
  return b.all id

/-- The inner loop over `j` with `break` (data/data.py 454-461), returning the index
at which it breaks, or `none` when the `else` clause runs.  `orig` are the
coordinate columns of the *original* `self._data`. -/
def findMatch (tols : Tols α) (orig : Table α) (new : List α) : List Nat → Except Err (Option Nat)
  | [] => .ok none
  | j :: js => do
    let o ← valsAt orig j
    if ← within tols o new then return some j
    else findMatch tols orig new js

/-- data/data.py 458-460: add the counts of row `i` of `obj` to row `j`. -/
def addCounts (dk : DataKeys) (obj : Table α) (i j : Nat) (temp : Table α) :
    Except Err (Table α) :=
  temp.mapM fun c =>
    if isCount dk c.1 then do
      let x ← getE c.2 j
      let y ← getE (← obj.get c.1) i
      return (c.1, c.2.set j (x + y))
    else .ok c

/-- data/data.py 463-464: append row `i` of `obj`. -/
def appendRow (obj : Table α) (i : Nat) (temp : Table α) : Except Err (Table α) :=
  temp.mapM fun c => do
    let y ← getE (← obj.get c.1) i
    return (c.1, c.2 ++ [y])

/-- One iteration of the outer loop (data/data.py 452-464). -/
def combineStep (self obj : DataObj α) (tols : Tols α) (temp : Table α) (i : Nat) :
    Except Err (Table α) := do
  let new ← valsAt (coordCols obj.dk obj.cols) i
  let n ← self.cols.get self.dk.detector
  match ← findMatch tols (coordCols self.dk self.cols) new (List.range n.length) with
  | some j => addCounts self.dk obj.cols i j temp
  | none => appendRow obj.cols i temp

/-- Lexicographic order on lists of numbers, as used by `np.lexsort`. -/
def lexLe : List α → List α → Bool
  | [], _ => true
  | _ :: _, [] => false
  | x :: xs, y :: ys => if x < y then true else if y < x then false else lexLe xs ys

/-- The sort key of row `i`: the coordinate values, last column first, because
`np.lexsort` uses its last key as the primary one (data/data.py 467).  Rows are only
read inside the bounds checked by `sortTable`. -/
def sortKey (coords : Table α) (i : Nat) : List α :=
  (coords.map (fun c => c.2.getD i 0)).reverse

/-- `ind = np.lexsort(...)`, a stable indirect sort (data/data.py 467). -/
def lexsort (coords : Table α) (n : Nat) : List Nat :=
  isort (fun i j => lexLe (sortKey coords i) (sortKey coords j)) (List.range n)

/-- `value[ind]` (data/data.py 470). -/
def take (ind : List Nat) (xs : List α) : Except Err (List α) := ind.mapM (getE xs)

/-- data/data.py 466-470.  `np.lexsort` raises `TypeError` without keys and
`ValueError` for keys of different lengths. -/
def sortTable (dk : DataKeys) (t : Table α) : Except Err (Table α) :=
  match coordCols dk t with
  | [] => .error .typeError
  | c :: cs =>
    if cs.all (fun d => d.2.length = c.2.length) then
      let ind := lexsort (c :: cs) c.2.length
      t.mapM fun d => do return (d.1, ← take ind d.2)
    else .error .valueError

/-- `tols` after data/data.py 443-448: the default is `5e-4` for each of
`len(obj._data) - len(self.data_keys)` columns. -/
def resolveTols (obj : DataObj α) : Option (Tols α) → Tols α
  | some t => t
  | none => .vec (List.replicate (obj.cols.length - 3) (5 / 10000))

/-- `combine_data` up to the choice of the destination (data/data.py 443-470): the
new column table. -/
def combineTable (self obj : DataObj α) (tols : Option (Tols α)) : Except Err (Table α) := do
  let d ← obj.cols.get obj.dk.detector
  let temp ← (List.range d.length).foldlM (combineStep self obj (resolveTols obj tols)) self.cols
  sortTable self.dk temp

/-- `Data()` (data/data.py 92-132 with default arguments): five coordinate columns and
three count columns holding a single zero; the maxima are zero. -/
def emptyData : DataObj α where
  cols := [("h", [0]), ("k", [0]), ("l", [0]), ("e", [0]), ("temp", [0]),
           ("detector", [0]), ("monitor", [0]), ("time", [0])]
  dk := .default
  qk := .default
  m0 := 0
  t0 := 0
  timeNorm := false
  err := none

/-- `combine_data(obj, tols=tols, ret=True)` (data/data.py 472-475). -/
def combineRet (self obj : DataObj α) (tols : Option (Tols α) := none) :
    Except Err (DataObj α) := do
  return { emptyData with cols := ← combineTable self obj tols }

/-- `combine_data(obj, tols=tols)` (data/data.py 476-477): the object afterwards. -/
def combineInPlace (self obj : DataObj α) (tols : Option (Tols α) := none) :
    Except Err (DataObj α) := do
  return { self with cols := ← combineTable self obj tols }

/-- The combining part of `load_data` (fileio/data.py 62-74) for files already
read into data objects: a number given as tolerance is turned into a list with
the column count of the *first* file (69-70), the first object is copied
(72-73, the variable is unbound), each further one is combined into it.  An empty
file list ends in `UnboundLocalError` at the `return`. -/
def loadFiles (tols : Tols α) : List (DataObj α) → Except Err (DataObj α)
  | [] => .error .nameError
  | d :: ds =>
    let tols := match tols with
      | .scalar t => .vec (List.replicate (d.cols.length - 3) t)
      | .vec ts => .vec ts
    ds.foldlM (fun acc e => combineInPlace acc e (some tols)) d

end combine

end Verif.Data
