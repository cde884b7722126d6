import Verif.Data.Model

/-!
# Model of the rest of `neutronpy/data/data.py`

Construction, normalised intensity and error, background subtraction, scaling,
assignment of columns, comparison and the operator methods.  The square root is
a parameter (`Real.sqrt` in the theorems) so that the definitions stay
computable.  Division is division in the field; theorems assume non-zero
monitors (numpy would give `nan` or `inf`).
-/

namespace Verif.Data

variable {α : Type} [Field α] [LinearOrder α]

/-- `np.nanmax` of a one-dimensional array; `ValueError` for an empty one. -/
def nanmax : List α → Except Err α
  | [] => .error .valueError
  | x :: xs => .ok (xs.foldl max x)

/-- `Data.detector` (data/data.py 219-223). -/
def DataObj.detector (d : DataObj α) : Except Err (List α) := d.cols.get d.dk.detector

/-- `Data.monitor` (data/data.py 229-233). -/
def DataObj.monitor (d : DataObj α) : Except Err (List α) := d.cols.get d.dk.monitor

/-- `Data.time` (data/data.py 239-243). -/
def DataObj.time (d : DataObj α) : Except Err (List α) := d.cols.get d.dk.time

/-- data/data.py 365-371 / 388-395: the normaliser, which is recomputed and stored when
it is zero, and the column to divide by. -/
def normalise (d : DataObj α) : Except Err (DataObj α × List α × α) := do
  if d.timeNorm then
    let t ← d.time
    let t0 ← if d.t0 = 0 then nanmax t else .ok d.t0
    return ({ d with t0 := t0 }, t, t0)
  else
    let m ← d.monitor
    let m0 ← if d.m0 = 0 then nanmax m else .ok d.m0
    return ({ d with m0 := m0 }, m, m0)

/-- `Data.intensity` (data/data.py 360-372).  Reading it may store the normaliser, so
the object afterwards is returned too. -/
def intensity (d : DataObj α) : Except Err (List α × DataObj α) := do
  let (d', m, m0) ← normalise d
  let q ← bcast (· / ·) (← d'.detector) m
  return (q.map (· * m0), d')

/-- data/data.py 379-386: the stored error, or the square root of the counts. -/
def rawError (sqrt : α → α) (d : DataObj α) : Except Err (List α) :=
  match d.err with
  | some e => .ok e
  | none => do return (← d.detector).map sqrt

/-- `Data.error` (data/data.py 375-395). -/
def error (sqrt : α → α) (d : DataObj α) : Except Err (List α × DataObj α) := do
  let e ← rawError sqrt d
  let (d', m, m0) ← normalise d
  let q ← bcast (· / ·) e m
  return (q.map (· * m0), d')

/-- data/data.py 543-559: the object that holds the result of a subtraction, made
from (a copy of) `self`. -/
def withSubtracted (d : DataObj α) (int err : List α) : DataObj α :=
  { d with
    t0 := 1
    m0 := 1
    err := some err
    cols := ((d.cols.put d.dk.detector int).put d.dk.monitor
      (List.replicate int.length 1)).put d.dk.time (List.replicate int.length 1) }

/-- `subtract_background(background_data)` with `x=None` (data/data.py 502-513,
543-559).  Returned are the result object and the two operands afterwards (their
normalisers may have been stored).  With `ret=False` the result object is `self`
itself.  `isinstance` and the warning about different normalisations have no
effect on the result. -/
def subtract (sqrt : α → α) (self bg : DataObj α) :
    Except Err (DataObj α × DataObj α × DataObj α) := do
  let (i1, self) ← intensity self
  let (i2, bg) ← intensity bg
  let int ← bcast (· - ·) i1 i2
  let (e1, self) ← error sqrt self
  let (e2, bg) ← error sqrt bg
  let err := List.zipWith (fun a b => sqrt (max (a ^ 2) (b ^ 2))) e1 e2
  return (withSubtracted self int err, self, bg)

/-- The value to interpolate with: `griddata(bg_x, v, self_x, method='nearest')`
takes, for every point, the value at a nearest background point; `pick` is the
index scipy chooses (which one for ties is not specified). -/
def nearestGrid (pick : List α → α → Nat) (bgx v selfx : List α) : Except Err (List α) :=
  selfx.mapM fun x => getE v (pick bgx x)

/-- data/data.py 518-526: look up the axis by column name, then by role. -/
def axis (d : DataObj α) (qk : QKeys) (x : String) : Except Err (List α) :=
  match d.cols.get x with
  | .ok c => .ok c
  | .error _ =>
    match [("h", qk.h), ("k", qk.k), ("l", qk.l), ("e", qk.e), ("temp", qk.temp)].lookup x with
    | none => .error .keyError
    | some key => d.cols.get key

/-- `subtract_background(background_data, x=x)` (data/data.py 517-559).  Python tries
the name on both objects and falls back for both together; here the fallback is
taken per object (the same when both have the same columns). -/
def subtractAt (sqrt : α → α) (pick : List α → α → Nat) (self bg : DataObj α) (x : String) :
    Except Err (DataObj α) := do
  let bgx ← axis bg self.qk x
  let selfx ← axis self self.qk x
  let (i2, bg) ← intensity bg
  let gi ← nearestGrid pick bgx i2 selfx
  let (e2, _) ← error sqrt bg
  let ge ← nearestGrid pick bgx (e2.map (· ^ 2)) selfx
  let (i1, self) ← intensity self
  let int ← bcast (· - ·) i1 gi
  let (e1, self) ← error sqrt self
  let err := List.zipWith (fun a b => sqrt (max (a ^ 2) (b ^ 2))) e1 (ge.map sqrt)
  return withSubtracted self int err

/-- `__mul__` (data/data.py 158-161) for a number. -/
def mul (d : DataObj α) (c : α) : Except Err (DataObj α) := do
  return { d with cols := d.cols.put d.dk.detector ((← d.detector).map (· * c)) }

/-- `__truediv__` / `__div__` (data/data.py 166-169, 174-177) for a number. -/
def div (d : DataObj α) (c : α) : Except Err (DataObj α) := do
  return { d with cols := d.cols.put d.dk.detector ((← d.detector).map (· / c)) }

/-- A constructor or setter argument: a number or a one-dimensional array. -/
inductive Arg (α : Type)
  | num (x : α)
  | arr (xs : List α)
  deriving Repr

/-- `np.array([arg] * n)` for numbers, the array itself otherwise. -/
def Arg.spread (n : Nat) : Arg α → List α
  | .num x => List.replicate n x
  | .arr xs => xs

/-- The setters of `h`, `k`, `l`, `e`, `temp` (data/data.py 257-357); `key` is the
column name `Q_keys[..]`. -/
def setCoord (d : DataObj α) (key : String) (v : Arg α) : Except Err (DataObj α) := do
  let det ← d.detector
  let v := v.spread det.length
  if v.length ≠ det.length then .error .valueError
  else return { d with cols := d.cols.put key v }

/-- The setter of `error` (data/data.py 397-407). -/
def setError (d : DataObj α) (v : Arg α) : Except Err (DataObj α) := do
  let det ← d.detector
  let v := v.spread det.length
  if v.length ≠ det.length then .error .valueError
  else return { d with err := some v }

/-- The setters of `detector`, `monitor`, `time` (data/data.py 225-247): no check. -/
def setCount (d : DataObj α) (key : String) (v : List α) : DataObj α :=
  { d with cols := d.cols.put key v }

/-- Length of an argument, `none` for numbers (data/data.py 100-101). -/
def Arg.len? : Arg α → Option Nat
  | .num _ => none
  | .arr xs => some xs.length

/-- Keyword arguments of the constructor. -/
structure CtorArgs (α : Type) where
  h : Arg α
  k : Arg α
  l : Arg α
  e : Arg α
  temp : Arg α
  detector : Arg α
  monitor : Arg α
  time : Arg α

/-- Storing the three count columns and the maxima (data/data.py 119-126). -/
def finishCtor (cols : Table α) (n : Nat) (det mon time : Arg α) : Except Err (DataObj α) := do
  let cols := ((cols.put "detector" (det.spread n)).put "monitor" (mon.spread n)).put
    "time" (time.spread n)
  return { cols := cols, dk := .default, qk := .default, m0 := ← nanmax (mon.spread n),
           t0 := ← nanmax (time.spread n), timeNorm := false, err := none }

/-- data/data.py 99-103: the longest length, 1 if there is none. -/
def maxLen : List Nat → Nat
  | [] => 1
  | x :: xs => xs.foldl max x

/-- `Data(h=.., k=.., ...)` without `Q` (data/data.py 92-117, 119-126): the length is
the longest array argument, 1 if there is none. -/
def mkData (a : CtorArgs α) : Except Err (DataObj α) :=
  let lens := [a.h, a.k, a.l, a.e, a.temp, a.detector, a.monitor, a.time].filterMap Arg.len?
  let n := maxLen lens
  finishCtor [("h", a.h.spread n), ("k", a.k.spread n), ("l", a.l.spread n), ("e", a.e.spread n),
    ("temp", a.temp.spread n)] n a.detector a.monitor a.time

/-- `Data(Q=Q, ...)` (data/data.py 115-117, 119-126): `Q` is a list of rows; the setter
(214-217) stores its columns for as many of h, k, l, e, temp as there are, and the
number of points is taken to be `Q.shape[1]`, the number of *columns*. -/
def mkDataQ (Q : List (List α)) (ncols : Nat) (det mon time : Arg α) : Except Err (DataObj α) := do
  let names := ["h", "k", "l", "e", "temp"]
  let cols ← (List.range (min ncols 5)).mapM fun j => do
    return (← getE names j, ← Q.mapM fun row => getE row j)
  finishCtor cols ncols det mon time

/-- `np.all(value == other)` for arrays (data/data.py 200): broadcasting, `False` for
incompatible shapes. -/
def arrEq (xs ys : List α) : Bool :=
  match bcast (fun x y => decide (x = y)) xs ys with
  | .ok b => b.all id
  | .error _ => false

/-- `Data.__eq__` (data/data.py 195-203).  Dictionary keys are compared as sorted
lists. -/
def eqData (a b : DataObj α) : Except Err Bool :=
  if isort (fun x y => decide (x ≤ y)) (a.cols.map Prod.fst) =
      isort (fun x y => decide (x ≤ y)) (b.cols.map Prod.fst) then do
    let rs ← a.cols.mapM fun c => do return arrEq c.2 (← b.cols.get c.1)
    return rs.all id
  else .ok false

/-- The value of a Python variable: `None` or a data object. -/
inductive PyVal (α : Type)
  | none
  | data (d : DataObj α)
  deriving DecidableEq

/-- Operands of the augmented assignments. -/
inductive AugOp (α : Type)
  | add (x : DataObj α)
  | sub (x : DataObj α)
  | mul (c : α)
  | div (c : α)
  | floordiv (c : α)

/-- The in-place methods `__iadd__`, `__isub__`, `__imul__`, `__itruediv__`,
`__ifloordiv__` (data/data.py 140-188): the object afterwards and the value the method
returns.  None of them has a `return` statement, so the value is `None`;
`__ifloordiv__` refers to an undefined name. -/
def inplace (sqrt : α → α) (d : DataObj α) : AugOp α → Except Err (DataObj α × PyVal α)
  | .add x => do return (← combineInPlace d x, .none)
  | .sub x => do return ((← subtract sqrt d x).1, .none)
  | .mul c => do return (← Data.mul d c, .none)
  | .div c => do return (← Data.div d c, .none)
  | .floordiv _ => .error .nameError

/-- The binary operators `+`, `-`, `*`, `/`, `//` (data/data.py 134-138, 146-150,
158-161, 166-169, 174-177, 182-185); `fl` rounds down. -/
def binary (sqrt fl : α → α) (d : DataObj α) : AugOp α → Except Err (DataObj α)
  | .add x => combineRet d x
  | .sub x => do return (← subtract sqrt d x).1
  | .mul c => Data.mul d c
  | .div c => Data.div d c
  | .floordiv c => do
    return { d with cols := d.cols.put d.dk.detector ((← d.detector).map fun x => fl (x / c)) }

/-- The statement `var op= operand`: Python calls the in-place method and binds
the variable to what it *returns*.  On `None` every operator is a `TypeError`. -/
def augAssign (sqrt : α → α) (v : PyVal α) (op : AugOp α) : Except Err (PyVal α) :=
  match v with
  | .none => .error .typeError
  | .data d => do return (← inplace sqrt d op).2

/-- The five coordinates. -/
inductive QName
  | h | k | l | e | temp
  deriving DecidableEq, Repr

/-- `self.Q_keys[..]`. -/
def QKeys.at (qk : QKeys) : QName → String
  | .h => qk.h
  | .k => qk.k
  | .l => qk.l
  | .e => qk.e
  | .temp => qk.temp

/-- An assignment `d.h = v`, ..., `d.temp = v` or `d.error = v`. -/
inductive SetOp (α : Type)
  | coord (q : QName) (v : Arg α)
  | err (v : Arg α)

/-- One assignment statement. -/
def assign (d : DataObj α) : SetOp α → Except Err (DataObj α)
  | .coord q v => setCoord d (d.qk.at q) v
  | .err v => setError d v

/-- A program of assignments in which exceptions are caught: a failed assignment
raises before anything is stored. -/
def assigns (d : DataObj α) (ops : List (SetOp α)) : DataObj α :=
  ops.foldl (fun d op => match assign d op with | .ok d' => d' | .error _ => d) d

/-- Operations that rebind a variable to a result object, and reading the
intensity.  `addInPlace` (`d.combine_data(x)`) and `setMonitor` change the object
itself. -/
inductive HistOp (α : Type)
  | add (x : DataObj α) (tols : Option (Tols α))
  | sub (x : DataObj α)
  | mul (c : α)
  | div (c : α)
  | readIntensity
  | addInPlace (x : DataObj α) (tols : Option (Tols α))
  | setMonitor (m : List α)

/-- One operation of a history. -/
def histStep (sqrt : α → α) (d : DataObj α) : HistOp α → Except Err (DataObj α)
  | .add x tols => combineRet d x tols
  | .sub x => do return (← subtract sqrt d x).1
  | .mul c => Data.mul d c
  | .div c => Data.div d c
  | .readIntensity => do return (← intensity d).2
  | .addInPlace x tols => combineInPlace d x tols
  | .setMonitor m => .ok (setCount d d.dk.monitor m)

/-- A history of operations. -/
def hist (sqrt : α → α) (d : DataObj α) (ops : List (HistOp α)) : Except Err (DataObj α) :=
  ops.foldlM (histStep sqrt) d

end Verif.Data
