import Mathlib.Data.List.Sort
import Mathlib.Data.List.Nodup
import Mathlib.Data.Real.Basic
import Verif.Common.Chars

/-!
# Model of the comparison of instruments and their parts

`__eq__` of `Sample` (crystal/sample.py 150-163), `Monochromator` and `Analyzer` (instrument/monochromator.py 78-90),
`_Dummy` (instrument/tools.py 21-33, the class of guide, monitor and detector) and `TripleAxisInstrument`
(instrument/tas_instrument.py 128-141).  Numbers are real numbers, so that every number is equal to itself.
-/

namespace Verif.Instrument.Equality

/-- Values of attributes.  Arrays have one dimension here. -/
inductive Plain
  | num (x : ℝ)
  | text (s : List Char)
  | none
  | list (xs : List ℝ)
  | arr (xs : List ℝ)

/-- Exceptions of the comparison. -/
inductive EqErr
  | attributeError

open Classical in
/-- `np.all(xs == ys)` of arrays: of the same length, or one of length one, which is then compared with every element of
the other.  Otherwise numpy (before 1.25) answers `False` and warns. -/
noncomputable def sameArr (xs ys : List ℝ) : Bool :=
  if xs.length = ys.length then decide (xs = ys)
  else match xs, ys with
    | [x], ys => ys.all fun y => decide (x = y)
    | xs, [y] => xs.all fun x => decide (x = y)
    | _, _ => false

open Classical in
/-- `np.all(value == right_parent_val)` for two values that are not objects of this package (instrument/tools.py 29-30 and the same
lines of the other classes).  An array is compared with a list as with an array, with a number or `None` element by
element. -/
noncomputable def same : Plain → Plain → Bool
  | .num x, .num y => decide (x = y)
  | .text s, .text t => decide (s = t)
  | .none, .none => true
  | .list xs, .list ys => decide (xs = ys)
  | .arr xs, .arr ys => sameArr xs ys
  | .arr xs, .list ys => sameArr xs ys
  | .list xs, .arr ys => sameArr xs ys
  | .arr xs, .num y => xs.all fun x => decide (x = y)
  | .num x, .arr ys => ys.all fun y => decide (x = y)
  | .arr xs, .none => xs.isEmpty
  | .none, .arr ys => ys.isEmpty
  | _, _ => false

variable {V : Type}

/-- The `__dict__` of an object: names and values in the order of their first assignment. -/
abbrev Attrs (V : Type) := List (List Char × V)

/-- `getattr(right, key)`. -/
def Attrs.get (a : Attrs V) (k : List Char) : Option V := (a.find? fun e => e.1 = k).map Prod.snd

/-- `sorted(list(self.__dict__.keys()))`. -/
def Attrs.keys (a : Attrs V) : List (List Char) := (a.map Prod.fst).insertionSort (· ≤ ·)

/-- instrument/tools.py 28-33: the loop over the attributes. -/
def compareAll (cmp : V → V → Except EqErr Bool) (right : Attrs V) : Attrs V → Except EqErr Bool
  | [] => .ok true
  | (k, v) :: rest =>
    match right.get k with
    | none => .error .attributeError
    | some w =>
      match cmp v w with
      | .error e => .error e
      | .ok false => .ok false
      | .ok true => compareAll cmp right rest

/-- `left == right` for two objects (instrument/tools.py 21-33 and the same lines of the other classes): the classes themselves are
not compared. -/
def compareObj (cmp : V → V → Except EqErr Bool) (left right : Attrs V) : Except EqErr Bool :=
  if left.keys = right.keys then compareAll cmp right left else .ok false

/-- Comparison of two parts of an instrument. -/
noncomputable def eqPart (a b : Attrs Plain) : Except EqErr Bool := compareObj (fun v w => .ok (same v w)) a b

/-- The value of an attribute of an instrument: a part of it or something else. -/
inductive Item
  | plain (v : Plain)
  | part (a : Attrs Plain)

/-- `value == right_parent_val`.  The comparison of a part with something else asks for its `__dict__`.  (Simplified: an
array compared with a part asks once for each of its elements, and before numpy 1.25 hides the exception.) -/
noncomputable def eqItem : Item → Item → Except EqErr Bool
  | .plain v, .plain w => .ok (same v w)
  | .part a, .part b => eqPart a b
  | _, _ => .error .attributeError

/-- Comparison of two triple-axis instruments (instrument/tas_instrument.py 128-141). -/
noncomputable def eqInstr (a b : Attrs Item) : Except EqErr Bool := compareObj eqItem a b

/-- The attributes that `calc_resolution` assigns (instrument/tas_instrument.py 949, 953, 997). -/
def stored : List (List Char) := [cs!"HKLE", cs!"H", cs!"K", cs!"L", cs!"W", cs!"R0", cs!"RMS", cs!"RM"]

/-- `setattr(self, key, value)`. -/
def Attrs.set (a : Attrs V) (k : List Char) (v : V) : Attrs V :=
  if k ∈ a.map Prod.fst then a.map fun e => if e.1 = k then (k, v) else e else a ++ [(k, v)]

/-- The object after `calc_resolution` has assigned its results, whatever they are. -/
def afterCalc (a : Attrs V) (results : List Char → V) : Attrs V := stored.foldl (fun a k => a.set k (results k)) a

end Verif.Instrument.Equality
