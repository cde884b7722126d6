import Mathlib.LinearAlgebra.Matrix.Notation
import Mathlib.Data.Fintype.Basic
import Mathlib.Algebra.Order.Floor.Ring
import Mathlib.Data.Rat.Floor
import Mathlib.Algebra.Order.Ring.Rat
import Verif.Common.Exc

/-!
# Model of `neutronpy/crystal/symmetry.py`

Python strings are lists of characters.  Rotation entries are integers (the parser only ever
writes -1, 0 and 1); translations are exact rationals in place of floats, and the tolerances of
the code are kept as they are.
-/

namespace Verif.Symmetry

/-- Exceptions. -/
inductive Err
  | valueError
  | keyError
  | attributeError
  | assertionError
  /-- `eval` raised, or was given an expression this model does not interpret. -/
  | evalError
  /-- Not an exception: the bound on the number of rounds was too small.  Shown impossible. -/
  | outOfFuel
  deriving DecidableEq, Repr

/-- A 4x4 operation matrix with last row (0, 0, 0, 1). -/
structure Op where
  rot : Fin 3 → Fin 3 → ℤ
  trans : Fin 3 → ℚ

theorem Op.ext_iff' {a b : Op} : a = b ↔ (∀ i j, a.rot i j = b.rot i j) ∧ ∀ i, a.trans i = b.trans i := by
  constructor
  · rintro rfl; exact ⟨fun _ _ => rfl, fun _ => rfl⟩
  · intro h
    cases a; cases b
    congr 1
    · funext i j; exact h.1 i j
    · funext i; exact h.2 i

instance : DecidableEq Op := fun a b => decidable_of_iff
  ((∀ i j, a.rot i j = b.rot i j) ∧ ∀ i, a.trans i = b.trans i) Op.ext_iff'.symm

/-! ## Strings -/

/-- `str.split(c)`. -/
def split (c : Char) : List Char → List (List Char)
  | [] => [[]]
  | x :: xs =>
    if x = c then [] :: split c xs
    else match split c xs with
      | [] => [[x]]
      | y :: ys => (x :: y) :: ys

/-- `p in s` for strings. -/
def isIn (p : List Char) : List Char → Bool
  | [] => p.isEmpty
  | x :: xs => p.isPrefixOf (x :: xs) || isIn p xs

/-- The number written by decimal digits. -/
def digits? (s : List Char) : Option ℕ :=
  if s.isEmpty then none
  else s.foldl (fun acc ch => acc.bind fun n =>
    if ch.isDigit then some (10 * n + (ch.toNat - 48)) else none) (some 0)

/-- `eval(s.replace('/', './'))` (symmetry.py 180).  Only `n` and `n/m` with decimal digits are
interpreted. -/
def evalFrac (s : List Char) : Except Err ℚ :=
  match split '/' s with
  | [n] => match digits? n with
    | some n => .ok n
    | none => .error .evalError
  | [n, m] => match digits? n, digits? m with
    | some n, some m => if m = 0 then .error .evalError else .ok ((n : ℚ) / m)
    | _, _ => .error .evalError
  | _ => .error .evalError

/-- The sign with which the variable `v` occurs (symmetry.py 182-195). -/
def entry (v : Char) (s : List Char) : ℤ :=
  if isIn ['-', v] s then -1 else if isIn [v] s then 1 else 0

/-- One component of a generator (symmetry.py 177-195): rotation row and translation. -/
def parseRow (comp : List Char) : Except Err ((Fin 3 → ℤ) × ℚ) := do
  let elements := split '+' comp
  let t ← if elements.length > 1 then evalFrac (elements.getLastD []) else pure 0
  let e := elements.headD []
  pure (![entry 'x' e, entry 'y' e, entry 'z' e], t)

/-- One generator string (symmetry.py 170-200). -/
def parseOp (gen : List Char) : Except Err Op := do
  let components := split ',' gen
  if components.length > 3 then throw .valueError
  let rows ← components.mapM parseRow
  pure { rot := fun i => (rows.getD i (0, 0)).1, trans := fun i => (rows.getD i (0, 0)).2 }

/-- `get_generator_from_str` for a list of strings (symmetry.py 157-207). -/
def getGeneratorFromStr (gens : List (List Char)) : Except Err (List Op) := gens.mapM parseOp

/-- `signs[int(col)] + np.abs(int(col)) * sym` (symmetry.py 234). -/
def fmtEntry (col : ℤ) (sym : Char) : Except Err (List Char) :=
  if col = -1 then .ok ['-', sym] else if col = 1 then .ok ['+', sym] else if col = 0 then .ok []
  else .error .keyError

/-- `np.round(x)`: to the nearest integer, halves to even. -/
def roundEven (x : ℚ) : ℤ :=
  let f := ⌊x⌋
  if x - f < 1 / 2 then f else if 1 / 2 < x - f then f + 1 else if f % 2 = 0 then f else f + 1

/-- Decimal digits of an integer. -/
def intStr (n : ℤ) : List Char :=
  if n < 0 then '-' :: Nat.toDigits 10 n.natAbs else Nat.toDigits 10 n.natAbs

/-- The translation part (symmetry.py 236-246). -/
def fmtTrans (t : ℚ) : List Char :=
  if t = 0 then []
  else if roundEven (10 * (1 / t)) = 15 then ['2', '/', '3']
  else if t = 3 / 4 then ['3', '/', '4']
  else if roundEven (1000 * t) = 833 then ['5', '/', '6']
  else ['1', '/'] ++ intStr (roundEven (1 / t))

/-- One row (symmetry.py 231-252). -/
def fmtRow (row : Fin 3 → ℤ) (t : ℚ) : Except Err (List Char) := do
  let a ← fmtEntry (row 0) 'x'
  let b ← fmtEntry (row 1) 'y'
  let c ← fmtEntry (row 2) 'z'
  let element := a ++ b ++ c
  let translate := fmtTrans t
  let element := if translate ≠ [] then element ++ ['+'] ++ translate else element
  pure (match element with
    | '+' :: rest => rest
    | e => e)

/-- `get_str_from_generator` for one operation (symmetry.py 229-258). -/
def fmtOp (op : Op) : Except Err (List Char) := do
  let a ← fmtRow (op.rot 0) (op.trans 0)
  let b ← fmtRow (op.rot 1) (op.trans 1)
  let c ← fmtRow (op.rot 2) (op.trans 2)
  pure (a ++ [','] ++ b ++ [','] ++ c)

/-! ## Generation of the operations -/

/-- `1e-15`. -/
def tol : ℚ := 1 / 10 ^ 15

/-- `op[np.where(np.abs(1 - t) < 1e-15), 3] = 0` for one entry (symmetry.py 90). -/
def snap (t : ℚ) : ℚ := if |1 - t| < tol then 0 else t

/-- One product of `np.einsum('ijk,kl', symm_ops, g)` with its translation reduced
(symmetry.py 87-90). -/
def mulRaw (s g : Op) : Op where
  rot := fun i j => ∑ k, s.rot i k * g.rot k j
  trans := fun i => snap (Int.fract ((∑ k, (s.rot i k : ℚ) * g.trans k) + s.trans i))

/-- `(np.abs(a - b) < 1e-15).all()` (symmetry.py 91). -/
def same (a b : Op) : Bool :=
  decide ((∀ i j, |((a.rot i j : ℤ) : ℚ) - b.rot i j| < tol) ∧ ∀ i, |a.trans i - b.trans i| < tol)

section
variable {α : Type} (mul : α → α → α) (same : α → α → Bool)

/-- The loop over `test_ops` (symmetry.py 88-93); the state is `(symm_ops, gen_ops)`. -/
def addNew (st : List α × List α) (op : α) : List α × List α :=
  if st.1.any (fun s => same s op) then st else (st.1 ++ [op], st.2 ++ [op])

/-- The body of the loop over `new_ops` (symmetry.py 86-93). -/
def step (st : List α × List α) (g : α) : List α × List α :=
  (st.1.map (fun s => mul s g)).foldl (addNew same) st

/-- The while loop (symmetry.py 84-94) with a bound on the number of rounds. -/
def saturate (total : ℕ) : ℕ → List α → List α → Option (List α × List α)
  | fuel, symm, new =>
    if new ≠ [] ∧ symm.length < total then
      match fuel with
      | 0 => none
      | fuel + 1 =>
        let st := new.foldl (step mul same) (symm, [])
        saturate total fuel st.1 st.2
    else some (symm, new)

end

/-- `_symmetry_operations_from_generators` (symmetry.py 82-96).  Also returns whether the loop
ended because nothing new was found. -/
def symmetryOps (gens : List Op) (total : ℕ) : Except Err (List Op × Bool) :=
  match saturate mulRaw same total (total + 1) gens gens with
  | none => .error .outOfFuel
  | some (symm, new) =>
    if symm.length = total then .ok (symm, new.isEmpty) else .error .assertionError

/-- The image of a position under one operation (symmetry.py 104). -/
noncomputable def act {K : Type} [Field K] (op : Op) (x : Fin 3 → K) : Fin 3 → K :=
  fun i => (∑ k, (op.rot i k : K) * x k) + (op.trans i : K)

/-- `symmetrize_position` (symmetry.py 98-106). -/
noncomputable def symmetrizePosition {K : Type} [Field K] (ops : List Op) (x : Fin 3 → K) :
    List (Fin 3 → K) := ops.map fun op => act op x

/-! ## Space group database -/

/-- One entry of database/symmetry.json; the fields read by `SpaceGroup.__init__`. -/
structure Entry where
  /-- dictionary key -/
  key : List Char
  number : ℕ
  fullName : List Char
  hm : List Char
  total : ℕ
  generators : List (List Char)
  deriving DecidableEq

/-- The argument of `SpaceGroup(...)`. -/
inductive Arg
  | int (n : ℤ)
  | str (s : List Char)
  | other

/-- The last entry of the dictionary satisfying a test: the loops of symmetry.py 34-43 overwrite
`_symbol` at every match. -/
def lastMatch (db : List Entry) (p : Entry → Bool) : Option Entry := (db.filter p).getLast?

/-- The lookup of `SpaceGroup.__init__` (symmetry.py 32-45); an unknown name leaves `_symbol`
unset, and reading it at line 46 raises `AttributeError`. -/
def lookup (db : List Entry) : Arg → Except Err Entry
  | .int n => match lastMatch db (fun e => (e.number : ℤ) = n) with
    | some e => .ok e
    | none => .error .attributeError
  | .str s => match db.find? (fun e => e.key = s) with
    | some e => .ok e
    | none => match lastMatch db (fun e => decide (e.hm = s) || decide (e.fullName = s)) with
      | some e => .ok e
      | none => .error .attributeError
  | .other => .error .keyError

/-- `SpaceGroup(symbol)`: the entry, the generators and the operations (symmetry.py 32-55). -/
def spaceGroup (db : List Entry) (a : Arg) : Except Err (Entry × List Op × List Op) := do
  let e ← lookup db a
  let gens ← getGeneratorFromStr e.generators
  let (ops, _) ← symmetryOps gens e.total
  pure (e, gens, ops)

/-- `group.symbol = symbol` (symmetry.py 66-68): `__init__` runs again on the object, whose
`_symbol` is the key `old` from before, so a name without a match leaves it as it was. -/
def setSymbol (db : List Entry) (old : Entry) (a : Arg) : Except Err (Entry × List Op × List Op) := do
  let e ← match lookup db a with
    | .error .attributeError => pure old
    | r => r
  let gens ← getGeneratorFromStr e.generators
  let (ops, _) ← symmetryOps gens e.total
  pure (e, gens, ops)

end Verif.Symmetry
