import Verif.Symmetry.Model

/-! # The rotations and translations of operations

`get_formatted_operations`, `get_rotation` and `get_translation` of `neutronpy/crystal/symmetry.py`. -/

namespace Verif.Symmetry

/-- A 4x4 matrix. -/
abbrev Mat4 : Type := Fin 4 → Fin 4 → ℚ

/-- The matrix of an operation, with the last row (0, 0, 0, 1) (neutronpy/crystal/symmetry.py 197-200). -/
def Op.matrix (op : Op) : Mat4 := fun i j =>
  if hi : i.val < 3 then
    if hj : j.val < 3 then (op.rot ⟨i.val, hi⟩ ⟨j.val, hj⟩ : ℚ) else op.trans ⟨i.val, hi⟩
  else if j.val = 3 then 1 else 0

/-- What `get_rotation` and `get_translation` can be given: a text, a list of texts, an array with two dimensions, a list of such arrays, or an array with three dimensions. -/
inductive Operations
  | text (s : List Char)
  | texts (l : List (List Char))
  | array (m : Mat4)
  | arrays (l : List Mat4)
  | stack (l : List Mat4)

/-- An array in the list of formatted operations, with two or three dimensions. -/
inductive Item
  | array (m : Mat4)
  | stack (l : List Mat4)

/-- The exceptions: `IndexError` and those of the parser. -/
inductive PartErr
  | index
  | parse (e : Err)

/-- `get_generator_from_str` as a list of arrays (neutronpy/crystal/symmetry.py 155-206). -/
def parsed (l : List (List Char)) : Except PartErr (List Item) :=
  match getGeneratorFromStr l with
  | .error e => .error (.parse e)
  | .ok ops => .ok (ops.map fun op => .array op.matrix)

/-- `get_formatted_operations` (neutronpy/crystal/symmetry.py 109-126); the first element of a list is looked at. -/
def formatted : Operations → Except PartErr (List Item)
  | .text s => parsed [s]
  | .texts [] => .error .index
  | .texts (s :: l) => parsed (s :: l)
  | .array m => .ok [.array m]
  | .arrays [] => .error .index
  | .arrays (m :: l) => .ok ((m :: l).map .array)
  | .stack l => .ok [.stack l]

/-- `operation[:3, :3]` and `operation[:3, 3]`: of an array with two dimensions the rotation or the translation; of one with three the first three matrices, and of these the first three rows or the last row. -/
inductive Piece (α β : Type)
  | part (a : α)
  | block (l : List β)

/-- `operation[:3, :3]` (neutronpy/crystal/symmetry.py 135). -/
def rotationOf : Item → Piece (Fin 3 → Fin 3 → ℚ) (Fin 3 → Fin 4 → ℚ)
  | .array m => .part fun i j => m i.castSucc j.castSucc
  | .stack l => .block ((l.take 3).map fun m i j => m i.castSucc j)

/-- `operation[:3, 3]` (neutronpy/crystal/symmetry.py 149). -/
def translationOf : Item → Piece (Fin 3 → ℚ) (Fin 4 → ℚ)
  | .array m => .part fun i => m i.castSucc 3
  | .stack l => .block ((l.take 3).map fun m j => m 3 j)

/-- A list of one is replaced by its element. -/
inductive Out (α : Type)
  | one (a : α)
  | many (l : List α)

/-- `if len(l) == 1: l = l[0]` (neutronpy/crystal/symmetry.py 137-138, 151-152). -/
def unpack {α : Type} : List α → Out α
  | [a] => .one a
  | l => .many l

/-- `get_rotation` (neutronpy/crystal/symmetry.py 129-140). -/
def getRotation (ops : Operations) : Except PartErr (Out (Piece (Fin 3 → Fin 3 → ℚ) (Fin 3 → Fin 4 → ℚ))) := do
  let l ← formatted ops
  pure (unpack (l.map rotationOf))

/-- `get_translation` (neutronpy/crystal/symmetry.py 143-154). -/
def getTranslation (ops : Operations) : Except PartErr (Out (Piece (Fin 3 → ℚ) (Fin 4 → ℚ))) := do
  let l ← formatted ops
  pure (unpack (l.map translationOf))

end Verif.Symmetry
