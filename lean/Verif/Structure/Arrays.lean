import Verif.Structure.Props

/-!
# Structure factors of many reflections at once

`calc_nuc_str_fac` with lists or arrays for h, k, l.
-/

namespace Verif.Structure

open Real Matrix Verif.Crystal

/-- A number, or a one-dimensional array (lists and tuples are made arrays, crystal/structure_factors.py 43-48).
Arrays of more dimensions are not modelled. -/
inductive NumArr (β : Type)
  | num (x : β)
  | arr (xs : List β)

/-- Errors of the call: values that are not numbers, or shapes that do not fit together. -/
inductive ArrFail
  | value (e : Fail)
  | shape
  deriving DecidableEq

/-- A binary operation of numpy with broadcasting. -/
def NumArr.op {β γ δ : Type} (f : β → γ → δ) : NumArr β → NumArr γ → Except ArrFail (NumArr δ)
  | .num x, .num y => .ok (.num (f x y))
  | .num x, .arr ys => .ok (.arr (ys.map (f x)))
  | .arr xs, .num y => .ok (.arr (xs.map fun x => f x y))
  | .arr xs, .arr ys =>
    if xs.length = ys.length then .ok (.arr (List.zipWith f xs ys))
    else match xs, ys with
      | [x], ys => .ok (.arr (ys.map (f x)))
      | xs, [y] => .ok (.arr (xs.map fun x => f x y))
      | _, _ => .error .shape

/-- An operation on every entry. -/
def NumArr.map {β γ : Type} (f : β → γ) : NumArr β → NumArr γ
  | .num x => .num (f x)
  | .arr xs => .arr (xs.map f)

/-- `h * pos[0] + k * pos[1] + l * pos[2]` (crystal/structure_factors.py 54). -/
noncomputable def phaseArr (h k l : NumArr ℝ) (pos : Vec) : Except ArrFail (NumArr ℝ) := do
  let hk ← NumArr.op (· + ·) (h.map (· * pos 0)) (k.map (· * pos 1))
  NumArr.op (· + ·) hk (l.map (· * pos 2))

/-- One term of the sum (crystal/structure_factors.py 54-56). -/
noncomputable def contributionArr (lat : Lattice) (w : ℝ) (h k l : NumArr ℝ) (a : Atom) : Except ArrFail (NumArr ℂ) := do
  let p ← phaseArr h k l a.pos
  match dwIso lat w a with
  | .error e => .error (.value e)
  | .ok d => pure (p.map fun x : ℝ => a.occupancy * a.b * Complex.exp (Complex.I * 2 * π * (x : ℂ)) * d * dwAniso a)

/-- `calc_nuc_str_fac((h, k, l))` (crystal/structure_factors.py 40-58).  The sum starts with the number 0; the arrays added
in place later all have the shape of the first one. -/
noncomputable def calcNucStrFacArr (lat : Lattice) (w : ℝ) (atoms : List Atom) (h k l : NumArr ℝ) : Except ArrFail (NumArr ℂ) :=
  atoms.foldlM (fun s a => do NumArr.op (· + ·) s (← contributionArr lat w h k l a)) (.num 0)

end Verif.Structure
