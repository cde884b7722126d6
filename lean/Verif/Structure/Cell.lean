import Verif.Structure.Model

/-! # Model of `plot_unit_cell` (crystal/plot.py) -/

namespace Verif.Structure.Cell

open Real
open Verif.Crystal (Vec Lattice)

/-- The exception that can occur. -/
inductive CellErr
  | attributeError
  deriving DecidableEq

/-- `itertools.combinations(l, 2)`. -/
def pairs {α : Type} : List α → List (α × α)
  | [] => []
  | x :: l => l.map (fun y => (x, y)) ++ pairs l

/-- `itertools.product([0, a], [0, b], [0, c])` (crystal/plot.py 24), with the choices as booleans. -/
def choices : List (Bool × Bool × Bool) :=
  [false, true].flatMap fun i => [false, true].flatMap fun j => [false, true].map fun k => (i, j, k)

/-- A corner of the box. -/
noncomputable def corner (l : Lattice) (p : Bool × Bool × Bool) : Vec := ![if p.1 then l.a else 0, if p.2.1 then l.b else 0, if p.2.2 then l.c else 0]

/-- `np.sum(np.abs(s - e))` (crystal/plot.py 25). -/
noncomputable def manhattan (s e : Vec) : ℝ := ∑ i, |s i - e i|

open Classical in
/-- crystal/plot.py 24-26: the lines that are drawn. -/
noncomputable def edges (l : Lattice) : List (Vec × Vec) :=
  (pairs (choices.map (corner l))).filter fun p => manhattan p.1 p.2 = l.a ∨ manhattan p.1 p.2 = l.b ∨ manhattan p.1 p.2 = l.c

/-- crystal/plot.py 29-37: the points for the atoms, given by their positions in the cell and the masses of the elements; the
attribute `mass` exists only if `massNorm` is `True` (atom.py 50-51). -/
noncomputable def scatter (l : Lattice) (massNorm : Bool) (atoms : List (Vec × ℝ)) : Except CellErr (List (Vec × ℝ)) :=
  atoms.mapM fun t => if massNorm then .ok (![t.1 0 * l.a, t.1 1 * l.b, t.1 2 * l.c], t.2) else .error .attributeError

/-- crystal/plot.py 12-42, `plot_unit_cell`: lines and points. -/
noncomputable def plotUnitCell (l : Lattice) (massNorm : Bool) (atoms : List (Vec × ℝ)) : Except CellErr (List (Vec × Vec) × List (Vec × ℝ)) := do
  return (edges l, ← scatter l massNorm atoms)

end Verif.Structure.Cell
