import Verif.Structure.Model
import Verif.Symmetry.Database
import Verif.Energy.Model
import Mathlib.Data.List.Sort
import Mathlib.Algebra.Order.Round

/-!
# Model of `spurion.aluminum`

neutronpy/spurion.py 13-60.  The list of the printed rows; the rounding of the numbers to four and to no
decimals in the printed text is left out.
-/

namespace Verif.Structure.Spurion

open Real Verif.Crystal Verif.Symmetry

/-- One printed row (spurion.py 60): the reflection, 2θ in degrees, `|F|^2`, and the number after `lambda/`.  An
error is a printed `nan`. -/
structure Ring where
  hkl : Fin 3 → ℤ
  twoTheta : Except Fail ℝ
  f2 : Except Fail ℝ
  order : ℤ

/-- The reflections (spurion.py 36). -/
def reflections : List (Fin 3 → ℤ) := [![1, 1, 1], ![2, 0, 0], ![2, 2, 0], ![3, 1, 1]]

/-- The lattice of the dictionary (spurion.py 31). -/
noncomputable def lattice : Lattice := ⟨4.0495, 4.0495, 4.0495, 90, 90, 90⟩

/-- The entry of the composition (spurion.py 28): aluminum at the origin, with the occupancy filled in.  `b0`, `mass`
and the cross sections are those of the tables. -/
noncomputable def item (b0 : ℂ) (mass coh inc abs : ℝ) : Item :=
  { b0 := b0, mass := mass, pos := 0, occupancy := 1, uiso := none, uaniso := none,
    cohXs := coh, incXs := inc, absXs := abs }

/-- Errors of `Material(struct)`. -/
inductive BuildErr
  | symmetry (e : Symmetry.Err)
  | material (e : MErr)

/-- `Material(struct).atoms` (crystal/material.py 215-233) with the group that the name stands for. -/
noncomputable def atomsIn (group : Except Symmetry.Err (Entry × List Op × List Op)) (it : Item) :
    Except BuildErr (List Atom) :=
  match group with
  | .error e => .error (.symmetry e)
  | .ok (_, _, ops) => match atomsGroup ops [it] 1 false with
    | .error e => .error (.material e)
    | .ok as => .ok as

/-- The atoms for the dictionary in the code (spurion.py 27-38). -/
noncomputable def atoms (it : Item) : Except BuildErr (List Atom) :=
  atomsIn (spaceGroup database (.str cs!"Fm-3m")) it

/-- A row before sorting (spurion.py 47-52).  The structure factor is taken at the full wavelength `w`
(crystal/material.py 211).  `np.round` of a half goes to the even number, `round` up; the quotient here is a whole number. -/
noncomputable def row (as : List Atom) (w wavelength : ℝ) (hkl : Fin 3 → ℤ) : Ring where
  hkl := hkl
  twoTheta := lattice.getTwoTheta (fun i => hkl i) wavelength
  f2 := (calcNucStrFac lattice w as fun i => hkl i).map fun F => ‖F‖ ^ 2
  order := round (w / wavelength)

/-- The rows in the order of the two loops (spurion.py 39, 43-52). -/
noncomputable def rows (as : List Atom) (w : ℝ) : List Ring :=
  ([w / 3, w / 2, w].map fun l => reflections.map (row as w l)).flatten

/-- The order of `argsort` (spurion.py 58): by number, `nan` last. -/
def before (x y : Ring) : Prop :=
  match x.twoTheta, y.twoTheta with
  | .ok a, .ok b => a ≤ b
  | .ok _, .error _ => True
  | .error _, .ok _ => False
  | .error _, .error _ => True

open Classical in
/-- The printed rows (spurion.py 53-60).  Rows with equal angles keep their order, as in the insertion sort that
numpy uses for short arrays. -/
noncomputable def printed (as : List Atom) (w : ℝ) : List Ring := (rows as w).insertionSort before

/-- What is printed for an energy (spurion.py 26, 39-60); `none` where the energy has no wavelength, when every number
printed is `nan`. -/
noncomputable def printFor (c : Verif.Energy.Consts) (energy : ℝ) (as : List Atom) : Option (List Ring) :=
  match (Verif.Energy.derive c energy).wavelen with
  | .num w => some (printed as w)
  | _ => none

/-- `aluminum(energy)` (spurion.py 13-60). -/
noncomputable def aluminum (c : Verif.Energy.Consts) (it : Item) (energy : ℝ) : Except BuildErr (Option (List Ring)) :=
  (atoms it).map (printFor c energy)

end Verif.Structure.Spurion
