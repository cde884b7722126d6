import Mathlib.Analysis.SpecialFunctions.Complex.Circle
import Verif.Crystal.Model
import Verif.Symmetry.Model

/-!
# Model of `crystal/atom.py`, `crystal/material.py` and `crystal/structure_factors.py`

Real and complex numbers in place of floats; `nan` and infinities are error values.  Scattering
lengths and masses, which the code looks up by the name of the ion, are fields of the item.
-/

namespace Verif.Structure

open Real Matrix Verif.Crystal

/-- `Atom` objects (atom.py 38-57): the attributes used by the structure factor and the cross
sections. -/
structure Atom where
  pos : Vec
  occupancy : ℝ
  b : ℂ
  uiso : ℝ
  uaniso : Mat
  cohXs : ℝ
  incXs : ℝ
  absXs : ℝ

/-- The Debye-Waller factor with `Uiso` (structure_factors.py 55).  The code takes the scattering
angle at the *position* of the atom. -/
noncomputable def dwIso (l : Lattice) (w : ℝ) (a : Atom) : Except Fail ℝ := do
  let tt ← l.getTwoTheta a.pos w
  let q ← npDiv (-8 * π ^ 2 * a.uiso * sin (deg2rad (tt / 2)) ^ 2) (w ^ 2)
  pure (exp q)

/-- The factor with `Uaniso` (structure_factors.py 56). -/
noncomputable def dwAniso (a : Atom) : ℝ := exp (-((a.pos ᵥ* a.uaniso) ⬝ᵥ a.pos))

/-- One term of the sum (structure_factors.py 54-56). -/
noncomputable def contribution (l : Lattice) (w : ℝ) (hkl : Vec) (a : Atom) : Except Fail ℂ := do
  let d ← dwIso l w a
  pure (a.occupancy * a.b * Complex.exp (Complex.I * 2 * π *
    (hkl 0 * a.pos 0 + hkl 1 * a.pos 1 + hkl 2 * a.pos 2)) * d * dwAniso a)

/-- `calc_nuc_str_fac` at one position (structure_factors.py 22-58); arrays are treated element by
element. -/
noncomputable def calcNucStrFac (l : Lattice) (w : ℝ) (atoms : List Atom) (hkl : Vec) : Except Fail ℂ :=
  atoms.foldlM (fun s a => do pure (s + (← contribution l w hkl a))) 0

/-! ## Construction of the atoms -/

/-- An entry of `crystal['composition']` after the defaults for the occupancy have been filled in
(crystal/material.py 199-204); `b0` is the tabulated scattering length in fm, a complex number where the
table has a pair.  `none` means that the key is absent. -/
structure Item where
  b0 : ℂ
  mass : ℝ
  pos : Vec
  occupancy : ℝ
  uiso : Option ℝ
  uaniso : Option Mat
  cohXs : ℝ
  incXs : ℝ
  absXs : ℝ

/-- Errors of the constructor. -/
inductive MErr
  | keyError
  deriving DecidableEq

/-- `Atom(...)` (atom.py 38-57). -/
noncomputable def mkAtom (it : Item) (pos : Vec) (mcell : ℝ) (massNorm : Bool) (uiso : ℝ) (uaniso : Mat) : Atom where
  pos := pos
  occupancy := it.occupancy
  b := if massNorm then it.b0 * it.occupancy * mcell / (√it.mass : ℝ) else it.b0 / 10
  uiso := uiso
  uaniso := uaniso
  cohXs := it.cohXs
  incXs := it.incXs
  absXs := it.absXs

/-- `muCell` (crystal/material.py 198-202). -/
noncomputable def muCell (comp : List Item) : ℝ := (comp.map fun it => it.mass * it.occupancy).sum

/-- The atoms of a material without space group (crystal/material.py 234-249). -/
noncomputable def atomsPlain (comp : List Item) (formulaUnits : ℝ) (massNorm : Bool) : List Atom :=
  comp.map fun it => mkAtom it it.pos (muCell comp * formulaUnits) massNorm (it.uiso.getD 0) (it.uaniso.getD 0)

/-- The value of `atom['Uaniso']` in the branch with a space group (crystal/material.py 219-224).  The test
is made on `item`, which is still the last entry of the composition; for the last entry itself it
is the right test. -/
def uanisoUsed (lastHas isLast : Bool) (it : Item) : Except MErr Mat :=
  if isLast then .ok (it.uaniso.getD 0)
  else if lastHas then
    match it.uaniso with
    | some u => .ok u
    | none => .error .keyError
  else .ok 0

/-- `'Uaniso' in item` before the loop (crystal/material.py 221), with `item` left over from line 199. -/
def lastHasUaniso (comp : List Item) : Bool := match comp.getLast? with
  | some it => it.uaniso.isSome
  | none => false

/-- The atoms of a material with a space group with the operations `ops` (crystal/material.py 215-233).  The
entries of the composition are taken to be distinct dictionaries. -/
noncomputable def atomsGroup (ops : List Verif.Symmetry.Op) (comp : List Item) (formulaUnits : ℝ)
    (massNorm : Bool) : Except MErr (List Atom) := do
  let lastHas := lastHasUaniso comp
  let n := comp.length
  let blocks ← comp.zipIdx.mapM fun (it, i) => do
    let u ← uanisoUsed lastHas (i + 1 == n) it
    pure ((Verif.Symmetry.symmetrizePosition ops it.pos).map fun p =>
      mkAtom it p (muCell comp * formulaUnits) massNorm (it.uiso.getD 0) u)
  pure blocks.flatten

/-! ## Cross sections -/

/-- `N_atoms` (crystal/material.py 280-294). -/
noncomputable def nAtoms (avogadro mass : ℝ) (comp : List Item) : ℝ := avogadro * mass / muCell comp

/-- `total_scattering_cross_section` (crystal/material.py 271-278). -/
noncomputable def totalXs (atoms : List Atom) : ℝ := (atoms.map fun a => a.cohXs + a.incXs).sum

/-- The total cross section per volume in `calc_optimal_thickness` (crystal/material.py 345-349). -/
noncomputable def sigmaT (volume energy : ℝ) (atoms : List Atom) : ℝ :=
  ((atoms.map fun a => a.occupancy * a.cohXs).sum + (atoms.map fun a => a.occupancy * a.incXs).sum +
    (atoms.map fun a => a.occupancy * a.absXs).sum * √(25.3 / energy)) / volume

/-- `calc_optimal_thickness` (crystal/material.py 296-351).  The energy zero raises `ZeroDivisionError`, which is `inf` here; a negative
one gives `nan`, and so does a negative transmission.  The transmission zero has an infinite logarithm. -/
noncomputable def optimalThickness (l : Lattice) (energy transmission : ℝ) (atoms : List Atom) : Except Fail ℝ :=
  if energy = 0 then .error .inf
  else if energy < 0 then .error .nan
  else do
    let v ← l.volume
    if transmission < 0 then .error .nan
    else if transmission = 0 then .error .inf
    else npDiv (-log transmission) (sigmaT v energy atoms)

/-- `calc_incoh_elas_xs` (crystal/material.py 353-376). -/
noncomputable def incohElasXs (l : Lattice) (w : ℝ) (natoms : Option ℝ) (atoms : List Atom) : Except Fail ℝ := do
  let s ← atoms.foldlM (fun s a => do pure (s + a.incXs * (← dwIso l w a))) (0 : ℝ)
  match natoms with
  | some n => pure (n / (4 * π) * s)
  | none => pure (s / (4 * π))

/-! ## Magnetic form factor -/

/-- The seven coefficients used of a line of the table. -/
structure Coeffs where
  (c0 c1 c2 c3 c4 c5 c6 : ℝ)

/-- The sum of three Gaussians and a constant (structure_factors.py 134-136). -/
noncomputable def gauss3 (c : Coeffs) (x : ℝ) : ℝ :=
  c.c0 * exp (-c.c1 * x ^ 2) + c.c2 * exp (-c.c3 * x ^ 2) + c.c4 * exp (-c.c5 * x ^ 2) + c.c6

/-- `calc_mag_form_fac` at one `q` (structure_factors.py 129-150): form factor, j0, j2, j4. -/
noncomputable def magFormFac (j0 j2 j4 : Coeffs) (g : Option ℝ) (q : ℝ) : ℝ × ℝ × ℝ × ℝ :=
  let g := g.getD 2
  let x := q / 4 / π
  let a := gauss3 j0 x
  let b := x ^ 2 * gauss3 j2 x
  let c := x ^ 2 * gauss3 j4 x
  (a + (2 / g - 1) * b, a, b, c)

end Verif.Structure
