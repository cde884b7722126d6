import Mathlib.Data.Real.Archimedean
import Verif.Common.Exc
import Verif.Structure.FormFactors
import Verif.Structure.Model
import Verif.Symmetry.Database
import Verif.Symmetry.Model

/-! # Magnetic unit cells and the arguments of the magnetic form factor -/

namespace Verif.Structure.Magnetic

open Verif

/-! ## The magnetic unit cell -/

/-- The exceptions: those of `SpaceGroup`, and those of the cell itself. -/
inductive Err
  | key
  | noAttribute
  | symmetry (e : Symmetry.Err)

/-- An atom of the dictionary that describes the cell; a key may be missing. -/
structure AtomDict (K V : Type) where
  ion : Option (List Char)
  pos : Option (Fin 3 → K)
  moment : Option V
  occupancy : Option K

/-- The dictionary that describes the cell. Simplified: `abc` and `abg` have three numbers each. -/
structure CellDict (K V : Type) where
  chirality : Option K
  ph : Option K
  spaceGroup : Option Symmetry.Arg
  atoms : Option (List (AtomDict K V))
  propagation : Option (Fin 3 → K)
  abc : Option (Fin 3 → K)
  abg : Option (Fin 3 → K)

/-- `MagneticAtom` (neutronpy/crystal/atom.py 83-87). -/
structure MagAtom (K V : Type) where
  ion : List Char
  pos : Fin 3 → K
  moment : V
  occupancy : K

/-- `MagneticUnitCell`; an attribute that was never assigned is `none`. -/
structure MagCell (K V : Type) where
  chirality : Option K
  phase : Option K
  atoms : List (MagAtom K V)
  propagation : Fin 3 → K
  abc : Fin 3 → K
  abg : Fin 3 → K

/-- `dict[key]`. -/
def need {α : Type} : Option α → Except Err α
  | some a => .ok a
  | none => .error .key

/-- `MagneticAtom(atom['ion'], pos, atom['moment'], atom['occupancy'])` (neutronpy/crystal/material.py 33-36). -/
def mkAtom {K V : Type} (a : AtomDict K V) (pos : Fin 3 → K) : Except Err (MagAtom K V) := do
  let ion ← need a.ion
  let moment ← need a.moment
  let occupancy ← need a.occupancy
  pure ⟨ion, pos, moment, occupancy⟩

/-- A loop that appends: the first exception ends it. -/
def collect {α β : Type} (f : α → Except Err β) : List α → Except Err (List β)
  | [] => .ok []
  | a :: as => do
    let b ← f a
    let bs ← collect f as
    pure (b :: bs)

/-- The atoms made of one atom of the dictionary, with a space group (neutronpy/crystal/material.py 31-36). -/
noncomputable def images {K V : Type} [Field K] (ops : List Symmetry.Op) (a : AtomDict K V) :
    Except Err (List (MagAtom K V)) := do
  let pos ← need a.pos
  collect (mkAtom a) (Symmetry.symmetrizePosition ops pos)

/-- The atom made of one atom of the dictionary, without a space group (neutronpy/crystal/material.py 38-42). -/
def single {K V : Type} (a : AtomDict K V) : Except Err (MagAtom K V) := do
  let ion ← need a.ion
  let pos ← need a.pos
  let moment ← need a.moment
  let occupancy ← need a.occupancy
  pure ⟨ion, pos, moment, occupancy⟩

/-- The atoms of the cell (neutronpy/crystal/material.py 27-42). -/
noncomputable def cellAtoms {K V : Type} [Field K] (d : CellDict K V) : Except Err (List (MagAtom K V)) :=
  match d.spaceGroup with
  | some arg =>
    match Symmetry.spaceGroup Symmetry.database arg with
    | .error e => .error (.symmetry e)
    | .ok (_, _, ops) => do
      let as ← need d.atoms
      let l ← collect (images ops) as
      pure l.flatten
  | none => do
    let as ← need d.atoms
    collect single as

/-- `MagneticUnitCell.__init__` (neutronpy/crystal/material.py 22-48): `chirality` and `phase` are assigned only when the dictionary does not give them. -/
noncomputable def mkCell {K V : Type} [Field K] (d : CellDict K V) : Except Err (MagCell K V) := do
  let chirality := if d.chirality.isNone then some 0 else none
  let phase := if d.ph.isNone then some 0 else none
  let atoms ← cellAtoms d
  let propagation ← need d.propagation
  let abc ← need d.abc
  let abg ← need d.abg
  pure ⟨chirality, phase, atoms, propagation, abc, abg⟩

/-- Reading an attribute of the cell. -/
def read {α : Type} : Option α → Except Err α
  | some a => .ok a
  | none => .error .noAttribute

/-- The magnetic cell of a `Material` (neutronpy/crystal/material.py 251-252): the key that is asked for is not the key that is read. -/
noncomputable def materialCell {K V : Type} [Field K] (magneticUnitCell magneticCell : Option (CellDict K V)) :
    Except Err (Option (MagCell K V)) :=
  match magneticUnitCell with
  | none => .ok none
  | some _ => do
    let d ← need magneticCell
    let c ← mkCell d
    pure (some c)

/-! ## The arguments of the form factor -/

/-- The exceptions of `MagneticFormFactor`. -/
inductive FErr | key | value | type | zeroDivision
  deriving DecidableEq

/-- The argument `q`: nothing, a number, a list (or tuple), or an array. -/
inductive QArg
  | absent
  | num (q : ℝ)
  | list (qs : List ℝ)
  | array (qs : List ℝ)

/-- The names in the table of form factors; every entry has `j0`, `j2` and `j4` (neutronpy/database/magnetic_form_factors.json). -/
def ions : List (List Char) := (formFactors1 ++ formFactors2).map (·.1)

/-- `MagneticFormFactor(ion)` (neutronpy/crystal/structure_factors.py 79-86): only a `ValueError` is caught, and looking up a missing key raises `KeyError`. -/
def formFactorIon (ion : List Char) : Except FErr (List Char) :=
  if ion ∈ ions then .ok ion else .error .key

/-- `int(x)`: rounds towards zero. -/
noncomputable def pyInt (x : ℝ) : ℤ := if 0 ≤ x then ⌊x⌋ else ⌈x⌉

/-- `np.linspace(a, b, n)`: a negative number raises `ValueError`; one point is `a`. -/
noncomputable def linspace (a b : ℝ) (n : ℤ) : Except FErr (List ℝ) :=
  if n < 0 then .error .value
  else if n = 1 then .ok [a]
  else .ok ((List.range n.toNat).map fun i : ℕ => a + i * ((b - a) / ((n : ℝ) - 1)))

/-- The points of `calc_mag_form_fac` (neutronpy/crystal/structure_factors.py 123-132): the default range is from 0 to 2, and a list cannot be divided by a number. -/
noncomputable def points (q : QArg) (qrange : Option (ℝ × ℝ)) : Except FErr (List ℝ) :=
  match q with
  | .num q => .ok [q]
  | .array qs => .ok qs
  | .list _ => .error .type
  | .absent =>
    match qrange with
    | none => linspace 0 2 (pyInt (2 / 0.025) + 1)
    | some (a, b) => linspace a b (pyInt ((b - a) / 0.025) + 1)

/-- `calc_mag_form_fac` (neutronpy/crystal/structure_factors.py 91-150): the form factor and `q`, point by point. Simplified: `j0`, `j2` and `j4` are also returned by the code; a number is given as one point. -/
noncomputable def formFactor (j0 j2 j4 : Coeffs) (q : QArg) (g : Option ℝ) (qrange : Option (ℝ × ℝ)) :
    Except FErr (List (ℝ × ℝ)) := do
  let qs ← points q qrange
  if g = some 0 then throw .zeroDivision
  pure (qs.map fun q => ((magFormFac j0 j2 j4 g q).1, q))

end Verif.Structure.Magnetic
