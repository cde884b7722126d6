import Verif.Tools.Model
import Mathlib.Analysis.SpecialFunctions.Trigonometric.Arctan

/-!
# Model of the components of an instrument

`neutronpy/instrument/monochromator.py`, `analyzer.py`, `chopper.py`, `goniometer.py`, and the
constructors in `neutronpy/crystal/sample.py` and `material.py`.
-/

namespace Verif.Instrument

open Real Matrix
open Verif.Tools (TauArg TauErr Caller getTau)
open Verif.Crystal (Fail npSqrt npArccos npDiv)

/-! ## The crystal's `tau` -/

/-- The part of a `Monochromator` or `Analyzer` that its `tau` is stored in. -/
structure Crystal where
  tau : TauArg
  d : ℝ

/-- Exceptions of the assignment. -/
inductive SetErr
  | tau (e : TauErr)
  | zeroDivisionError

/-- `2 * np.pi / GetTau(tau)` (monochromator.py 59, 102), Python floats.  `GetTau` returns `None` only for
callers of another class. -/
noncomputable def spacing (caller : Caller) (tau : TauArg) : Except SetErr ℝ :=
  match getTau caller tau with
  | .error e => .error (.tau e)
  | .ok none => .error .zeroDivisionError
  | .ok (some t) => if t = 0 then .error .zeroDivisionError else .ok (2 * π / t)

/-- The constructor, as far as `tau` is concerned (monochromator.py 54, 59). -/
noncomputable def create (caller : Caller) (tau : TauArg) : Except SetErr Crystal := do
  return ⟨tau, ← spacing caller tau⟩

/-- `crystal.tau = tau` (monochromator.py 99-102): the object afterwards, and the exception if one is raised.
`_tau` is assigned before the spacing is computed. -/
noncomputable def setTau (caller : Caller) (c : Crystal) (tau : TauArg) : Crystal × Option SetErr :=
  match spacing caller tau with
  | .ok d => (⟨tau, d⟩, none)
  | .error e => ({ c with tau := tau }, some e)

/-- A history of assignments, exceptions being caught by the user. -/
noncomputable def runTau (caller : Caller) (c : Crystal) : List TauArg → Crystal
  | [] => c
  | t :: ts => runTau caller (setTau caller c t).1 ts

/-! ## Keyword arguments -/

/-- Attributes by name; `none` is an attribute that does not exist, or is `None`. -/
abbrev Attrs (κ α : Type) := κ → Option α

/-- Keywords of `Monochromator` and `Analyzer`. -/
inductive Kw
  | tau | mosaic | direct | vmosaic | height | width | depth | rh | rv | horifoc | thickness | Q
  deriving DecidableEq

/-- Read the attribute named like a keyword after `Monochromator(...)` (monochromator.py 53-69, 96-97,
104-106); `args k = none` means that the keyword was not given or given as `None`.  `tau` and `mosaic` are
required. -/
def monochromator {α : Type} (defaultDirect : α) (args : Attrs Kw α) : Attrs Kw α
  | .tau => args .tau
  | .mosaic => args .mosaic
  | .direct => some ((args .direct).getD defaultDirect)
  | .vmosaic => args .vmosaic
  | .height => args .height
  | .width => args .width
  | .depth => args .depth
  | .rh => args .rh
  | .rv => args .rv
  | .horifoc | .thickness | .Q => none

/-- `Analyzer(...)` (analyzer.py 65-73): the base class gets literal defaults in place of most arguments. -/
def analyzer {α : Type} (defaultDirect defaultHorifoc : α) (args : Attrs Kw α) : Attrs Kw α :=
  let base := monochromator defaultDirect fun
    | .tau => args .tau
    | .mosaic => args .mosaic
    | .direct => some defaultDirect
    | _ => none
  fun
    | .thickness => args .thickness
    | .Q => args .Q
    | .horifoc => some ((args .horifoc).getD defaultHorifoc)
    | k => base k

/-- Keywords of `Sample`. -/
inductive SKw
  | a | b | c | alpha | beta | gamma | u | v | mosaic | vmosaic | direct | width | height | depth | shape | distance
  deriving DecidableEq

/-- Attributes of a `Sample` after `Sample(...)` (crystal/sample.py 118-141, lattice.py 77-79); the shape is stored as
`shape_type`, and there is no attribute `shape`. -/
def sample {α : Type} (defaultDirect : α) (args : Attrs SKw α) : Attrs SKw α
  | .direct => some ((args .direct).getD defaultDirect)
  | .shape => none
  | k => args k

/-- `Material(crystal)`, the keys that are passed to `Sample` (crystal/material.py 254-266): five of them
positionally, in another order than `Sample` has.  `crystal['dir']` is the key named `direct` here.
`dir` has the default `1`.  The other keywords of `Sample` cannot be given. -/
def material {α : Type} (defaultDir : α) (crystal : Attrs SKw α) : Attrs SKw α :=
  fun
    | .u => crystal .mosaic
    | .v => crystal .vmosaic
    | .mosaic => some ((crystal .direct).getD defaultDir)
    | .vmosaic => crystal .u
    | .direct => crystal .v
    | .width | .height | .depth | .distance | .shape => none
    | k => crystal k

/-! ## Chopper -/

/-- A `Chopper` (chopper.py 63-78). -/
structure Chopper where
  speed : ℝ
  width : ℝ
  kind : List Char
  acceptance : ℝ
  counterRot : Bool
  radius : Option ℝ
  depth : Option ℝ
  tauOverride : Option ℝ

/-- Exceptions of `tau` and `repr`. -/
inductive ChopErr
  | chopperError
  | zeroDivisionError
  | indexError
  deriving DecidableEq

open Classical in
/-- Python division. -/
noncomputable def pyDiv (x y : ℝ) : Except ChopErr ℝ := if y = 0 then .error .zeroDivisionError else .ok (x / y)

/-- `Chopper.tau` (chopper.py 88-112).  `~hasattr(...)` is `-1` or `-2`, both true.  The division by a zero
arctangent, which numpy turns into an infinity, is an error here. -/
noncomputable def Chopper.tau (c : Chopper) : Except ChopErr ℝ :=
  let counter : ℝ := if c.counterRot then 2 else 1
  match c.tauOverride with
  | some t => .ok t
  | none =>
    if c.kind = cs!"disk" then
      match c.radius with
      | some r => do return (← pyDiv c.acceptance (r * c.speed * counter)) / √(8 * log 2)
      | none => do return (← pyDiv (10 ^ 6) (c.speed * c.acceptance * counter)) / 360
    else if c.kind = cs!"fermi" then
      match c.depth with
      | none => .error .chopperError
      | some d => do
        let q ← pyDiv c.acceptance d
        return (← pyDiv (10 ^ 6) (c.speed * 2 * arctan q)) / 360
    else .error .chopperError

/-- `repr(chopper)` (chopper.py 81-86), whether it fails: `tau` is formatted, and the format string has two fields
for one argument.  (`getattr` with a default hides only an `AttributeError`.) -/
noncomputable def Chopper.repr (c : Chopper) : Except ChopErr Unit :=
  if c.depth.isSome then .error .indexError
  else match c.tau with
    | .error e => .error e
    | .ok _ => .error .indexError

/-! ## Goniometer -/

/-- A `Goniometer` (goniometer.py 33-43), angles in degrees. -/
structure Goniometer where
  u : Fin 3 → ℝ
  thetaU : ℝ
  v : Fin 3 → ℝ
  thetaV : ℝ
  sgu : ℝ
  sgl : ℝ
  omega : ℝ

/-- Ways in which an attribute of a goniometer yields no value. -/
inductive GonioErr
  | recursionError
  | linAlgError
  deriving DecidableEq

namespace Goniometer

variable (g : Goniometer)

/-- `np.deg2rad`. -/
noncomputable def rad (x : ℝ) : ℝ := x * π / 180

/-- `N` (goniometer.py 69-73). -/
noncomputable def N : Matrix (Fin 3) (Fin 3) ℝ :=
  !![1, 0, 0; 0, cos (rad g.sgu), -sin (rad g.sgu); 0, sin (rad g.sgu), cos (rad g.sgu)]

/-- `M` (goniometer.py 75-79). -/
noncomputable def M : Matrix (Fin 3) (Fin 3) ℝ :=
  !![cos (rad g.sgl), 0, sin (rad g.sgl); 0, 1, 0; -sin (rad g.sgl), 0, cos (rad g.sgl)]

/-- `omega_rad` (goniometer.py 49-51) returns itself; Python gives up at a fixed recursion depth, here `fuel`. -/
noncomputable def omegaRad (fuel : ℕ) : Except GonioErr ℝ :=
  match fuel with
  | 0 => .error .recursionError
  | n + 1 => omegaRad n

/-- `Omega` (goniometer.py 81-85). -/
noncomputable def Omega (fuel : ℕ) : Except GonioErr (Matrix (Fin 3) (Fin 3) ℝ) := do
  let w ← omegaRad fuel
  return !![cos w, -sin w, 0; sin w, cos w, 0; 0, 0, 1]

/-- `R` (goniometer.py 103-105). -/
noncomputable def R (fuel : ℕ) : Except GonioErr (Matrix (Fin 3) (Fin 3) ℝ) := do
  return (← Omega fuel) * g.M * g.N

/-- `u_phi` (goniometer.py 114-135). -/
noncomputable def uPhi (omega chi phi : ℝ) : Fin 3 → ℝ :=
  ![cos omega * cos chi * cos phi - sin omega * sin phi,
    cos omega * cos chi * sin phi + sin omega * cos phi,
    cos omega * sin chi]

/-- `T_c` (goniometer.py 93-95). -/
def Tc : Matrix (Fin 3) (Fin 3) ℝ := (Matrix.of ![g.u, g.v, crossProduct g.u g.v])ᵀ

/-- `T_phi` (goniometer.py 97-101). -/
noncomputable def Tphi : Matrix (Fin 3) (Fin 3) ℝ :=
  (Matrix.of ![uPhi (rad g.thetaU) (rad g.sgl) (rad g.sgu), uPhi (rad g.thetaV) (rad g.sgl) (rad g.sgu),
    uPhi (rad 0) (rad 90) (rad 0)])ᵀ

open Classical in
/-- `U` (goniometer.py 107-112). -/
noncomputable def U : Except GonioErr (Matrix (Fin 3) (Fin 3) ℝ) :=
  if g.Tc.det = 0 then .error .linAlgError else .ok (g.Tphi * (g.Tc)⁻¹)

end Goniometer

end Verif.Instrument
