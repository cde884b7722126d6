import Mathlib.Analysis.SpecialFunctions.Trigonometric.Inverse
import Mathlib.Analysis.Real.Sqrt
import Mathlib.LinearAlgebra.Matrix.NonsingularInverse
import Mathlib.LinearAlgebra.Matrix.Notation
import Mathlib.LinearAlgebra.CrossProduct
import Verif.Common.Exc

/-!
# Model of `neutronpy/crystal/lattice.py`, `sample.py`, `tools.py` and of the lattice
helpers in `neutronpy/instrument/tools.py`

Exact real arithmetic in place of floating point.  A computation that meets `nan`, an
infinity or a `LinAlgError` yields no number; it is an error value here.  The few places
where the code computes on with an infinity are modelled explicitly.
-/

namespace Verif.Crystal

open Real Matrix

/-- Ways in which a computation yields no number. -/
inductive Fail
  | nan
  | inf
  | linAlgError
  | valueError
  | scatteringTriangleError
  deriving DecidableEq

abbrev Vec := Fin 3 → ℝ
abbrev Mat := Matrix (Fin 3) (Fin 3) ℝ

/-- `np.sqrt`. -/
noncomputable def npSqrt (x : ℝ) : Except Fail ℝ := if 0 ≤ x then .ok (√x) else .error .nan

/-- `np.arccos`. -/
noncomputable def npArccos (x : ℝ) : Except Fail ℝ :=
  if -1 ≤ x ∧ x ≤ 1 then .ok (arccos x) else .error .nan

/-- `np.arcsin`. -/
noncomputable def npArcsin (x : ℝ) : Except Fail ℝ :=
  if -1 ≤ x ∧ x ≤ 1 then .ok (arcsin x) else .error .nan

/-- Division of numpy floats. -/
noncomputable def npDiv (x y : ℝ) : Except Fail ℝ :=
  if y = 0 then (if x = 0 then .error .nan else .error .inf) else .ok (x / y)

/-- `np.deg2rad`. -/
noncomputable def deg2rad (x : ℝ) : ℝ := x * π / 180

/-- `np.rad2deg`. -/
noncomputable def rad2deg (x : ℝ) : ℝ := x * 180 / π

/-- `Lattice` objects: the lists `abc` and `abg` (lattice.py 77-79).  Angles in degrees. -/
structure Lattice where
  a : ℝ
  b : ℝ
  c : ℝ
  alpha : ℝ
  beta : ℝ
  gamma : ℝ

namespace Lattice

variable (l : Lattice)

/-- lattice.py 145-149 and `abg_rad` 242-246. -/
noncomputable def alphaRad : ℝ := deg2rad l.alpha
/-- lattice.py 151-155. -/
noncomputable def betaRad : ℝ := deg2rad l.beta
/-- lattice.py 157-161. -/
noncomputable def gammaRad : ℝ := deg2rad l.gamma

/-- lattice.py 288-298. -/
noncomputable def G : Mat :=
  !![l.a ^ 2, l.a * l.b * cos l.gammaRad, l.a * l.c * cos l.betaRad;
     l.a * l.b * cos l.gammaRad, l.b ^ 2, l.b * l.c * cos l.alphaRad;
     l.a * l.c * cos l.betaRad, l.b * l.c * cos l.alphaRad, l.c ^ 2]

/-- lattice.py 300-306; `np.linalg.inv` raises for a singular matrix. -/
noncomputable def Gstar : Except Fail Mat :=
  if l.G.det = 0 then .error .linAlgError else .ok ((4 * π ^ 2) • (l.G)⁻¹)

/-- lattice.py 273-278. -/
noncomputable def volume : Except Fail ℝ := npSqrt l.G.det

/-- lattice.py 280-285. -/
noncomputable def reciprocalVolume : Except Fail ℝ := do
  let gs ← l.Gstar
  npSqrt gs.det

/-- lattice.py 163-167. -/
noncomputable def astar : Except Fail ℝ := do
  let v ← l.volume
  let q ← npDiv (l.b * l.c * sin l.alphaRad) v
  pure (q * 2 * π)

/-- lattice.py 169-173. -/
noncomputable def bstar : Except Fail ℝ := do
  let v ← l.volume
  let q ← npDiv (l.a * l.c * sin l.betaRad) v
  pure (q * 2 * π)

/-- lattice.py 175-179. -/
noncomputable def cstar : Except Fail ℝ := do
  let v ← l.volume
  let q ← npDiv (l.a * l.b * sin l.gammaRad) v
  pure (q * 2 * π)

/-- lattice.py 181-187. -/
noncomputable def alphastarRad : Except Fail ℝ := do
  let q ← npDiv (cos l.betaRad * cos l.gammaRad - cos l.alphaRad) (sin l.betaRad * sin l.gammaRad)
  npArccos q

/-- lattice.py 189-196. -/
noncomputable def betastarRad : Except Fail ℝ := do
  let q ← npDiv (cos l.alphaRad * cos l.gammaRad - cos l.betaRad) (sin l.alphaRad * sin l.gammaRad)
  npArccos q

/-- lattice.py 198-204. -/
noncomputable def gammastarRad : Except Fail ℝ := do
  let q ← npDiv (cos l.alphaRad * cos l.betaRad - cos l.gammaRad) (sin l.alphaRad * sin l.betaRad)
  npArccos q

/-- lattice.py 206-210. -/
noncomputable def alphastar : Except Fail ℝ := do pure (rad2deg (← l.alphastarRad))
/-- lattice.py 212-216. -/
noncomputable def betastar : Except Fail ℝ := do pure (rad2deg (← l.betastarRad))
/-- lattice.py 218-222. -/
noncomputable def gammastar : Except Fail ℝ := do pure (rad2deg (← l.gammastarRad))

/-- lattice.py 308-317. -/
noncomputable def Bmatrix : Except Fail Mat := do
  let as ← l.astar
  let bs ← l.bstar
  let gs ← l.gammastarRad
  let cs ← l.cstar
  let bes ← l.betastarRad
  let als ← l.alphastarRad
  pure !![as, bs * cos gs, cs * cos bes;
          0, bs * sin gs, -cs * sin bes * cos l.alphaRad;
          0, 0, cs * sin bes * sin als]

/-- lattice.py 319-335. -/
noncomputable def getDSpacing (hkl : Vec) : Except Fail ℝ := do
  let gs ← l.Gstar
  let r ← npSqrt ((hkl ᵥ* ((1 / 4 / π ^ 2) • gs)) ⬝ᵥ hkl)
  npDiv 1 r

/-- lattice.py 337-360; `np.inner` with a matrix contracts the last axes. -/
noncomputable def getAngleBetweenPlanes (v1 v2 : Vec) : Except Fail ℝ := do
  let gs ← l.Gstar
  let n1 ← npSqrt ((gs *ᵥ v1) ⬝ᵥ v1)
  let n2 ← npSqrt ((gs *ᵥ v2) ⬝ᵥ v2)
  let q1 ← npDiv ((gs *ᵥ v1) ⬝ᵥ v2) n1
  let q2 ← npDiv q1 n2
  let φ ← npArccos q2
  pure (rad2deg φ)

/-- lattice.py 362-382.  For `hkl = 0` the spacing is infinite and the quotient zero. -/
noncomputable def getTwoTheta (hkl : Vec) (wavelength : ℝ) : Except Fail ℝ :=
  match l.getDSpacing hkl with
  | .error .inf => .ok (2 * rad2deg (arcsin 0))
  | .error e => .error e
  | .ok d => do
    let q ← npDiv (wavelength / 2) d
    let θ ← npArcsin q
    pure (2 * rad2deg θ)

/-- lattice.py 384-401.  For `hkl = 0` the spacing is infinite and the quotient zero. -/
noncomputable def getQ (hkl : Vec) : Except Fail ℝ :=
  match l.getDSpacing hkl with
  | .error .inf => .ok 0
  | .error e => .error e
  | .ok d => npDiv (2 * π) d

end Lattice

/-! ## Sample orientation -/

/-- `np.linalg.norm` of one row. -/
noncomputable def norm3 (v : Vec) : ℝ := √(v ⬝ᵥ v)

/-- `gram_schmidt` for two row vectors (crystal/tools.py 5-24 with the default arguments, the only
call in the package, crystal/sample.py 200).  Divisions by a zero norm give `nan`. -/
noncomputable def gramSchmidt (u v : Vec) : Except Fail (Vec × Vec) := do
  let t ← npDiv (v ⬝ᵥ u) (norm3 u ^ 2)
  let w := v - t • u
  let nu ← npDiv 1 (norm3 u)
  let nw ← npDiv 1 (norm3 w)
  pure (nu • u, nw • w)

/-- `Sample.Umatrix` (crystal/sample.py 196-202). -/
noncomputable def umatrix (u v : Vec) : Except Fail Mat := do
  let (e1, e2) ← gramSchmidt u v
  pure (Matrix.of ![e1, e2, crossProduct e1 e2])

/-- `Sample.UBmatrix` (crystal/sample.py 204-208). -/
noncomputable def ubmatrix (l : Lattice) (u v : Vec) : Except Fail Mat := do
  let U ← umatrix u v
  let B ← l.Bmatrix
  pure (U * B)

/-- `Sample.get_phi` (crystal/sample.py 210-225). -/
noncomputable def getPhi (l : Lattice) (u v Q : Vec) : Except Fail ℝ :=
  l.getAngleBetweenPlanes Q (crossProduct u v)

/-! ## The lattice helpers of the resolution code

Here a `Sample` holds angles in radians; `RadLattice` names that use of the class. -/

/-- `Sample` objects as `get_lattice` builds them: angles in radians. -/
structure RadLattice where
  a : ℝ
  b : ℝ
  c : ℝ
  alpha : ℝ
  beta : ℝ
  gamma : ℝ

/-- `_scalar` (instrument/tools.py 44-79). -/
noncomputable def scalar (v1 v2 : Vec) (r : RadLattice) : ℝ :=
  v1 0 * v2 0 * r.a ^ 2 + v1 1 * v2 1 * r.b ^ 2 + v1 2 * v2 2 * r.c ^ 2 +
    (v1 0 * v2 1 + v2 0 * v1 1) * r.a * r.b * cos r.gamma +
    (v1 0 * v2 2 + v2 0 * v1 2) * r.a * r.c * cos r.beta +
    (v1 2 * v2 1 + v2 2 * v1 1) * r.c * r.b * cos r.alpha

/-- `_star` (instrument/tools.py 82-121). -/
noncomputable def star (r : RadLattice) : Except Fail (ℝ × ℝ × RadLattice) := do
  let root ← npSqrt (sin ((r.alpha + r.beta + r.gamma) / 2) * sin ((-r.alpha + r.beta + r.gamma) / 2) *
    sin ((r.alpha - r.beta + r.gamma) / 2) * sin ((r.alpha + r.beta - r.gamma) / 2))
  let V := 2 * r.a * r.b * r.c * root
  let Vstar ← npDiv ((2 * π) ^ 3) V
  let a ← npDiv (2 * π * r.b * r.c * sin r.alpha) V
  let b ← npDiv (2 * π * r.a * r.c * sin r.beta) V
  let c ← npDiv (2 * π * r.b * r.a * sin r.gamma) V
  let qa ← npDiv (cos r.beta * cos r.gamma - cos r.alpha) (sin r.beta * sin r.gamma)
  let alpha ← npArccos qa
  let qb ← npDiv (cos r.alpha * cos r.gamma - cos r.beta) (sin r.alpha * sin r.gamma)
  let beta ← npArccos qb
  let qc ← npDiv (cos r.alpha * cos r.beta - cos r.gamma) (sin r.alpha * sin r.beta)
  let gamma ← npArccos qc
  pure (V, Vstar, { a, b, c, alpha, beta, gamma })

/-- `_modvec` (instrument/tools.py 124-148). -/
noncomputable def modvec (v : Vec) (r : RadLattice) : Except Fail ℝ := npSqrt (scalar v v r)

/-- `TripleAxisInstrument.get_lattice` (tas_instrument.py 458-482). -/
noncomputable def getLattice (l : Lattice) : Except Fail (RadLattice × RadLattice) := do
  let lat : RadLattice := ⟨l.a, l.b, l.c, deg2rad l.alpha, deg2rad l.beta, deg2rad l.gamma⟩
  let (_, _, rl) ← star lat
  pure (lat, rl)

/-- `TripleAxisInstrument._StandardSystem` (tas_instrument.py 484-541), the three axes.  A
`nan` modulus does not satisfy `mody <= 0`; dividing a zero vector by its modulus gives `nan`. -/
noncomputable def standardSystem (l : Lattice) (orient1 orient2 : Vec) :
    Except Fail (Vec × Vec × Vec) := do
  let (_, rl) ← getLattice l
  let modx ← modvec orient1 rl
  if modx = 0 then throw .nan
  let x := modx⁻¹ • orient1
  let proj := scalar orient2 x rl
  let y := orient2 - proj • x
  let mody ← modvec y rl
  if mody ≤ 0 then throw .scatteringTriangleError
  let y := mody⁻¹ • y
  let z : Vec := ![x 1 * y 2 - y 1 * x 2, x 2 * y 0 - y 2 * x 0, -x 1 * y 0 + y 1 * x 0]
  let z := z - scalar z x rl • x
  let z := z - scalar z y rl • y
  let modz ← modvec z rl
  if modz = 0 then throw .nan
  pure (x, y, modz⁻¹ • z)

/-! ## Classification -/

/-- `Lattice.lattice_type` results. -/
inductive LatticeType
  | triclinic | monoclinic | orthorhombic | rhombohedral | tetragonal | hexagonal | cubic
  deriving DecidableEq, Repr

/-- `len(np.unique(xs))` of a triple. -/
def nUnique [DecidableEq α] (x y z : α) : Nat := [x, y, z].dedup.length

/-- lattice.py 248-271, over any type of numbers. -/
def latticeType [DecidableEq α] [LT α] [DecidableLT α] [OfNat α 90] [OfNat α 120]
    (a b c alpha beta gamma : α) : Except Fail LatticeType :=
  let all90 := alpha = 90 ∧ beta = 90 ∧ gamma = 90
  if nUnique a b c = 3 ∧ nUnique alpha beta gamma = 3 then .ok .triclinic
  else if nUnique a b c = 3 ∧ beta ≠ 90 ∧ (alpha = 90 ∧ gamma = 90) then .ok .monoclinic
  else if nUnique a b c = 3 ∧ all90 then .ok .orthorhombic
  else if nUnique a b c = 1 ∧ nUnique alpha beta gamma = 1 ∧ (alpha < 120 ∧ beta < 120 ∧ gamma < 120) ∧
      (alpha ≠ 90 ∧ beta ≠ 90 ∧ gamma ≠ 90) then .ok .rhombohedral
  else if nUnique a b c = 2 ∧ a = b ∧ all90 then .ok .tetragonal
  else if nUnique a b c = 2 ∧ a = b ∧ (alpha = 90 ∧ beta = 90) ∧ gamma = 120 then .ok .hexagonal
  else if nUnique a b c = 1 ∧ all90 then .ok .cubic
  else .error .valueError

end Verif.Crystal
