import Verif.Resolution.Instrument
import Verif.Energy.Model

/-!
# Model of `get_angles_and_Q` and of `spurion.currat_axe_peaks`

`neutronpy/instrument/tas_instrument.py` 999-1091 and `neutronpy/spurion.py` 63-113, in exact arithmetic.  `none` stands for
`nan` and for the infinities, which every later step turns into `nan`.  (With numpy 1.24 and later line 1046 raises
`ValueError`, as the rows of the array mix numbers and arrays of one element; modelled is the behaviour of the versions for
which the code was written.)
-/

namespace Verif.Angles

open Real Matrix
open Verif.Crystal (Vec Mat Lattice deg2rad rad2deg)
open Verif.Tools (arctan2)
open Verif.Resolution (Setup)
open Verif.Energy (Consts Num derive)

/-- `np.sqrt`. -/
noncomputable def root (x : ℝ) : Option ℝ := if 0 ≤ x then some √x else none

/-- Division of numpy floats. -/
noncomputable def over (x y : ℝ) : Option ℝ := if y = 0 then none else some (x / y)

/-- `np.arcsin`. -/
noncomputable def asin (x : ℝ) : Option ℝ := if -1 ≤ x ∧ x ≤ 1 then some (arcsin x) else none

/-- `np.arccos`. -/
noncomputable def acos (x : ℝ) : Option ℝ := if -1 ≤ x ∧ x ≤ 1 then some (arccos x) else none

/-- A value of `Energy`. -/
def ofNum : Num → Option ℝ
  | .num r => some r
  | _ => none

/-- instrument/tas_instrument.py:1019-1022, `fx`. -/
noncomputable def fx (infin : Option ℝ) : ℝ := match infin with
  | some i => if i = -1 then 2 else if i = 1 then 1 else 0
  | none => 2

/-- instrument/tas_instrument.py:1024-1027, `ki` and `kf`. -/
noncomputable def wavevectors (c : Consts) (s : Setup) (w : ℝ) : Option ℝ × Option ℝ :=
  match ofNum (derive c s.settings.efixed).wavevec with
  | none => (none, none)
  | some kfix => (root (kfix ^ 2 + (fx s.settings.infin - 1) * 0.4826 * w), root (kfix ^ 2 - (2 - fx s.settings.infin) * 0.4826 * w))

/-- instrument/tas_instrument.py:1031-1049, the matrix `bb` after its transposition. -/
noncomputable def bMatrix (l : Lattice) : Option Mat := do
  let a : Vec := ![l.a / (2 * π), l.b / (2 * π), l.c / (2 * π)]
  let ang : Vec := ![deg2rad l.alpha, deg2rad l.beta, deg2rad l.gamma]
  let cosa : Vec := fun i => cos (ang i)
  let sina : Vec := fun i => sin (ang i)
  let cc ← root (1 + 2 * (cosa 0 * cosa 1 * cosa 2) - (cosa 0 * cosa 0 + cosa 1 * cosa 1 + cosa 2 * cosa 2))
  let b0 ← over (sina 0) (a 0 * cc)
  let b1 ← over (sina 1) (a 1 * cc)
  let b2 ← over (sina 2) (a 2 * cc)
  let cosb1 ← over (cosa 2 * cosa 0 - cosa 1) (sina 2 * sina 0)
  let cosb2 ← over (cosa 0 * cosa 1 - cosa 2) (sina 0 * sina 1)
  let sinb1 ← root (1 - cosb1 * cosb1)
  let sinb2 ← root (1 - cosb2 * cosb2)
  let z ← over 1 (a 2)
  return !![b0, b1 * cosb2, b2 * cosb1; 0, b1 * sinb2, -b2 * sinb1 * cosa 0; 0, 0, z]

/-- The product of vectors that `np.roll` computes in instrument/tas_instrument.py:1056-1057. -/
def prod (x y : Vec) : Vec := ![x 1 * y 2 - x 2 * y 1, x 2 * y 0 - x 0 * y 2, x 0 * y 1 - x 1 * y 0]

/-- instrument/tas_instrument.py:1053-1058, the rows of `vv`. -/
def axisRows (bb : Mat) (u v : Vec) : Mat :=
  let x := bb *ᵥ u
  let z := prod x (bb *ᵥ v)
  Matrix.of ![x, prod z x, z]

/-- instrument/tas_instrument.py:1060-1065, `qt`.  The columns of `vv` are divided by their lengths, and `s` is the
product element by element. -/
noncomputable def qVector (bb vv : Mat) (hkl : Vec) : Option Vec :=
  let c : Vec := fun j => √(∑ i, vv i j * vv i j)
  if c 0 = 0 ∨ c 1 = 0 ∨ c 2 = 0 then none
  else
    let s : Mat := Matrix.of fun i j => (vv j i / c i) * bb i j
    some (s *ᵥ hkl)

/-- instrument/tas_instrument.py:1029-1065. -/
noncomputable def momentum (s : Setup) (hkl : Vec) : Option Vec := do
  let bb ← bMatrix s.lattice
  qVector bb (axisRows bb s.u s.v) hkl

/-- The angles in degrees and the modulus of Q. -/
structure Answer where
  a1 : Option ℝ
  a2 : Option ℝ
  a3 : Option ℝ
  a4 : Option ℝ
  a5 : Option ℝ
  a6 : Option ℝ
  q : Option ℝ

/-- instrument/tas_instrument.py:1073-1076: the angle of a crystal with spacing `2π/τ` in the sense `dir`.  (The two
divisions are one here.) -/
noncomputable def braggAngle (dir tau k : ℝ) : Option ℝ := do
  let d ← over (2 * π) tau
  let x ← over π (d * k)
  return dir * (← asin x)

/-- instrument/tas_instrument.py:1077, `thetas`. -/
noncomputable def halfAngle (ss ki kf Q : ℝ) : Option ℝ := do
  return ss * 0.5 * (← acos (← over (ki ^ 2 + kf ^ 2 - Q ^ 2) (2 * ki * kf)))

/-- instrument/tas_instrument.py:1079-1081, `A3`. -/
noncomputable def sampleAngle (ss ki kf Q : ℝ) (qt : Vec) : Option ℝ := do
  return ss * (-arctan2 (qt 1) (qt 0) - (← acos (← over (kf * kf - Q * Q - ki * ki) (-2 * (Q * ki)))))

/-- instrument/tas_instrument.py:999-1091, `get_angles_and_Q`.  The spacings are numbers (`GetTau` of the names is
`Verif.Tools.getTau`). -/
noncomputable def anglesAndQ (c : Consts) (s : Setup) (hkl : Vec) (w : ℝ) : Answer :=
  let ki := (wavevectors c s w).1
  let kf := (wavevectors c s w).2
  let qt := momentum s hkl
  let Q := qt.map fun qt => √(∑ i, qt i ^ 2)
  let thetam := ki.bind (braggAngle s.settings.mono.dir s.settings.mono.tau)
  let thetaa := kf.bind (braggAngle s.settings.ana.dir s.settings.ana.tau)
  let thetas := ki.bind fun ki => kf.bind fun kf => Q.bind (halfAngle s.settings.sample.dir ki kf)
  let A3 := ki.bind fun ki => kf.bind fun kf => qt.bind fun qt => sampleAngle s.settings.sample.dir ki kf √(∑ i, qt i ^ 2) qt
  let deg (x : Option ℝ) := x.map rad2deg
  let twice (x : Option ℝ) := x.map (2 * ·)
  ⟨deg thetam, deg (twice thetam), deg A3, deg (twice thetas), deg thetaa, deg (twice thetaa), Q⟩

/-! ## Currat-Axe peaks -/

/-- Exceptions of `currat_axe_peaks`. -/
inductive Err
  | indexError | valueError
  deriving DecidableEq

/-- `np.insert(p, 3, x)`. -/
def insert3 (p : List ℝ) (x : ℝ) : Except Err (List ℝ) :=
  if 3 ≤ p.length then .ok (p.take 3 ++ x :: p.drop 3) else .error .indexError

/-- `h, k, l, w = hkle` (instrument/tas_instrument.py:1017). -/
def unpack (p : List ℝ) : Except Err (Vec × ℝ) := match p with
  | [h, k, l, w] => .ok (![h, k, l], w)
  | _ => .error .valueError

/-- One end of a scan, and the points between (spurion.py 91-99): `np.linspace(0, 1, n)`. -/
noncomputable def scanPoints (u v : Vec) (p0 p1 : ℝ × ℝ × ℝ) (n : ℕ) : List (Vec × ℝ) :=
  let start := p0.1 • u + p0.2.1 • v
  let stop := p1.1 • u + p1.2.1 • v
  (List.range n).map fun (i : ℕ) =>
    let t : ℝ := if n = 1 then 0 else i / (n - 1)
    (start + t • (stop - start), p0.2.2 + t * (p1.2.2 - p0.2.2))

/-- `np.abs(x - y) <= tol`, false for `nan`. -/
noncomputable def close (tol : ℝ) (x y : Option ℝ) : Bool := match x, y with
  | some x, some y => decide (|x - y| ≤ tol)
  | _, _ => false

/-- `currat_axe_peaks` (spurion.py 91-113): the points for which a warning is issued, once for each peak. -/
noncomputable def curratAxe (c : Consts) (s : Setup) (p0 p1 : ℝ × ℝ × ℝ) (n : ℕ) (peaks : List (List ℝ)) (tol : ℝ) :
    Except Err (List (Vec × ℝ)) := do
  let points := scanPoints s.u s.v p0 p1 n
  let bragg ← peaks.mapM fun p => do
    let (hkl, w) ← unpack (← insert3 p 0)
    return anglesAndQ c s hkl w
  return points.flatMap fun p =>
    let a := anglesAndQ c s p.1 p.2
    (bragg.filter fun b => close tol b.a3 a.a3 && close tol b.a4 a.a4).map fun _ => p

end Verif.Angles
