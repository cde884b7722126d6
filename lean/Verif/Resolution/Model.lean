import Mathlib.Analysis.SpecialFunctions.Trigonometric.Inverse
import Mathlib.Analysis.SpecialFunctions.Log.Basic
import Mathlib.Analysis.SpecialFunctions.Complex.Arg
import Mathlib.Data.Matrix.Block
import Mathlib.LinearAlgebra.Matrix.NonsingularInverse
import Mathlib.LinearAlgebra.Matrix.Notation
import Verif.Crystal.Model
import Verif.Tools.Model

/-!
# Model of the resolution calculation in `neutronpy/instrument/tas_instrument.py`

Exact real arithmetic in place of floating point.  An attribute that may be missing
(`hasattr(...)`) is an `Option`.  A point at which the code meets `nan` or an infinity
yields an error here; the code would store `nan` for that point and go on.
-/

namespace Verif.Resolution

open Real Matrix
open Verif.Crystal (Fail npSqrt npArcsin npDiv)
open Verif.Tools (arctan2)

abbrev M3 := Matrix (Fin 3) (Fin 3) ℝ
abbrev M4 := Matrix (Fin 4) (Fin 4) ℝ

/-- `np.linalg.inv` and `np.matrix.I`. -/
noncomputable def npInv {n : ℕ} (M : Matrix (Fin n) (Fin n) ℝ) : Except Fail (Matrix (Fin n) (Fin n) ℝ) :=
  if M.det = 0 then .error .linAlgError else .ok M⁻¹

/-- `scipy.linalg.block_diag` of two matrices. -/
def blkdiag {m n : ℕ} (X : Matrix (Fin m) (Fin m) ℝ) (Y : Matrix (Fin n) (Fin n) ℝ) :
    Matrix (Fin (m + n)) (Fin (m + n)) ℝ :=
  (fromBlocks X 0 0 Y).submatrix finSumFinEquiv.symm finSumFinEquiv.symm

/-- instrument/tas_instrument.py:570 (`CONVERT1`, arc minutes FWHM to radian σ). -/
noncomputable def convert1 : ℝ := π / 60 / 180 / √(8 * log 2)

/-- instrument/tas_instrument.py:571 (`CONVERT2`, meV Å²). -/
noncomputable def convert2 : ℝ := 2072 / 1000

/-- Guide, monitor and detector: objects that may have a width and a height
(instrument/tools.py `_Dummy`).  A missing object acts as one without attributes. -/
structure Window where
  width : Option ℝ
  height : Option ℝ

/-- The attributes of a monochromator or analyzer used by the calculation.  `tau` is the
number `GetTau` returns (modelled in `Verif.Tools.getTau`). -/
structure Blade where
  tau : ℝ
  mosaic : ℝ
  vmosaic : Option ℝ
  width : Option ℝ
  height : Option ℝ
  depth : Option ℝ
  rv : Option ℝ
  rh : Option ℝ
  dir : ℝ
  thickness : Option ℝ
  reflQ : Option ℝ

/-- `sample.shape` is a 3×3 array, or a stack of them once `calc_resolution` has run. -/
inductive Shape
  | one (M : M3)
  | stack (l : List M3)

/-- The attributes of the sample used by the calculation. -/
structure SampleAttrs where
  mosaic : Option ℝ
  vmosaic : Option ℝ
  width : Option ℝ
  depth : Option ℝ
  height : Option ℝ
  shapeType : Option (List Char)
  shape : Option Shape
  dir : ℝ

/-- Values of the attribute `method`: `0`, `1`, or a string. -/
inductive Method
  | number (n : ℤ)
  | name (s : List Char)
  deriving DecidableEq

/-- The settings read by `calc_resolution_in_Q_coords`. -/
structure Settings where
  efixed : ℝ
  infin : Option ℝ
  method : Option Method
  moncor : Option ℝ
  horifoc : Option ℝ
  hcol : Fin 4 → ℝ
  vcol : Fin 4 → ℝ
  arms : Option (List ℝ)
  mono : Blade
  ana : Blade
  sample : SampleAttrs
  guide : Window
  monitor : Window
  detector : Window

/-- instrument/tas_instrument.py:579-582. -/
def Settings.theMethod (s : Settings) : Method := s.method.getD (.number 0)

/-- instrument/tas_instrument.py:829, 853, 881: the condition `method == 1 or method == 'popovici'`. -/
def Settings.popovici (s : Settings) : Bool :=
  s.theMethod = .number 1 || s.theMethod = .name ['p', 'o', 'p', 'o', 'v', 'i', 'c', 'i']

/-- instrument/tas_instrument.py:594: the condition under which the vertical mosaic of the
monochromator is used, `method == 1 or method == 'Popovici'`. -/
def Settings.vmosaicUsed (s : Settings) : Bool :=
  s.theMethod = .number 1 || s.theMethod = .name ['P', 'o', 'p', 'o', 'v', 'i', 'c', 'i']

/-- `x ** 2 / 12.` for an attribute `x`, 1 if it is missing (instrument/tas_instrument.py:610-673). -/
noncomputable def extent (x : Option ℝ) : ℝ := match x with
  | some w => w ^ 2 / 12
  | none => 1

/-- The values fixed before the loop over the points, instrument/tas_instrument.py:579-721. -/
structure Conf where
  efixed : ℝ
  infin : ℝ
  popovici : Bool
  moncor : ℝ
  horifoc : ℝ
  taum : ℝ
  taua : ℝ
  sm : ℝ
  ss : ℝ
  sa : ℝ
  etam : ℝ
  etamv : ℝ
  etaa : ℝ
  etaav : ℝ
  bshape : Fin 2 → ℝ
  mshape : Fin 3 → ℝ
  ashape : Fin 3 → ℝ
  dshape : Fin 2 → ℝ
  monitorshape : Fin 2 → ℝ
  L0 : ℝ
  L1 : ℝ
  L1mon : ℝ
  L2 : ℝ
  L3 : ℝ
  etas : Option (ℝ × ℝ)
  refl : Option (ℝ × ℝ)

/-- The variables that live outside the loop over the points and are assigned inside it. -/
structure Loop where
  alpha : Fin 4 → ℝ
  beta : Fin 4 → ℝ
  monorh : ℝ
  monorv : ℝ
  anarh : ℝ
  anarv : ℝ

/-- instrument/tas_instrument.py:690-695: the arms are read for `method == 1` only; too short a
list raises `ValueError`. -/
def decodeArms (s : Settings) : Except Fail (ℝ × ℝ × ℝ × ℝ × ℝ) :=
  match s.arms, decide (s.theMethod = .number 1) with
  | some (l0 :: l1 :: l2 :: l3 :: rest), true => .ok (l0, l1, rest.headD l1, l2, l3)
  | some _, true => .error .valueError
  | _, _ => .ok (1, 1, 1, 1, 1)

/-- instrument/tas_instrument.py:570-721, the part before the loop. -/
noncomputable def decode (s : Settings) : Except Fail Conf := do
  let (l0, l1, l1mon, l2, l3) ← decodeArms s
  pure {
    efixed := s.efixed
    infin := s.infin.getD (-1)
    popovici := s.popovici
    moncor := s.moncor.getD 1
    horifoc := s.horifoc.getD (-1)
    taum := s.mono.tau
    taua := s.ana.tau
    sm := s.mono.dir
    ss := s.sample.dir
    sa := s.ana.dir
    etam := s.mono.mosaic * convert1
    etamv := (if s.vmosaicUsed then s.mono.vmosaic.getD s.mono.mosaic else s.mono.mosaic) * convert1
    etaa := s.ana.mosaic * convert1
    etaav := s.ana.vmosaic.getD s.ana.mosaic * convert1
    bshape := ![extent s.guide.width, extent s.guide.height]
    mshape := ![extent s.mono.depth, extent s.mono.width, extent s.mono.height]
    ashape := ![extent s.ana.depth, extent s.ana.width, extent s.ana.height]
    dshape := ![extent s.detector.width, extent s.detector.height]
    monitorshape := ![extent s.monitor.width, match s.monitor.height with
      | some h => h ^ 2 / 12
      | none => extent s.monitor.width]
    L0 := l0, L1 := l1, L1mon := l1mon, L2 := l2, L3 := l3
    etas := s.sample.mosaic.map fun m => (m * convert1, s.sample.vmosaic.getD m * convert1)
    refl := match s.ana.thickness, s.ana.reflQ with
      | some t, some q => some (t, q)
      | _, _ => none }

/-- instrument/tas_instrument.py:589-590, 628-631, 697-707, 716-717: the loop variables before the first point. -/
noncomputable def Loop.start (s : Settings) : Loop where
  alpha i := s.hcol i * convert1 *
    if s.horifoc = some 1 ∧ i = 2 then √(8 * log 2 / 12) else 1
  beta i := s.vcol i * convert1
  monorh := s.mono.rh.getD (10 ^ 6)
  monorv := s.mono.rv.getD (10 ^ 6)
  anarh := s.ana.rh.getD (10 ^ 6)
  anarv := s.ana.rv.getD (10 ^ 6)

/-- instrument/tas_instrument.py:622-623, 675-688: the sample shape matrix used for the `ind`-th
point.  Indexing past the end of a stack raises `IndexError` (here `valueError`). -/
noncomputable def sshapeAt (a : SampleAttrs) (ind : ℕ) : Except Fail M3 :=
  let factor : ℝ := if a.shapeType = some ['c', 'y', 'l', 'i', 'n', 'd', 'r', 'i', 'c', 'a', 'l'] then 16 else 12
  match a.width, a.depth, a.height, a.shape with
  | some w, some d, some h, _ => .ok (diagonal ![d ^ 2 / factor, w ^ 2 / factor, h ^ 2 / factor])
  | _, _, _, some (.one M) => .ok (factor⁻¹ • M)
  | _, _, _, some (.stack l) => match l[ind]? with
    | some M => .ok (factor⁻¹ • M)
    | none => .error .valueError
  | _, _, _, none => .ok 1

/-- Wavevectors and angles of a point. -/
structure Kin where
  ki : ℝ
  kf : ℝ
  thetam : ℝ
  thetaa : ℝ
  s2theta : ℝ
  phi : ℝ

/-- instrument/tas_instrument.py:739-744: `np.arccos` of a complex number with zero imaginary
part.  Outside `[-1, 1]` the result is `0` or `π` with imaginary part `arcosh |x|`, which is an
error unless it is at most 1e-12. -/
noncomputable def scatteringAngle (x ss : ℝ) : Except Fail ℝ :=
  if 1 < |x| ∧ 1 / 10 ^ 12 < |log (|x| + √(x ^ 2 - 1)) * ss| then .error .scatteringTriangleError
  else .ok (arccos x * ss)

/-- instrument/tas_instrument.py:725-744, 752-753. -/
noncomputable def kinematics (c : Conf) (q w : ℝ) : Except Fail Kin := do
  let ei := if 0 < c.infin then c.efixed else c.efixed + w
  let ef := if 0 < c.infin then c.efixed - w else c.efixed
  let ki ← npSqrt (ei / convert2)
  let kf ← npSqrt (ef / convert2)
  let thetam := (← npArcsin (← npDiv c.taum (2 * ki))) * c.sm
  let thetaa := (← npArcsin (← npDiv c.taua (2 * kf))) * c.sa
  let s2theta ← scatteringAngle (← npDiv (ki ^ 2 + kf ^ 2 - q ^ 2) (2 * ki * kf)) c.ss
  let phi := arctan2 (-kf * sin s2theta) (ki - kf * cos s2theta)
  pure { ki, kf, thetam, thetaa, s2theta, phi }

/-- instrument/tas_instrument.py:756-757: the divergence of a guide with `m`-value `-a`. -/
noncomputable def guideDivergence (a ki : ℝ) : ℝ :=
  if a < 0 then -a * (1 / 10) * 60 * (2 * π / ki) / (427 / 1000) / √3 else a

/-- instrument/tas_instrument.py:746-757: the assignments to the loop variables. -/
noncomputable def Loop.advance (l : Loop) (c : Conf) (ki : ℝ) : Loop where
  alpha i := guideDivergence (l.alpha i) ki
  beta i := guideDivergence (l.beta i) ki
  monorh := l.monorh * c.sm
  monorv := l.monorv * c.sm
  anarh := l.anarh * c.sa
  anarv := l.anarv * c.sa

/-- instrument/tas_instrument.py:759-766: the sample shape in the frame of the scattering vector. -/
noncomputable def turnShape (k : Kin) (sshape : M3) : M3 :=
  let psi := k.s2theta / 2 - k.phi
  let rot : M3 := !![cos psi, sin psi, 0; -sin psi, cos psi, 0; 0, 0, 1]
  rot * sshape * rotᵀ

/-- instrument/tas_instrument.py:768-770, matrix `G`. -/
noncomputable def matG (l : Loop) : Matrix (Fin 8) (Fin 8) ℝ :=
  diagonal fun i => 1 / (![l.alpha 0, l.alpha 1, l.beta 0, l.beta 1, l.alpha 2, l.alpha 3, l.beta 2, l.beta 3] i) ^ 2

/-- instrument/tas_instrument.py:772-773, matrix `F`. -/
noncomputable def matF (c : Conf) : M4 :=
  diagonal fun i => 1 / (![c.etam, c.etamv, c.etaa, c.etaav] i) ^ 2

/-- instrument/tas_instrument.py:775-781, matrix `A`. -/
noncomputable def matA (k : Kin) : Matrix (Fin 6) (Fin 8) ℝ :=
  !![k.ki / 2 / tan k.thetam, -k.ki / 2 / tan k.thetam, 0, 0, 0, 0, 0, 0;
     0, k.ki, 0, 0, 0, 0, 0, 0;
     0, 0, 0, k.ki, 0, 0, 0, 0;
     0, 0, 0, 0, k.kf / 2 / tan k.thetaa, -k.kf / 2 / tan k.thetaa, 0, 0;
     0, 0, 0, 0, k.kf, 0, 0, 0;
     0, 0, 0, 0, 0, 0, k.kf, 0]

/-- instrument/tas_instrument.py:783-788, matrix `C`. -/
noncomputable def matC (k : Kin) : Matrix (Fin 4) (Fin 8) ℝ :=
  !![1 / 2, 1 / 2, 0, 0, 0, 0, 0, 0;
     0, 0, 1 / (2 * sin k.thetam), -1 / (2 * sin k.thetam), 0, 0, 0, 0;
     0, 0, 0, 0, 1 / 2, 1 / 2, 0, 0;
     0, 0, 0, 0, 0, 0, 1 / (2 * sin k.thetaa), -1 / (2 * sin k.thetaa)]

/-- instrument/tas_instrument.py:790-794, matrix `Bmatrix`. -/
noncomputable def matB (k : Kin) : Matrix (Fin 4) (Fin 6) ℝ :=
  !![cos k.phi, sin k.phi, 0, -cos (k.phi - k.s2theta), -sin (k.phi - k.s2theta), 0;
     -sin k.phi, cos k.phi, 0, sin (k.phi - k.s2theta), -cos (k.phi - k.s2theta), 0;
     0, 0, 1, 0, 0, -1;
     2 * convert2 * k.ki, 0, 0, -2 * convert2 * k.kf, 0, 0]

/-- instrument/tas_instrument.py:796-798, matrix `Sinv`. -/
noncomputable def matSinv (c : Conf) (sshape : M3) : Matrix (Fin 13) (Fin 13) ℝ :=
  blkdiag (diagonal c.bshape) (blkdiag (diagonal c.mshape) (blkdiag sshape
    (blkdiag (diagonal c.ashape) (diagonal c.dshape))))

/-- instrument/tas_instrument.py:800-813, matrix `T`. -/
noncomputable def matT (c : Conf) (l : Loop) (k : Kin) : Matrix (Fin 4) (Fin 13) ℝ :=
  let thetas := k.s2theta / 2
  !![-1 / (2 * c.L0), 0, cos k.thetam * (1 / c.L1 - 1 / c.L0) / 2,
       sin k.thetam * (1 / c.L0 + 1 / c.L1 - 2 / (l.monorh * sin k.thetam)) / 2, 0,
       sin thetas / (2 * c.L1), cos thetas / (2 * c.L1), 0, 0, 0, 0, 0, 0;
     0, -1 / (2 * c.L0 * sin k.thetam), 0, 0,
       (1 / c.L0 + 1 / c.L1 - 2 * sin k.thetam / l.monorv) / (2 * sin k.thetam), 0, 0,
       -1 / (2 * c.L1 * sin k.thetam), 0, 0, 0, 0, 0;
     0, 0, 0, 0, 0, sin thetas / (2 * c.L2), -cos thetas / (2 * c.L2), 0,
       cos k.thetaa * (1 / c.L3 - 1 / c.L2) / 2,
       sin k.thetaa * (1 / c.L2 + 1 / c.L3 - 2 / (l.anarh * sin k.thetaa)) / 2, 0,
       1 / (2 * c.L3), 0;
     0, 0, 0, 0, 0, 0, 0, -1 / (2 * c.L2 * sin k.thetaa), 0, 0,
       (1 / c.L2 + 1 / c.L3 - 2 * sin k.thetaa / l.anarv) / (2 * sin k.thetaa), 0,
       -1 / (2 * c.L3 * sin k.thetaa)]

/-- instrument/tas_instrument.py:815-826, matrix `D`. -/
noncomputable def matD (c : Conf) (k : Kin) : Matrix (Fin 8) (Fin 13) ℝ :=
  let thetas := k.s2theta / 2
  !![-1 / c.L0, 0, -cos k.thetam / c.L0, sin k.thetam / c.L0, 0, 0, 0, 0, 0, 0, 0, 0, 0;
     0, 0, cos k.thetam / c.L1, sin k.thetam / c.L1, 0, sin thetas / c.L1, cos thetas / c.L1, 0, 0, 0, 0, 0, 0;
     0, -1 / c.L0, 0, 0, 1 / c.L0, 0, 0, 0, 0, 0, 0, 0, 0;
     0, 0, 0, 0, -1 / c.L1, 0, 0, 1 / c.L1, 0, 0, 0, 0, 0;
     0, 0, 0, 0, 0, sin thetas / c.L2, -cos thetas / c.L2, 0, -cos k.thetaa / c.L2, sin k.thetaa / c.L2, 0, 0, 0;
     0, 0, 0, 0, 0, 0, 0, 0, cos k.thetaa / c.L3, sin k.thetaa / c.L3, 0, 1 / c.L3, 0;
     0, 0, 0, 0, 0, 0, 0, -1 / c.L2, 0, 0, 1 / c.L2, 0, 0;
     0, 0, 0, 0, 0, 0, 0, 0, 0, 0, -1 / c.L3, 0, 1 / c.L3]

/-- instrument/tas_instrument.py:837-841: the block of a horizontally focusing analyzer. -/
noncomputable def focusBlock (c : Conf) (l : Loop) (k : Kin) (N : Matrix (Fin 6) (Fin 6) ℝ) : Matrix (Fin 6) (Fin 6) ℝ :=
  Matrix.of fun i j =>
    if i = 3 ∧ j = 3 then (tan k.thetaa / (c.etaa * k.kf)) ^ 2
    else if i = 4 ∧ j = 4 then (1 / (k.kf * l.alpha 2)) ^ 2
    else if (i = 3 ∧ j = 4) ∨ (i = 4 ∧ j = 3) then 0
    else N i j

/-- instrument/tas_instrument.py:829-832, 853-855: the Popovici form.  Returns `Ninv` and `det (H + G)`. -/
noncomputable def popoviciN (c : Conf) (l : Loop) (k : Kin) (S : Matrix (Fin 13) (Fin 13) ℝ) :
    Except Fail (Matrix (Fin 6) (Fin 6) ℝ × ℝ) := do
  if c.L0 = 0 ∨ c.L1 = 0 ∨ c.L2 = 0 ∨ c.L3 = 0 ∨ l.monorh = 0 ∨ l.monorv = 0 ∨ l.anarh = 0 ∨ l.anarv = 0 then
    .error .inf
  else
    let T := matT c l k
    let D := matD c k
    let Kinv ← npInv (S + Tᵀ * matF c * T)
    let H ← npInv (D * Kinv * Dᵀ)
    let HGinv ← npInv (H + matG l)
    pure (matA k * HGinv * (matA k)ᵀ, (H + matG l).det)

/-- instrument/tas_instrument.py:833-841, 856-858: the Cooper-Nathans form.  Returns `Ninv` and `det H`. -/
noncomputable def cooperNathansN (c : Conf) (l : Loop) (k : Kin) : Except Fail (Matrix (Fin 6) (Fin 6) ℝ × ℝ) := do
  let H := matG l + (matC k)ᵀ * matF c * matC k
  let Ninv := matA k * (← npInv H) * (matA k)ᵀ
  if 0 < c.horifoc then
    let N ← npInv Ninv
    let Ninv' ← npInv (focusBlock c l k N)
    pure (Ninv', H.det)
  else pure (Ninv, H.det)

/-- instrument/tas_instrument.py:866-871, matrix `t`. -/
noncomputable def monT (c : Conf) (l : Loop) (k : Kin) : Matrix (Fin 2) (Fin 7) ℝ :=
  !![-1 / (2 * c.L0), 0, cos k.thetam * (1 / c.L1mon - 1 / c.L0) / 2,
       sin k.thetam * (1 / c.L0 + 1 / c.L1mon - 2 / (l.monorh * sin k.thetam)) / 2, 0, 0, 1 / (2 * c.L1mon);
     0, -1 / (2 * c.L0 * sin k.thetam), 0, 0,
       (1 / c.L0 + 1 / c.L1mon - 2 * sin k.thetam / l.monorv) / (2 * sin k.thetam), 0, 0]

/-- instrument/tas_instrument.py:876-879, matrix `d`. -/
noncomputable def monD (c : Conf) (k : Kin) : Matrix (Fin 4) (Fin 7) ℝ :=
  !![-1 / c.L0, 0, -cos k.thetam / c.L0, sin k.thetam / c.L0, 0, 0, 0;
     0, 0, cos k.thetam / c.L1mon, sin k.thetam / c.L1mon, 0, 0, 1 / c.L1mon;
     0, -1 / c.L0, 0, 0, 1 / c.L0, 0, 0;
     0, 0, 0, 0, -1 / c.L1mon, 0, 0]

/-- instrument/tas_instrument.py:862, the block `g` of `G`. -/
noncomputable def mong (l : Loop) : M4 := (matG l).submatrix (Fin.castLE (by decide)) (Fin.castLE (by decide))

/-- instrument/tas_instrument.py:863, the block `f` of `F`. -/
noncomputable def monf (c : Conf) : Matrix (Fin 2) (Fin 2) ℝ :=
  (matF c).submatrix (Fin.castLE (by decide)) (Fin.castLE (by decide))

/-- instrument/tas_instrument.py:864, the block `c` of `C`. -/
noncomputable def monc (k : Kin) : Matrix (Fin 2) (Fin 4) ℝ :=
  (matC k).submatrix (Fin.castLE (by decide)) (Fin.castLE (by decide))

/-- instrument/tas_instrument.py:873-888: the determinant in the denominator of the monitor flux. -/
noncomputable def monitorDen (c : Conf) (l : Loop) (k : Kin) (s : Matrix (Fin 7) (Fin 7) ℝ) : Except Fail ℝ :=
  if c.popovici then
    if c.L1mon = 0 then .error .inf
    else do
      let ki ← npInv (s + (monT c l k)ᵀ * monf c * monT c l k)
      let h ← npInv (monD c k * ki * (monD c k)ᵀ)
      pure (h + mong l).det
  else pure (mong l + (monc k)ᵀ * monf c * monc k).det

/-- instrument/tas_instrument.py:861-888: the flux on the monitor. -/
noncomputable def monitorFlux (c : Conf) (l : Loop) (k : Kin) : Except Fail ℝ := do
  let rm := k.ki ^ 3 / tan k.thetam
  let s ← npInv (blkdiag (diagonal c.bshape) (blkdiag (diagonal c.mshape) (diagonal c.monitorshape)))
  let den ← monitorDen c l k s
  pure (rm * (2 * π) ^ 2 / (8 * π * sin k.thetam) * (← npSqrt (← npDiv (monf c).det den)))

/-- instrument/tas_instrument.py:910-924: the analyzer reflectivity correction. -/
noncomputable def reflectivity (c : Conf) (l : Loop) (k : Kin) (KT KQ : ℝ) : Except Fail ℝ := do
  let toa ← npDiv (c.taua / 2) (← npSqrt (k.kf ^ 2 - (c.taua / 2) ^ 2))
  let smallest := if l.alpha 2 < l.alpha 3 then l.alpha 2 else l.alpha 3
  let dth (n : ℕ) : ℝ := (n + 1 : ℝ) / 200 * √(2 * log 2) * smallest
  let wdth (n : ℕ) : ℝ := exp (-dth n ^ 2 / 2 / c.etaa ^ 2)
  let sdth (n : ℕ) : ℝ := KT * (KQ * toa) * wdth n / c.etaa / √(2 * π)
  if ∃ n ∈ Finset.range 200, sdth n = -1 then .error .inf
  else
    let rdth (n : ℕ) : ℝ := if sdth n = 0 then 0 else 1 / (1 + 1 / sdth n)
    npDiv (∑ n ∈ Finset.range 200, rdth n) (∑ n ∈ Finset.range 200, wdth n)

/-- instrument/tas_instrument.py:898-908: sample mosaic.  Arguments: prefactor, resolution matrix,
its inverse. -/
noncomputable def sampleMosaic (q : ℝ) (etas etasv : ℝ) (r0 : ℝ) (RM Minv : M4) : Except Fail (ℝ × M4) := do
  let den ← npSqrt ((1 + (q * etas) ^ 2 * RM 2 2) * (1 + (q * etasv) ^ 2 * RM 1 1))
  let r0' ← npDiv r0 den
  let RM' ← npInv (Minv + diagonal ![0, q ^ 2 * etas ^ 2, q ^ 2 * etasv ^ 2, 0])
  pure (r0', RM')

/-- instrument/tas_instrument.py:829-845: `Minv` and the determinant that enters the prefactor. -/
noncomputable def coreMatrix (c : Conf) (l : Loop) (k : Kin) (S : Matrix (Fin 13) (Fin 13) ℝ) : Except Fail (M4 × ℝ) := do
  let (Ninv, detH) ← if c.popovici then popoviciN c l k S else cooperNathansN c l k
  pure (matB k * Ninv * (matB k)ᵀ, detH)

/-- instrument/tas_instrument.py:848-896: the prefactor without sample mosaic and analyzer reflectivity. -/
noncomputable def prefactor (c : Conf) (l : Loop) (k : Kin) (detH : ℝ) (RM : M4) : Except Fail ℝ := do
  let rm := k.ki ^ 3 / tan k.thetam
  let ra := k.kf ^ 3 / tan k.thetaa
  let r0 := rm * ra * (2 * π) ^ 4 / (64 * π ^ 2 * sin k.thetam * sin k.thetaa) *
    (← npSqrt (← npDiv (matF c).det detH))
  let r0 ← if c.moncor = 1 then do
      let r ← npDiv r0 (← monitorFlux c l k)
      pure (r * k.ki)
    else pure r0
  pure (r0 / (2 * π) ^ 2 * (← npSqrt RM.det) * k.kf / k.ki)

/-- instrument/tas_instrument.py:898-908, applied if the sample has a mosaic. -/
noncomputable def withMosaic (c : Conf) (q r0 : ℝ) (RM Minv : M4) : Except Fail (ℝ × M4) := match c.etas with
  | some (etas, etasv) => sampleMosaic q etas etasv r0 RM Minv
  | none => pure (r0, RM)

/-- instrument/tas_instrument.py:910-924, applied if the analyzer has a thickness and a `Q`. -/
noncomputable def withReflectivity (c : Conf) (l : Loop) (k : Kin) (r0 : ℝ) : Except Fail ℝ := match c.refl with
  | some (t, kq) => do pure (r0 * (← reflectivity c l k t kq))
  | none => pure r0

/-- instrument/tas_instrument.py:759-927, the body of the loop over the points, after the angles and
the loop variables have been set. -/
noncomputable def pointAt (c : Conf) (l : Loop) (sshape : M3) (k : Kin) (q : ℝ) : Except Fail (ℝ × M4) := do
  if (∃ i, l.alpha i = 0) ∨ (∃ i, l.beta i = 0) ∨ c.etam = 0 ∨ c.etamv = 0 ∨ c.etaa = 0 ∨ c.etaav = 0 ∨
      sin k.thetam = 0 ∨ sin k.thetaa = 0 then .error .inf
  else
    let S ← npInv (matSinv c (turnShape k sshape))
    let (Minv, detH) ← coreMatrix c l k S
    let RM ← npInv Minv
    let r0 ← prefactor c l k detH RM
    let (r0, RM) ← withMosaic c q r0 RM Minv
    let r0 ← withReflectivity c l k r0
    pure (r0, RM)

/-- instrument/tas_instrument.py:723-929, the loop over the points from the `ind`-th on. -/
noncomputable def runLoop (c : Conf) (a : SampleAttrs) : ℕ → Loop → List (ℝ × ℝ) → Except Fail (List (ℝ × M4))
  | _, _, [] => .ok []
  | ind, l, (q, w) :: rest => do
    let sshape ← sshapeAt a ind
    let k ← kinematics c q w
    let l' := l.advance c k.ki
    let r ← pointAt c l' sshape k q
    let rs ← runLoop c a (ind + 1) l' rest
    pure (r :: rs)

/-- instrument/tas_instrument.py:543-929, `calc_resolution_in_Q_coords`.  The two arguments have
already been brought to equal length by `_CleanArgs` (`Verif.Tools.cleanArgs`). -/
noncomputable def calcInQ (s : Settings) (pts : List (ℝ × ℝ)) : Except Fail (List (ℝ × M4)) := do
  let c ← decode s
  runLoop c s.sample 0 (Loop.start s) pts

end Verif.Resolution
