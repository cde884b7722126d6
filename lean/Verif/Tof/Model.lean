import Mathlib.Analysis.SpecialFunctions.Trigonometric.Inverse
import Mathlib.Analysis.SpecialFunctions.Log.Basic
import Verif.Common.Sort
import Verif.Crystal.Model
import Verif.Energy.Model
import Verif.Instrument.Model
import Verif.Resolution.Instrument
import Verif.Tools.Model
import Verif.Tools.PropsProj

/-!
# Model of `neutronpy/instrument/tof_instrument.py`, `guide.py` and `detector.py`

Exact real arithmetic in place of floating point.  Where the code meets `nan` or an infinity, stores it and goes on,
there is an error here.
-/

namespace Verif.Tof

open Real Matrix
open Verif.Crystal (Fail Vec Mat Lattice npSqrt npArcsin npDiv deg2rad ubmatrix getPhi)
open Verif.Resolution (M4 npInv hkls)
open Verif.Tools (arctan2 Arg cleanArgs quad getKfree getAngleKiQ)
open Verif.Energy (Num)
open Verif.Instrument (Chopper ChopErr)

/-- Exceptions and missing numbers. -/
inductive Err
  | fail (f : Fail)
  | chopper (e : ChopErr)
  | attributeError
  | indexError
  | detectorError
  | valueError
  deriving DecidableEq

/-- A computation of another module. -/
def lift {α : Type} : Except Fail α → Except Err α
  | .ok x => .ok x
  | .error e => .error (.fail e)

/-- The constants: those of scipy used by `Energy`, and `neutron_mass * 1e-3`, `hbar` and `e` of constants.py 97-99
(tof_instrument.py 7, 207). -/
structure Consts where
  scipy : Verif.Energy.Consts
  mn : ℝ
  hbar : ℝ
  e : ℝ
  mn_pos : 0 < mn
  hbar_pos : 0 < hbar
  e_pos : 0 < e

/-- A chopper with its distance from the source (chopper.py 64). -/
structure Disc extends Chopper where
  distance : ℝ

/-- A `Guide` (guide.py 15-19). -/
structure Guide where
  m : ℝ
  length : ℝ
  width : ℝ
  height : ℝ

/-- `Guide.sigma_l` (guide.py 22-23). -/
noncomputable def Guide.sigmaL (g : Guide) : ℝ := √(g.length ^ 2 + g.width ^ 2 + g.height ^ 2) - g.length

/-- `Guide.sigma_theta` and `sigma_phi` (guide.py 26-31). -/
noncomputable def Guide.sigmaTheta (g : Guide) : Except Fail ℝ := do npArcsin (← npSqrt (g.m * sin 2.03e-3 ^ 2))

/-- A `Detector` (detector.py 62-74); the attributes that no calculation uses are left out.  `height` is a list, as
documented. -/
structure Detector where
  shape : List Char
  height : List ℝ
  radius : ℝ
  hpixels : ℝ
  vpixels : ℝ
  tau : ℝ
  orientation : Option (List Char)

/-- The attributes of the sample that the calculation uses (crystal/sample.py 118-141). -/
structure Sample where
  lattice : Lattice
  u : Vec
  v : Vec
  mosaic : Option ℝ
  vmosaic : Option ℝ
  distance : Option ℝ

/-- Attributes that replace derived quantities if they exist (`getattr(self, ..., default)`, tof_instrument.py
167-183). -/
structure Overrides where
  tauP : Option ℝ := none
  tauM : Option ℝ := none
  tauD : Option ℝ := none
  lPm : Option ℝ := none
  lMs : Option ℝ := none
  lSd : Option ℝ := none
  sLPm : Option ℝ := none
  sLMs : Option ℝ := none
  sLSd : Option ℝ := none
  sThetaI : Option ℝ := none
  sPhiI : Option ℝ := none
  sTheta : Option ℝ := none
  sPhi : Option ℝ := none

/-- A `TimeOfFlightInstrument` without the results of calculations (tof_instrument.py 78-112). -/
structure Inst where
  ei : ℝ
  choppers : List Disc
  sample : Sample
  detector : Detector
  guides : List Guide
  thetaI : ℝ
  phiI : ℝ
  over : Overrides

/-! ## The constructor -/

/-- The argument `choppers`: nothing (or something false), an object that is no list, a list. -/
inductive ChoppersArg
  | missing
  | one (c : Disc)
  | list (l : List Disc)

/-- `Chopper(0.0, 60.0, 5.0, 10, 'disk', tau=38)` (tof_instrument.py 87; the arguments are in the wrong order, which is
of no consequence here because `tau` is given). -/
def defaultP : Disc := ⟨⟨60, 5, [], 0, true, none, none, some 38⟩, 0⟩

/-- `Chopper(2500.0, 240.0, 2.0, 10, 'disk', 2, tau=6)` (tof_instrument.py 88). -/
def defaultM : Disc := ⟨⟨240, 2, [], 0, true, none, none, some 6⟩, 2500⟩

open Classical in
/-- The choppers of a new instrument (tof_instrument.py 81-89). -/
noncomputable def choppersOf : ChoppersArg → List Disc
  | .missing | .list [] => [defaultP, defaultM]
  | .one c => [c]
  | .list l => isort (fun a b => decide (a.distance ≤ b.distance)) l

/-- The default sample (tof_instrument.py 94). -/
def defaultSample : Sample := ⟨⟨6, 7, 8, 90, 90, 90⟩, ![1, 0, 0], ![0, 1, 0], none, none, some 3600⟩

/-- The default detector (tof_instrument.py 99; detector.py 62). -/
noncomputable def defaultDetector : Detector := ⟨cs!"cylindrical", [-15, 15], 300, 1 / 10, 256, 1 / 10, none⟩

/-- `TimeOfFlightInstrument.__init__` (tof_instrument.py 78-112).  An empty list of guides counts as none. -/
noncomputable def create (ei : ℝ) (choppers : ChoppersArg) (sample : Option Sample) (detector : Option Detector)
    (guides : Option (List Guide)) (thetaI phiI : ℝ) (over : Overrides) : Except Err Inst := do
  let cs := choppersOf choppers
  let s := sample.getD defaultSample
  let d := detector.getD defaultDetector
  let gs ← (match guides with
    | some (g :: r) => .ok (g :: r)
    | _ => match cs with
      | p :: m :: _ => match s.distance with
        | none => .error .attributeError
        | some l => .ok [⟨1, m.distance - p.distance, 15, 15⟩, ⟨1, l - m.distance, 15, 15⟩]
      | _ => .error .indexError : Except Err (List Guide))
  return ⟨ei, cs, s, d, gs, thetaI, phiI, over⟩

/-! ## The resolution matrix -/

/-- The uncertainties and lengths in SI units, angles in radian. -/
structure Measures where
  tauP : ℝ
  tauM : ℝ
  tauD : ℝ
  lPm : ℝ
  lMs : ℝ
  lSd : ℝ
  sLPm : ℝ
  sLMs : ℝ
  sLSd : ℝ
  sThetaI : ℝ
  sPhiI : ℝ
  sTheta : ℝ
  sPhi : ℝ
  thetaI : ℝ
  phiI : ℝ

/-- An attribute of `Energy` as a number. -/
def number : Num → Except Err ℝ
  | .num r => .ok r
  | .nan => .error (.fail .nan)
  | .inf => .error (.fail .inf)

/-- `np.max` of a list. -/
noncomputable def npMax : List ℝ → Except Err ℝ
  | [] => .error .valueError
  | x :: l => .ok (l.foldl max x)

/-- tof_instrument.py 166-186.  The defaults are computed even if an attribute replaces them. -/
noncomputable def decode (i : Inst) (wavelength : ℝ) : Except Err Measures := do
  let (p, m) ← (match i.choppers with
    | p :: m :: _ => .ok (p, m)
    | _ => .error .indexError : Except Err (Disc × Disc))
  let tp ← (match p.toChopper.tau with | .ok t => .ok t | .error e => .error (.chopper e) : Except Err ℝ)
  let tm ← (match m.toChopper.tau with | .ok t => .ok t | .error e => .error (.chopper e) : Except Err ℝ)
  let dist ← (match i.sample.distance with | some d => .ok d | none => .error .attributeError : Except Err ℝ)
  let (g, h) ← (match i.guides with
    | g :: h :: _ => .ok (g, h)
    | _ => .error .indexError : Except Err (Guide × Guide))
  let slsd ← lift (npDiv i.detector.radius (cos (deg2rad (i.sample.mosaic.getD 60 / 60))))
  let st ← lift h.sigmaTheta
  let top ← npMax i.detector.height
  let pix ← lift (npDiv top i.detector.vpixels)
  return {
    tauP := i.over.tauP.getD tp / 10 ^ 6
    tauM := i.over.tauM.getD tm / 10 ^ 6
    tauD := i.over.tauD.getD i.detector.tau / 10 ^ 6
    lPm := i.over.lPm.getD |p.distance - m.distance| / 10 ^ 2
    lMs := i.over.lMs.getD dist / 10 ^ 2
    lSd := i.over.lSd.getD i.detector.radius / 10 ^ 2
    sLPm := i.over.sLPm.getD g.sigmaL / 10 ^ 2
    sLMs := i.over.sLMs.getD h.sigmaL / 10 ^ 2
    sLSd := i.over.sLSd.getD (slsd - i.detector.radius) / 10 ^ 2
    sThetaI := deg2rad (i.over.sThetaI.getD (st * wavelength))
    sPhiI := deg2rad (i.over.sPhiI.getD (st * wavelength))
    sTheta := deg2rad (i.over.sTheta.getD (max (i.sample.mosaic.getD 60 / 60) i.detector.hpixels))
    sPhi := deg2rad (i.over.sPhi.getD (max (i.sample.vmosaic.getD 60 / 60) pix))
    thetaI := deg2rad i.thetaI
    phiI := deg2rad i.phiI }

/-- The wavevectors and speeds (tof_instrument.py 189-193) and the angles (203-204). -/
structure Kin where
  ki : ℝ
  kf : ℝ
  vi : ℝ
  vf : ℝ
  theta : ℝ
  phi : ℝ

/-- tof_instrument.py 189-193, 203-204.  `kf` is a numpy number, so that a zero gives no exception in `Energy` but
infinities later; there is no number for the matrix in either case. -/
noncomputable def kinematics (c : Consts) (i : Inst) (Q : Vec) (W : ℝ) : Except Err Kin := do
  let ei := Verif.Energy.derive c.scipy i.ei
  let ki ← number ei.wavevec
  let kf ← number (← lift (getKfree c.scipy W ki true))
  let vi ← number ei.vel
  let vf ← (match Verif.Energy.create c.scipy { wavevector := some kf } with
    | .ok s => number s.vel
    | .error _ => .error (.fail .nan) : Except Err ℝ)
  let lam ← number ei.wavelen
  let tt ← lift (i.sample.lattice.getTwoTheta Q lam)
  let ph ← lift (getPhi i.sample.lattice i.sample.u i.sample.v Q)
  return ⟨ki, kf, vi, vf, deg2rad tt, π / 2 - deg2rad ph⟩

/-- The two forms of detector that are supported. -/
inductive Form
  | spherical
  | cylinder
  deriving DecidableEq

/-- tof_instrument.py 213-258.  `~hasattr(...)` is `-1` or `-2`, both true, so that the orientation of a cylinder is
never looked at. -/
def formOf (d : Detector) : Except Err Form :=
  if d.shape = cs!"spherical" then .ok .spherical
  else if d.shape = cs!"cylindrical" then .ok .cylinder
  else .error .detectorError

/-- `r` (tof_instrument.py 214-216, 231-233). -/
noncomputable def matR (f : Form) (m : Measures) (k : Kin) : Matrix (Fin 3) (Fin 2) ℝ := match f with
  | .spherical => !![cos m.thetaI * cos m.phiI, -cos k.theta * cos k.phi;
                     sin m.thetaI * cos m.phiI, -sin k.theta * cos k.phi;
                     sin m.phiI, -sin k.phi]
  | .cylinder => !![cos m.thetaI * cos m.phiI, -cos k.theta;
                    sin m.thetaI * cos m.phiI, -sin k.theta;
                    sin m.phiI, -tan k.phi]

/-- `r_tt` (tof_instrument.py 218-220, 235-237). -/
noncomputable def matRtt (f : Form) (k : Kin) : Matrix (Fin 3) (Fin 2) ℝ := match f with
  | .spherical => !![0, sin k.theta * cos k.phi; 0, -cos k.theta * cos k.phi; 0, 0]
  | .cylinder => !![0, sin k.theta; 0, -cos k.theta; 0, 0]

/-- `r_ph` (tof_instrument.py 223-225, 239-241). -/
noncomputable def matRph (f : Form) (k : Kin) : Matrix (Fin 3) (Fin 2) ℝ := match f with
  | .spherical => !![0, cos k.theta * sin k.phi; 0, sin k.theta * sin k.phi; 0, -cos k.phi]
  | .cylinder => !![0, 0; 0, 0; 0, -(1 + tan k.phi ^ 2)]

/-- `r_tt_i` (tof_instrument.py 261-263). -/
noncomputable def matRttI (m : Measures) : Matrix (Fin 3) (Fin 2) ℝ :=
  !![-sin m.thetaI * cos m.phiI, 0; cos m.thetaI * cos m.phiI, 0; 0, 0]

/-- `r_ph_i` (tof_instrument.py 265-267). -/
noncomputable def matRphI (m : Measures) : Matrix (Fin 3) (Fin 2) ℝ :=
  !![-cos m.thetaI * sin m.phiI, 0; -sin m.thetaI * sin m.phiI, 0; cos m.phiI, 0]

/-- `sigma_sq` (tof_instrument.py 199-200, 270-278): the standard deviations.  The square root of the sum of squares
is squared again, which gives the sum. -/
noncomputable def sigmas (m : Measures) : Fin 9 → ℝ :=
  ![√(m.tauP ^ 2 + m.tauM ^ 2), √(m.tauM ^ 2 + m.tauD ^ 2), m.sLPm, m.sLMs, m.sLSd, m.sThetaI, m.sPhiI, m.sTheta, m.sPhi]

/-- The columns of `q_derivs` (tof_instrument.py 210, 281-289), `ti` and `tf` being the flight times. -/
noncomputable def qDerivs (c : Consts) (f : Form) (m : Measures) (k : Kin) (ti tf : ℝ) : Fin 9 → Fin 3 → ℝ :=
  let r := matR f m k
  let vel : Fin 2 → ℝ := ![k.vi * c.mn / c.hbar, k.vf * c.mn / c.hbar]
  ![r *ᵥ ![-c.mn / c.hbar * k.vi / ti, c.mn / c.hbar * k.vf / tf * m.lMs / m.lPm],
    r *ᵥ ![0, -c.mn / c.hbar * k.vf / tf],
    r *ᵥ ![c.mn / c.hbar / ti, -c.mn / c.hbar * k.vf / tf * m.lMs / (k.vi * m.lPm)],
    r *ᵥ ![0, c.mn / c.hbar * k.vf / tf / k.vi],
    r *ᵥ ![0, c.mn / c.hbar / tf],
    matRttI m *ᵥ vel,
    matRphI m *ᵥ vel,
    matRtt f k *ᵥ vel,
    matRph f k *ᵥ vel]

/-- `e_derivs` (tof_instrument.py 292-296), filled up with zeros (299, 301). -/
noncomputable def eDerivs (c : Consts) (m : Measures) (ti tf : ℝ) : Fin 9 → ℝ :=
  ![-c.mn * (m.lPm ^ 2 / ti ^ 3 + m.lSd ^ 2 / tf ^ 3 * m.lMs / m.lPm) / (1e-3 * c.e),
    c.mn * (m.lSd ^ 2 / tf ^ 3) / (1e-3 * c.e),
    c.mn * (m.lPm / ti ^ 2 + m.lSd ^ 2 / tf ^ 3 * ti / m.lPm ^ 2 * m.lMs) / (1e-3 * c.e),
    -c.mn * (m.lSd ^ 2 / tf ^ 3 * ti / m.lPm) / (1e-3 * c.e),
    -c.mn * (m.lSd / tf ^ 2) / (1e-3 * c.e),
    0, 0, 0, 0]

/-- `jacobi` (tof_instrument.py 299-301). -/
noncomputable def jacobi (c : Consts) (f : Form) (m : Measures) (k : Kin) (ti tf : ℝ) : Matrix (Fin 4) (Fin 9) ℝ :=
  fun a j => (![qDerivs c f m k ti tf j 0 * 1e-10, qDerivs c f m k ti tf j 1 * 1e-10, qDerivs c f m k ti tf j 2 * 1e-10,
    eDerivs c m ti tf j] : Fin 4 → ℝ) a

/-- `sigma_qe` (tof_instrument.py 304). -/
noncomputable def covariance (J : Matrix (Fin 4) (Fin 9) ℝ) (s : Fin 9 → ℝ) : M4 := J * diagonal (fun j => s j ^ 2) * Jᵀ

/-- `rot_ki_q` (tof_instrument.py 312-314). -/
noncomputable def rotation (a : ℝ) : M4 := !![cos a, -sin a, 0, 0; sin a, cos a, 0, 0; 0, 0, 1, 0; 0, 0, 0, 1]

/-- `calc_resolution_in_Q_coords` (tof_instrument.py 136-329) without the printed output.  The tangent of a right angle
and divisions by zero, which lead to infinities, are errors here. -/
noncomputable def calcInQ (c : Consts) (i : Inst) (Q : Vec) (W : ℝ) : Except Err (ℝ × M4) := do
  let lam ← number (Verif.Energy.derive c.scipy i.ei).wavelen
  let m ← decode i lam
  let k ← kinematics c i Q W
  let ti ← lift (npDiv m.lPm k.vi)
  let tf ← lift (npDiv m.lSd k.vf)
  let f ← formOf i.detector
  if f = .cylinder ∧ cos k.phi = 0 then .error (.fail .inf)
  if ti = 0 ∨ tf = 0 then .error (.fail .nan)
  let reso ← lift (npInv (covariance (jacobi c f m k ti tf) (sigmas m)))
  let q ← lift (i.sample.lattice.getQ Q)
  let a ← lift (getAngleKiQ k.ki k.kf q (-1) false)
  let res := (rotation a)ᵀ * reso * rotation a
  let r0 ← lift (npDiv (2 * log 2) (quad res ![Q 0, Q 1, Q 2, W]))
  return (r0, res)

/-! ## In the frame of the crystal -/

/-- `chop` of an array (instrument/tools.py 625-626). -/
noncomputable def chopEntry (x : ℝ) : ℝ := if |x| < 1e-12 then 0 else x

/-- `chop` of a number (instrument/tools.py 638-641). -/
noncomputable def chopNumber (x : ℝ) : ℝ := if x < 1e-12 then 0 else x

/-- The matrix with `UB` in its upper left corner (tof_instrument.py 364-365). -/
def extend (UB : Mat) : M4 :=
  !![UB 0 0, UB 0 1, UB 0 2, 0; UB 1 0, UB 1 1, UB 1 2, 0; UB 2 0, UB 2 1, UB 2 2, 0; 0, 0, 0, 1]

/-- The results for one point. -/
structure Res where
  r0 : ℝ
  rm : M4
  rms : M4

/-- `rms` (tof_instrument.py 367-374), before the small entries are removed. -/
noncomputable def crystalFrame (UB : Mat) (Q : Vec) (rm : M4) : M4 :=
  let vec := UB *ᵥ Q
  let ang0 := -arctan2 (vec 1) (vec 0)
  (rotation (-ang0) * extend UB) * rm * (rotation (-ang0) * extend UB)ᵀ

/-- The body of the loop (tof_instrument.py 360-378). -/
noncomputable def pointAt (c : Consts) (i : Inst) (p : Vec × ℝ) : Except Err Res := do
  let (r0, rm) ← calcInQ c i p.1 p.2
  let UB ← lift (ubmatrix i.sample.lattice i.sample.u i.sample.v)
  return ⟨chopNumber r0, rm.map chopEntry, (crystalFrame UB p.1 rm).map chopEntry⟩

/-- `calc_resolution` (tof_instrument.py 332-380): the values stored for each point.  `np.squeeze`, which drops axes of
length one, is left out. -/
noncomputable def calcResolution (c : Consts) (i : Inst) (H K L W : Arg ℝ) : Except Err (List Res) :=
  match cleanArgs [H, K, L, W] with
  | .ok (_, [h, k, l, w]) => ((hkls h k l).zip w).mapM (pointAt c i)
  | _ => .error .valueError

end Verif.Tof
