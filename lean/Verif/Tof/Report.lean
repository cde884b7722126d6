import Verif.Tof.Model

/-!
# Model of `description_string` for a time-of-flight instrument

`neutronpy/instrument/plot.py` 420-448, 479-533: the numbers that are put into the text (before they are rounded), and the exceptions.
-/

namespace Verif.Tof.Report

open Real Matrix
open Verif.Crystal (Fail Vec Lattice npDiv npSqrt deg2rad rad2deg getPhi)
open Verif.Resolution (M4)
open Verif.Tools (Arg getBraggWidths)

/-- The numbers in the lines about the instrument (instrument/plot.py 521-529), times in microseconds, lengths in centimetres, angles in
degrees. -/
structure Shown where
  tauP : ℝ
  tauM : ℝ
  tauD : ℝ
  lPm : ℝ
  lMs : ℝ
  lSd : ℝ
  sLPm : ℝ
  sLMs : ℝ
  sLSd : ℝ
  thetaI : ℝ
  phiI : ℝ
  sThetaI : ℝ
  sPhiI : ℝ
  twoTheta : ℝ
  phi : ℝ
  sTheta : ℝ
  sPhi : ℝ

/-- The numbers in the text (instrument/plot.py 507-533). -/
structure Text where
  /-- `M/10^4` -/
  matrix : M4
  volume : ℝ
  prefactor : ℝ
  dQ1 : ℝ
  dQ2 : ℝ
  dE : ℝ
  dQz : ℝ
  vanadium : ℝ
  inst : Shown
  lattice : Lattice
  u : Vec
  v : Vec

/-- A chopper with its width in time; `self.choppers[k].tau`. -/
noncomputable def width (l : List Disc) (k : ℕ) : Except Err ℝ := match l[k]? with
  | none => .error .indexError
  | some d => match d.toChopper.tau with
    | .ok t => .ok t
    | .error e => .error (.chopper e)

/-- instrument/plot.py 480-505.  The defaults are computed even if an attribute replaces them. -/
noncomputable def shown (c : Consts) (i : Inst) (Q : Vec) : Except Err Shown := do
  let lam ← number (Verif.Energy.derive c.scipy i.ei).wavelen
  let theta ← lift (i.sample.lattice.getTwoTheta Q lam)
  let ph ← lift (getPhi i.sample.lattice i.sample.u i.sample.v Q)
  let tp ← width i.choppers 0
  let tm ← width i.choppers 1
  let lpm ← (match i.choppers with
    | p :: m :: _ => .ok |p.distance - m.distance|
    | _ => .error .indexError : Except Err ℝ)
  let lms ← (match i.sample.distance with | some d => .ok d | none => .error .attributeError : Except Err ℝ)
  let g0 ← (match i.guides[0]? with | some g => .ok g | none => .error .indexError : Except Err Guide)
  let g1 ← (match i.guides[1]? with | some g => .ok g | none => .error .indexError : Except Err Guide)
  let far ← lift (npDiv i.detector.radius (cos (deg2rad (i.sample.mosaic.getD 60 / 60))))
  let div ← lift g1.sigmaTheta
  let top ← npMax i.detector.height
  let pix ← lift (npDiv top i.detector.vpixels)
  return {
    tauP := i.over.tauP.getD tp
    tauM := i.over.tauM.getD tm
    tauD := i.over.tauD.getD i.detector.tau
    lPm := i.over.lPm.getD lpm
    lMs := i.over.lMs.getD lms
    lSd := i.over.lSd.getD i.detector.radius
    sLPm := i.over.sLPm.getD g0.sigmaL
    sLMs := i.over.sLMs.getD g1.sigmaL
    sLSd := i.over.sLSd.getD (far - i.detector.radius)
    thetaI := i.thetaI
    phiI := i.phiI
    sThetaI := i.over.sThetaI.getD (div * lam)
    sPhiI := i.over.sPhiI.getD (div * lam)
    twoTheta := theta
    phi := rad2deg (π / 2 - deg2rad ph)
    sTheta := i.over.sTheta.getD (max (i.sample.mosaic.getD 60 / 60) i.detector.hpixels)
    sPhi := i.over.sPhi.getD (max (i.sample.vmosaic.getD 60 / 60) pix) }

/-- instrument/plot.py 420-448, 479-535, `description_string`, given the settings, the stored results (`none` before a calculation) and
`self.HKLE` as it was passed to `calc_resolution`.  If `H`, `K` and `L` are not numbers, `self.sample.get_two_theta` raises: the product of
arrays of the wrong shape gives `ValueError`, a result that is not a single number `TypeError` (crystal/lattice.py 333-335); here
`valueError` for both.  The attribute `method`, which is read although it is not used, is left out, as are the positions in the text.
`typed`: the object has the attribute `instrument_type` `'tof'`, which only `Instrument(…)` sets (instrument/instrument.py 38). -/
noncomputable def describe (c : Consts) (typed : Bool) (i : Inst) (results : Option (List Res)) (H K L : Arg ℝ) : Except Err Text :=
  match results with
  | none => .error .attributeError
  | some [] => .error .indexError
  | some (r :: _) => do
    let root ← lift (npSqrt r.rms.det)
    let vol ← lift (npDiv ((2 * π) ^ 2) root)
    let w ← lift (getBraggWidths r.rms)
    if ¬ typed then .error .attributeError
    match H, K, L with
    | .scalar h, .scalar k, .scalar l => do
      let s ← shown c i ![h, k, l]
      return {
        matrix := fun a b => r.rms b a / 1.0e4
        volume := 2 * vol
        prefactor := r.r0
        dQ1 := w 0
        dQ2 := w 1
        dE := w 4
        dQz := w 2
        vanadium := w 3
        inst := s
        lattice := i.sample.lattice
        u := i.sample.u
        v := i.sample.v }
    | _, _, _ => .error .valueError

end Verif.Tof.Report
