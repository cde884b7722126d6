import Verif.Resolution.Instrument

/-!
# Model of `calc_projections` and `get_resolution_params`

`neutronpy/instrument/general.py` 20-225.
-/

namespace Verif.Resolution

open Real Matrix
open Verif.Crystal (Fail Vec npDiv npSqrt)
open Verif.Tools (Arg projectIntoPlane projectionHwhm ellipse)

/-- Exceptions of the two methods. -/
inductive ViewErr
  | fail (e : Fail)
  | indexError
  | instrumentError
  | unboundLocalError

/-- instrument/general.py:69-71 and 190-192, `Bmatrix`: rows and columns 0, 1 and 3. -/
def level (A : M4) : M3 := A.submatrix ![0, 1, 3] ![0, 1, 3]

/-- A curve and the two entries under `_fwhm`. -/
structure Curve where
  points : List (ℝ × ℝ)
  fwhm : ℝ × ℝ

/-- instrument/general.py:73-84 and its repetitions: a curve and its widths from a matrix of two axes. -/
noncomputable def curveOf (M : Matrix (Fin 2) (Fin 2) ℝ) (origin : ℝ × ℝ) (npts : ℕ) : Except Fail Curve := do
  let (a, b, t) ← projectionHwhm M
  return ⟨ellipse a b t origin npts, (2 * a, 2 * b)⟩

/-- The entries of `self.projections` for one point. -/
structure View where
  qxqy : Curve
  qxqySlice : Curve
  qxw : Curve
  qxwSlice : Curve
  qyw : Curve
  qywSlice : Curve

/-- `np.dot([H, K, L], orient / np.linalg.norm(orient) ** 2)`. -/
noncomputable def coordinate (hkl u : Vec) : ℝ := hkl ⬝ᵥ ((u ⬝ᵥ u)⁻¹ • u)

/-- instrument/general.py:68-149, the body of the loop.  (A vector of zero length in `orient` gives `nan` instead of
0; no resolution can be calculated with it.) -/
noncomputable def viewAt (u v : Vec) (r : Res) (hkl : Vec) (w : ℝ) (npts : ℕ) : Except Fail View := do
  let A := r.rms
  let qx := coordinate hkl u
  let qy := coordinate hkl v
  let qxqy ← curveOf (← projectIntoPlane 2 r.r0 (level A)).2 (qx, qy) npts
  let qxqySlice ← curveOf (A.submatrix ![0, 1] ![0, 1]) (qx, qy) npts
  let qxw ← curveOf (← projectIntoPlane 1 r.r0 (level A)).2 (qx, w) npts
  let qxwSlice ← curveOf (A.submatrix ![0, 3] ![0, 3]) (qx, w) npts
  let qyw ← curveOf (← projectIntoPlane 0 r.r0 (level A)).2 (qy, w) npts
  let qywSlice ← curveOf (A.submatrix ![1, 3] ![1, 3]) (qy, w) npts
  return ⟨qxqy, qxqySlice, qxw, qxwSlice, qyw, qywSlice⟩

/-- The points `self.H[ind], self.K[ind], self.L[ind], self.W[ind]`. -/
def keyPoints : List ℝ × List ℝ × List ℝ × List ℝ → List (Vec × ℝ)
  | (h, k, l, w) => (hkls h k l).zip w

/-- The loop of instrument/general.py:68-149 over the results; `self.H[ind]` beyond the end raises `IndexError`. -/
noncomputable def views (u v : Vec) (npts : ℕ) : List Res → List (Vec × ℝ) → Except ViewErr (List View)
  | [], _ => .ok []
  | _ :: _, [] => .error .indexError
  | r :: rs, p :: ps => match viewAt u v r p.1 p.2 npts with
    | .error e => .error (.fail e)
    | .ok x => match views u v npts rs ps with
      | .error e => .error e
      | .ok xs => .ok (x :: xs)

/-- instrument/general.py:20-149, `calc_projections`; what is stored in `self.projections` is returned. -/
noncomputable def calcProjections (i : Inst) (H K L W : Arg ℝ) (npts : ℕ) : Inst × Except ViewErr (List View) :=
  match getResolution i H K L W with
  | (i', .error e) => (i', .error (.fail e))
  | (i', .ok rs) => (i', views i'.setup.u i'.setup.v npts rs (keyPoints (i'.keys.getD ([], [], [], []))))

/-- The strings given as `plane`. -/
inductive Plane
  | QxQy | QxQySlice | QxW | QxWSlice | QyW | QyWSlice
  | other
  deriving DecidableEq

/-- The strings given as `mode`. -/
inductive Mode
  | project | slice
  | other
  deriving DecidableEq

/-- instrument/general.py:194-225, for one of the three planes that are treated: `idx` is the axis of `Bmatrix` that is
left out and `axes` the two others. -/
noncomputable def paramsIn (r : Res) (idx : Fin 3) (axes : Fin 2 → Fin 4) (mode : Mode) : Except Fail (Option (ℝ × ℝ × ℝ × ℝ)) := do
  let B := level r.rms
  let q ← npDiv (2 * π) (B idx idx)
  let R0 := (← npSqrt q) * r.r0
  match mode with
  | .project => do
    let (R, MP) ← projectIntoPlane idx R0 B
    return some (R, MP 0 0, MP 1 1, MP 0 1)
  | .slice =>
    let MP := r.rms.submatrix axes axes
    return some (R0, MP 0 0, MP 1 1, MP 0 1)
  | .other => return none

/-- instrument/general.py:180-225, after the resolution is there: the first stored point with the given indices.
`selfR0` is assigned only if `self.RMS` is one matrix. -/
noncomputable def paramsFrom (rs : List Res) (ps : List (Vec × ℝ)) (p : Vec × ℝ) (plane : Plane) (mode : Mode) :
    Except ViewErr (Option (ℝ × ℝ × ℝ × ℝ)) :=
  open Classical in
  match ps.findIdx? (fun q => decide (q = p)) with
  | none => .error .instrumentError
  | some ind => match rs[ind]? with
    | none => .error .indexError
    | some r =>
      let go (idx : Fin 3) (axes : Fin 2 → Fin 4) :=
        if rs.length = 1 then (paramsIn r idx axes mode).mapError .fail else .error .unboundLocalError
      match plane with
      | .QxQy => go 2 ![0, 1]
      | .QxW => go 1 ![0, 3]
      | .QyW => go 0 ![1, 3]
      | _ => .ok none

/-- instrument/general.py:151-225, `get_resolution_params`, for a point given by four numbers. -/
noncomputable def getParams (i : Inst) (h k l w : ℝ) (plane : Plane) (mode : Mode) :
    Inst × Except ViewErr (Option (ℝ × ℝ × ℝ × ℝ)) :=
  match i.result with
  | some rs => (i, paramsFrom rs (keyPoints (i.keys.getD ([], [], [], []))) (![h, k, l], w) plane mode)
  | none => match calcResolution i (.scalar h) (.scalar k) (.scalar l) (.scalar w) with
    | (i', some e) => (i', .error (.fail e))
    | (i', none) => (i', paramsFrom (i'.result.getD []) (keyPoints (i'.keys.getD ([], [], [], []))) (![h, k, l], w) plane mode)

end Verif.Resolution
