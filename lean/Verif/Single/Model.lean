import Mathlib.Analysis.Complex.Exponential
import Verif.Convolution.Model

/-!
# Model of `resolution_convolution_SMA` and `_voigt`

`neutronpy/instrument/tas_instrument.py` 1285-1472 and `neutronpy/instrument/tools.py` 298-362, in exact arithmetic.  The
conventions are those of `Convolution/Model`: the cross section and the prefactor are functions of a point, one for each mode.
-/

namespace Verif.Single

open Real Matrix
open Verif.Crystal (Fail Vec npSqrt npDiv standardSystem)
open Verif.Resolution (M4 Inst Res calcResolution hkls)
open Verif.Tools (Arg cleanArgs)
open Verif.Convolution (Err lift Point Pref weight step nodes Accuracy Method gridSize blockNumber)

/-! ## The profile -/

/-- `_approx1` (instrument/tools.py 299-300). -/
noncomputable def approx1 (t : ℂ) : ℂ := t * 0.5641896 / (0.5 + t ^ 2)

/-- `_approx2` (instrument/tools.py 302-303). -/
noncomputable def approx2 (t u : ℂ) : ℂ := t * (1.410474 + u * 0.5641896) / (0.75 + u * (3 + u))

/-- `_approx3` (instrument/tools.py 305-313). -/
noncomputable def approx3 (t : ℂ) : ℂ :=
  (16.4955 + t * (20.20933 + t * (11.96482 + t * (3.778987 + 0.5642236 * t)))) /
    (16.4955 + t * (38.82363 + t * (39.27121 + t * (21.69274 + t * (6.699398 + t)))))

/-- `_approx4` (instrument/tools.py 315-328). -/
noncomputable def approx4 (t u : ℂ) : ℂ :=
  t * (36183.31 - u * (3321.99 - u * (1540.787 - u * (219.031 - u * (35.7668 - u * (1.320522 - u * 0.56419)))))) /
    (32066.6 - u * (24322.8 - u * (9022.23 - u * (2186.18 - u * (364.219 - u * (61.5704 - u * (1.84144 - u)))))))

/-- `_voigt` (instrument/tools.py 298-362) for one element of `x` and `a`: the assignments in their order, a later one replacing
the value of an earlier one.  Single precision is not modelled.  Where a denominator is zero the code has an infinity or `nan`,
this function zero. -/
noncomputable def voigt (x a : ℝ) : ℝ :=
  let t : ℂ := a - Complex.I * x
  let ax := |x|
  let s := ax + a
  let u := t ^ 2
  let y : ℂ := 0
  let y := if a = 0 then Complex.exp (-(x : ℂ) ^ 2) else y
  let y := if 15 ≤ a ∨ 15 ≤ s then approx1 t else y
  let y := if s < 15 ∧ a < 15 ∧ 5.5 ≤ a then approx2 t u else y
  let y := if s < 15 ∧ 5.5 ≤ s ∧ a < 5.5 then approx2 t u else y
  let y := if s < 5.5 ∧ a < 5.5 ∧ 0.75 ≤ a then approx3 t else y
  let y := if s < 5.5 ∧ 0.195 * ax - 0.176 ≤ a ∧ a < 0.75 then approx3 t else y
  let y := if ¬ (s < 5.5 ∧ 0.195 * ax - 0.176 ≤ a) ∧ a < 0.75 then Complex.exp u - approx4 t u else y
  y.re

/-! ## The convolution -/

/-- What the cross section returns for one mode: `disp`, `inte`, `WL` (tas_instrument.py 1414, 1450). -/
structure Mode where
  disp : ℝ
  inte : ℝ
  width : ℝ

/-- tas_instrument.py 1350-1368, for one point. -/
structure Coeffs where
  gamma : ℝ
  omegax : ℝ
  omegay : ℝ
  detxy : ℝ
  detz : ℝ
  tqz : ℝ
  tqy : ℝ
  tqxx : ℝ
  tqxy : ℝ

/-- tas_instrument.py 1346-1368, for one point. -/
noncomputable def coeffs (R : M4) : Except Fail Coeffs := do
  let gamma ← npSqrt (R 3 3 / 2)
  let root ← npSqrt (2 * R 3 3)
  let omegax ← npDiv (R 0 3) root
  let omegay ← npDiv (R 1 3) root
  let Mxx := R 0 0 - (← npDiv (R 0 3 ^ 2) (R 3 3))
  let Myy := R 1 1 - (← npDiv (R 1 3 ^ 2) (R 3 3))
  let Mxy := R 0 1 - (← npDiv (R 0 3 * R 1 3) (R 3 3))
  let detxy ← npSqrt (Mxx * Myy - Mxy ^ 2)
  let detz ← npSqrt (R 2 2)
  let tqz ← npDiv 1 detz
  let sx ← npSqrt Mxx
  let tqy ← npDiv sx detxy
  let tqxx ← npDiv 1 sx
  let tqxy ← npDiv (← npDiv Mxy sx) detxy
  return ⟨gamma, omegax, omegay, detxy, detz, tqz, tqy, tqxx, tqxy⟩

/-- tas_instrument.py 1408-1419, 1444-1455: the contribution of one mode at the values `tx`, `ty`, `tz` of the variables, apart
from the weights and the division by `detxy` and `detz`. -/
noncomputable def term (c : Coeffs) (ax : Vec × Vec × Vec) (p : Point) (S : Vec → Mode) (tx ty tz : ℝ) : ℝ :=
  let dQ1 := c.tqxx * tx - c.tqxy * ty
  let dQ2 := c.tqy * ty
  let dQ4 := c.tqz * tz
  let m := S (p.1 + dQ1 • ax.1 + dQ2 • ax.2.1 + dQ4 • ax.2.2)
  m.inte * voigt (c.gamma * (m.disp - p.2) + c.omegax * dQ1 + c.omegay * dQ2) (m.width * c.gamma)

/-- The terms of `add` in all rounds of the loop over `iz`, added up for one point and mode (tas_instrument.py 1435-1456).  Every
term is divided by `detxy` and `detz`; they are not zero where `coeffs` exist. -/
noncomputable def gridSum (c : Coeffs) (ax : Vec × Vec × Vec) (p : Point) (S : Vec → Mode) (M0 M1 : ℕ) : ℝ :=
  ((nodes M1).map fun z => ((nodes M0).map fun y => ((nodes M0).map fun x =>
    term c ax p S (tan x) (tan y) (tan z) * (weight (tan x) * weight (tan y)) * weight (tan z) / c.detxy / c.detz).sum).sum).sum

/-- tas_instrument.py 1458-1465: `conv` for one point by the method `'fix'`. -/
noncomputable def fixAt {n : ℕ} (c : Coeffs) (ax : Vec × Vec × Vec) (p : Point) (sqw : Fin n → Vec → Mode) (factor : Fin n → ℝ) (M0 M1 : ℕ) : ℝ :=
  let conv := (∑ j, gridSum c ax p (sqw j) M0 M1 * factor j) * step M0 ^ 2 * step M1
  let conv := if M1 = 0 then conv * 0.79788 else conv
  if M0 = 0 then conv * 0.79788 ^ 2 else conv

/-- The random numbers of numpy: what `np.random.seed` and `np.random.randn(3, 1000)` do to the state `G`. -/
structure Random (G : Type) where
  seed : ℕ → G
  randn : G → (Fin 3 → Fin 1000 → ℝ) × G

/-- The terms of one block of random points for one mode (tas_instrument.py 1400-1420). -/
noncomputable def blockSum (c : Coeffs) (ax : Vec × Vec × Vec) (p : Point) (S : Vec → Mode) (r : Fin 3 → Fin 1000 → ℝ) : ℝ :=
  ∑ k, (let t (a : Fin 3) := tan (r a k * π - π / 2)
    term c ax p S (t 0) (t 1) (t 2) * (weight (t 0) * weight (t 1) * weight (t 2)) / c.detxy / c.detz)

/-- The blocks for one point (tas_instrument.py 1397-1420). -/
noncomputable def blocks {G : Type} {n : ℕ} (R : Random G) (seed : Option ℕ) (c : Coeffs) (ax : Vec × Vec × Vec) (p : Point)
    (sqw : Fin n → Vec → Mode) : ℕ → (Fin n → ℝ) × G → (Fin n → ℝ) × G
  | 0, s => s
  | m + 1, (acc, g) =>
    let g := match seed with | some x => R.seed x | none => g
    let (r, g) := R.randn g
    blocks R seed c ax p sqw m (fun j => acc j + blockSum c ax p (sqw j) r, g)

/-- tas_instrument.py 1394-1424: `conv` for one point by the method `'mc'`.  For no blocks the quotient is `nan`. -/
noncomputable def mcAt {G : Type} {n : ℕ} (R : Random G) (seed : Option ℕ) (c : Coeffs) (ax : Vec × Vec × Vec) (p : Point)
    (sqw : Fin n → Vec → Mode) (factor : Fin n → ℝ) (M : ℕ) (g : G) : Except Fail (ℝ × G) := do
  let (acc, g) := blocks R seed c ax p sqw M (fun _ => 0, g)
  let q ← npDiv (∑ j, acc j * factor j) M
  return (q / 1000 * π ^ 3, g)

/-- tas_instrument.py 1373-1383: prefactor and background.  `np.ones(modes, points)` takes the number of points for a data type,
which raises `TypeError`. -/
def prefactor {n : ℕ} (pref : Option (Pref n)) (nargout : ℤ) : Except Err (Pref n) :=
  match pref with
  | none => .error .typeError
  | some f =>
    if nargout = 2 then .ok f
    else if nargout = 1 then .ok ⟨f.factor, fun _ => 0⟩
    else .error .valueError

/-- The loop over the points for the method `'mc'`. -/
noncomputable def mcAll {G : Type} {n : ℕ} (R : Random G) (seed : Option ℕ) (ax : Vec × Vec × Vec) (sqw : Fin n → Vec → Mode)
    (f : Pref n) (M : ℕ) : List (Point × Res × Coeffs) → G → Except Err (List ℝ × G)
  | [], g => .ok ([], g)
  | x :: l, g => do
    let (c, g) ← lift (mcAt R seed x.2.2 ax x.1 sqw (f.factor x.1) M g)
    let (cs, g) ← mcAll R seed ax sqw f M l g
    return ((c * x.2.1.r0 + f.background x.1) :: cs, g)

/-- tas_instrument.py 1285-1472, `resolution_convolution_SMA`, after the resolution `rs` at the points is there.  `RMS[:, 3, 3]`
raises `IndexError` for a single point, as in `resolution_convolution`. -/
noncomputable def convolveAt {G : Type} {n : ℕ} (R : Random G) (g : G) (ax : Vec × Vec × Vec) (rs : List Res) (ps : List Point)
    (sqw : Fin n → Vec → Mode) (pref : Option (Pref n)) (nargout : ℤ) (method : Method) (acc : Accuracy) (seed : Option ℕ) :
    Except Err (List ℝ × G) := do
  if rs.length = 1 then .error .indexError
  let cs ← lift (rs.mapM fun r => coeffs r.rms)
  let f ← prefactor pref nargout
  let l := ps.zip (rs.zip cs)
  match method with
  | .fix => do
    let M ← gridSize acc
    return (l.map fun x => fixAt x.2.2 ax x.1 sqw (f.factor x.1) M.1 M.2 * x.2.1.r0 + f.background x.1, g)
  | .mc => mcAll R seed ax sqw f (← blockNumber acc) l g
  | .other => .error .valueError

/-- tas_instrument.py 1285-1472, `resolution_convolution_SMA`: the instrument after the call, and the result. -/
noncomputable def convolve {G : Type} {n : ℕ} (R : Random G) (g : G) (i : Inst) (sqw : Fin n → Vec → Mode) (pref : Option (Pref n))
    (nargout : ℤ) (H K L W : Arg ℝ) (method : Method) (acc : Accuracy) (seed : Option ℕ) : Inst × Except Err (List ℝ × G) :=
  match calcResolution i H K L W, cleanArgs [H, K, L, W] with
  | (i', some e), _ => (i', .error (.fail e))
  | (i', none), .ok (_, [h, k, l, w]) => (i', do
    let ax ← lift (standardSystem i'.setup.lattice i'.setup.u i'.setup.v)
    convolveAt R g ax (i'.result.getD []) ((hkls h k l).zip w) sqw pref nargout method acc seed)
  | (i', none), _ => (i', .error .valueError)

end Verif.Single
