import Verif.Resolution.Instrument

/-!
# Model of `resolution_convolution`

`neutronpy/instrument/tas_instrument.py` 1094-1283, in exact arithmetic.  Where the code meets `nan` or an infinity, stores
it and goes on, there is an error here.

The cross section and the prefactor are functions of a point, one for each mode; the code calls them with arrays, which is
the same for a function that treats the elements of its arguments separately.  The parameters `p`, which are passed on without
change, are part of these functions.
-/

namespace Verif.Convolution

open Real Matrix
open Verif.Crystal (Fail Vec npSqrt npDiv standardSystem)
open Verif.Resolution (M4 Inst Res calcResolution hkls)
open Verif.Tools (Arg cleanArgs)

/-- Exceptions and missing numbers. -/
inductive Err
  | fail (f : Fail)
  | indexError
  | typeError
  | valueError
  deriving DecidableEq

/-- A computation of another module. -/
def lift {α : Type} : Except Fail α → Except Err α
  | .ok x => .ok x
  | .error e => .error (.fail e)

/-- A point: three Miller indexes and an energy. -/
abbrev Point := Vec × ℝ

/-- The argument `pref`, with what it returns for a point: a factor for each mode, and a background. -/
structure Pref (n : ℕ) where
  factor : Point → Fin n → ℝ
  background : Point → ℝ

/-- tas_instrument.py 1154-1175: the coefficients of the transformation between the variables of the integration and the
displacements, and `detM`. -/
structure Coeffs where
  tqx : ℝ
  tqyx : ℝ
  tqyy : ℝ
  tqwx : ℝ
  tqwy : ℝ
  tqww : ℝ
  tqz : ℝ
  detM : ℝ

/-- tas_instrument.py 1154-1175, for one point.  The entries of `RMS` that are not read are of no consequence. -/
noncomputable def coeffs (R : M4) : Except Fail Coeffs := do
  let Mxx := R 0 0 - (← npDiv (R 0 3 ^ 2) (R 3 3))
  let Mxy := R 0 1 - (← npDiv (R 0 3 * R 1 3) (R 3 3))
  let Myy := R 1 1 - (← npDiv (R 1 3 ^ 2) (R 3 3))
  let MMxx := Mxx - (← npDiv (Mxy ^ 2) Myy)
  let sz ← npSqrt (R 2 2)
  let sx ← npSqrt MMxx
  let sy ← npSqrt Myy
  let sw ← npSqrt (R 3 3)
  let yx ← npDiv (-Mxy) Myy
  let wy ← npDiv (-R 1 3) (R 3 3)
  let wx ← npDiv (R 0 3) (R 3 3)
  let wyx ← npDiv (R 1 3) (R 3 3)
  return {
    tqx := ← npDiv 1 sx
    tqyx := ← npDiv yx sx
    tqyy := ← npDiv 1 sy
    tqwx := ← npDiv (-(wx - (← npDiv (wyx * Mxy) Myy))) sx
    tqwy := ← npDiv wy sy
    tqww := ← npDiv 1 sw
    tqz := ← npDiv 1 sz
    detM := MMxx * Myy * R 2 2 * R 3 3 }

/-- tas_instrument.py 1213-1220, 1260-1267: the point sampled for the values `tx`, `ty`, `tz`, `tw` of the variables. -/
def sampled (c : Coeffs) (ax : Vec × Vec × Vec) (p : Point) (tx ty tz tw : ℝ) : Point :=
  let dQ1 := c.tqx * tx
  let dQ2 := c.tqyy * ty + c.tqyx * tx
  let dW := c.tqwx * tx + c.tqwy * ty + c.tqww * tw
  let dQ4 := c.tqz * tz
  (p.1 + dQ1 • ax.1 + dQ2 • ax.2.1 + dQ4 • ax.2.2, p.2 + dW)

/-- One factor of `norm` and `normz` (tas_instrument.py 1207-1209, 1258-1259). -/
noncomputable def weight (t : ℝ) : ℝ := exp (-0.5 * t ^ 2) * (1 + t ^ 2)

/-- `np.linspace`. -/
noncomputable def linspace (start stop : ℝ) (num : ℕ) : List ℝ :=
  (List.range num).map fun k : ℕ => if num ≤ 1 then start else start + (k : ℝ) * ((stop - start) / (num - 1))

/-- `step1`, `step2` (tas_instrument.py 1196-1197). -/
noncomputable def step (M : ℕ) : ℝ := π / (2 * M + 1)

/-- `dd1`, `dd2` (tas_instrument.py 1198-1199). -/
noncomputable def nodes (M : ℕ) : List ℝ := linspace (-π / 2 + step M / 2) (π / 2 - step M / 2) (2 * M + 1)

/-- The terms of `add` in all rounds of the loops over `iz` and `j`, added up for one point and mode (tas_instrument.py
1202-1224). -/
noncomputable def gridSum (c : Coeffs) (ax : Vec × Vec × Vec) (p : Point) (S : Point → ℝ) (M0 M1 : ℕ) : ℝ :=
  ((nodes M1).map fun z => ((nodes M0).map fun w => ((nodes M0).map fun x => ((nodes M0).map fun y =>
    S (sampled c ax p (tan x) (tan y) (tan z) (tan w)) * (weight (tan x) * weight (tan y) * weight (tan w)) * weight (tan z)).sum).sum).sum).sum

/-- tas_instrument.py 1226-1232: `conv` for one point by the method `'fix'`. -/
noncomputable def fixAt {n : ℕ} (c : Coeffs) (ax : Vec × Vec × Vec) (p : Point) (sqw : Fin n → Point → ℝ) (factor : Fin n → ℝ) (M0 M1 : ℕ) :
    Except Fail ℝ := do
  let root ← npSqrt c.detM
  let conv ← npDiv ((∑ j, gridSum c ax p (sqw j) M0 M1 * factor j) * step M0 ^ 3 * step M1) root
  let conv := if M1 = 0 then conv * 0.79788 else conv
  return if M0 = 0 then conv * 0.79788 ^ 3 else conv

/-- The random numbers of numpy: what `np.random.seed` and `np.random.randn(4, 1000)` do to the state `G`. -/
structure Random (G : Type) where
  seed : ℕ → G
  randn : G → (Fin 4 → Fin 1000 → ℝ) × G

/-- The terms of one block of random points for one mode (tas_instrument.py 1249-1271). -/
noncomputable def blockSum (c : Coeffs) (ax : Vec × Vec × Vec) (p : Point) (S : Point → ℝ) (r : Fin 4 → Fin 1000 → ℝ) : ℝ :=
  ∑ k, (let t (a : Fin 4) := tan (r a k * π - π / 2)
    S (sampled c ax p (t 0) (t 1) (t 2) (t 3)) * (weight (t 0) * weight (t 1) * weight (t 2) * weight (t 3)))

/-- The blocks for one point: the sums for each mode so far, and the state of the generator (tas_instrument.py
1246-1271). -/
noncomputable def blocks {G : Type} {n : ℕ} (R : Random G) (seed : Option ℕ) (c : Coeffs) (ax : Vec × Vec × Vec) (p : Point)
    (sqw : Fin n → Point → ℝ) : ℕ → (Fin n → ℝ) × G → (Fin n → ℝ) × G
  | 0, s => s
  | m + 1, (acc, g) =>
    let g := match seed with | some x => R.seed x | none => g
    let (r, g) := R.randn g
    blocks R seed c ax p sqw m (fun j => acc j + blockSum c ax p (sqw j) r, g)

/-- tas_instrument.py 1245-1275: `conv` for one point by the method `'mc'`.  For no blocks the quotient is `nan`. -/
noncomputable def mcAt {G : Type} {n : ℕ} (R : Random G) (seed : Option ℕ) (c : Coeffs) (ax : Vec × Vec × Vec) (p : Point)
    (sqw : Fin n → Point → ℝ) (factor : Fin n → ℝ) (M : ℕ) (g : G) : Except Fail (ℝ × G) := do
  let (acc, g) := blocks R seed c ax p sqw M (fun _ => 0, g)
  let q ← npDiv (∑ j, acc j * factor j) M
  let root ← npSqrt c.detM
  let conv ← npDiv (q / 1000 * π ^ 4) root
  return (conv, g)

/-- The argument `ACCURACY`. -/
inductive Accuracy
  | none
  | number (n : ℕ)
  | list (l : List ℕ)

/-- The argument `METHOD`. -/
inductive Method
  | fix
  | mc
  | other
  deriving DecidableEq

/-- tas_instrument.py 1193-1197: `M[0]` and `M[1]`. -/
def gridSize : Accuracy → Except Err (ℕ × ℕ)
  | .none => .ok (7, 0)
  | .number _ => .error .typeError
  | .list (a :: b :: _) => .ok (a, b)
  | .list _ => .error .indexError

/-- tas_instrument.py 1235-1242: the number of blocks. -/
def blockNumber : Accuracy → Except Err ℕ
  | .none => .ok 10
  | .number n => .ok n
  | .list [n] => .ok n
  | .list _ => .error .valueError

/-- tas_instrument.py 1180-1190: prefactor and background.  With `nargout == 1` there is no background. -/
def prefactor {n : ℕ} (pref : Option (Pref n)) (nargout : ℤ) : Except Err (Pref n) :=
  match pref with
  | none => .ok ⟨fun _ _ => 1, fun _ => 0⟩
  | some f =>
    if nargout = 2 then .ok f
    else if nargout = 1 then .ok ⟨f.factor, fun _ => 0⟩
    else .error .valueError

/-- The loop over the points for the method `'fix'`. -/
noncomputable def fixAll {n : ℕ} (ax : Vec × Vec × Vec) (sqw : Fin n → Point → ℝ) (f : Pref n) (M : ℕ × ℕ)
    (l : List (Point × Res × Coeffs)) : Except Err (List ℝ) :=
  l.mapM fun x => do return (← lift (fixAt x.2.2 ax x.1 sqw (f.factor x.1) M.1 M.2)) * x.2.1.r0 + f.background x.1

/-- The loop over the points for the method `'mc'`. -/
noncomputable def mcAll {G : Type} {n : ℕ} (R : Random G) (seed : Option ℕ) (ax : Vec × Vec × Vec) (sqw : Fin n → Point → ℝ)
    (f : Pref n) (M : ℕ) : List (Point × Res × Coeffs) → G → Except Err (List ℝ × G)
  | [], g => .ok ([], g)
  | x :: l, g => do
    let (c, g) ← lift (mcAt R seed x.2.2 ax x.1 sqw (f.factor x.1) M g)
    let (cs, g) ← mcAll R seed ax sqw f M l g
    return ((c * x.2.1.r0 + f.background x.1) :: cs, g)

/-- tas_instrument.py 1094-1283, `resolution_convolution`, after the resolution `rs` at the points is there.  `RMS[:, 0, 0]`
(1154) raises `IndexError` for a single point, whose matrix `np.squeeze` (997) has left with two axes. -/
noncomputable def convolveAt {G : Type} {n : ℕ} (R : Random G) (g : G) (ax : Vec × Vec × Vec) (rs : List Res) (ps : List Point)
    (sqw : Fin n → Point → ℝ) (pref : Option (Pref n)) (nargout : ℤ) (method : Method) (acc : Accuracy) (seed : Option ℕ) :
    Except Err (List ℝ × G) := do
  if rs.length = 1 then .error .indexError
  let cs ← lift (rs.mapM fun r => coeffs r.rms)
  let f ← prefactor pref nargout
  let l := ps.zip (rs.zip cs)
  match method with
  | .fix => do return (← fixAll ax sqw f (← gridSize acc) l, g)
  | .mc => mcAll R seed ax sqw f (← blockNumber acc) l g
  | .other => .error .valueError

/-- tas_instrument.py 1094-1283, `resolution_convolution`: the instrument after the call, and the result. -/
noncomputable def convolve {G : Type} {n : ℕ} (R : Random G) (g : G) (i : Inst) (sqw : Fin n → Point → ℝ) (pref : Option (Pref n))
    (nargout : ℤ) (H K L W : Arg ℝ) (method : Method) (acc : Accuracy) (seed : Option ℕ) : Inst × Except Err (List ℝ × G) :=
  match calcResolution i H K L W, cleanArgs [H, K, L, W] with
  | (i', some e), _ => (i', .error (.fail e))
  | (i', none), .ok (_, [h, k, l, w]) => (i', do
    let ax ← lift (standardSystem i'.setup.lattice i'.setup.u i'.setup.v)
    convolveAt R g ax (i'.result.getD []) ((hkls h k l).zip w) sqw pref nargout method acc seed)
  | (i', none), _ => (i', .error .valueError)

end Verif.Convolution
