import Verif.Crystal.Model
import Verif.Energy.Model
import Verif.Common.Chars
import Mathlib.Analysis.SpecialFunctions.Log.Basic
import Mathlib.Analysis.SpecialFunctions.Complex.Arg
import Mathlib.Data.Fin.Tuple.Basic

/-!
# Model of `neutronpy/instrument/tools.py`

Exact real arithmetic in place of floating point.  The lattice helpers of the same file are
modelled in `Verif.Crystal.Model`.
-/

namespace Verif.Tools

open Real Matrix
open Verif.Crystal (Fail npSqrt npArccos npDiv)

/-! ## Crystal names -/

/-- `str.lower` on ASCII (Python also maps letters outside ASCII). -/
def lower (s : List Char) : List Char := s.map Char.toLower

/-- A value of the table: a number given directly, or `2 * np.pi / d`. -/
inductive Entry
  | tau (q : ℚ)
  | spacing (d : ℚ)

/-- The number in the dictionary. -/
noncomputable def Entry.val : Entry → ℝ
  | .tau q => q
  | .spacing d => 2 * π / d

/-- The dictionary display `choices` (instrument/tools.py 215-230) in the order of the source, with keys as
written. -/
def choicesDisplay : List (List Char × Entry) := [
  (cs!"pg(002)", .tau 1.87325), (cs!"pg(004)", .tau 3.74650), (cs!"ge(111)", .tau 1.92366),
  (cs!"ge(220)", .tau 3.14131), (cs!"ge(311)", .tau 3.68351), (cs!"be(002)", .tau 3.50702),
  (cs!"pg(110)", .tau 5.49806), (cs!"Cu2MnAl(111)", .spacing 3.437),
  (cs!"Co0.92Fe0.08(200)", .spacing 1.771), (cs!"Ge(511)", .spacing 1.089),
  (cs!"Ge(533)", .spacing 0.863), (cs!"Si(111)", .spacing 3.135), (cs!"Cu(111)", .spacing 2.087),
  (cs!"Cu(002)", .spacing 1.807), (cs!"Cu(220)", .spacing 1.278), (cs!"Cu(111)", .spacing 2.095)]

/-- Insertion into a dictionary: a known key keeps its place and gets the new value. -/
def dictSet (k : List Char) (v : Entry) : List (List Char × Entry) → List (List Char × Entry)
  | [] => [(k, v)]
  | (k', v') :: r => if k' = k then (k, v) :: r else (k', v') :: dictSet k v r

/-- The dictionary after the display is evaluated: every key in lower case, the second copper (111)
replacing the first (instrument/tools.py 215-230). -/
def choices : List (List Char × Entry) := choicesDisplay.foldl (fun d e => dictSet (lower e.1) e.2 d) []

/-- `choices[k]`. -/
def lookup (k : List Char) : List (List Char × Entry) → Option Entry
  | [] => none
  | (k', v) :: r => if k' = k then some v else lookup k r

/-- Argument of `GetTau`: a number (`int` or `float`) or a string.  Other types, for example numpy
integers, raise an `AttributeError` in the code and are left out. -/
inductive TauArg
  | num (x : ℝ)
  | name (s : List Char)

/-- What `repr` of the object that calls `GetTau` starts with (instrument/tools.py 244-248). -/
inductive Caller
  | monochromator
  | analyzer
  | other

/-- Result of `GetTau` without `getlabel`; `none` is the implicit `None` returned when the caller is
neither kind of crystal. -/
inductive TauErr
  | monochromatorError
  | analyzerError
  deriving DecidableEq

/-- `GetTau(x)` (instrument/tools.py 239-250). -/
noncomputable def getTau (caller : Caller) : TauArg → Except TauErr (Option ℝ)
  | .num x => .ok (some x)
  | .name s =>
    match lookup (lower s) choices with
    | some v => .ok (some v.val)
    | none =>
      match caller with
      | .monochromator => .error .monochromatorError
      | .analyzer => .error .analyzerError
      | .other => .ok none

open Classical in
/-- `min(d, key=...)` over a non-empty list: the first key with the smallest distance. -/
noncomputable def argmin (f : List Char × Entry → ℝ) (best : List Char × Entry) :
    List (List Char × Entry) → List Char × Entry
  | [] => best
  | e :: r => if f e < f best then argmin f e r else argmin f best r

open Classical in
/-- `GetTau(x, getlabel=True)` for a number (instrument/tools.py 232-238). -/
noncomputable def getLabel (x : ℝ) : List Char :=
  match choices with
  | [] => []
  | e :: r =>
    let b := argmin (fun e => |e.2.val - x|) e r
    if |(|b.2.val - x|)| < 5e-4 then b.1 else []

/-! ## `_CleanArgs` -/

/-- An argument: a number or a one-dimensional list or array.  (Tuples and arrays of more dimensions
are not modelled.) -/
inductive Arg (α : Type)
  | scalar (x : α)
  | list (l : List α)

/-- The list of an argument (instrument/tools.py 280-282). -/
def Arg.toList {α : Type} : Arg α → List α
  | .scalar x => [x]
  | .list l => l

/-- Exceptions of `_CleanArgs`. -/
inductive CleanErr
  /-- `max` of no arguments. -/
  | emptyMax
  /-- `varargout[i][-1]` of an empty array. -/
  | indexError
  /-- The length check at the end. -/
  | valueError
  deriving DecidableEq

/-- One argument brought to length `n` (instrument/tools.py 287-290). -/
def pad {α : Type} (n : Nat) (l : List α) : Except CleanErr (List α) :=
  if l.length < n then
    match l.getLast? with
    | none => .error .indexError
    | some x => .ok (l ++ List.replicate (n - l.length) x)
  else .ok l

/-- `_CleanArgs` (instrument/tools.py 277-295). -/
def cleanArgs {α : Type} (args : List (Arg α)) : Except CleanErr (Nat × List (List α)) :=
  let lists := args.map Arg.toList
  match (lists.map List.length).max? with
  | none => .error .emptyMax
  | some n => do
    let out ← lists.mapM (pad n)
    if out.any (fun l => decide (l.length < n)) then .error .valueError
    return (n, out)

/-! ## Projections of the resolution matrix -/

/-- `project_into_plane` (instrument/tools.py 387-398) for an `(n+1) × (n+1)` matrix of floats.  No number
results if the diagonal element is not positive (division by zero, `nan`). -/
noncomputable def projectIntoPlane {n : ℕ} (i : Fin (n + 1)) (r0 : ℝ) (rm : Matrix (Fin (n + 1)) (Fin (n + 1)) ℝ) :
    Except Fail (ℝ × Matrix (Fin n) (Fin n) ℝ) := do
  let q ← npDiv (2 * π) (rm i i)
  let r ← npSqrt q
  let b : Fin n → ℝ := fun k => rm (i.succAbove k) i + rm i (i.succAbove k)
  let mp : Matrix (Fin n) (Fin n) ℝ := rm.submatrix i.succAbove i.succAbove
  return (r * r0, mp - (1 / (4 * rm i i)) • Matrix.vecMulVec b b)

/-- `T` of `get_phonon_width`: the identity with its last row replaced (instrument/tools.py 462-463). -/
def phononT (C : Fin 4 → ℝ) : Matrix (Fin 4) (Fin 4) ℝ := (1 : Matrix (Fin 4) (Fin 4) ℝ).updateRow 3 C

open Classical in
/-- `get_phonon_width` (instrument/tools.py 461-471). -/
noncomputable def getPhononWidth (r0 : ℝ) (M : Matrix (Fin 4) (Fin 4) ℝ) (C : Fin 4 → ℝ) :
    Except Fail (ℝ × ℝ) := do
  if (phononT C).det = 0 then .error .linAlgError
  let S := (phononT C)⁻¹
  let MP := Sᵀ * M * S
  let p ← projectIntoPlane 0 r0 MP
  let p ← projectIntoPlane 0 p.1 p.2
  let p ← projectIntoPlane 0 p.1 p.2
  let s ← npSqrt (p.2 0 0)
  let w ← npDiv (√(8 * log 2)) s
  return (p.1, w)

/-- `np.sqrt(8 * np.log(2)) / np.sqrt(x)`. -/
noncomputable def widthOf (x : ℝ) : Except Fail ℝ := do npDiv (√(8 * log 2)) (← npSqrt x)

/-- `get_bragg_widths` (instrument/tools.py 452-458): five widths. -/
noncomputable def getBraggWidths (M : Matrix (Fin 4) (Fin 4) ℝ) : Except Fail (Fin 5 → ℝ) := do
  let a ← widthOf (M 0 0)
  let b ← widthOf (M 1 1)
  let c ← widthOf (M 2 2)
  let v ← getPhononWidth 0 M ![0, 0, 0, 1]
  let e ← widthOf (M 3 3)
  return ![a * 2, b * 2, c * 2, v.2 * 2, e * 2]

/-- The axes `v` and `j` of `fproject` (instrument/tools.py 475-486). -/
def fprojectAxes : Fin 3 → Fin 3 × Fin 3
  | 0 => (2, 1)
  | 1 => (0, 2)
  | 2 => (0, 1)

/-- `fproject` at one point, the matrix being one of the stack (instrument/tools.py 474-496); any `i` other than
0, 1, 2 raises a `ValueError`. -/
noncomputable def fproject (M : Matrix (Fin 3) (Fin 3) ℝ) (i : ℤ) : Except Fail ℝ := do
  let i : Fin 3 ← if i = 0 then .ok 0 else if i = 1 then .ok 1 else if i = 2 then .ok 2 else .error .valueError
  let v := (fprojectAxes i).1
  let j := (fprojectAxes i).2
  let a ← npDiv (M i v ^ 2) (M v v)
  let b ← npDiv (M i v * M j v) (M v v)
  let c ← npDiv (M j v ^ 2) (M v v)
  let p00 := M i i - a
  let p01 := M i j - b
  let p11 := M j j - c
  let d ← npDiv (p01 ^ 2) p11
  npDiv (√(2 * log 2)) (← npSqrt (p00 - d))

/-- `np.arctan2(y, x)`. -/
noncomputable def arctan2 (y x : ℝ) : ℝ := Complex.arg ⟨x, y⟩

/-- `calculate_projection_hwhm` (instrument/tools.py 510-518). -/
noncomputable def projectionHwhm (M : Matrix (Fin 2) (Fin 2) ℝ) : Except Fail (ℝ × ℝ × ℝ) := do
  let theta := 0.5 * arctan2 (2 * M 0 1) (M 0 0 - M 1 1)
  let S : Matrix (Fin 2) (Fin 2) ℝ := !![cos theta, sin theta; -sin theta, cos theta]
  let MP := S * M * Sᵀ
  let a ← npDiv 1.17741 (← npSqrt (MP 0 0))
  let b ← npDiv 1.17741 (← npSqrt (MP 1 1))
  return (a, b, theta)

/-- The point of `ellipse` at the parameter `t` (instrument/tools.py 431-433). -/
noncomputable def ellipsePoint (s1 s2 phi : ℝ) (origin : ℝ × ℝ) (t : ℝ) : ℝ × ℝ :=
  (s1 * cos t * cos phi - s2 * sin t * sin phi + origin.1,
   s1 * cos t * sin phi + s2 * sin t * cos phi + origin.2)

/-- `np.linspace(0, 2 * np.pi, npts)`. -/
noncomputable def linspaceCircle (npts : ℕ) : List ℝ :=
  (List.range npts).map fun (i : ℕ) => if npts = 1 then 0 else 2 * π * i / (npts - 1)

/-- `ellipse` (instrument/tools.py 427-434); the default origin is `(0, 0)`. -/
noncomputable def ellipse (s1 s2 phi : ℝ) (origin : ℝ × ℝ) (npts : ℕ) : List (ℝ × ℝ) :=
  (linspaceCircle npts).map (ellipsePoint s1 s2 phi origin)

/-! ## Kinematics -/

open Classical in
/-- `get_angle_ki_Q` (instrument/tools.py 547-559). -/
noncomputable def getAngleKiQ (ki kf Q gonioDir : ℝ) (outside : Bool) : Except Fail ℝ := do
  let angle ← (do
    if Q = 0 then return π / 2
    let c ← npDiv (ki ^ 2 - kf ^ 2 + Q ^ 2) (2 * ki * Q)
    if |c| > 1 then .error .scatteringTriangleError
    return arccos c)
  let angle := if outside then π - angle else angle
  return angle * SignType.sign gonioDir

open Classical in
/-- `get_kfree` (instrument/tools.py 583-592); a comparison with `nan` is false. -/
noncomputable def getKfree (c : Verif.Energy.Consts) (W kfixed : ℝ) (kiFixed : Bool) : Except Fail Verif.Energy.Num :=
  match Verif.Energy.create c { energy := some W } with
  | .error _ => .error .valueError
  | .ok s =>
    match s.wavevec with
    | .nan => .ok .nan
    | .inf => if kiFixed then .error .scatteringTriangleError else .ok .inf
    | .num kE =>
      let kEsq := if kiFixed then -kE ^ 2 else kE ^ 2
      let ksq := kEsq + kfixed ^ 2
      if ksq < 0 then .error .scatteringTriangleError else .ok (.num √ksq)

/-! ## `chop` -/

/-- Python values that `chop` distinguishes; arrays are given by their entries (the shape does not
matter). -/
inductive Val
  | real (x : ℚ)
  | complex (re im : ℚ)
  | array (l : List ℚ)
  | carray (l : List (ℚ × ℚ))
  | tup (l : List Val)
  | lst (l : List Val)
  | other

/-- `0` if the modulus is below the tolerance. -/
def zap (tol x : ℚ) : ℚ := if |x| < tol then 0 else x

/-- The scalar test, which lacks the modulus (instrument/tools.py 632-635, 638). -/
def zapScalar (tol x : ℚ) : ℚ := if x < tol then 0 else x

/-- The default tolerance. -/
def defaultTol : ℚ := 1 / 10 ^ 12

mutual
/-- `chop` (instrument/tools.py 612-644): the result and the argument afterwards, or `none` for the `TypeError`
when a complex number without imaginary part is compared.  The recursive calls use the default
tolerance; a real array is changed in place. -/
def chop (tol : ℚ) : Val → Option (Val × Val)
  | .tup l => (chopL l).map fun p => (.tup p.1, .tup p.2)
  | .lst l => (chopL l).map fun p => (.lst p.1, .lst p.2)
  | .carray l => some (.carray (l.map fun z => (zap tol z.1, zap tol z.2)), .carray l)
  | .array l => some (.array (l.map (zap tol)), .array (l.map (zap tol)))
  | .complex re im =>
    if im ≠ 0 then some (.complex (zapScalar tol re) (zapScalar tol im), .complex re im) else none
  | .real x => some (.real (zapScalar tol x), .real x)
  | .other => some (.other, .other)
/-- The generators over the items (instrument/tools.py 613, 615). -/
def chopL : List Val → Option (List Val × List Val)
  | [] => some ([], [])
  | v :: r =>
    match chop defaultTol v, chopL r with
    | some a, some b => some (a.1 :: b.1, a.2 :: b.2)
    | _, _ => none
end

end Verif.Tools
