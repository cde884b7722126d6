import Verif.Data.Bin
import Verif.Convolution.Model

/-!
# Model of `plot` and `plot_line` (data/plot.py)

What is drawn, in exact arithmetic.  Colours, legends and windows are left out, as are volume and contour plots (for these see
`Verif.Data.Contour`).
-/

namespace Verif.Data.Line

open Verif.Convolution (linspace)

/-- Exceptions: those of the data, and the one that stands for any failure of the fit (data/plot.py 414-415). -/
inductive PlotErr
  | data (e : Err)
  | fitFailed
  deriving DecidableEq, Repr

/-- Exceptions of the data. -/
def lift {α : Type} : Except Err α → Except PlotErr α
  | .ok a => .ok a
  | .error e => .error (.data e)

/-- `fit_options`: the function with its parameters first, and the initial values. -/
structure FitOptions where
  function : List ℝ → ℝ → ℝ
  p : List ℝ

/-- Arguments of `plot_line`.  `none` is `None`; `smooth` is the dictionary with or without `sigma`; an empty `to_bin` or
`fit_options` acts as `None`.  (`kwargs` are never used.) -/
structure Options where
  showErr : Bool := true
  toBin : List (String × BinAxis ℝ) := []
  plotOptions : Option (List (String × String)) := none
  fit : Option FitOptions := none
  smooth : Option (Option ℝ) := none

/-- The figure: points, error bars (`none` for `nan`), labels, and the curve of the fit with its colour. -/
structure Figure where
  points : List (ℝ × ℝ)
  bars : Option (List (Option ℝ))
  xlabel : String
  ylabel : String
  curve : Option (Option Char × List (ℝ × ℝ))

/-- `np.sqrt`. -/
noncomputable def root (x : ℝ) : Option ℝ := if 0 ≤ x then some √x else none

/-- The parts of the library that are not modelled: `gaussian_filter` with a given width, the result of `Fitter.fit` for function, points,
errors and initial values, and the number of processes of `bin`. -/
structure Library where
  filter : ℝ → List ℝ → List ℝ
  fitter : FitOptions → List ℝ → List ℝ → List (Option ℝ) → Option (List ℝ)
  nprocs : Nat

/-- data/plot.py 352-368: the columns to draw, and their errors. -/
noncomputable def columns (lib : Library) (d : DataObj ℝ) (x y : String) (toBin : List (String × BinAxis ℝ)) :
    Except Err (List ℝ × List ℝ × List (Option ℝ)) := do
  let b ← if toBin.isEmpty then pure d else bin Real.sqrt lib.nprocs d toBin true
  let xs ← b.cols.get x
  if y = "intensity" then
    let (i, b) ← intensity b
    let (e, _) ← error Real.sqrt b
    return (xs, i, e.map some)
  else
    let c ← b.cols.get y
    return (xs, c, c.map root)

/-- data/plot.py 388-415: the curve of the fit.  Every exception after the call of the fitter is turned into another one. -/
noncomputable def fitCurve (lib : Library) (f : FitOptions) (opts : List (String × String)) (xs ys : List ℝ) (es : List (Option ℝ)) :
    Except PlotErr (Option Char × List (ℝ × ℝ)) :=
  match lib.fitter f xs ys es, xs.min?, xs.max?, opts.lookup "fmt" with
  | some params, some lo, some hi, some fmt =>
    .ok (fmt.toList.head?, (linspace lo hi (xs.length * 10)).map fun t => (t, f.function params t))
  | _, _, _, _ => .error .fitFailed

/-- data/plot.py 304-422, `plot_line`.  Returned are the figure and the dictionary `plot_options` of the caller afterwards.  (The
empty format, whose first character does not exist, is left out.) -/
noncomputable def plotLine (lib : Library) (d : DataObj ℝ) (x y : String) (o : Options) : Except PlotErr (Figure × List (String × String)) := do
  let (xs, ys, es) ← lift (columns lib d x y o.toBin)
  let sigma ← match o.smooth with
    | none => .error (.data .typeError)
    | some none => .error (.data .keyError)
    | some (some s) => .ok s
  let ys := if 0 < sigma then lib.filter sigma ys else ys
  let opts ← match o.plotOptions with
    | none => .error (.data .typeError)
    | some [] => .ok [("fmt", "rs")]
    | some p => .ok p
  if xs.length ≠ ys.length then .error (.data .valueError)
  else
    let curve ← match o.fit with
      | none => .ok none
      | some f => (fitCurve lib f opts xs ys es).map some
    return (⟨xs.zip ys, if o.showErr then some es else none, x, y, curve⟩, opts)

/-- What `plot` draws. -/
inductive Kind
  | line (f : Figure)
  | contour (x y z : String)
  | volume (x y : String) (z : Option String) (w : String)

/-- data/plot.py 76-107, `plot`: the defaults, and the choice of the kind of plot.  `dx`, `dy` are the attributes `plot_default_x` and
`plot_default_y`. -/
noncomputable def plot (lib : Library) (d : DataObj ℝ) (dx dy : Option String) (x y z w : Option String) (o : Options) : Except PlotErr Kind := do
  let o := { o with plotOptions := some (o.plotOptions.getD []), smooth := some (o.smooth.getD (some 0)) }
  let x ← match x, dx with
    | some x, _ => .ok x
    | none, some x => .ok x
    | none, none => .error (.data .attributeError)
  let y ← match y, dy with
    | some y, _ => .ok y
    | none, some y => .ok y
    | none, none => .error (.data .attributeError)
  match w, z with
  | some w, z => return .volume x y z w
  | none, some z => return .contour x y z
  | none, none =>
    let (f, _) ← plotLine lib d x y o
    return .line f

end Verif.Data.Line
