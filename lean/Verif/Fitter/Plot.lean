import Verif.Fitter.Table

/-!
# Model of the plot of a fit

`neutronpy/lsfit/plot.py` 51-84, `plot`.  Exact real arithmetic; matplotlib is modelled by the points, lines and the text it is given.
-/

namespace Verif.Fitter.Plot

open Verif.Fitter.Table (TableErr Shown build)

/-- Exceptions. -/
inductive PlotErr
  | indexError | typeError | valueError | attributeError | residuals | table (e : TableErr)
  deriving DecidableEq

/-- An element of the tuple `data`: a column of numbers or something else. -/
inductive Item
  | column (l : List ℝ)
  | other

/-- What a fit has stored (fitter.py 524-535): parameters, their errors, and `χ²`. -/
structure Fitted where
  params : List ℝ
  xerror : List (Option ℝ)
  chi2 : ℝ

/-- `self.data[k]`. -/
def item (data : List Item) (k : ℕ) : Except PlotErr Item := match data[k]? with
  | some x => .ok x
  | none => .error .indexError

/-- Something to be drawn must be a column of numbers. -/
def Item.numbers : Item → Except PlotErr (List ℝ)
  | .column l => .ok l
  | .other => .error .typeError

/-- `ax.plot(x, y)`: lists of different lengths are refused. -/
def drawLine (x y : List ℝ) : Except PlotErr (List (ℝ × ℝ)) := if x.length = y.length then .ok (x.zip y) else .error .valueError

/-- `ax.errorbar(x, y, yerr=e)`. -/
def drawPoints (x y e : List ℝ) : Except PlotErr (List (ℝ × ℝ × ℝ)) :=
  if x.length = y.length ∧ x.length = e.length then .ok (x.zip (y.zip e)) else .error .valueError

/-- What is shown. -/
structure Figure where
  residuals : Option (List (ℝ × ℝ))
  curve : List (ℝ × ℝ)
  points : List (ℝ × ℝ × ℝ)
  table : Shown

/-- lsfit/plot.py 51-84, `plot(fit_function, function_str, plot_residuals)`.  `fitted` is what the last fit has stored, if there was one;
`residuals` and `f` are the functions of the caller; `f` gets the element of `data` as it is.  `plt.hold` is left out. -/
noncomputable def plot (data : List Item) (fitted : Option Fitted) (residuals : List ℝ → Except PlotErr (List ℝ))
    (f : List ℝ → Item → Except PlotErr (List ℝ)) (title : Option String) (plotResiduals : Bool) : Except PlotErr Figure := do
  let xin ← item data 1
  let yin ← item data 2
  let errin ← item data 3
  let res ← if plotResiduals then do
      let fit ← (match fitted with | some r => .ok r | none => .error .attributeError)
      let r ← residuals fit.params
      let x ← xin.numbers
      let l ← drawLine x r
      pure (some l)
    else pure none
  let fit ← (match fitted with | some r => .ok r | none => .error .attributeError)
  let v ← f fit.params xin
  let x ← xin.numbers
  let curve ← drawLine x v
  let y ← yin.numbers
  let e ← errin.numbers
  let points ← drawPoints x y e
  match build title (fit.params.zip fit.xerror) fit.chi2 with
  | .error e => .error (.table e)
  | .ok t => return ⟨res, curve, points, t⟩

end Verif.Fitter.Plot
