import Verif.Data.Line
import Mathlib.Analysis.SpecialFunctions.Log.Basic

/-!
# Model of `plot_volume` (data/plot.py)

What is drawn, in exact arithmetic: the places of the marks and their colours, as numbers between 0 and 1 on the colour scale.
-/

namespace Verif.Data.Volume

open Verif.Data.Line (PlotErr lift Library)

/-- Arguments of `plot_volume` that have an effect.  `smooth` is the dictionary with or without `sigma`.  (`plot_options` and `kwargs` are
never used.) -/
structure Options where
  toBin : List (String × BinAxis ℝ) := []
  smooth : Option (Option ℝ) := none

/-- A mark: its place and its colour. -/
structure Mark where
  x : ℝ
  y : ℝ
  z : ℝ
  colour : ℝ

/-- `LogNorm` between `vmin=1.e-4` and `vmax=0.1` (data/plot.py 198-199); the colour map takes the ends of the scale beyond them. -/
noncomputable def colour (w : ℝ) : ℝ :=
  max 0 (min 1 ((Real.log w - Real.log (1 / 10000)) / (Real.log (1 / 10) - Real.log (1 / 10000))))

/-- data/plot.py 168-184: the four columns.  There is no column with the name `None`. -/
noncomputable def columns (lib : Library) (d : DataObj ℝ) (x y : String) (z : Option String) (w : String) (toBin : List (String × BinAxis ℝ)) :
    Except Err (List ℝ × List ℝ × List ℝ × List ℝ) := do
  let b ← if toBin.isEmpty then pure d else bin Real.sqrt lib.nprocs d toBin true
  let xs ← b.cols.get x
  let ys ← b.cols.get y
  let zs ← match z with
    | some z => b.cols.get z
    | none => .error .keyError
  if w = "intensity" then
    let (i, _) ← intensity b
    return (xs, ys, zs, i)
  else
    let c ← b.cols.get w
    return (xs, ys, zs, c)

/-- data/plot.py 190-199: marks for the entries that are not masked. -/
noncomputable def marks (xs ys zs ws : List ℝ) : List Mark :=
  (xs.zip (ys.zip (zs.zip ws))).filterMap fun p => if p.2.2.2 ≤ 0 then none else some ⟨p.1, p.2.1, p.2.2.1, colour p.2.2.2⟩

/-- data/plot.py 109-206, `plot_volume`.  (Masking a column with another of another length is an `IndexError`.) -/
noncomputable def plotVolume (lib : Library) (d : DataObj ℝ) (x y : String) (z : Option String) (w : String) (o : Options) :
    Except PlotErr (List Mark) := do
  let (xs, ys, zs, ws) ← lift (columns lib d x y z w o.toBin)
  let sigma ← match o.smooth with
    | none => .error (.data .typeError)
    | some none => .error (.data .keyError)
    | some (some s) => .ok s
  let ws := if 0 < sigma then lib.filter sigma ws else ws
  if xs.length ≠ ws.length ∨ ys.length ≠ ws.length ∨ zs.length ≠ ws.length then .error (.data .indexError)
  else return marks xs ys zs ws

/-- data/plot.py 76-99, `plot` with `x`, `y` and `w`: the defaults, and the call. -/
noncomputable def plot (lib : Library) (d : DataObj ℝ) (x y : String) (z : Option String) (w : String) (o : Options) :
    Except PlotErr (List Mark) := plotVolume lib d x y z w { o with smooth := some (o.smooth.getD (some 0)) }

end Verif.Data.Volume
