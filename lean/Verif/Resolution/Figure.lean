import Verif.Resolution.Projections

/-!
# Model of `plot_projections` and `plot_slice`

`neutronpy/instrument/plot.py` 27-93 and 371-418: which curves are drawn, between which limits and with which labels.
-/

namespace Verif.Resolution.Figure

open Real Matrix
open Verif.Crystal (Fail Vec)
open Verif.Tools (Arg)

/-- An instrument object together with `self.projections`. -/
structure Plotter where
  inst : Inst
  stored : Option (List View)

/-- The attribute `instrument_type` and all others apart, a new object has no `projections`. -/
def Plotter.new (s : Setup) : Plotter := ⟨⟨s, none, none⟩, none⟩

/-- The three strings `slice_str` (instrument/plot.py 71). -/
inductive Panel
  | QxQy | QxW | QyW
  deriving DecidableEq

/-- What an axis is said to show: Q along the vector `u`, Q along the vector `v`, or the energy. -/
inductive Title
  | Q1 (along : Vec)
  | Q2 (along : Vec)
  | energy

/-- instrument/plot.py 400-401, `projections[qslice]` and `projections[qslice + 'Slice']`. -/
def curvesOf (x : View) : Panel → Curve × Curve
  | .QxQy => (x.qxqy, x.qxqySlice)
  | .QxW => (x.qxw, x.qxwSlice)
  | .QyW => (x.qyw, x.qywSlice)

/-- One axis of one panel after a call of `plot_slice`: what it is said to show, the width quoted in the label, and the
limits. -/
structure Axis where
  title : Title
  width : ℝ
  low : ℝ
  high : ℝ

/-- `np.min` of a list; the error of an empty one is in `axisOf`. -/
noncomputable def least : List ℝ → ℝ
  | [] => 0
  | [x] => x
  | x :: y :: l => min x (least (y :: l))

/-- `np.max` of a list. -/
noncomputable def greatest : List ℝ → ℝ
  | [] => 0
  | [x] => x
  | x :: y :: l => max x (greatest (y :: l))

/-- Exceptions of the methods. -/
inductive FigErr
  | view (e : ViewErr)
  | indexError
  | valueError
  | attributeError

/-- instrument/plot.py 403-417, for the coordinates along one axis. -/
noncomputable def axisOf (t : Title) (xs : List ℝ) : Except FigErr Axis :=
  if xs = [] then .error .valueError else .ok ⟨t, greatest xs - least xs, least xs, greatest xs⟩

/-- What one call of `plot_slice` draws and sets: the filled curve, the line and the two axes. -/
structure Drawing where
  fill : List (ℝ × ℝ)
  line : List (ℝ × ℝ)
  x : Axis
  y : Axis

/-- instrument/plot.py 371-417, `plot_slice`. -/
noncomputable def plotSlice (p : Panel) (vs : List View) (u v : Vec) (num : ℕ) : Except FigErr Drawing :=
  match vs[num]? with
  | none => .error .indexError
  | some x => do
    let (full, slice) := curvesOf x p
    let ax ← axisOf (.Q1 u) (full.points.map Prod.fst)
    let ay ← axisOf (if p = Panel.QxQy then .Q2 v else .energy) (full.points.map Prod.snd)
    return ⟨full.points, slice.points, ax, ay⟩

/-- One panel of the figure: all filled curves, all lines, and the axes. -/
structure Subplot where
  fills : List (List (ℝ × ℝ))
  lines : List (List (ℝ × ℝ))
  x : Axis
  y : Axis

/-- instrument/plot.py 74-84: limits of the positions before and of the present one. -/
noncomputable def widen (old new : Axis) : Axis :=
  { new with low := if new.low < old.low then new.low else old.low
             high := if old.high < new.high then new.high else old.high }

/-- instrument/plot.py 70-84, the loop over the positions, for one of the panels (the panels do not influence each other).
`todo` positions are left, `done` have been drawn. -/
noncomputable def panelLoop (p : Panel) (vs : List View) (u v : Vec) : (todo done : ℕ) → Option Subplot → Except FigErr (Option Subplot)
  | 0, _, acc => .ok acc
  | n + 1, i, acc => match plotSlice p vs u v i with
    | .error e => .error e
    | .ok d => panelLoop p vs u v n (i + 1) (some (match acc with
      | none => ⟨[d.fill], [d.line], d.x, d.y⟩
      | some a => ⟨a.fills ++ [d.fill], a.lines ++ [d.line], widen a.x d.x, widen a.y d.y⟩))

/-- instrument/plot.py 63-84: `length` comes from `self.RMS`, the curves from `projections`. -/
noncomputable def drawPanel (p : Plotter) (vs : List View) (k : Panel) : Except FigErr (Option Subplot) :=
  panelLoop k vs p.inst.setup.u p.inst.setup.v (p.inst.result.getD []).length 0 none

/-- instrument/plot.py 63-84 for the three panels. -/
noncomputable def drawAll (p : Plotter) (vs : List View) : Except FigErr (Panel → Option Subplot) := do
  let a ← drawPanel p vs .QxQy
  let b ← drawPanel p vs .QxW
  let c ← drawPanel p vs .QyW
  return fun k => match k with
    | .QxQy => a
    | .QxW => b
    | .QyW => c

/-- `calc_projections` on the object: what it returns in the model is stored in `self.projections`
(instrument/general.py 20-149).  Simplified: arrays that are half filled when the loop of instrument/general.py 66-149
raises `IndexError` are not stored. -/
noncomputable def Plotter.calcProjections (p : Plotter) (H K L W : Arg ℝ) (npts : ℕ) : Plotter × Option FigErr :=
  match Resolution.calcProjections p.inst H K L W npts with
  | (i, .error e) => (⟨i, p.stored⟩, some (.view e))
  | (i, .ok vs) => (⟨i, some vs⟩, none)

/-- instrument/plot.py 45-53. -/
noncomputable def Plotter.renew (p : Plotter) (H K L W : Arg ℝ) (npts : ℕ) : Plotter × Except FigErr (Panel → Option Subplot) :=
  match p.calcProjections H K L W npts with
  | (p', some e) => (p', .error e)
  | (p', none) => (p', drawAll p' (p'.stored.getD []))

/-- instrument/plot.py 27-86, `plot_projections`; the text in the fourth panel is `Verif.Resolution.Report`. -/
noncomputable def Plotter.plotProjections (p : Plotter) (H K L W : Arg ℝ) (npts : ℕ) :
    Plotter × Except FigErr (Panel → Option Subplot) :=
  match p.stored with
  | none => p.renew H K L W npts
  | some vs => match p.inst.keys with
    | none => (p, .error .attributeError)
    | some (h, k, l, w) =>
      if eqAll H h && eqAll K k && eqAll L l && eqAll W w then (p, drawAll p vs)
      else p.renew H K L W npts

/-- `get_resolution` on the object (instrument/general.py 227-252); `self.projections` is left as it is. -/
noncomputable def Plotter.getResolution (p : Plotter) (H K L W : Arg ℝ) : Plotter × Except Fail (List Res) :=
  match Resolution.getResolution p.inst H K L W with
  | (i, r) => (⟨i, p.stored⟩, r)

end Verif.Resolution.Figure
