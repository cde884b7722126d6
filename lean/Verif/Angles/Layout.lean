import Verif.Angles.Model

/-!
# Model of `plot_instrument` for a triple-axis instrument

`neutronpy/instrument/plot.py` 208-368: the points that are drawn, in exact arithmetic.  `none` stands for coordinates that are `nan`.
The texts, colours and the limits of the vertical axis are left out.
-/

namespace Verif.Angles.Layout

open Real
open Verif.Crystal (Vec deg2rad)
open Verif.Resolution (Setup)
open Verif.Energy (Consts)
open Verif.Angles

/-- Exceptions of `plot_instrument`. -/
inductive LayoutErr
  | attributeError | indexError
  deriving DecidableEq

/-- A point of the figure. -/
abbrev Point := ℝ × ℝ × ℝ

/-- Where the beam is (`x`, `y`) and its direction (`direction`). -/
structure Ray where
  x : ℝ
  y : ℝ
  dir : ℝ

/-- `direction += rotate; x += translate * np.sin(direction); y += translate * np.cos(direction)`
(instrument/plot.py 248-252, 268-272, 289-296, 321-328, 342-348). -/
noncomputable def advance (r : Ray) (rotate translate : ℝ) : Ray :=
  let d := r.dir + rotate
  ⟨r.x + translate * sin d, r.y + translate * cos d, d⟩

/-- A closed outline of width `w` and height `h` at a place on the beam: `X` is multiplied by `f`, and `Y = X * g`
(instrument/plot.py 255-262, 277-283, 299-316, 331-336, 351-360). -/
noncomputable def outline (r : Ray) (w h f g : ℝ) : List Point :=
  let X : List ℝ := [-w / 2 * f, -w / 2 * f, w / 2 * f, w / 2 * f, -w / 2 * f]
  let Z : List ℝ := [h / 2, -h / 2, -h / 2, h / 2, h / 2]
  (X.zip Z).map fun p => (p.1 + r.x, p.1 * g + r.y, p.2)

/-- The outline of a crystal with angle `a` (`* np.sin(a)`, `Y = X * np.cos(a)`). -/
noncomputable def crystal (r : Ray) (w h a : ℝ) : List Point := outline r w h (sin a) (cos a)

/-- The figure: the dashed lines of the beam by their ends, and the outlines. -/
structure Layout where
  source : Ray
  mono : Ray
  sample : Option Ray
  ana : Option Ray
  detector : Option Ray
  sourceOutline : List Point
  monoOutline : Option (List Point)
  sampleOutline : Option (List Point × List Point)
  anaOutline : Option (List Point)
  detectorOutline : Option (List Point)

/-- `angles = -np.deg2rad(angles)` (instrument/plot.py 244). -/
noncomputable def flip (a : Option ℝ) : Option ℝ := a.map fun a => -deg2rad a

/-- A size that is 1 if the attribute is missing (instrument/plot.py 229-239). -/
def size (a : Option ℝ) : ℝ := a.getD 1

/-- The four distances (instrument/plot.py 231, 237-239, 242): more are ignored. -/
def distances (arms : Option (List ℝ)) : Except LayoutErr (ℝ × ℝ × ℝ × ℝ) := match arms.getD [10, 10, 10, 10] with
  | l0 :: l1 :: l2 :: l3 :: _ => .ok (l0, l1, l2, l3)
  | _ => .error .indexError

/-- instrument/plot.py 208-368, `plot_instrument` at one position.  `typed`: the object has the attribute `instrument_type` `'tas'`,
which only `Instrument(…)` sets.  (With fewer than four distances the first components are drawn before the exception.) -/
noncomputable def plotInstrument (c : Consts) (typed : Bool) (s : Setup) (hkl : Vec) (w : ℝ) : Except LayoutErr Layout :=
  if ¬ typed then .error .attributeError
  else match distances s.settings.arms with
  | .error e => .error e
  | .ok (l0, l1, l2, l3) =>
    let t := s.settings
    let a := anglesAndQ c s hkl w
    let r0 : Ray := advance ⟨0, 0, 0⟩ 0 0
    let r1 := advance r0 0 l0
    let r2 := (flip a.a2).map fun b => advance r1 b l1
    let r3 := r2.bind fun r => (flip a.a4).map fun b => advance r b l2
    let r4 := r3.bind fun r => (flip a.a6).map fun b => advance r b l3
    .ok
      { source := r0
        mono := r1
        sample := r2
        ana := r3
        detector := r4
        sourceOutline := outline r0 (size t.guide.width) (size t.guide.height) 1 0
        monoOutline := (flip a.a1).map fun b => crystal r1 (size t.mono.width) (size t.mono.height) b
        sampleOutline := r2.bind fun r => (flip a.a3).map fun b =>
          (crystal r (size t.sample.width) (size t.sample.height) b, crystal r (size t.sample.depth) (size t.sample.height) (b + π / 2))
        anaOutline := r3.bind fun r => (flip a.a5).map fun b => crystal r (size t.ana.width) (size t.ana.height) b
        detectorOutline := r4.map fun r => outline r (size t.detector.width) (size t.detector.height) 1 0 }

end Verif.Angles.Layout
