import Verif.Resolution.Projections
import Verif.Angles.Model

/-!
# Model of `description_string` for a triple-axis instrument

`neutronpy/instrument/plot.py` 420-478: the numbers that are put into the text (before they are rounded), and the exceptions.
-/

namespace Verif.Resolution.Report

open Real Matrix
open Verif.Crystal (Fail Vec Lattice npDiv npSqrt)
open Verif.Tools (getBraggWidths)
open Verif.Angles (Answer anglesAndQ ofNum)
open Verif.Energy (Consts derive)

/-- The name in the first line. -/
inductive Name
  | cooperNathans | popovici
  deriving DecidableEq

/-- Exceptions. -/
inductive ReportErr
  | fail (e : Fail)
  | attributeError | typeError | indexError

/-- instrument/plot.py 424-427: `['Cooper-Nathans', 'Popovici'][self.method]`; only `AttributeError` is caught.
A negative index counts from the end. -/
def nameOf : Option Method → Except ReportErr Name
  | none => .ok .cooperNathans
  | some (.number n) =>
    if n = 0 ∨ n = -2 then .ok .cooperNathans
    else if n = 1 ∨ n = -1 then .ok .popovici
    else .error .indexError
  | some (.name _) => .error .typeError

/-- instrument/plot.py 430-433, `FX`. -/
noncomputable def fixed : Option ℝ → ℕ
  | some i => if i = -1 then 2 else if i = 1 then 1 else 0
  | none => 2

/-- The numbers in the text, in the order of the lines (instrument/plot.py 450-477). -/
structure Text where
  method : Name
  /-- `self.HKLE`: all positions -/
  positions : List (Vec × ℝ)
  /-- `M/10^4` -/
  matrix : M4
  volume : ℝ
  prefactor : ℝ
  dQ1 : ℝ
  dQ2 : ℝ
  dE : ℝ
  dQz : ℝ
  vanadium : ℝ
  kfix : Option ℝ
  fx : ℕ
  senses : ℝ × ℝ × ℝ
  mosaics : ℝ × ℝ
  angles : Answer
  hcol : Fin 4 → ℝ
  vcol : Fin 4 → ℝ
  lattice : Lattice
  u : Vec
  v : Vec

/-- instrument/plot.py 420-477, `description_string`.  The object is given by its settings and the stored
calculation; `self.HKLE` are the stored points.  With one result it is passed to `get_angles_and_Q` as it was given (a Python list
instead of numbers or arrays raises `TypeError` there, which is left out); with several, the first stored point is.  The spacings
of the crystals are left out (C71).  The rows of the text are the columns of the matrix.
`typed`: the object has the attribute `instrument_type` `'tas'`, which only `Instrument(…)` sets (instrument/instrument.py 38), not `TripleAxisInstrument(…)`. -/
noncomputable def describe (c : Consts) (typed : Bool) (i : Inst) : Except ReportErr Text :=
  match nameOf i.setup.settings.method with
  | .error e => .error e
  | .ok name => match i.result, i.keys with
    | some (r :: _), some k => match keyPoints k with
      | [] => .error .indexError
      | p :: ps => match npSqrt r.rms.det with
        | .error e => .error (.fail e)
        | .ok root => match npDiv ((2 * π) ^ 2) root with
          | .error e => .error (.fail e)
          | .ok vol => match getBraggWidths r.rms with
            | .error e => .error (.fail e)
            | .ok w => if ¬ typed then .error .attributeError else .ok
              { method := name
                positions := p :: ps
                matrix := fun a b => r.rms b a / 1.0e4
                volume := 2 * vol
                prefactor := r.r0
                dQ1 := w 0
                dQ2 := w 1
                dE := w 4
                dQz := w 2
                vanadium := w 3
                kfix := ofNum (derive c i.setup.settings.efixed).wavevec
                fx := fixed i.setup.settings.infin
                senses := (i.setup.settings.mono.dir, i.setup.settings.sample.dir, i.setup.settings.ana.dir)
                mosaics := (i.setup.settings.mono.mosaic, i.setup.settings.ana.mosaic)
                angles := anglesAndQ c i.setup p.1 p.2
                hcol := i.setup.settings.hcol
                vcol := i.setup.settings.vcol
                lattice := i.setup.lattice
                u := i.setup.u
                v := i.setup.v }
    | some [], some _ => .error .indexError
    | _, _ => .error .attributeError

end Verif.Resolution.Report
