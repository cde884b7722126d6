import Mathlib.Data.Real.Basic
import Mathlib.Algebra.Order.Round
import Mathlib.Algebra.Order.Archimedean.Real.Basic
import Verif.Data.Scans

/-!
# Model of `waterfall` and `pcolor` (data/scans.py)

What is drawn, in exact arithmetic.  Windows, legends and the colours themselves are left out.  The collection is one whose
`num_scans` is right (C27).
-/

namespace Verif.Data.Scans.Plot

/-- Exceptions. -/
inductive PlotErr
  | keyError | indexError | valueError | runtimeError | typeError
  deriving DecidableEq, Repr

/-- The columns of a scan. -/
abbrev Columns := String → Option (List ℝ)

/-- `scan.data[name]`. -/
def Columns.get (c : Columns) (name : String) : Except PlotErr (List ℝ) := match c name with
  | some l => .ok l
  | none => .error .keyError

/-- `mean` of a column.  (An empty one yields `nan` in the code.) -/
noncomputable def mean (l : List ℝ) : ℝ := l.sum / l.length

/-- `self.scans_check()` (scans.py 60-73): no dictionary, no scans. -/
def check : Option (List Columns) → Except PlotErr (List Columns)
  | none => .error .runtimeError
  | some d => .ok d

/-- The value of the text `'%1.3f' % x`. -/
noncomputable def threeDecimals (x : ℝ) : ℝ := round (x * 10 ^ 3) / 10 ^ 3

/-- A curve of the waterfall plot: its points, and the number in its label. -/
structure Curve where
  points : List (ℝ × ℝ)
  label : ℝ

/-- scans.py 107-113, one turn of the loop. -/
noncomputable def curve (x y label : String) (offset : ℝ) (idx : ℕ) (s : Columns) : Except PlotErr Curve := do
  let xin ← s.get x
  let yin ← s.get y
  let l ← s.get label
  if xin.length ≠ yin.length then .error .valueError
  else return ⟨xin.zip (yin.map fun v => v + offset * idx), threeDecimals (mean l)⟩

/-- scans.py 107-113, the loop. -/
noncomputable def curves (x y label : String) (offset : ℝ) : ℕ → List Columns → Except PlotErr (List Curve)
  | _, [] => .ok []
  | idx, s :: rest => do
    let c ← curve x y label offset idx s
    let cs ← curves x y label offset (idx + 1) rest
    return c :: cs

/-- `waterfall` (scans.py 75-122). -/
noncomputable def waterfall (scans : Option (List Columns)) (x y label : String) (offset : ℝ) : Except PlotErr (List Curve) := do
  let d ← check scans
  curves x y label offset 0 d

/-- One cell of the colour map. -/
structure Cell where
  x0 : ℝ
  x1 : ℝ
  y0 : ℝ
  y1 : ℝ
  value : ℝ

/-- The colour map: the cells and the limits of the colour scale. -/
structure ColorMap where
  cells : List Cell
  low : ℝ
  high : ℝ

/-- Exceptions of `edges`. -/
def lift {α : Type} : Except Scans.Err α → Except PlotErr α
  | .ok a => .ok a
  | .error _ => .error .indexError

/-- scans.py 250-258, one turn of the loop: the least and the greatest value so far. -/
noncomputable def stretch (lims : ℝ × ℝ) (z : List ℝ) : Except PlotErr (ℝ × ℝ) := match z.min?, z.max? with
  | some minz, some maxz => .ok (if minz < lims.1 ∧ 0 < minz then minz else lims.1, if lims.2 < maxz then maxz else lims.2)
  | _, _ => .error .valueError

/-- scans.py 245-261: the limits of the colour scale. -/
noncomputable def limits (clims : Option (ℝ × ℝ)) (zs : List (List ℝ)) : Except PlotErr (ℝ × ℝ) := match clims with
  | some c => .ok c
  | none => zs.foldlM stretch (1, 0)

/-- The cells of one row between the boundaries `es` (scans.py 266-273): boundaries and values in order. -/
def rowCells (y0 y1 : ℝ) (es zs : List ℝ) : List Cell :=
  ((es.zip es.tail).zip zs).map fun p => ⟨p.1.1, p.1.2, y0, y1, p.2⟩

/-- The cells of one scan (scans.py 263-282): two rows, below and above its mean coordinate. -/
noncomputable def scanCells (x z : String) (y0 m y1 : ℝ) (s : Columns) : Except PlotErr (List Cell) := do
  let xs ← s.get x
  let zs ← s.get z
  let es ← lift (edges xs)
  if zs.length ≠ xs.length then .error .typeError
  else return rowCells y0 m es zs ++ rowCells m y1 es zs

/-- scans.py 263-282, the loop: boundaries, means and scans in order. -/
noncomputable def allCells (x z : String) : List ℝ → List ℝ → List Columns → Except PlotErr (List Cell)
  | y0 :: y1 :: ys, m :: ms, s :: rest => do
    let c ← scanCells x z y0 m y1 s
    let cs ← allCells x z (y1 :: ys) ms rest
    return c ++ cs
  | _, _, _ => .ok []

/-- `pcolor` (scans.py 195-289). -/
noncomputable def pcolor (scans : Option (List Columns)) (x y z : String) (clims : Option (ℝ × ℝ)) : Except PlotErr ColorMap := do
  let d ← check scans
  let ys ← d.mapM fun s => s.get y
  let means := ys.map mean
  let biny ← lift (edges means)
  let zs ← d.mapM fun s => s.get z
  let (lo, hi) ← limits clims zs
  let cells ← allCells x z biny means d
  return ⟨cells, lo, hi⟩

end Verif.Data.Scans.Plot
