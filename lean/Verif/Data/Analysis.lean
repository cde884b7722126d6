import Verif.Data.Arith
import Mathlib.Data.Rat.Floor

/-!
# Model of `neutronpy/data/analysis.py`

Integration, peak position and width, background estimate.  A floating point
result that would be `nan` or infinite because of a zero denominator (or the
average of no values) is `none`.
-/

namespace Verif.Data

variable {α : Type} [Field α] [LinearOrder α] [FloorRing α]

/-- The `background` argument: absent, a number, or a dictionary with `type` and
`value`.  (`'constant'` with an array value is not modelled.) -/
inductive Bg (α : Type)
  | none
  | num (c : α)
  | constant (c : α)
  | percent (v : α)
  | minimum
  | other

/-- `int(x)`: truncation towards zero. -/
def trunc (x : α) : Int := if 0 ≤ x then ⌊x⌋ else ⌈x⌉

/-- `xs[:n]` for an integer `n`. -/
def sliceTo {β : Type} (xs : List β) (n : Int) : List β :=
  if 0 ≤ n then xs.take n.toNat else xs.take ((xs.length : Int) + n).toNat

/-- `np.average`, `nan` for no values. -/
def average? (xs : List α) : Option α := if xs = [] then .none else some (xs.sum / xs.length)

/-- `estimate_background` (data/analysis.py 226-246) given the intensities. -/
def background (int : List α) : Bg α → Except Err (Option α)
  | .none => .ok (some 0)
  | .num c => .ok (some c)
  | .constant c => .ok (some c)
  | .percent v =>
    let inten := int.filter (fun x => decide (0 ≤ x))
    let npts := trunc ((inten.length : α) * (v / 100))
    .ok (average? (sliceTo (isort (fun x y => decide (x ≤ y)) inten) npts))
  | .minimum =>
    match int with
    | [] => .error .valueError
    | x :: xs => .ok (some (xs.foldl min x))
  | .other => .ok (some 0)

/-- `np.where(mask)`. -/
def whereTrue (mask : List Bool) : List Nat :=
  (List.range mask.length).filter fun i => mask.getD i false

/-- `get_bounds` (data/analysis.py 261-264): without bounds the indices where the
first column of `Q`, i.e. h, is *non-zero*.  Building `Q` needs all five
coordinate columns, of one length. -/
def getBounds (d : DataObj α) : Option (List Bool) → Except Err (List Nat)
  | some b => .ok (whereTrue b)
  | .none => do
    let cols ← d.qk.values.mapM d.cols.get
    let h := cols.headD []
    if cols.all (fun c => c.length = h.length) then
      return whereTrue (h.map fun x => decide (x ≠ 0))
    else .error .valueError

/-- `get_keys` (data/analysis.py 280-283). -/
def getKeys (d : DataObj α) (hkle : Bool) : List String :=
  (d.cols.map Prod.fst).filter fun k =>
    if hkle then decide (k ∈ d.qk.values) else decide (k ∉ d.dk.values)

/-- `np.trapz(y, x)` for one-dimensional arrays of one length (broadcasting
between different lengths is not modelled and is an error here). -/
def trapz (y x : List α) : Except Err α :=
  if y.length = x.length then
    .ok (List.zipWith (fun dx s => dx * s / 2)
      (List.zipWith (· - ·) x.tail x) (List.zipWith (· + ·) y.tail y)).sum
  else .error .valueError

/-- `np.squeeze` turns a one-element array into a scalar, for which `np.trapz`
raises. -/
def squeeze (x : List α) : Except Err (List α) :=
  if x.length = 1 then .error .valueError else .ok x

/-- Selected intensities minus background; `none` when the background is `nan`. -/
def netIntensity (d : DataObj α) (bounds : Option (List Bool)) (bg : Bg α) :
    Except Err (Option (List α)) := do
  let (int, _) ← intensity d
  let y ← take (← getBounds d bounds) int
  return (← background int bg).map fun b => y.map (· - b)

/-- The selected part of a column. -/
def selected (d : DataObj α) (bounds : Option (List Bool)) (key : String) :
    Except Err (List α) := do
  take (← getBounds d bounds) (← d.cols.get key)

/-- Sum of `f key` over the keys. -/
def sumKeys (keys : List String) (f : String → Except Err α) : Except Err α :=
  keys.foldlM (fun s k => do return s + (← f k)) 0

/-- `integrate` (data/analysis.py 71-76). -/
def integrate (d : DataObj α) (bounds : Option (List Bool)) (bg : Bg α) (hkle : Bool) :
    Except Err (Option α) := do
  match ← netIntensity d bounds bg with
  | .none => return .none
  | some y => return some (← sumKeys (getKeys d hkle) fun k => do
      trapz y (← squeeze (← selected d bounds k)))

/-- Division of numpy floats; `none` for a zero denominator. -/
def div? (x y : α) : Option α := if y = 0 then .none else some (x / y)

/-- `position` (data/analysis.py 101-114), as the list of keys and values (a tuple of
values in this order for `hkle=True`, a dictionary otherwise).  The denominator is
always the integral over h, k, l, e (and temp). -/
def position (d : DataObj α) (bounds : Option (List Bool)) (bg : Bg α) (hkle : Bool) :
    Except Err (List (String × Option α)) :=
  (getKeys d hkle).mapM fun key => do
    match ← netIntensity d bounds bg with
    | .none => return (key, .none)
    | some y =>
      let xk ← selected d bounds key
      let num ← sumKeys (getKeys d hkle) fun k => do
        trapz (List.zipWith (· * ·) xk y) (← selected d bounds k)
      return (key, (← integrate d bounds bg true).bind fun i => div? num i)

/-- `width` (data/analysis.py 144-161) without `fwhm`, as the list of keys and values. -/
def widths (d : DataObj α) (bounds : Option (List Bool)) (bg : Bg α) (hkle : Bool) :
    Except Err (List (String × Option α)) :=
  (getKeys d hkle).mapM fun key => do
    match ← netIntensity d bounds bg with
    | .none => return (key, .none)
    | some y =>
      let xk ← selected d bounds key
      match (← position d bounds bg false).lookup key with
      | .none => .error .keyError
      | some .none => return (key, .none)
      | some (some p) =>
        let num ← sumKeys (getKeys d hkle) fun k => do
          trapz (List.zipWith (fun x y => (x - p) ^ 2 * y) xk y) (← selected d bounds k)
        return (key, (← integrate d bounds bg true).bind fun i => div? num i)

end Verif.Data
