import Mathlib.Analysis.SpecialFunctions.Trigonometric.Basic
import Mathlib.Analysis.Real.Sqrt

/-!
# Model of `neutronpy/energy.py`

Exact real arithmetic in place of floating point; `nan` and infinities that the
code produces on purpose or by division by zero are kept as separate values.
-/

namespace Verif.Energy

open Real

/-- The constants imported in energy.py 5-7.  `scipy` derives `hbar` from `h`; here
`hbar = h / (2 π)` exactly. -/
structure Consts where
  h : ℝ
  k : ℝ
  m : ℝ
  /-- JOULES_TO_MEV -/
  J : ℝ
  h_pos : 0 < h
  k_pos : 0 < k
  m_pos : 0 < m
  J_pos : 0 < J

/-- scipy's `hbar`. -/
noncomputable def Consts.hbar (c : Consts) : ℝ := c.h / (2 * π)

/-- A floating point value. -/
inductive Num
  | num (r : ℝ)
  | nan
  | inf

/-- Exceptions of this module. -/
inductive Err
  | attributeError
  | zeroDivisionError

/-- The arguments of `Energy(...)` and `_update_values` (energy.py 46-47, 61-62). -/
structure Args where
  energy : Option ℝ := none
  wavelength : Option ℝ := none
  velocity : Option ℝ := none
  wavevector : Option ℝ := none
  temperature : Option ℝ := none
  frequency : Option ℝ := none

/-- The attributes of an `Energy` object. -/
structure State where
  en : ℝ
  wavelen : Num
  wavevec : Num
  vel : Num
  temp : ℝ
  freq : ℝ

/-- `np.sqrt`, `nan` for a negative argument. -/
noncomputable def npSqrt (x : ℝ) : Num := if 0 ≤ x then .num (√x) else .nan

/-- Product of a value with a number. -/
noncomputable def Num.scale (x : Num) (c : ℝ) : Num :=
  match x with
  | .num r => .num (r * c)
  | .nan => .nan
  | .inf => .inf

/-- `c / x` of numpy floats, `c > 0`. -/
noncomputable def divBy (c : ℝ) : Num → Num
  | .num r => if r = 0 then .inf else .num (c / r)
  | .nan => .nan
  | .inf => .num 0

variable (c : Consts)

/-- energy.py 64-76: the energy that the arguments describe; `none` if no argument
is given (then `self.en` is not assigned).  Python floats: division by zero
raises. -/
noncomputable def energyOf (a : Args) : Except Err (Option ℝ) :=
  match a.energy with
  | some e => .ok (some e)
  | none =>
    match a.wavelength with
    | some l =>
      if 2 * c.m * (l / 10 ^ 10) ^ 2 = 0 then .error .zeroDivisionError
      else .ok (some (c.h ^ 2 / (2 * c.m * (l / 10 ^ 10) ^ 2) * c.J))
    | none =>
      match a.velocity with
      | some v => .ok (some (1 / 2 * c.m * v ^ 2 * c.J))
      | none =>
        match a.wavevector with
        | some q =>
          if q = 0 then .error .zeroDivisionError
          else .ok (some (c.h ^ 2 / (2 * c.m * ((2 * π / q) / 10 ^ 10) ^ 2) * c.J))
        | none =>
          match a.temperature with
          | some t => .ok (some (c.k * t * c.J))
          | none =>
            match a.frequency with
            | some f => .ok (some (c.hbar * f * 2 * π * c.J * 10 ^ 12))
            | none => .ok none

/-- energy.py 87-88: wavelength of a non-zero energy. -/
noncomputable def wavelenOf (e : ℝ) : Num := (npSqrt (c.h ^ 2 / (2 * c.m * e / c.J))).scale (10 ^ 10)

/-- energy.py 78-93 for a scalar. -/
noncomputable def derive (e : ℝ) : State where
  en := e
  wavelen := if e = 0 then .nan else wavelenOf c e
  wavevec := if e = 0 then .num 0 else divBy (2 * π) (wavelenOf c e)
  vel := npSqrt (2 * e / c.J / c.m)
  temp := e / c.k / c.J
  freq := e / c.J / c.hbar / 2 / π / 10 ^ 12

/-- `_update_values` (energy.py 61-98) on an object (`none`: freshly created, no
attribute set).  An exception leaves the object as it was. -/
noncomputable def update (old : Option State) (a : Args) : Except Err State := do
  match ← energyOf c a with
  | some e => return derive c e
  | none =>
    match old with
    | some s => return derive c s.en
    | none => .error .attributeError

/-- `Energy(...)` (energy.py 46-47). -/
noncomputable def create (a : Args) : Except Err State := update c none a

/-- The six quantities that can be assigned. -/
inductive Quantity
  | energy | wavelength | velocity | wavevector | temperature | frequency

/-- The keyword argument a setter passes (energy.py 104-155). -/
def argOf (q : Quantity) (v : ℝ) : Args :=
  match q with
  | .energy => { energy := some v }
  | .wavelength => { wavelength := some v }
  | .velocity => { velocity := some v }
  | .wavevector => { wavevector := some v }
  | .temperature => { temperature := some v }
  | .frequency => { frequency := some v }

/-- Assignment to one of the attributes (energy.py 104-155). -/
noncomputable def set (s : State) (q : Quantity) (v : ℝ) : Except Err State := update c (some s) (argOf q v)

/-- Reading one of the attributes (energy.py 101-153). -/
def get (s : State) : Quantity → Num
  | .energy => .num s.en
  | .wavelength => s.wavelen
  | .velocity => s.vel
  | .wavevector => s.wavevec
  | .temperature => .num s.temp
  | .frequency => .num s.freq

/-- A sequence of assignments. -/
noncomputable def run (s : State) : List (Quantity × ℝ) → Except Err State
  | [] => .ok s
  | (q, v) :: r => do run (← set c s q v) r

/-- `__eq__` (energy.py 55-56). -/
def eq (a b : State) : Prop := |a.en - b.en| < 1 / 10 ^ 6

/-- The attributes of an `Energy` of an array. -/
structure ArrState where
  en : List ℝ
  wavelen : List Num
  wavevec : List Num
  vel : List Num
  temp : List ℝ
  freq : List ℝ

open Classical in
/-- energy.py 78-93 for an array of energies.  If one of them is zero, line 84
computes the wavevectors of the others from the array just filled with zeros. -/
noncomputable def deriveArr (es : List ℝ) : ArrState where
  en := es
  wavelen := if 0 ∈ es then es.map fun e => if e = 0 then .nan else wavelenOf c e
    else es.map (wavelenOf c)
  wavevec := if 0 ∈ es then es.map fun e => if e = 0 then .num 0 else divBy (2 * π) (.num 0)
    else es.map fun e => divBy (2 * π) (wavelenOf c e)
  vel := es.map fun e => npSqrt (2 * e / c.J / c.m)
  temp := es.map fun e => e / c.k / c.J
  freq := es.map fun e => e / c.J / c.hbar / 2 / π / 10 ^ 12

end Verif.Energy
