import Mathlib.Data.Rat.Defs
import Mathlib.Tactic.NormNum

/-!
# Model of the settings of a fitter

`neutronpy/lsfit/fitter.py`: the constructor (137-163), the settings with their checks (252-388), and what `fit` gives to LMFIT
(516-522).  `numbers.Number` holds for integers, booleans and floating point numbers; a boolean is an integer.
-/

namespace Verif.Fitter.Settings

/-- Values that may be assigned: floating point numbers are exact here. -/
inductive Value
  | float (x : ℚ)
  | int (n : Int)
  | bool (b : Bool)
  | str (s : String)
  | none
  | other (id : Nat)
  deriving DecidableEq

/-- Exceptions. -/
inductive SetErr
  | valueError | attributeError
  deriving DecidableEq

/-- The settings (the arguments of the constructor in fitter.py 137-139 after `parinfo`). -/
inductive Setting
  | ftol | xtol | gtol | epsfcn | stepfactor | covtol | maxiter | maxfev | nofinitecheck | nanPolicy
  deriving DecidableEq

/-- `isinstance(value, numbers.Number)`. -/
def isNumber : Value → Bool
  | .float _ | .int _ | .bool _ => true
  | _ => false

/-- `isinstance(value, int)`. -/
def isInt : Value → Bool
  | .int _ | .bool _ => true
  | _ => false

/-- `np.finfo(np.float64).eps`. -/
def eps : Value := .float (1 / 2 ^ 52)

/-- The attributes of the object: those of `self.config` under the name of the setting, and `self._nan_policy`.  An attribute that was
not assigned does not exist. -/
structure Object where
  config : Setting → Option Value
  nanPolicy : Option Value

/-- A class made for this object (fitter.py 143): it has no attributes. -/
def Object.new : Object := ⟨fun _ => Option.none, Option.none⟩

/-- The value that a setter stores, or the exception (fitter.py 258-263, 271-276, 284-289, 297-304, 312-317, 327-332, 341-346, 354-361,
370-375, 383-388). -/
def stored (s : Setting) (v : Value) : Except SetErr Value := match s with
  | .ftol | .xtol | .gtol | .stepfactor | .covtol => if isNumber v then .ok v else .error .valueError
  | .epsfcn =>
    let v := if v = .none then eps else v
    if isNumber v then .ok v else .error .valueError
  | .maxiter => if isInt v then .ok v else .error .valueError
  | .maxfev => if isInt v then .ok v else if v = .none then .ok (.int 0) else .error .valueError
  | .nofinitecheck => match v with
    | .bool _ => .ok v
    | _ => .error .valueError
  | .nanPolicy => match v with
    | .str _ => .ok v
    | _ => .error .valueError

/-- The assignment `fitter.<setting> = value` (the same lines): the object afterwards, and the exception if there is one. -/
def assign (o : Object) (s : Setting) (v : Value) : Object × Option SetErr := match stored s v with
  | .error e => (o, some e)
  | .ok w =>
    (if s = .nanPolicy then { o with nanPolicy := some w } else { o with config := fun t => if t = s then some w else o.config t },
     Option.none)

/-- An attribute. -/
def field : Option Value → Except SetErr Value
  | some v => .ok v
  | Option.none => .error .attributeError

/-- Reading `fitter.<setting>` (fitter.py 252-256, 265-269, 278-282, 291-295, 306-310, 319-325, 334-339, 348-352, 363-368, 377-381).
`nofinitecheck` is read from `self._nofinitecheck`, which is never assigned.  Warnings are left out. -/
def read (o : Object) (s : Setting) : Except SetErr Value := match s with
  | .nofinitecheck => .error .attributeError
  | .nanPolicy => field o.nanPolicy
  | s => field (o.config s)

/-- The order of the assignments in the constructor (fitter.py 154-163). -/
def order : List Setting := [.ftol, .xtol, .gtol, .epsfcn, .stepfactor, .covtol, .maxiter, .maxfev, .nofinitecheck, .nanPolicy]

/-- The defaults of the arguments (fitter.py 137-139). -/
def default : Setting → Value
  | .ftol | .xtol | .gtol => .float (1 / 10 ^ 10)
  | .epsfcn => .none
  | .stepfactor => .float 100
  | .covtol => .float (1 / 10 ^ 14)
  | .maxiter => .int 200
  | .maxfev => .none
  | .nofinitecheck => .bool false
  | .nanPolicy => .str "omit"

/-- The assignments of the constructor, which ends with the first exception. -/
def assignAll : Object → List (Setting × Value) → Except SetErr Object
  | o, [] => .ok o
  | o, (s, v) :: rest => match assign o s v with
    | (_, some e) => .error e
    | (o', Option.none) => assignAll o' rest

/-- `Fitter(residuals, …, **settings)` (fitter.py 137-163), as far as the settings are concerned. -/
def create (given : Setting → Option Value) : Except SetErr Object :=
  assignAll .new (order.map fun s => (s, (given s).getD (default s)))

/-- Assignments by the caller after each other, any exception being caught. -/
def assignMany (o : Object) (ops : List (Setting × Value)) : Object := ops.foldl (fun o p => (assign o p.1 p.2).1) o

/-- What LMFIT gets (fitter.py 516, 520-522). -/
structure Passed where
  ftol : Value
  xtol : Value
  gtol : Value
  maxfev : Value
  epsfcn : Value
  factor : Value
  nanPolicy : Value

/-- fitter.py 516, 520-522: the settings are read through the properties. -/
def passed (o : Object) : Except SetErr Passed := do
  let np ← read o .nanPolicy
  let ftol ← read o .ftol
  let xtol ← read o .xtol
  let gtol ← read o .gtol
  let maxfev ← read o .maxfev
  let epsfcn ← read o .epsfcn
  let factor ← read o .stepfactor
  return ⟨ftol, xtol, gtol, maxfev, epsfcn, factor, np⟩

end Verif.Fitter.Settings
