import Verif.Fitter.History

/-!
# Model of the results that a fitter shows

`neutronpy/lsfit/fitter.py` 210-214, 390-475: the documented attributes that say something about a fit.  `status` and `message`, which `fit`
assigns like the others (529, 535), and `stderr` (C102) are left out; of the covariance matrix there is only the diagonal.
-/

namespace Verif.Fitter

/-- The attributes (lsfit/fitter.py 98-117). -/
inductive Attr
  | params | xerror | covar | chi2Min | orignorm | rchi2Min | npar | nfree | npegged | dof | resid | niter | nfev
  deriving DecidableEq

/-- What can be read: a number, numbers, or a count. -/
inductive Shown (α : Type)
  | num (x : α)
  | nums (xs : List α)
  | count (n : Int)
  | none
  deriving DecidableEq

variable {α D : Type}

/-- An attribute of `self.result`, which may not exist. -/
def attr {β : Type} (f : β → Shown α) : Option β → Except Exc (Shown α)
  | some x => .ok (f x)
  | Option.none => .error .attributeError

/-- Reading `fitter.<attribute>` (lsfit/fitter.py 210-214, 390-475).  `npar` of an object without initial parameters is `None`. -/
def readAttr (s : State α D) : Attr → Except Exc (Shown α)
  | .params => attr .nums s.result.params
  | .xerror => attr .nums s.result.xerror
  | .covar => attr .nums s.result.covarDiag
  | .chi2Min => attr .num s.result.bestnorm
  | .orignorm => attr .num s.result.orignorm
  | .rchi2Min => attr .num s.result.redchi
  | .npar => .ok (match s.params0 with
    | some p => .count p.vals.length
    | Option.none => .none)
  | .nfree => attr .count s.result.nfree
  | .dof => (dof s).map .count
  | .resid => attr .nums s.result.resid
  | .npegged | .niter | .nfev => .error .attributeError

end Verif.Fitter
