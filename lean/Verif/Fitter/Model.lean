import Mathlib.Algebra.Order.Field.Basic
import Verif.FileIO.Instr

/-!
# Model of the least-squares fitter

`neutronpy/lsfit/fitter.py` (class `Fitter`) and `neutronpy/lsfit/tools.py`.
LMFIT is an external library: its minimiser is a parameter of the model
(`Env.solver`), and the theorems state what they assume about it
(`Env.Lawful`).
-/

namespace Verif.Fitter

open Verif.FileIO (Text natDigits)

/-- One entry of `parinfo`: the keys `limits` and `fixed`, if present
(fitter.py 177-205). -/
structure Info (α : Type) where
  limits : Option (Option α × Option α)
  fixed : Option Bool
  deriving DecidableEq, Repr

/-- An LMFIT parameter: the value given, the bounds, and whether it is varied.
`None` as a bound leaves the parameter unbounded on that side. -/
structure Par (α : Type) where
  val : α
  min : Option α
  max : Option α
  vary : Bool
  deriving DecidableEq, Repr

/-- What a caller may pass as initial parameters (fitter.py 221-228). -/
inductive Seq (α : Type)
  | list (xs : List α)
  | tuple (xs : List α)
  | array (xs : List α)
  deriving DecidableEq, Repr

/-- The values in it. -/
def Seq.vals {α : Type} : Seq α → List α
  | .list xs => xs
  | .tuple xs => xs
  | .array xs => xs

/-- The exceptions of `fit`. -/
inductive Exc
  | assertion | allFixed | attributeError | keyError | valueError | solver
  deriving DecidableEq, Repr

/-- What the LMFIT minimiser returns: values and standard errors by name, and
the numbers of data points and of varied parameters. -/
structure Outcome (α : Type) where
  values : List (Text × α)
  stderr : List (Text × α)
  chisqr : α
  redchi : α
  ndata : Nat
  nvarys : Nat
  nfree : Int
  covarDiag : List α
  residual : List α
  success : Bool
  deriving DecidableEq, Repr

/-- What is outside the class: the caller's residual function, which may raise,
and the LMFIT minimiser, which gets a function of a dictionary of values. -/
structure Env (α D : Type) where
  residuals : List α → D → Except Exc (List α)
  solver : (List (Text × α) → Except Exc (List α)) → List (Text × Par α) → Except Exc (Outcome α)

/-- The attributes of `self.result` (fitter.py 142, 518-535): a namedtuple class
without fields, so an attribute that was not assigned does not exist.
`npegged`, `niter` and `nfev` are never assigned. -/
structure Result (α : Type) where
  orignorm : Option α
  bestnorm : Option α
  redchi : Option α
  nfree : Option Int
  resid : Option (List α)
  covarDiag : Option (List α)
  xerror : Option (List α)
  params : Option (List α)
  deriving DecidableEq, Repr

/-- The state of a `Fitter` (fitter.py 141-163); the configuration of the
minimiser is part of `Env.solver`. -/
structure State (α D : Type) where
  data : Option D
  params0 : Option (Seq α)
  parinfo : Option (List (Option (Info α)))
  result : Result α
  m : Nat
  deriving DecidableEq, Repr

variable {α D : Type}

/-- The empty `self.result`. -/
def Result.empty : Result α := ⟨none, none, none, none, none, none, none, none⟩

/-- A new object (fitter.py 137-163).  `data` is given as a tuple or not: the
setter (237-242) ignores anything else. -/
def init (data : Option D) (params0 : Option (Seq α)) (parinfo : Option (List (Option (Info α)))) :
    State α D :=
  ⟨data, params0, parinfo, .empty, 0⟩

/-- `'p{0}'.format(i)`. -/
def pname (i : Nat) : Text := 'p' :: natDigits i

/-- One turn of the loop of `fit` (fitter.py 504-511). -/
def mkPar (v : α) (info : Option (Info α)) : Par α :=
  match info with
  | none => ⟨v, none, none, true⟩
  | some inf =>
    let p : Par α := match inf.limits with
      | none => ⟨v, none, none, true⟩
      | some (lo, hi) => ⟨v, lo, hi, true⟩
    match inf.fixed with
    | none => p
    | some b => { p with vary := !b }

/-- The loop of `fit` (fitter.py 503-511), from index `i` on. -/
def mkPars : Nat → List α → List (Option (Info α)) → List (Text × Par α)
  | i, v :: vs, inf :: infs => (pname i, mkPar v inf) :: mkPars (i + 1) vs infs
  | _, _, _ => []

/-- `d[name]`, which raises `KeyError`. -/
def look {β : Type} (d : List (Text × β)) (name : Text) : Except Exc β :=
  match d.find? (fun p => p.1 = name) with
  | some p => .ok p.2
  | none => .error .keyError

/-- `[d['p{0}'.format(i)] for i in range(n)]` (fitter.py 531, 533, lsfit/tools.py 24). -/
def inOrder {β : Type} (d : List (Text × β)) (n : Nat) : Except Exc (List β) :=
  (List.range n).mapM fun i => look d (pname i)

/-- The wrapper of the residual function called with a dictionary of parameters
(lsfit/tools.py 22-24, 34-36). -/
def wrapped (env : Env α D) (data : D) (d : List (Text × α)) : Except Exc (List α) := do
  let xs ← inOrder d d.length
  env.residuals xs data

/-- The wrapper of the residual function called with the initial parameters
(lsfit/tools.py 22-28): only lists and arrays are taken as they are, and a tuple has no
`valuesdict`. -/
def residualsAt (env : Env α D) (data : D) (p : Seq α) : Except Exc (List α) :=
  match p with
  | .list xs => env.residuals xs data
  | .array xs => env.residuals xs data
  | .tuple _ => .error .attributeError

/-- The entries for the parameters: those given, or as many `None` as there are
parameters, which is stored (fitter.py 498-501). -/
def infosFor (s : State α D) (p : Seq α) : Except Exc (List (Option (Info α))) :=
  match s.parinfo with
  | none => .ok (List.replicate p.vals.length none)
  | some infs => if p.vals.length = infs.length then .ok infs else .error .assertion

section
variable [Field α]

/-- The end of `fit` (fitter.py 524-533).  Should a name be missing from what the
minimiser returns, the attributes assigned before line 531 would be kept; here
they are not. -/
def store (s : State α D) (norm : α) (o : Outcome α) : State α D × Except Exc Bool :=
  match inOrder o.stderr o.values.length, inOrder o.values o.values.length with
  | .ok xe, .ok xs =>
    ({ s with m := o.ndata,
              result := ⟨some norm, some o.chisqr, some o.redchi, some o.nfree, some o.residual,
                some o.covarDiag, some xe, some xs⟩ }, .ok o.success)
  | .error e, _ => (s, .error e)
  | _, .error e => (s, .error e)

/-- `fit(params0)` (fitter.py 486-542): the object afterwards, and the value or
the exception.  The warning is not modelled. -/
def fit (env : Env α D) (s : State α D) (p : Seq α) : State α D × Except Exc Bool :=
  let s1 := { s with params0 := some p }
  match infosFor s1 p with
  | .error e => (s1, .error e)
  | .ok infs =>
    let s2 := { s1 with parinfo := some infs }
    let pars := mkPars 0 p.vals infs
    if pars.all fun q => !q.2.vary then (s2, .error .allFixed)
    else match s2.data with
      | none => (s2, .error .attributeError)
      | some data =>
        match residualsAt env data p with
        | .error e => (s2, .error e)
        | .ok r =>
          let norm := (r.map fun x => x ^ 2).sum
          let s3 := { s2 with result := { s2.result with orignorm := some norm } }
          match env.solver (wrapped env data) pars with
          | .error e => (s3, .error e)
          | .ok o => store s3 norm o

/-- `fitter(params0)` (fitter.py 165-175): `hasattr(self, 'params')` holds once a
fit has stored parameters. -/
def call (env : Env α D) (s : State α D) (p : Option (Seq α)) :
    State α D × Except Exc (List α) :=
  match s.result.params with
  | some xs => (s, .ok xs)
  | none =>
    match (match s.params0, p with
      | some q, none => some q
      | _, some q => some q
      | none, none => none) with
    | none => (s, .error .valueError)
    | some q =>
      match fit env s q with
      | (s', .error e) => (s', .error e)
      | (s', .ok _) =>
        match s'.result.params with
        | some xs => (s', .ok xs)
        | none => (s', .error .attributeError)

end

/-- `dof` (fitter.py 465-469). -/
def dof (s : State α D) : Except Exc Int :=
  match s.result.nfree with
  | some n => .ok (s.m - n)
  | none => .error .attributeError

/-- `nfree` (fitter.py 435-439), documented as the number of free parameters. -/
def nfree (s : State α D) : Except Exc Int :=
  match s.result.nfree with
  | some n => .ok n
  | none => .error .attributeError

end Verif.Fitter
