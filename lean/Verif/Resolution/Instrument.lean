import Verif.Resolution.Model

/-!
# Model of `calc_resolution` and `get_resolution` with the attributes they store

`neutronpy/instrument/tas_instrument.py` and `neutronpy/instrument/general.py`.  The settings a user
can change are a `Setup`; `self.H, self.K, self.L, self.W` are `keys`; `self.R0, self.RMS, self.RM` are
`result`.  (`np.squeeze` of a result for one point is not modelled: a result is a list.)
-/

namespace Verif.Resolution

open Real Matrix
open Verif.Crystal (Fail Vec npDiv Lattice getLattice standardSystem modvec scalar)
open Verif.Tools (Arg cleanArgs)

/-- What the user sets: the instrument, the lattice of the sample and its orientation vectors. -/
structure Setup where
  settings : Settings
  lattice : Lattice
  u : Vec
  v : Vec

/-- The resolution at one point: prefactor, matrix in the crystal frame, matrix in the frame of Q. -/
structure Res where
  r0 : ℝ
  rms : M4
  rm : M4

/-- An instrument object: settings and the stored last calculation. -/
structure Inst where
  setup : Setup
  keys : Option (List ℝ × List ℝ × List ℝ × List ℝ)
  result : Option (List Res)

/-- instrument/tas_instrument.py:964-965, one entry of `tmat`. -/
def tmat (xq yq : ℝ) : M4 := !![xq, yq, 0, 0; -yq, xq, 0, 0; 0, 0, 1, 0; 0, 0, 0, 1]

/-- instrument/tas_instrument.py:975, `rot = tmat[i, :3, :3]`. -/
def rot3 (xq yq : ℝ) : M3 := !![xq, yq, 0; -yq, xq, 0; 0, 0, 1]

/-- instrument/tas_instrument.py:955-962: the modulus of the scattering vector and its components along the
first two axes of the standard system.  At `Q = 0` the components are `nan`. -/
noncomputable def frame (s : Setup) (hkl : Vec) : Except Fail (ℝ × ℝ × ℝ) := do
  let (x, y, _) ← standardSystem s.lattice s.u s.v
  let (_, rl) ← getLattice s.lattice
  let Q ← modvec hkl rl
  if Q = 0 then .error .nan
  else pure (Q, scalar x (Q⁻¹ • hkl) rl, scalar y (Q⁻¹ • hkl) rl)

/-- instrument/tas_instrument.py:970-977: the sample shape is replaced by a stack of turned matrices.  A
stack of one matrix is accepted by `np.matrix`, a longer one raises `ValueError`. -/
def turnSample (sh : Option Shape) (fr : List (ℝ × ℝ × ℝ)) : Except Fail (Option Shape) :=
  let turned (M : M3) := some (Shape.stack (fr.map fun f => rot3 f.2.1 f.2.2 * M * (rot3 f.2.1 f.2.2)ᵀ))
  match sh with
  | none => .ok none
  | some (.one M) => .ok (turned M)
  | some (.stack [M]) => .ok (turned M)
  | some (.stack _) => if fr = [] then .ok (some (.stack [])) else .error .valueError

/-- instrument/tas_instrument.py:982: a matrix in the crystal frame. -/
def toCrystal (f : ℝ × ℝ × ℝ) (r : ℝ × M4) : Res :=
  ⟨r.1, (tmat f.2.1 f.2.2)ᵀ * r.2 * tmat f.2.1 f.2.2, r.2⟩

/-- The points of three lists of Miller indexes. -/
def hkls : List ℝ → List ℝ → List ℝ → List Vec
  | h :: hs, k :: ks, l :: ls => ![h, k, l] :: hkls hs ks ls
  | _, _, _ => []

/-- instrument/tas_instrument.py:931-997, `calc_resolution`, without `Smooth`
(`Verif.Resolution.smooth`).  Returns the object after the call and the exception, if any.  The keys are
assigned before anything is computed, the sample shape before the matrices. -/
noncomputable def calcResolution (i : Inst) (H K L W : Arg ℝ) : Inst × Option Fail :=
  match cleanArgs [H, K, L, W] with
  | .ok (_, [h, k, l, w]) =>
    let i1 := { i with keys := some (h, k, l, w) }
    match (hkls h k l).mapM (frame i.setup) with
    | .error e => (i1, some e)
    | .ok fr => match turnSample i.setup.settings.sample.shape fr with
      | .error e => (i1, some e)
      | .ok sh =>
        let i2 := { i1 with setup.settings.sample.shape := sh }
        match calcInQ i2.setup.settings ((fr.map Prod.fst).zip w) with
        | .error e => (i2, some e)
        | .ok rs => ({ i2 with result := some (List.zipWith toCrystal fr rs) }, none)
  | _ => (i, some .valueError)

/-- `np.all(arg == stored)` for a stored one-dimensional array: broadcasting, and `False` for lengths that
do not fit. -/
noncomputable def eqAll (a : Arg ℝ) (stored : List ℝ) : Bool := match a with
  | .scalar x => stored.all (· = x)
  | .list l =>
    if l.length = stored.length then (l.zip stored).all fun p => p.1 = p.2
    else match l, stored with
      | [x], _ => stored.all (· = x)
      | _, [y] => l.all (· = y)
      | _, _ => false

/-- instrument/general.py:243-252, the calculation and the return of what is stored. -/
noncomputable def recompute (i : Inst) (H K L W : Arg ℝ) : Inst × Except Fail (List Res) :=
  match calcResolution i H K L W with
  | (i', some e) => (i', .error e)
  | (i', none) => (i', .ok (i'.result.getD []))

/-- instrument/general.py:227-252, `get_resolution`. -/
noncomputable def getResolution (i : Inst) (H K L W : Arg ℝ) : Inst × Except Fail (List Res) :=
  match i.keys, i.result with
  | some (h, k, l, w), some r =>
    if eqAll H h && eqAll K k && eqAll L l && eqAll W w then (i, .ok r)
    else recompute i H K L W
  | _, _ => recompute i H K L W

end Verif.Resolution
