import Verif.Resolution.Projections

/-!
# Model of `plot_ellipsoid`

`neutronpy/instrument/plot.py` 95-212: the points of the surface that is drawn.
-/

namespace Verif.Resolution.Ellipsoid

open Real Matrix
open Verif.Crystal (Fail Vec)
open Verif.Tools (fproject)

/-- Exceptions of the method. -/
inductive DrawErr
  | fail (e : Fail)
  | indexError
  | valueError

/-- The exponent `ee` in `resolution_ellipsoid` (instrument/plot.py 165-170), for the differences to the centre. -/
def exponent (A : M4) (d : Vec) : ℝ :=
  A 0 0 * d 0 ^ 2 + A 1 1 * d 1 ^ 2 + A 3 3 * d 2 ^ 2 +
    2 * A 0 1 * d 0 * d 1 + 2 * A 0 2 * d 0 * d 2 + 2 * A 1 2 * d 1 * d 2

/-- `resolution_ellipsoid` (instrument/plot.py 147-172). -/
noncomputable def volume (r0 : ℝ) (A : M4) (c p : Vec) : ℝ := r0 * exp (-1 / 2 * exponent A (p - c))

/-- The half sizes of the box (instrument/plot.py 175-179). -/
noncomputable def halfSizes (A : M4) : Except Fail Vec := do
  let x ← fproject (level A) 0
  let y ← fproject (level A) 1
  let w ← fproject (level A) 2
  return ![x * 1.01, y * 1.01, w * 1.01]

/-- The point of the grid with the indices `s` (instrument/plot.py 182-184), also between the points. -/
noncomputable def gridPoint (c h : Vec) (dpi : ℕ) (s : Vec) : Vec := fun k => c k - h k + s k * (2 * h k / dpi)

/-- `vol.max()` (instrument/plot.py 187, 190). -/
noncomputable def volMax (r0 : ℝ) (A : M4) (c h : Vec) (dpi : ℕ) : ℝ :=
  (Finset.univ : Finset (Fin 3 → Fin (dpi + 1))).sup' Finset.univ_nonempty
    fun s => volume r0 A c (gridPoint c h dpi fun k => ((s k : ℕ) : ℝ))

/-- The surface drawn for one matrix (instrument/plot.py 187-195).  `marching_cubes` is taken to find the surface of the
function itself and not of its interpolation between the points of the grid; where it finds none it raises
`ValueError`, and the set is empty here. -/
noncomputable def surface (r0 : ℝ) (A : M4) (c h : Vec) (dpi : ℕ) : Set Vec :=
  {p | ∃ s : Vec, (∀ k, 0 ≤ s k ∧ s k ≤ dpi) ∧
    volume r0 A c (gridPoint c h dpi s) = volMax r0 A c h dpi / 2 ∧
    ∀ k, p k = s k * (h k / dpi) + c k - h k / 2}

/-- The body of the loop (instrument/plot.py 142-198). -/
noncomputable def drawOne (u v : Vec) (r0 : ℝ) (A : M4) (p : Vec × ℝ) (dpi : ℕ) : Except DrawErr (Set Vec) :=
  match halfSizes A with
  | .error e => .error (.fail e)
  | .ok h => .ok (surface r0 A ![coordinate p.1 u, coordinate p.1 v, p.2] h dpi)

/-- The matrix number `k` of `NP.T` for four results (instrument/plot.py 136): `NP.T[k, j, i] = NP[i, j, k]`. -/
def mixed (rs : Fin 4 → M4) (k : Fin 4) : M4 := fun j i => rs i j k

/-- The surfaces drawn by `plot_ellipsoid` for the results `rs` at the points `ps` (instrument/plot.py 132-198).  One result
is a matrix of shape (4, 4) because of `np.squeeze`.  For `n` results the elements of `NP.T` have the shape (4, n): the
removal of column 2 fails for two columns, and the `reshape` to (3, 3, 1) unless there are four. -/
noncomputable def draw (u v : Vec) (dpi : ℕ) (rs : List Res) (ps : List (Vec × ℝ)) : Except DrawErr (List (Set Vec)) :=
  match rs, ps with
  | [r], p :: _ => do
    let s ← drawOne u v r.r0 r.rms p dpi
    return [s]
  | [r0, r1, r2, r3], [p0, p1, p2, p3] => do
    let m := mixed ![r0.rms, r1.rms, r2.rms, r3.rms]
    let s0 ← drawOne u v r0.r0 (m 0) p0 dpi
    let s1 ← drawOne u v r1.r0 (m 1) p1 dpi
    let s2 ← drawOne u v r2.r0 (m 2) p2 dpi
    let s3 ← drawOne u v r3.r0 (m 3) p3 dpi
    return [s0, s1, s2, s3]
  | [], _ => return []
  | [_, _], _ => .error .indexError
  | _, _ => .error .valueError

end Verif.Resolution.Ellipsoid
