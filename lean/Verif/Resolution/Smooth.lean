import Verif.Resolution.Instrument

/-!
# Model of the smoothing at the end of `calc_resolution`

`np.matrix / np.matrix` divides element by element, so that zeros are divided by zeros.  The special values of
floating point are modelled here; the numbers themselves are exact.
-/

namespace Verif.Resolution

open Real Matrix
open Verif.Tools (Arg)
open Verif.Crystal (Fail)

/-- A floating point number: a real number, an infinity (`true` for the positive one), or `nan`. -/
inductive Flt
  | num (x : ℝ)
  | inf (pos : Bool)
  | nan

/-- IEEE division; zeros count as positive. -/
noncomputable def Flt.div : Flt → Flt → Flt
  | .num a, .num b => if b = 0 then (if a = 0 then .nan else .inf (decide (0 < a))) else .num (a / b)
  | .num _, .inf _ => .num 0
  | .inf s, .num b => .inf (s == decide (0 ≤ b))
  | _, _ => .nan

/-- IEEE addition. -/
noncomputable def Flt.add : Flt → Flt → Flt
  | .num a, .num b => .num (a + b)
  | .num _, .inf s => .inf s
  | .inf s, .num _ => .inf s
  | .inf s, .inf t => if s = t then .inf s else .nan
  | _, _ => .nan

/-- IEEE multiplication. -/
noncomputable def Flt.mul : Flt → Flt → Flt
  | .num a, .num b => .num (a * b)
  | .num a, .inf s => if a = 0 then .nan else .inf (s == decide (0 < a))
  | .inf s, .num b => if b = 0 then .nan else .inf (s == decide (0 < b))
  | .inf s, .inf t => .inf (s == t)
  | _, _ => .nan

/-- `np.sqrt`. -/
noncomputable def Flt.sqrt : Flt → Flt
  | .num a => if 0 ≤ a then .num (√a) else .nan
  | .inf true => .inf true
  | _ => .nan

/-- A matrix of floating point numbers. -/
abbrev F4 := Fin 4 → Fin 4 → Flt

/-- The numbers of a matrix, if all of them are finite. -/
noncomputable def values (M : F4) : Option M4 :=
  open Classical in
  if h : ∃ N : M4, ∀ i j, M i j = .num (N i j) then some h.choose else none

/-- `np.linalg.det`.  Simplification: any element that is not finite makes the determinant `nan`. -/
noncomputable def detF (M : F4) : Flt := match values M with
  | some N => .num N.det
  | none => .nan

/-- The four widths of the attribute `Smooth`. -/
structure Widths where
  X : ℝ
  Y : ℝ
  Z : ℝ
  E : ℝ

/-- instrument/tas_instrument.py:988-991: one of the four diagonal elements of `mul`. -/
noncomputable def smoothWeight (x : ℝ) : Flt := (Flt.num 1).div (.num (x ^ 2 / 8 / log 2))

/-- instrument/tas_instrument.py:988-991, matrix `mul`; the order of the widths is X, Y, E, Z. -/
noncomputable def smoothMul (s : Widths) : F4 := fun i j =>
  if i = j then ![smoothWeight s.X, smoothWeight s.Y, smoothWeight s.E, smoothWeight s.Z] i else .num 0

/-- `np.matrix(e) / M`, element by element. -/
noncomputable def eDiv (M : F4) : F4 := fun i j => (Flt.num (if i = j then 1 else 0)).div (M i j)

/-- instrument/tas_instrument.py:984-995: prefactor and matrix of one point after the smoothing.  `none` is an
instrument without the attribute `Smooth`. -/
noncomputable def smooth (s : Option Widths) (r0 : ℝ) (rms : M4) : Flt × F4 := match s with
  | none => (.num r0, fun i j => .num (rms i j))
  | some s =>
    if s.X = 0 then (.num r0, fun i j => .num (rms i j))
    else
      let R : F4 := fun i j => .num (rms i j)
      let sum : F4 := fun i j => (eDiv (smoothMul s) i j).add (eDiv R i j)
      (((Flt.num r0).div (detF (eDiv R)).sqrt).mul (detF sum).sqrt, eDiv sum)

/-- instrument/tas_instrument.py:931-997, `calc_resolution` with the smoothing: prefactors and matrices in the crystal
frame. -/
noncomputable def calcSmooth (i : Inst) (s : Option Widths) (H K L W : Arg ℝ) : Except Fail (List (Flt × F4)) :=
  match calcResolution i H K L W with
  | (_, some e) => .error e
  | (i', none) => .ok ((i'.result.getD []).map fun r => smooth s r.r0 r.rms)

end Verif.Resolution
