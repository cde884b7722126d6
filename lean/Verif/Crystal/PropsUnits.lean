import Verif.Crystal.Model
import Mathlib.Tactic.FieldSimp
import Mathlib.Tactic.Positivity
import Mathlib.Tactic.Ring
import Mathlib.Tactic.NormNum

/-!
# The unit of length of a lattice

What the quantities of a lattice become when all its lengths are multiplied by a number.
-/

namespace Verif.Crystal

open Real Matrix

/-! ## Specification -/

/-- The same cell with its lengths in another unit. -/
def Lattice.inUnit (l : Lattice) (s : ℝ) : Lattice :=
  { l with a := s * l.a, b := s * l.b, c := s * l.c }

/-! ## Lemmas -/

theorem npSqrt_unit {s : ℝ} (hs : 0 < s) (x : ℝ) : npSqrt (s ^ 2 * x) = (npSqrt x).map (s * ·) := by
  unfold npSqrt
  by_cases h : 0 ≤ x
  · rw [if_pos h, if_pos (by positivity), sqrt_mul (by positivity), sqrt_sq hs.le]
    rfl
  · rw [if_neg h, if_neg]
    · rfl
    · rw [mul_nonneg_iff_of_pos_left (by positivity)]; exact h

theorem npDiv_unit {s t : ℝ} (hs : s ≠ 0) (ht : t ≠ 0) (x y : ℝ) :
    npDiv (s * x) (t * y) = (npDiv x y).map (s / t * ·) := by
  unfold npDiv
  by_cases hy : y = 0
  · simp only [hy, mul_zero, if_true, mul_eq_zero, hs, false_or]
    split_ifs <;> rfl
  · rw [if_neg hy, if_neg (mul_ne_zero ht hy)]
    simp only [Except.map]
    congr 1
    field_simp

theorem npDiv_unit_left {t : ℝ} (ht : t ≠ 0) (x y : ℝ) :
    npDiv x (t * y) = (npDiv x y).map (t⁻¹ * ·) := by
  have := npDiv_unit one_ne_zero ht x y
  rwa [one_mul, one_div] at this

theorem map_bind' {α β γ : Type} (x : Except Fail α) (f : α → β) (g : β → Except Fail γ) :
    (x.map f >>= g) = (x >>= fun a => g (f a)) := by cases x <;> rfl

theorem bind_map' {α β γ : Type} (x : Except Fail α) (f : α → Except Fail β) (g : β → γ) :
    (x >>= f).map g = (x >>= fun a => (f a).map g) := by cases x <;> rfl

theorem G_unit (l : Lattice) (s : ℝ) : (l.inUnit s).G = s ^ 2 • l.G := by
  ext i j
  fin_cases i <;> fin_cases j <;>
    simp [Lattice.G, Lattice.inUnit, Lattice.alphaRad, Lattice.betaRad, Lattice.gammaRad] <;> ring

theorem detG_unit (l : Lattice) (s : ℝ) : (l.inUnit s).G.det = (s ^ 3) ^ 2 * l.G.det := by
  rw [G_unit, det_smul, Fintype.card_fin]
  ring

theorem Gstar_unit (l : Lattice) {s : ℝ} (hs : 0 < s) :
    (l.inUnit s).Gstar = l.Gstar.map ((s⁻¹) ^ 2 • ·) := by
  unfold Lattice.Gstar
  have h0 : s ^ 2 ≠ 0 := by positivity
  by_cases hd : l.G.det = 0
  · rw [if_pos hd, if_pos (by rw [detG_unit, hd, mul_zero])]
    rfl
  · rw [if_neg hd, if_neg (by rw [detG_unit]; exact mul_ne_zero (by positivity) hd)]
    simp only [Except.map]
    congr 1
    have : (l.inUnit s).G⁻¹ = (s⁻¹) ^ 2 • l.G⁻¹ := by
      rw [G_unit]
      refine inv_eq_right_inv ?_
      rw [smul_mul_smul_comm, mul_nonsing_inv _ (isUnit_iff_ne_zero.2 hd), inv_pow, mul_inv_cancel₀ h0,
        one_smul]
    rw [this, smul_comm]

theorem volume_unit (l : Lattice) {s : ℝ} (hs : 0 < s) :
    (l.inUnit s).volume = l.volume.map (s ^ 3 * ·) := by
  unfold Lattice.volume
  rw [detG_unit, npSqrt_unit (by positivity)]

theorem star_unit {s : ℝ} (hs : 0 < s) (v : Except Fail ℝ) (x x' : ℝ) (hx : x' = s ^ 2 * x) :
    (v.map (s ^ 3 * ·) >>= fun v => npDiv x' v >>= fun q => pure (q * 2 * π)) =
      (v >>= fun v => npDiv x v >>= fun q => pure (q * 2 * π)).map (s⁻¹ * ·) := by
  subst hx
  rw [map_bind', bind_map']
  refine bind_congr fun v => ?_
  rw [npDiv_unit (by positivity) (by positivity), map_bind', bind_map']
  refine bind_congr fun q => ?_
  show Except.ok _ = Except.ok _
  congr 1
  field_simp

theorem astar_unit (l : Lattice) {s : ℝ} (hs : 0 < s) : (l.inUnit s).astar = l.astar.map (s⁻¹ * ·) := by
  unfold Lattice.astar
  rw [volume_unit l hs]
  exact star_unit hs _ _ _ (by simp only [Lattice.inUnit, Lattice.alphaRad]; ring)

theorem bstar_unit (l : Lattice) {s : ℝ} (hs : 0 < s) : (l.inUnit s).bstar = l.bstar.map (s⁻¹ * ·) := by
  unfold Lattice.bstar
  rw [volume_unit l hs]
  exact star_unit hs _ _ _ (by simp only [Lattice.inUnit, Lattice.betaRad]; ring)

theorem cstar_unit (l : Lattice) {s : ℝ} (hs : 0 < s) : (l.inUnit s).cstar = l.cstar.map (s⁻¹ * ·) := by
  unfold Lattice.cstar
  rw [volume_unit l hs]
  exact star_unit hs _ _ _ (by simp only [Lattice.inUnit, Lattice.gammaRad]; ring)

theorem getDSpacing_unit (l : Lattice) {s : ℝ} (hs : 0 < s) (hkl : Vec) :
    (l.inUnit s).getDSpacing hkl = (l.getDSpacing hkl).map (s * ·) := by
  unfold Lattice.getDSpacing
  rw [Gstar_unit l hs, map_bind', bind_map']
  refine bind_congr fun gs => ?_
  rw [smul_comm, vecMul_smul, smul_dotProduct, smul_eq_mul, npSqrt_unit (inv_pos.2 hs), map_bind', bind_map']
  refine bind_congr fun r => ?_
  rw [npDiv_unit_left (inv_ne_zero hs.ne'), inv_inv]

/-! ## C231 -/

/-- **C231** volumes of the cell and of the reciprocal cell, and the reciprocal lattice constants, in
another unit of length; the reciprocal angles stay as they are. -/
theorem C231_cell (l : Lattice) {s : ℝ} (hs : 0 < s) :
    (l.inUnit s).volume = l.volume.map (s ^ 3 * ·) ∧
    (l.inUnit s).reciprocalVolume = l.reciprocalVolume.map ((s⁻¹) ^ 3 * ·) ∧
    (l.inUnit s).astar = l.astar.map (s⁻¹ * ·) ∧
    (l.inUnit s).bstar = l.bstar.map (s⁻¹ * ·) ∧
    (l.inUnit s).cstar = l.cstar.map (s⁻¹ * ·) ∧
    (l.inUnit s).alphastar = l.alphastar ∧ (l.inUnit s).betastar = l.betastar ∧
    (l.inUnit s).gammastar = l.gammastar := by
  refine ⟨volume_unit l hs, ?_, astar_unit l hs, bstar_unit l hs, cstar_unit l hs, rfl, rfl, rfl⟩
  unfold Lattice.reciprocalVolume
  rw [Gstar_unit l hs, map_bind', bind_map']
  refine bind_congr fun gs => ?_
  rw [det_smul, Fintype.card_fin, ← npSqrt_unit (by positivity)]
  congr 1
  ring

/-- **C231** the `B` matrix in another unit of length. -/
theorem C231_Bmatrix (l : Lattice) {s : ℝ} (hs : 0 < s) :
    (l.inUnit s).Bmatrix = l.Bmatrix.map (s⁻¹ • ·) := by
  unfold Lattice.Bmatrix
  have e1 : (l.inUnit s).gammastarRad = l.gammastarRad := rfl
  have e2 : (l.inUnit s).betastarRad = l.betastarRad := rfl
  have e3 : (l.inUnit s).alphastarRad = l.alphastarRad := rfl
  have e4 : (l.inUnit s).alphaRad = l.alphaRad := rfl
  rw [astar_unit l hs, bstar_unit l hs, cstar_unit l hs, e1, e2, e3, e4, map_bind', bind_map']
  refine bind_congr fun as => ?_
  rw [map_bind', bind_map']
  refine bind_congr fun bs => ?_
  rw [bind_map']
  refine bind_congr fun gs => ?_
  rw [map_bind', bind_map']
  refine bind_congr fun cs => ?_
  rw [bind_map']
  refine bind_congr fun bes => ?_
  rw [bind_map']
  refine bind_congr fun als => ?_
  show Except.ok _ = Except.ok _
  congr 1
  ext i j
  fin_cases i <;> fin_cases j <;> simp <;> ring

/-- **C231** spacings of planes and lengths of wavevectors in another unit of length; angles between
planes stay as they are, and so do scattering angles if the wavelength is in the same unit.
Errors stay what they are. -/
theorem C231_planes (l : Lattice) {s : ℝ} (hs : 0 < s) (hkl v1 v2 : Vec) (wavelength : ℝ) :
    (l.inUnit s).getDSpacing hkl = (l.getDSpacing hkl).map (s * ·) ∧
    (l.inUnit s).getQ hkl = (l.getQ hkl).map (s⁻¹ * ·) ∧
    (l.inUnit s).getAngleBetweenPlanes v1 v2 = l.getAngleBetweenPlanes v1 v2 ∧
    (l.inUnit s).getTwoTheta hkl (s * wavelength) = l.getTwoTheta hkl wavelength := by
  refine ⟨getDSpacing_unit l hs hkl, ?_, ?_, ?_⟩
  · unfold Lattice.getQ
    rw [getDSpacing_unit l hs]
    rcases l.getDSpacing hkl with e | d
    · cases e <;> simp [Except.map]
    · exact npDiv_unit_left hs.ne' _ _
  · unfold Lattice.getAngleBetweenPlanes
    have hi : 0 < s⁻¹ := inv_pos.2 hs
    rw [Gstar_unit l hs, map_bind']
    refine bind_congr fun gs => ?_
    rw [smul_mulVec, smul_mulVec, smul_dotProduct, smul_dotProduct, smul_dotProduct, smul_eq_mul,
      smul_eq_mul, smul_eq_mul, npSqrt_unit hi, npSqrt_unit hi, map_bind']
    refine bind_congr fun n1 => ?_
    rw [map_bind']
    refine bind_congr fun n2 => ?_
    rw [npDiv_unit (by positivity) (by positivity), map_bind']
    refine bind_congr fun q1 => ?_
    rw [npDiv_unit (by positivity) (by positivity), map_bind']
    refine bind_congr fun q2 => ?_
    have : (s⁻¹) ^ 2 / s⁻¹ / s⁻¹ * q2 = q2 := by field_simp
    rw [this]
  · unfold Lattice.getTwoTheta
    rw [getDSpacing_unit l hs]
    rcases l.getDSpacing hkl with e | d
    · cases e <;> simp [Except.map]
    · simp only [Except.map]
      rw [mul_div_assoc, npDiv_unit hs.ne' hs.ne', map_bind', div_self hs.ne']
      simp only [one_mul]

/-- A cubic cell has these quantities: of edge 2, and of edge 20 in a unit that is a tenth as large. -/
example : (Lattice.mk 2 2 2 90 90 90).inUnit 10 = ⟨20, 20, 20, 90, 90, 90⟩ ∧
    (Lattice.mk 2 2 2 90 90 90).volume = .ok 8 := by
  refine ⟨by norm_num [Lattice.inUnit], ?_⟩
  have h : deg2rad 90 = π / 2 := by unfold deg2rad; ring
  have hG : (Lattice.mk 2 2 2 90 90 90).G.det = 8 ^ 2 := by
    simp [Lattice.G, Lattice.alphaRad, Lattice.betaRad, Lattice.gammaRad, h, det_fin_three]
    norm_num
  unfold Lattice.volume npSqrt
  rw [hG, if_pos (by norm_num), sqrt_sq (by norm_num)]

end Verif.Crystal
