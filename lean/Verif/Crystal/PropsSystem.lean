import Verif.Crystal.PropsOrient

/-!
# Property C64: the standard coordinate system of the resolution code
-/

namespace Verif.Crystal

open Real Matrix

variable {l : Lattice}

theorem vecOf_sub (F : Mat) (p q : Vec) : vecOf F (p - q) = vecOf F p - vecOf F q := by
  simp only [vecOf, Pi.sub_apply, sub_smul]; abel

theorem len_pos (h : Valid l) {E F : Mat} (hE : Realises l E) (hF : Dual E F) {p : Vec} (hp : p ≠ 0) :
    0 < len (vecOf F p) := sqrt_pos.2 (vecOf_ne_zero h hE hF hp)

theorem len_sq (p : Vec) : len p ^ 2 = p ⬝ᵥ p := sq_sqrt (dot_self_nonneg p)

/-- Unit vectors in the reciprocal metric. -/
theorem unit_form {F : Mat} {p : Vec} (hp : 0 < len (vecOf F p)) :
    vecOf F ((len (vecOf F p))⁻¹ • p) ⬝ᵥ vecOf F ((len (vecOf F p))⁻¹ • p) = 1 := by
  rw [vecOf_smul, smul_dotProduct, dotProduct_smul, smul_eq_mul, smul_eq_mul, ← len_sq]
  field_simp

/-- **C64** the axes are orthonormal in the reciprocal metric, x lies along the first orientation
vector, and the second one in the plane of x and y with a positive y component. -/
theorem C64_standard_system (h : Valid l) {E F : Mat} (hE : Realises l E) (hF : Dual E F)
    {u v : Vec} (hi : Indep u v) : ∃ x y z, standardSystem l u v = .ok (x, y, z) ∧
      vecOf F x ⬝ᵥ vecOf F x = 1 ∧ vecOf F y ⬝ᵥ vecOf F y = 1 ∧ vecOf F z ⬝ᵥ vecOf F z = 1 ∧
      vecOf F x ⬝ᵥ vecOf F y = 0 ∧ vecOf F x ⬝ᵥ vecOf F z = 0 ∧ vecOf F y ⬝ᵥ vecOf F z = 0 ∧
      (∃ r : ℝ, 0 < r ∧ u = r • x) ∧ ∃ r s : ℝ, 0 < s ∧ v = r • x + s • y := by
  obtain ⟨lat, rl, hlat, hsc, _, hmod, _⟩ := C46_scalar h hE hF
  have hu : u ≠ 0 := fun h0 => by
    have := (hi 1 0 (by rw [h0]; simp)).1
    norm_num at this
  set lu := len (vecOf F u) with hlu
  have plu : 0 < lu := len_pos h hE hF hu
  set x := lu⁻¹ • u with hx
  set Φ : Vec → Vec → ℝ := fun p q => vecOf F p ⬝ᵥ vecOf F q with hΦ
  have hsub : ∀ p q r, Φ p (q - r) = Φ p q - Φ p r := by
    intro p q r; simp only [hΦ, vecOf_sub, dotProduct_sub]
  have hsmul : ∀ p (c : ℝ) q, Φ p (c • q) = c * Φ p q := by
    intro p c q; simp only [hΦ, vecOf_smul, dotProduct_smul, smul_eq_mul]
  have hcomm : ∀ p q, Φ p q = Φ q p := fun p q => dotProduct_comm _ _
  have xx : Φ x x = 1 := unit_form plu
  set y0 := v - Φ v x • x with hy0
  have hy0ne : y0 ≠ 0 := fun h0 => by
    have := (hi (-(Φ v x * lu⁻¹)) 1 (by
      rw [one_smul, neg_smul, neg_add_eq_sub, ← smul_smul]; exact h0)).2
    norm_num at this
  set ly := len (vecOf F y0) with hly
  have ply : 0 < ly := len_pos h hE hF hy0ne
  set y := ly⁻¹ • y0 with hy
  have yy : Φ y y = 1 := unit_form ply
  have xy0 : Φ x y0 = 0 := by rw [hy0, hsub, hsmul, xx, hcomm x v]; ring
  have xy : Φ x y = 0 := by rw [hy, hsmul, xy0, mul_zero]
  set z0 : Vec := ![x 1 * y 2 - y 1 * x 2, x 2 * y 0 - y 2 * x 0, -x 1 * y 0 + y 1 * x 0] with hz0
  have hz0c : z0 = crossProduct x y := by
    rw [cross_apply, hz0]
    congr 1; · ring
    congr 1; · ring
    congr 1; ring
  set z1 := z0 - Φ z0 x • x with hz1
  set z2 := z1 - Φ z1 y • y with hz2
  have hiv : v = Φ v x • x + ly • y := by
    have hyl : ly • y = y0 := by
      change ly • (ly⁻¹ • y0) = y0
      generalize y0 = w
      rw [smul_smul, mul_inv_cancel₀ ply.ne', one_smul]
    rw [hyl, hy0]; abel
  have hz2ne : z2 ≠ 0 := fun h0 => by
    -- the vector product would lie in the plane it is orthogonal to
    have e1 : z0 = Φ z0 x • x + Φ z1 y • y := by
      have : z2 = z0 - (Φ z0 x • x + Φ z1 y • y) := by rw [hz2, hz1]; abel
      rw [this] at h0
      exact sub_eq_zero.1 h0
    have e2 : z0 ⬝ᵥ z0 = 0 := by
      conv_lhs => arg 2; rw [e1]
      rw [hz0c]
      generalize Φ (crossProduct x y) x = c1
      generalize Φ z1 y = c2
      generalize x = x', y = y'
      rw [dotProduct_add, dotProduct_smul, dotProduct_smul, dotProduct_comm _ x',
        dotProduct_comm _ y', dot_self_cross, dot_cross_self]
      simp
    have e3 : z0 = 0 := dotProduct_self_eq_zero.1 e2
    -- so x and y are dependent
    have e4 : x ⬝ᵥ x * (y ⬝ᵥ y) - x ⬝ᵥ y * (y ⬝ᵥ x) = 0 := by
      rw [← cross_dot_cross, ← hz0c, e3]; simp
    have hxne : x ⬝ᵥ x ≠ 0 := fun h0 => by
      have h1 := dotProduct_self_eq_zero.1 h0
      have : Φ x x = 0 := by rw [h1]; simp [hΦ, vecOf]
      rw [xx] at this; norm_num at this
    have e5 : ((x ⬝ᵥ x) • y - (x ⬝ᵥ y) • x) = 0 := by
      apply dotProduct_self_eq_zero.1
      simp only [sub_dotProduct, dotProduct_sub, smul_dotProduct, dotProduct_smul, smul_eq_mul]
      rw [dotProduct_comm y x] at e4 ⊢
      linear_combination (x ⬝ᵥ x) * e4
    have e6 : Φ x ((x ⬝ᵥ x) • y - (x ⬝ᵥ y) • x) = 0 := by rw [e5]; simp [hΦ, vecOf]
    rw [hsub, hsmul x (x ⬝ᵥ x) y, hsmul x (x ⬝ᵥ y) x, xy, xx] at e6
    have e7 : x ⬝ᵥ y = 0 := by linarith
    rw [e7, zero_smul, sub_zero] at e5
    have e8 : y = 0 := (smul_eq_zero.1 e5).resolve_left hxne
    have : Φ y y = 0 := by rw [e8]; simp [hΦ, vecOf]
    rw [yy] at this; norm_num at this
  set lz := len (vecOf F z2) with hlz
  have plz : 0 < lz := len_pos h hE hF hz2ne
  have zz : Φ (lz⁻¹ • z2) (lz⁻¹ • z2) = 1 := unit_form plz
  have xz1 : Φ x z1 = 0 := by rw [hz1, hsub, hsmul, xx, hcomm x z0]; ring
  have xz2 : Φ x z2 = 0 := by rw [hz2, hsub, hsmul, xy, xz1]; ring
  have yz2 : Φ y z2 = 0 := by rw [hz2, hsub, hsmul, yy, hcomm y z1]; ring
  refine ⟨x, y, lz⁻¹ • z2, ?_, xx, yy, zz, xy, ?_, ?_, ⟨lu, plu, ?_⟩, ⟨Φ v x, ly, ply, hiv⟩⟩
  · unfold standardSystem
    rw [hlat, ok_bind]
    simp only [hmod, hsc, ok_bind]
    rw [← hlu, if_neg plu.ne']
    simp only [pure_ok]
    have f1 : ∀ p q, vecOf F p ⬝ᵥ vecOf F q = Φ p q := fun _ _ => rfl
    simp only [f1, ← hx, ← hy0, ← hly]
    rw [if_neg (not_le.2 ply)]
    simp only [← hy, ← hz0, ← hz1, ← hz2, ← hlz]
    rw [if_neg plz.ne']
  · change Φ x (lz⁻¹ • z2) = 0
    rw [hsmul, xz2, mul_zero]
  · change Φ y (lz⁻¹ • z2) = 0
    rw [hsmul, yz2, mul_zero]
  · rw [hx, smul_smul, mul_inv_cancel₀ plu.ne', one_smul]

/-- **C64** collinear vectors are rejected when the first one is not zero. -/
theorem C64_collinear_partial (h : Valid l) {u : Vec} (hu : u ≠ 0) (t : ℝ) :
    standardSystem l u (t • u) = .error .scatteringTriangleError := by
  obtain ⟨E, F, hE, hF⟩ := valid_realised h
  obtain ⟨lat, rl, hlat, hsc, _, hmod, _⟩ := C46_scalar h hE hF
  have plu := len_pos h hE hF hu
  unfold standardSystem
  rw [hlat, ok_bind]
  simp only [hmod, hsc, ok_bind]
  rw [if_neg plu.ne']
  simp only [pure_ok]
  have hz : t • u - (vecOf F (t • u) ⬝ᵥ vecOf F ((len (vecOf F u))⁻¹ • u)) •
      (len (vecOf F u))⁻¹ • u = 0 := by
    rw [vecOf_smul, vecOf_smul, smul_dotProduct, dotProduct_smul, smul_eq_mul, smul_eq_mul, smul_smul,
      ← len_sq, ← sub_smul]
    have : t - t * ((len (vecOf F u))⁻¹ * len (vecOf F u) ^ 2) * (len (vecOf F u))⁻¹ = 0 := by
      field_simp; ring
    rw [this, zero_smul]
  rw [hz]
  have : len (vecOf F 0) = 0 := by simp [len, vecOf]
  rw [this, if_pos le_rfl]
  rfl

/-- **C64** a zero first vector is not rejected: the axes are not numbers. -/
theorem C64_zero_first_false (h : Valid l) (v : Vec) : standardSystem l 0 v = .error .nan := by
  obtain ⟨E, F, hE, hF⟩ := valid_realised h
  obtain ⟨lat, rl, hlat, hsc, _, hmod, _⟩ := C46_scalar h hE hF
  unfold standardSystem
  rw [hlat, ok_bind]
  simp only [hmod, hsc, ok_bind]
  have : len (vecOf F 0) = 0 := by simp [len, vecOf]
  rw [this, if_pos rfl]
  rfl

end Verif.Crystal
