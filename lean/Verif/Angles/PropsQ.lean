import Verif.Angles.Props

/-!
# Property C129: the modulus of Q and the scattering condition
-/

namespace Verif.Angles

open Real Matrix
open Verif.Crystal (Vec Mat Lattice deg2rad rad2deg Valid Realises Dual vecOf len)
open Verif.Tools (arctan2)
open Verif.Resolution (Setup)
open Verif.Energy (Consts)

/-- A cell with right angles. -/
structure Ortho (l : Lattice) : Prop where
  a_pos : 0 < l.a
  b_pos : 0 < l.b
  c_pos : 0 < l.c
  alpha : l.alpha = 90
  beta : l.beta = 90
  gamma : l.gamma = 90

theorem cos90 : cos (deg2rad 90) = 0 := by
  rw [show deg2rad 90 = π / 2 by unfold deg2rad; ring]; exact cos_pi_div_two

theorem sin90 : sin (deg2rad 90) = 1 := by
  rw [show deg2rad 90 = π / 2 by unfold deg2rad; ring]; exact sin_pi_div_two

theorem bMatrix_ortho {l : Lattice} (h : Ortho l) :
    bMatrix l = some !![2 * π / l.a, 0, 0; 0, 2 * π / l.b, 0; 0, 0, 2 * π / l.c] := by
  have ha := h.a_pos
  have hb := h.b_pos
  have hc := h.c_pos
  have hp := pi_pos
  have o1 {x : ℝ} (hx : 0 < x) : over 1 (x / (2 * π)) = some (2 * π / x) := by
    rw [over, if_neg (by positivity)]; congr 1; field_simp
  have r1 : root 1 = some 1 := by rw [root, if_pos zero_le_one, sqrt_one]
  have o0 : over 0 1 = some 0 := by rw [over, if_neg one_ne_zero]; simp
  unfold bMatrix
  simp only [h.alpha, h.beta, h.gamma, cons_val_zero, cons_val_one, cons_val, cos90, sin90, mul_zero, add_zero, sub_zero,
    mul_one, r1, Option.bind_eq_bind, Option.bind_some, o1 ha, o1 hb, o1 hc, o0]
  rfl

theorem axisRows_ortho (x y z p r t : ℝ) :
    axisRows !![x, 0, 0; 0, y, 0; 0, 0, z] ![p, 0, 0] ![r, t, 0] =
      !![p * x, 0, 0; 0, p * x * (t * y) * (p * x), 0; 0, 0, p * x * (t * y)] := by
  ext i j
  fin_cases i <;> fin_cases j <;> simp [axisRows, prod, mulVec, dotProduct, Fin.sum_univ_three] <;> ring

theorem momentum_ortho {s : Setup} (h : Ortho s.lattice) {p r t : ℝ} (hp : p ≠ 0) (ht : t ≠ 0) (hu : s.u = ![p, 0, 0])
    (hv : s.v = ![r, t, 0]) (hkl : Vec) :
    momentum s hkl = some ![p / |p| * (2 * π / s.lattice.a * hkl 0), t / |t| * (2 * π / s.lattice.b * hkl 1),
      p * t / |p * t| * (2 * π / s.lattice.c * hkl 2)] := by
  have ha := h.a_pos
  have hb := h.b_pos
  have hc := h.c_pos
  have hpi := pi_pos
  unfold momentum
  rw [bMatrix_ortho h]
  simp only [Option.bind_eq_bind, Option.bind_some]
  rw [hu, hv, axisRows_ortho]
  obtain ⟨x, hx⟩ : ∃ x, x = 2 * π / s.lattice.a := ⟨_, rfl⟩
  obtain ⟨y, hy⟩ : ∃ y, y = 2 * π / s.lattice.b := ⟨_, rfl⟩
  obtain ⟨z, hz⟩ : ∃ z, z = 2 * π / s.lattice.c := ⟨_, rfl⟩
  have x0 : 0 < x := by rw [hx]; positivity
  have y0 : 0 < y := by rw [hy]; positivity
  have z0 : 0 < z := by rw [hz]; positivity
  rw [← hx, ← hy, ← hz]
  have c0 : √(∑ i, !![p * x, 0, 0; 0, p * x * (t * y) * (p * x), 0; 0, 0, p * x * (t * y)] i 0 *
      !![p * x, 0, 0; 0, p * x * (t * y) * (p * x), 0; 0, 0, p * x * (t * y)] i 0) = |p| * x := by
    simp only [Fin.sum_univ_three, of_apply, cons_val', cons_val_zero, cons_val_one, cons_val, mul_zero, add_zero]
    rw [sqrt_mul_self_eq_abs, abs_mul, abs_of_pos x0]
  have c1 : √(∑ i, !![p * x, 0, 0; 0, p * x * (t * y) * (p * x), 0; 0, 0, p * x * (t * y)] i 1 *
      !![p * x, 0, 0; 0, p * x * (t * y) * (p * x), 0; 0, 0, p * x * (t * y)] i 1) = |p| * x * (|t| * y) * (|p| * x) := by
    simp only [Fin.sum_univ_three, of_apply, cons_val', cons_val_zero, cons_val_one, cons_val, mul_zero, add_zero, zero_add]
    rw [sqrt_mul_self_eq_abs, abs_mul, abs_mul, abs_mul, abs_mul, abs_of_pos x0, abs_of_pos y0]
  have c2 : √(∑ i, !![p * x, 0, 0; 0, p * x * (t * y) * (p * x), 0; 0, 0, p * x * (t * y)] i 2 *
      !![p * x, 0, 0; 0, p * x * (t * y) * (p * x), 0; 0, 0, p * x * (t * y)] i 2) = |p| * x * (|t| * y) := by
    simp only [Fin.sum_univ_three, of_apply, cons_val', cons_val_zero, cons_val_one, cons_val, mul_zero, zero_add]
    rw [sqrt_mul_self_eq_abs, abs_mul, abs_mul, abs_mul, abs_of_pos x0, abs_of_pos y0]
  have p0 : 0 < |p| := abs_pos.2 hp
  have t0 : 0 < |t| := abs_pos.2 ht
  have pp : p * p = |p| * |p| := (abs_mul_abs_self p).symm
  unfold qVector
  dsimp only
  rw [if_neg]
  · congr 1
    have key (i : Fin 3) : (fun j => √(∑ i, !![p * x, 0, 0; 0, p * x * (t * y) * (p * x), 0; 0, 0, p * x * (t * y)] i j *
        !![p * x, 0, 0; 0, p * x * (t * y) * (p * x), 0; 0, 0, p * x * (t * y)] i j)) i =
        ![|p| * x, |p| * x * (|t| * y) * (|p| * x), |p| * x * (|t| * y)] i := by
      fin_cases i
      · exact c0
      · exact c1
      · exact c2
    ext i
    have k0 := key i
    dsimp only at k0
    simp only [mulVec, dotProduct, of_apply]
    simp only [of_apply] at k0
    rw [k0]
    rw [Fin.sum_univ_three]
    fin_cases i
    · simp
      field_simp
    · simp
      field_simp
      linear_combination hkl 1 * pp
    · simp [abs_mul]
      field_simp
  · have : 0 < |p| * x := by positivity
    have : 0 < |p| * x * (|t| * y) * (|p| * x) := by positivity
    have : 0 < |p| * x * (|t| * y) := by positivity
    rw [c0, c1, c2]
    rintro (h | h | h) <;> linarith

/-- The reciprocal vectors of a cell with right angles are perpendicular. -/
theorem dual_ortho {l : Lattice} (h : Ortho l) {E F : Mat} (hE : Realises l E) (hF : Dual E F) :
    F 0 ⬝ᵥ F 0 = (2 * π / l.a) ^ 2 ∧ F 1 ⬝ᵥ F 1 = (2 * π / l.b) ^ 2 ∧ F 2 ⬝ᵥ F 2 = (2 * π / l.c) ^ 2 ∧
      F 0 ⬝ᵥ F 1 = 0 ∧ F 0 ⬝ᵥ F 2 = 0 ∧ F 1 ⬝ᵥ F 2 = 0 := by
  have ha := h.a_pos
  have hb := h.b_pos
  have hc := h.c_pos
  have z : cos ((90 : ℝ) * π / 180) = 0 := cos90
  have hbc := hE.bc
  have hac := hE.ac
  have hab := hE.ab
  rw [h.alpha, z, mul_zero] at hbc
  rw [h.beta, z, mul_zero] at hac
  rw [h.gamma, z, mul_zero] at hab
  have haa := hE.aa
  have hbb := hE.bb
  have hcc := hE.cc
  -- F Eᵀ = 2π, E Eᵀ diagonal
  let D : Mat := diagonal ![l.a ^ 2, l.b ^ 2, l.c ^ 2]
  have e1 : E * Eᵀ = D := by
    ext i j
    rw [mul_apply']
    change E i ⬝ᵥ E j = _
    fin_cases i <;> fin_cases j <;> simp [D, haa, hbb, hcc, hbc, hac, hab]
    · rw [dotProduct_comm]; exact hab
    · rw [dotProduct_comm]; exact hac
    · rw [dotProduct_comm]; exact hbc
  have e2 : F * Eᵀ = (2 * π) • (1 : Mat) := by
    ext i j
    rw [mul_apply']
    change F i ⬝ᵥ E j = _
    rw [hF i j]
    simp [Matrix.one_apply]
  have e3 : E * Fᵀ = (2 * π) • (1 : Mat) := by
    have := congrArg transpose e2
    simpa using this
  -- Eᵀ E commutes: Eᵀ * D⁻¹ * E = 1
  let D' : Mat := diagonal ![(l.a ^ 2)⁻¹, (l.b ^ 2)⁻¹, (l.c ^ 2)⁻¹]
  have e4 : D' * D = 1 := by
    rw [diagonal_mul_diagonal, ← diagonal_one]
    congr 1
    ext i
    fin_cases i <;> simp <;> field_simp
  have e5 : (D' * E) * Eᵀ = 1 := by rw [Matrix.mul_assoc, e1, e4]
  have e6 : Eᵀ * (D' * E) = 1 := mul_eq_one_comm.1 e5
  have e7 : F = (2 * π) • (D' * E) := by
    calc F = F * (Eᵀ * (D' * E)) := by rw [e6, Matrix.mul_one]
      _ = (F * Eᵀ) * (D' * E) := by rw [Matrix.mul_assoc]
      _ = _ := by rw [e2, smul_mul, Matrix.one_mul]
  have e8 : F * Fᵀ = (2 * π) ^ 2 • D' := by
    calc F * Fᵀ = (2 * π) • (D' * (E * Fᵀ)) := by
          conv_lhs => rw [e7]
          rw [smul_mul, Matrix.mul_assoc]
          congr 2
          rw [← e7]
      _ = _ := by rw [e3, Matrix.mul_smul, Matrix.mul_one, smul_smul]; congr 1; ring
  have g (i j : Fin 3) : F i ⬝ᵥ F j = ((2 * π) ^ 2 • D') i j := by rw [← e8, mul_apply']; rfl
  refine ⟨?_, ?_, ?_, ?_, ?_, ?_⟩
  all_goals
    rw [g]
    simp [D']
  all_goals field_simp

theorem sgn_sq {p : ℝ} (hp : p ≠ 0) : (p / |p|) ^ 2 = 1 := by
  rw [div_pow, sq_abs, div_self (by positivity)]

theorem dot_ortho {F : Mat} {x y z : ℝ} (h00 : F 0 ⬝ᵥ F 0 = x ^ 2) (h11 : F 1 ⬝ᵥ F 1 = y ^ 2) (h22 : F 2 ⬝ᵥ F 2 = z ^ 2)
    (h01 : F 0 ⬝ᵥ F 1 = 0) (h02 : F 0 ⬝ᵥ F 2 = 0) (h12 : F 1 ⬝ᵥ F 2 = 0) (p q : Vec) :
    vecOf F p ⬝ᵥ vecOf F q = x ^ 2 * (p 0 * q 0) + y ^ 2 * (p 1 * q 1) + z ^ 2 * (p 2 * q 2) := by
  have h10 := h01
  have h20 := h02
  have h21 := h12
  rw [dotProduct_comm] at h10 h20 h21
  simp only [vecOf, dotProduct_add, add_dotProduct, smul_dotProduct, dotProduct_smul, smul_eq_mul, h00, h11, h22, h01, h02, h12, h10,
    h20, h21]
  ring

/-- C129 (partial).  For a cell with right angles, the first axis of the plane along `a*` and the second in the plane of `a*`
and `b*`, Q is the modulus of the scattering vector.  Missing: other cells and planes (`C129_q_false`). -/
theorem C129_q_partial (c : Consts) {s : Setup} (h : Ortho s.lattice) {p r t : ℝ} (hp : p ≠ 0) (ht : t ≠ 0)
    (hu : s.u = ![p, 0, 0]) (hv : s.v = ![r, t, 0]) {E F : Mat} (hE : Realises s.lattice E) (hF : Dual E F) (hkl : Vec) (w : ℝ) :
    (anglesAndQ c s hkl w).q = some (len (vecOf F hkl)) := by
  obtain ⟨h00, h11, h22, h01, h02, h12⟩ := dual_ortho h hE hF
  unfold anglesAndQ
  dsimp only
  rw [momentum_ortho h hp ht hu hv]
  simp only [Option.map_some]
  congr 1
  unfold len
  congr 1
  rw [dot_ortho h00 h11 h22 h01 h02 h12]
  simp only [Fin.sum_univ_three, cons_val_zero, cons_val_one, cons_val, mul_pow, sgn_sq hp, sgn_sq ht, sgn_sq (mul_ne_zero hp ht)]
  ring

/-- C129, violated.  For a cubic crystal in the plane of (1,1,0) and (0,0,1), the example in the documentation of
`currat_axe_peaks`, every point (0,0,l) gets Q = 0, and A3 is not a number. -/
theorem C129_q_false (c : Consts) {s : Setup} (h : Ortho s.lattice) (hu : s.u = ![1, 1, 0]) (hv : s.v = ![0, 0, 1]) {E F : Mat}
    (hE : Realises s.lattice E) (hF : Dual E F) {l : ℝ} (hl : l ≠ 0) (w : ℝ) :
    (anglesAndQ c s ![0, 0, l] w).q = some 0 ∧ (anglesAndQ c s ![0, 0, l] w).a3 = none ∧ 0 < len (vecOf F ![0, 0, l]) := by
  have ha := h.a_pos
  have hb := h.b_pos
  have hc := h.c_pos
  have hpi := pi_pos
  have hm : momentum s ![0, 0, l] = some 0 := by
    unfold momentum
    rw [bMatrix_ortho h]
    simp only [Option.bind_eq_bind, Option.bind_some]
    rw [hu, hv]
    obtain ⟨x, hx⟩ : ∃ x, x = 2 * π / s.lattice.a := ⟨_, rfl⟩
    obtain ⟨y, hy⟩ : ∃ y, y = 2 * π / s.lattice.b := ⟨_, rfl⟩
    obtain ⟨z, hz⟩ : ∃ z, z = 2 * π / s.lattice.c := ⟨_, rfl⟩
    have x0 : 0 < x := by rw [hx]; positivity
    have y0 : 0 < y := by rw [hy]; positivity
    have z0 : 0 < z := by rw [hz]; positivity
    rw [← hx, ← hy, ← hz]
    have e : axisRows !![x, 0, 0; 0, y, 0; 0, 0, z] ![1, 1, 0] ![0, 0, 1] =
        !![x, y, 0; 0, 0, y * z * y + x * z * x; y * z, -(x * z), 0] := by
      ext i j
      fin_cases i <;> fin_cases j <;> simp [axisRows, prod, mulVec, dotProduct, Fin.sum_univ_three]
    rw [e]
    unfold qVector
    dsimp only
    rw [if_neg]
    · congr 1
      ext i
      fin_cases i <;> simp [mulVec, dotProduct, Fin.sum_univ_three]
    · simp only [Fin.sum_univ_three, of_apply, cons_val', cons_val_zero, cons_val_one, cons_val]
      have p1 : 0 < √(x * x + 0 * 0 + y * z * (y * z)) := by positivity
      have p2 : 0 < √(y * y + 0 * 0 + -(x * z) * -(x * z)) := by
        apply sqrt_pos.2
        have : 0 < y * y := by positivity
        nlinarith [mul_self_nonneg (x * z)]
      have p3 : 0 < √(0 * 0 + (y * z * y + x * z * x) * (y * z * y + x * z * x) + 0 * 0) := by
        apply sqrt_pos.2
        have : 0 < (y * z * y + x * z * x) * (y * z * y + x * z * x) := by positivity
        linarith
      rintro (h | h | h)
      · exact p1.ne' h
      · exact p2.ne' h
      · exact p3.ne' h
  refine ⟨?_, ?_, ?_⟩
  · unfold anglesAndQ
    rw [hm]
    simp
  · unfold anglesAndQ
    rw [hm]
    dsimp only
    simp only [Option.bind_some, sampleAngle]
    rcases (wavevectors c s w).1 with _ | ki
    · rfl
    · rcases (wavevectors c s w).2 with _ | kf
      · rfl
      · simp [over]
  · obtain ⟨h00, h11, h22, h01, h02, h12⟩ := dual_ortho h hE hF
    unfold len
    rw [dot_ortho h00 h11 h22 h01 h02 h12]
    apply sqrt_pos.2
    have : 0 < (2 * π / s.lattice.c) ^ 2 * (l * l) := mul_pos (by positivity) (mul_self_pos.2 hl)
    simpa using this

/-! ## The scattering condition -/

/-- The crystal, turned by `a3` degrees, scatters: the vector with components `qx`, `qy` in the axes of the crystal comes to lie
on the difference of the wave vectors `(ki, 0)` and `kf (cos a4, sin a4)`. -/
def Scatters (ki kf qx qy a3 a4 : ℝ) : Prop :=
  cos (a3 * π / 180) * qx - sin (a3 * π / 180) * qy = ki - kf * cos (a4 * π / 180) ∧
    sin (a3 * π / 180) * qx + cos (a3 * π / 180) * qy = -(kf * sin (a4 * π / 180))

theorem rad_deg (x : ℝ) : rad2deg x * π / 180 = x := by
  have := pi_pos
  unfold rad2deg
  field_simp

theorem arctan2_polar (y x : ℝ) : √(x ^ 2 + y ^ 2) * cos (arctan2 y x) = x ∧ √(x ^ 2 + y ^ 2) * sin (arctan2 y x) = y := by
  have n : ‖(⟨x, y⟩ : ℂ)‖ = √(x ^ 2 + y ^ 2) := by
    rw [Complex.norm_def, Complex.normSq_mk]
    congr 1
    ring
  have h1 := Complex.norm_mul_cos_arg ⟨x, y⟩
  have h2 := Complex.norm_mul_sin_arg ⟨x, y⟩
  rw [n] at h1 h2
  exact ⟨h1, h2⟩

/-- The triangle of `ki`, `kf` and `Q`. -/
theorem triangle {ki kf Q : ℝ} (hi : 0 < ki) (hk : 0 < kf) (hQ : 0 < Q) (t1 : |ki - kf| ≤ Q) (t2 : Q ≤ ki + kf) :
    ∃ x y : ℝ, over (ki ^ 2 + kf ^ 2 - Q ^ 2) (2 * ki * kf) = some x ∧ over (kf * kf - Q * Q - ki * ki) (-2 * (Q * ki)) = some y ∧
      acos x = some (arccos x) ∧ acos y = some (arccos y) ∧ ki - kf * cos (arccos x) = Q * cos (arccos y) ∧
      kf * sin (arccos x) = Q * sin (arccos y) := by
  obtain ⟨t3, t4⟩ := abs_le.1 t1
  have d1 : 0 < 2 * ki * kf := by positivity
  have d2 : -2 * (Q * ki) < 0 := by have : 0 < Q * ki := by positivity
                                    linarith
  have x1 : -1 ≤ (ki ^ 2 + kf ^ 2 - Q ^ 2) / (2 * ki * kf) := by
    rw [le_div_iff₀ d1]; nlinarith
  have x2 : (ki ^ 2 + kf ^ 2 - Q ^ 2) / (2 * ki * kf) ≤ 1 := by
    rw [div_le_one d1]; nlinarith
  have e : (kf * kf - Q * Q - ki * ki) / (-2 * (Q * ki)) = (ki ^ 2 + Q ^ 2 - kf ^ 2) / (2 * Q * ki) := by
    field_simp; ring
  have d3 : 0 < 2 * Q * ki := by positivity
  have y1 : -1 ≤ (ki ^ 2 + Q ^ 2 - kf ^ 2) / (2 * Q * ki) := by
    rw [le_div_iff₀ d3]; nlinarith
  have y2 : (ki ^ 2 + Q ^ 2 - kf ^ 2) / (2 * Q * ki) ≤ 1 := by
    rw [div_le_one d3]; nlinarith
  refine ⟨_, _, if_neg d1.ne', if_neg d2.ne, if_pos ⟨x1, x2⟩, if_pos ?_, ?_, ?_⟩
  · rw [e]; exact ⟨y1, y2⟩
  · rw [e, cos_arccos x1 x2, cos_arccos y1 y2]
    field_simp
    ring
  · rw [e, sin_arccos, sin_arccos]
    have k1 : kf = √(kf ^ 2) := (sqrt_sq hk.le).symm
    have k2 : Q = √(Q ^ 2) := (sqrt_sq hQ.le).symm
    conv_lhs => rw [k1, ← sqrt_mul (by positivity)]
    conv_rhs => lhs; rw [k2]
    rw [← sqrt_mul (by positivity)]
    congr 1
    rw [sqrt_sq hk.le]
    field_simp
    ring

/-- The angles of the sample in either sense. -/
theorem sample_angles (ss : ℝ) {ki kf : ℝ} (hi : 0 < ki) (hk : 0 < kf) {qt : Vec} (h2 : qt 2 = 0) (hQ : 0 < √(∑ i, qt i ^ 2))
    (t1 : |ki - kf| ≤ √(∑ i, qt i ^ 2)) (t2 : √(∑ i, qt i ^ 2) ≤ ki + kf) : ∃ ph th : ℝ,
      (halfAngle ss ki kf √(∑ i, qt i ^ 2)).map (2 * ·) = some (ss * th) ∧
      sampleAngle ss ki kf √(∑ i, qt i ^ 2) qt = some (ss * (-arctan2 (qt 1) (qt 0) - ph)) ∧
      ki - kf * cos th = √(∑ i, qt i ^ 2) * cos ph ∧ kf * sin th = √(∑ i, qt i ^ 2) * sin ph ∧
      √(∑ i, qt i ^ 2) * cos (arctan2 (qt 1) (qt 0)) = qt 0 ∧ √(∑ i, qt i ^ 2) * sin (arctan2 (qt 1) (qt 0)) = qt 1 := by
  obtain ⟨x, y, e1, e2, e3, e4, e5, e6⟩ := triangle hi hk hQ t1 t2
  have e : √(∑ i, qt i ^ 2) = √(qt 0 ^ 2 + qt 1 ^ 2) := by
    rw [Fin.sum_univ_three, h2]; simp
  refine ⟨arccos y, arccos x, ?_, ?_, e5, e6, ?_, ?_⟩
  · unfold halfAngle
    rw [e1]
    simp only [Option.bind_eq_bind, Option.bind_some, e3]
    change some _ = _
    congr 1
    ring
  · unfold sampleAngle
    rw [e2]
    simp only [Option.bind_eq_bind, Option.bind_some, e4]
    rfl
  · rw [e]; exact (arctan2_polar _ _).1
  · rw [e]; exact (arctan2_polar _ _).2

/-- C129.  In the positive sense the angles bring the vector `qt` of the code into the scattering condition, in the negative
sense only if it lies on the first axis. -/
theorem C129_turn (c : Consts) {s : Setup} (hf : Fixed s) (he : 0 < s.settings.efixed) {w ki kf : ℝ} (h : Waves c s w ki kf)
    {hkl qt : Vec} (hm : momentum s hkl = some qt) (h2 : qt 2 = 0) (hQ : 0 < √(∑ i, qt i ^ 2))
    (t1 : |ki - kf| ≤ √(∑ i, qt i ^ 2)) (t2 : √(∑ i, qt i ^ 2) ≤ ki + kf) : ∃ a3 a4,
      (anglesAndQ c s hkl w).a3 = some a3 ∧ (anglesAndQ c s hkl w).a4 = some a4 ∧
      (s.settings.sample.dir = 1 → Scatters ki kf (qt 0) (qt 1) a3 a4) ∧
      (s.settings.sample.dir = -1 → (Scatters ki kf (qt 0) (qt 1) a3 a4 ↔ qt 1 = 0)) := by
  obtain ⟨ph, th, e1, e2, e3, e4, e5, e6⟩ := sample_angles s.settings.sample.dir h.ki_pos h.kf_pos h2 hQ t1 t2
  obtain ⟨Q, eQ⟩ : ∃ Q, Q = √(∑ i, qt i ^ 2) := ⟨_, rfl⟩
  obtain ⟨al, eal⟩ : ∃ al, al = arctan2 (qt 1) (qt 0) := ⟨_, rfl⟩
  refine ⟨rad2deg (s.settings.sample.dir * (-arctan2 (qt 1) (qt 0) - ph)), rad2deg (s.settings.sample.dir * th), ?_, ?_,
    fun hs => ?_, fun hs => ?_⟩
  · unfold anglesAndQ
    rw [wavevectors_eq c hf h he, hm]
    dsimp only [Option.bind_some, Option.map_some]
    rw [e2]
    rfl
  · unfold anglesAndQ
    rw [wavevectors_eq c hf h he, hm]
    dsimp only [Option.bind_some, Option.map_some]
    rw [e1]
    rfl
  · unfold Scatters
    rw [rad_deg, rad_deg, hs, one_mul, one_mul, e3, e4, ← eQ, ← eal]
    rw [← eQ, ← eal] at e5 e6
    rw [← e5, ← e6]
    constructor
    · have : cos ph = cos ((-al - ph) + al) := by rw [show -al - ph + al = -ph by ring, cos_neg]
      rw [this, cos_add]
      ring
    · have : -sin ph = sin ((-al - ph) + al) := by rw [show -al - ph + al = -ph by ring, sin_neg]
      rw [← mul_neg, this, sin_add]
      ring
  · unfold Scatters
    rw [rad_deg, rad_deg, hs, neg_one_mul, neg_one_mul, cos_neg, sin_neg, cos_neg, sin_neg, mul_neg, neg_neg, e3, e4]
    rw [← eQ, ← eal]
    rw [← eQ, ← eal] at e5 e6
    rw [← e5, ← e6]
    have q : 0 < Q := by rw [eQ]; exact hQ
    have k1 : cos (-al - ph) * (Q * cos al) - -sin (-al - ph) * (Q * sin al) = Q * cos (2 * al + ph) := by
      rw [show -al - ph = -(al + ph) by ring, cos_neg, sin_neg, show 2 * al + ph = al + (al + ph) by ring, cos_add al (al + ph)]
      ring
    have k2 : -sin (-al - ph) * (Q * cos al) + cos (-al - ph) * (Q * sin al) = Q * sin (2 * al + ph) := by
      rw [show -al - ph = -(al + ph) by ring, cos_neg, sin_neg, show 2 * al + ph = al + (al + ph) by ring, sin_add al (al + ph)]
      ring
    rw [k1, k2]
    constructor
    · rintro ⟨a, b⟩
      have a' := mul_left_cancel₀ q.ne' a
      have b' := mul_left_cancel₀ q.ne' b
      have c1 : cos (2 * al) = 1 := by
        have : cos (2 * al) = cos ((2 * al + ph) - ph) := by ring_nf
        rw [this, cos_sub, a', b']
        linear_combination sin_sq_add_cos_sq ph
      rw [cos_two_mul] at c1
      have s0 : sin al ^ 2 = 0 := by
        have := sin_sq_add_cos_sq al
        linarith
      rw [pow_eq_zero_iff two_ne_zero] at s0
      rw [s0, mul_zero]
    · intro a
      have s0 : sin al = 0 := by
        rcases mul_eq_zero.1 a with a | a
        · exact absurd a q.ne'
        · exact a
      have c1 : cos (2 * al) = 1 := by
        rw [cos_two_mul]
        have := sin_sq_add_cos_sq al
        rw [s0] at this
        linarith
      have s1 : sin (2 * al) = 0 := by rw [sin_two_mul, s0]; ring
      rw [cos_add, sin_add, c1, s1]
      constructor <;> ring

/-- Axes of the scattering plane: the first along `u`, the second on the side of `v`. -/
structure PlaneAxes (F : Mat) (u v ex ey : Vec) : Prop where
  unit_x : ex ⬝ᵥ ex = 1
  unit_y : ey ⬝ᵥ ey = 1
  perp : ex ⬝ᵥ ey = 0
  along : ∃ l : ℝ, 0 < l ∧ vecOf F u = l • ex
  side : ∃ l m : ℝ, 0 < m ∧ vecOf F v = l • ex + m • ey

theorem components_ortho {l : Lattice} (h : Ortho l) {E F : Mat} (hE : Realises l E) (hF : Dual E F) {p r t : ℝ} (hp : p ≠ 0)
    (ht : t ≠ 0) {ex ey : Vec} (ax : PlaneAxes F ![p, 0, 0] ![r, t, 0] ex ey) (hkl : Vec) :
    ex ⬝ᵥ vecOf F hkl = p / |p| * (2 * π / l.a * hkl 0) ∧ ey ⬝ᵥ vecOf F hkl = t / |t| * (2 * π / l.b * hkl 1) := by
  obtain ⟨h00, h11, h22, h01, h02, h12⟩ := dual_ortho h hE hF
  have ha := h.a_pos
  have hb := h.b_pos
  have hpi := pi_pos
  obtain ⟨x, hx⟩ : ∃ x, x = 2 * π / l.a := ⟨_, rfl⟩
  obtain ⟨y, hy⟩ : ∃ y, y = 2 * π / l.b := ⟨_, rfl⟩
  have x0 : 0 < x := by rw [hx]; positivity
  have y0 : 0 < y := by rw [hy]; positivity
  rw [← hx] at h00
  rw [← hy] at h11
  rw [← hx, ← hy]
  have dot := dot_ortho h00 h11 h22 h01 h02 h12
  obtain ⟨k, k0, ek⟩ := ax.along
  obtain ⟨m, n, n0, en⟩ := ax.side
  have p0 : 0 < |p| := abs_pos.2 hp
  have t0 : 0 < |t| := abs_pos.2 ht
  have pp : p * p = |p| * |p| := (abs_mul_abs_self p).symm
  have tt : t * t = |t| * |t| := (abs_mul_abs_self t).symm
  -- lengths
  have l1 : k = |p| * x := by
    have := dot ![p, 0, 0] ![p, 0, 0]
    rw [ek] at this
    simp [ax.unit_x] at this
    have e : k ^ 2 = (|p| * x) ^ 2 := by
      linear_combination this + x ^ 2 * pp
    exact (pow_left_inj₀ k0.le (by positivity) two_ne_zero).1 e
  have g1 := dot ![p, 0, 0] hkl
  rw [ek, smul_dotProduct, smul_eq_mul] at g1
  simp at g1
  have r1 : ex ⬝ᵥ vecOf F hkl = p / |p| * (x * hkl 0) := by
    have : k * (ex ⬝ᵥ vecOf F hkl) = k * (p / |p| * (x * hkl 0)) := by
      rw [g1, l1]; field_simp
    exact mul_left_cancel₀ k0.ne' this
  refine ⟨r1, ?_⟩
  have yx : ey ⬝ᵥ ex = 0 := by rw [dotProduct_comm]; exact ax.perp
  have l2 : m * k = x ^ 2 * (r * p) := by
    have := dot ![r, t, 0] ![p, 0, 0]
    rw [ek, en] at this
    simp only [add_dotProduct, smul_dotProduct, dotProduct_smul, ax.unit_x, yx, smul_eq_mul] at this
    simp at this
    linarith
  have l3 : m ^ 2 + n ^ 2 = x ^ 2 * (r * r) + y ^ 2 * (t * t) := by
    have := dot ![r, t, 0] ![r, t, 0]
    rw [en] at this
    simp only [add_dotProduct, dotProduct_add, smul_dotProduct, dotProduct_smul, ax.unit_x, ax.unit_y, yx, ax.perp, smul_eq_mul] at this
    simp at this
    linarith
  have l4 : m = x * r * (p / |p|) := by
    have : m * k = (x * r * (p / |p|)) * k := by rw [l2, l1]; field_simp
    exact mul_right_cancel₀ k0.ne' this
  have sp : (p / |p|) * (p / |p|) = 1 := by rw [← pow_two]; exact sgn_sq hp
  have l5 : n = |t| * y := by
    have e : n ^ 2 = (|t| * y) ^ 2 := by
      rw [l4] at l3
      linear_combination l3 - x ^ 2 * r ^ 2 * sp + y ^ 2 * tt
    exact (pow_left_inj₀ n0.le (by positivity) two_ne_zero).1 e
  have g2 := dot ![r, t, 0] hkl
  rw [en, add_dotProduct, smul_dotProduct, smul_dotProduct, smul_eq_mul, smul_eq_mul, r1] at g2
  simp at g2
  have : n * (ey ⬝ᵥ vecOf F hkl) = n * (t / |t| * (y * hkl 1)) := by
    have e1 : n * (t / |t| * (y * hkl 1)) = y ^ 2 * (t * hkl 1) := by rw [l5]; field_simp
    rw [e1]
    rw [l4] at g2
    linear_combination g2 - x ^ 2 * r * hkl 0 * sp
  exact mul_left_cancel₀ n0.ne' this

/-- C129 (partial).  With the axes as in `C129_q_partial` and the sample turning in the positive sense, the angles A3 and A4 bring
the point of the plane into the scattering condition.  Missing: other cells and planes (`C129_q_false`) and the other sense
(`C129_sense_false`). -/
theorem C129_condition_partial (c : Consts) {s : Setup} (hf : Fixed s) (he : 0 < s.settings.efixed) {w ki kf : ℝ}
    (hw : Waves c s w ki kf) (h : Ortho s.lattice) {p r t : ℝ} (hp : p ≠ 0) (ht : t ≠ 0) (hu : s.u = ![p, 0, 0])
    (hv : s.v = ![r, t, 0]) (hs : s.settings.sample.dir = 1) {E F : Mat} (hE : Realises s.lattice E) (hF : Dual E F) {ex ey : Vec}
    (ax : PlaneAxes F s.u s.v ex ey) {hkl : Vec} (hl : hkl 2 = 0) (h0 : 0 < len (vecOf F hkl))
    (t1 : |ki - kf| ≤ len (vecOf F hkl)) (t2 : len (vecOf F hkl) ≤ ki + kf) : ∃ a3 a4,
      (anglesAndQ c s hkl w).a3 = some a3 ∧ (anglesAndQ c s hkl w).a4 = some a4 ∧
      Scatters ki kf (ex ⬝ᵥ vecOf F hkl) (ey ⬝ᵥ vecOf F hkl) a3 a4 := by
  have eQ := C129_q_partial c h hp ht hu hv hE hF hkl w
  have em := momentum_ortho h hp ht hu hv hkl
  rw [hu, hv] at ax
  obtain ⟨c1, c2⟩ := components_ortho h hE hF hp ht ax hkl
  unfold anglesAndQ at eQ
  rw [em] at eQ
  simp only [Option.map_some, Option.some.injEq] at eQ
  rw [← eQ] at h0 t1 t2
  obtain ⟨a3, a4, e3, e4, e5, -⟩ := C129_turn c hf he hw em (by simp [hl]) h0 t1 t2
  refine ⟨a3, a4, e3, e4, ?_⟩
  rw [c1, c2]
  exact e5 hs

/-- C129, violated.  If the sample turns in the negative sense, A3 does not bring any point off the first axis into the
scattering condition. -/
theorem C129_sense_false (c : Consts) {s : Setup} (hf : Fixed s) (he : 0 < s.settings.efixed) {w ki kf : ℝ}
    (hw : Waves c s w ki kf) (h : Ortho s.lattice) {p r t : ℝ} (hp : p ≠ 0) (ht : t ≠ 0) (hu : s.u = ![p, 0, 0])
    (hv : s.v = ![r, t, 0]) (hs : s.settings.sample.dir = -1) {E F : Mat} (hE : Realises s.lattice E) (hF : Dual E F) {ex ey : Vec}
    (ax : PlaneAxes F s.u s.v ex ey) {hkl : Vec} (hl : hkl 2 = 0) (hk : hkl 1 ≠ 0)
    (t1 : |ki - kf| ≤ len (vecOf F hkl)) (t2 : len (vecOf F hkl) ≤ ki + kf) : ∃ a3 a4,
      (anglesAndQ c s hkl w).a3 = some a3 ∧ (anglesAndQ c s hkl w).a4 = some a4 ∧
      ¬ Scatters ki kf (ex ⬝ᵥ vecOf F hkl) (ey ⬝ᵥ vecOf F hkl) a3 a4 := by
  have eQ := C129_q_partial c h hp ht hu hv hE hF hkl w
  have em := momentum_ortho h hp ht hu hv hkl
  rw [hu, hv] at ax
  obtain ⟨c1, c2⟩ := components_ortho h hE hF hp ht ax hkl
  unfold anglesAndQ at eQ
  rw [em] at eQ
  simp only [Option.map_some, Option.some.injEq] at eQ
  have hb := h.b_pos
  have hpi := pi_pos
  have n1 : t / |t| * (2 * π / s.lattice.b * hkl 1) ≠ 0 := by
    have : |t| ≠ 0 := abs_ne_zero.2 ht
    have : 2 * π / s.lattice.b ≠ 0 := by positivity
    positivity
  have h0 : 0 < √(∑ i, ![p / |p| * (2 * π / s.lattice.a * hkl 0), t / |t| * (2 * π / s.lattice.b * hkl 1),
      p * t / |p * t| * (2 * π / s.lattice.c * hkl 2)] i ^ 2) := by
    apply sqrt_pos.2
    rw [Fin.sum_univ_three]
    have : 0 < (t / |t| * (2 * π / s.lattice.b * hkl 1)) ^ 2 := by positivity
    simp only [cons_val_zero, cons_val_one, cons_val]
    positivity
  rw [← eQ] at t1 t2
  obtain ⟨a3, a4, e3, e4, -, e5⟩ := C129_turn c hf he hw em (by simp [hl]) h0 t1 t2
  refine ⟨a3, a4, e3, e4, ?_⟩
  rw [c1, c2]
  intro k
  exact n1 ((e5 hs).1 k)

end Verif.Angles
