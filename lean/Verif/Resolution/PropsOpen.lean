import Verif.Resolution.PropsMonotone
import Verif.Resolution.PropsIntegral
import Verif.Resolution.PropsMirror
import Verif.Resolution.LemmasRefl

/-! # Property theorems: opening an instrument never loses intensity (C192) -/

namespace Verif.Resolution

open Real Matrix
open Verif.Crystal (Fail npDiv npSqrt)
open Verif.Tools (SPD quad)

/-! ## Specification -/

/-- The second instrument differs from the first by larger divergences and, with the Popovici method, sizes; the crystals are as
perfect as before.  The reflectivity of the analyzer is not calculated, or crystal and horizontal divergences at the analyzer
are the same.  If the sample has a mosaic, it looks the same from
above and below, and if moreover the focusing of the analyzer is calculated, the mosaic is the same in all directions. -/
structure Settings.Opened (s s' : Settings) : Prop where
  coarser : s.Coarser s'
  mono : s'.mono.mosaic = s.mono.mosaic ∧ s'.mono.vertical = s.mono.vertical
  ana : s'.ana.mosaic = s.ana.mosaic ∧ s'.ana.vertical = s.ana.vertical
  sample : s'.sample.mosaic = s.sample.mosaic ∧ s'.sample.vmosaic = s.sample.vmosaic
  flat : ∀ m, s.sample.mosaic = some m → FlatShape s.sample.shape ∧ FlatShape s'.sample.shape ∧
    (s.popovici = true ∨ s.horifoc.getD (-1) ≤ 0 ∨ s.sample.vmosaic.getD m = m)
  thick : ((s.ana.thickness = none ∨ s.ana.reflQ = none) ∧ (s'.ana.thickness = none ∨ s'.ana.reflQ = none)) ∨
    (s'.ana.thickness = s.ana.thickness ∧ s'.ana.reflQ = s.ana.reflQ ∧ s'.hcol 2 = s.hcol 2 ∧ s'.hcol 3 = s.hcol 3)
  moncor : s'.moncor = s.moncor

/-- Nothing is changed between source and monitor. -/
structure Settings.SameSource (s s' : Settings) : Prop where
  hcol : s'.hcol 0 = s.hcol 0 ∧ s'.hcol 1 = s.hcol 1
  vcol : s'.vcol 0 = s.vcol 0 ∧ s'.vcol 1 = s.vcol 1
  guide : s'.guide = s.guide
  mono : s'.mono.width = s.mono.width ∧ s'.mono.height = s.mono.height ∧ s'.mono.depth = s.mono.depth
  monitor : s'.monitor = s.monitor

/-! ## Marginals -/

/-- No value of a quadratic form grows faster than its determinant. -/
theorem det_bounds {n : ℕ} {P : Matrix (Fin n) (Fin n) ℝ} (h : P.PosSemidef) (y : Fin n → ℝ) : y ⬝ᵥ ((1 + P) *ᵥ y) ≤ y ⬝ᵥ y * (1 + P).det := by
  have hd := one_le_det h
  have hpd : (1 + P).PosDef := PosDef.one.add_posSemidef h
  have hdet : IsUnit (1 + P).det := isUnit_iff_ne_zero.2 hpd.det_pos.ne'
  have hh : (1 + P).IsHermitian := hpd.isHermitian
  have hle (i : Fin n) : hh.eigenvalues i ≤ (1 + P).det := by
    have h1 (j : Fin n) : 1 ≤ hh.eigenvalues j := one_le_eigenvalue h hh j
    rw [hh.det_eq_prod_eigenvalues]
    show hh.eigenvalues i ≤ ∏ j, hh.eigenvalues j
    rw [← Finset.mul_prod_erase _ _ (Finset.mem_univ i)]
    exact le_mul_of_one_le_right (zero_le_one.trans (h1 i)) (Finset.one_le_prod fun j _ => h1 j)
  have hs : (((1 + P).det • (1 : Matrix (Fin n) (Fin n) ℝ)) - (1 + P)).PosSemidef := by
    have hH : (((1 + P).det • (1 : Matrix (Fin n) (Fin n) ℝ)) - (1 + P)).IsHermitian := by
      refine IsHermitian.sub ?_ hh
      rw [smul_one_eq_diagonal]
      exact isHermitian_diagonal _
    have e : (((1 + P).det • (1 : Matrix (Fin n) (Fin n) ℝ)) - (1 + P)) =
        (hh.eigenvectorUnitary : Matrix (Fin n) (Fin n) ℝ) * diagonal (fun i => (1 + P).det - hh.eigenvalues i) *
          (hh.eigenvectorUnitary : Matrix (Fin n) (Fin n) ℝ)ᴴ := by
      have sp : 1 + P = (hh.eigenvectorUnitary : Matrix (Fin n) (Fin n) ℝ) * diagonal hh.eigenvalues *
          (hh.eigenvectorUnitary : Matrix (Fin n) (Fin n) ℝ)ᴴ := by
        have := hh.spectral_theorem
        rw [Unitary.conjStarAlgAut_apply] at this
        exact this
      have un : (hh.eigenvectorUnitary : Matrix (Fin n) (Fin n) ℝ) * (hh.eigenvectorUnitary : Matrix (Fin n) (Fin n) ℝ)ᴴ = 1 :=
        Unitary.mul_star_self_of_mem hh.eigenvectorUnitary.2
      have ed : diagonal (fun i => (1 + P).det - hh.eigenvalues i) = (1 + P).det • (1 : Matrix (Fin n) (Fin n) ℝ) - diagonal hh.eigenvalues := by
        rw [smul_one_eq_diagonal, diagonal_sub]
      rw [ed, Matrix.mul_sub, Matrix.sub_mul, ← sp, Matrix.mul_smul, Matrix.mul_one, Matrix.smul_mul, un]
    rw [e]
    exact (PosSemidef.diagonal fun i => sub_nonneg.2 (hle i)).mul_mul_conjTranspose_same _
  have := hs.dotProduct_mulVec_nonneg y
  rw [star_trivial, sub_mulVec, smul_mulVec, one_mulVec, dotProduct_sub, dotProduct_smul, smul_eq_mul] at this
  linarith

open scoped MatrixOrder in
theorem Below.ratio {n : ℕ} {X Y : Matrix (Fin n) (Fin n) ℝ} (h : Below X Y) (hX : X.PosDef) (hY : Y.PosDef) (u : Fin n → ℝ) :
    u ⬝ᵥ (Y *ᵥ u) * X.det ≤ u ⬝ᵥ (X *ᵥ u) * Y.det := by
  obtain ⟨C, P, hP, e1, e2⟩ := h.factor hX hY
  have hx : X.det = C.det ^ 2 := by rw [e1, det_mul, det_transpose, sq]
  have hy : Y.det = C.det ^ 2 * (1 + P).det := by rw [e2, det_mul, det_mul, det_transpose]; ring
  have q1 : u ⬝ᵥ (X *ᵥ u) = (C *ᵥ u) ⬝ᵥ (C *ᵥ u) := by
    rw [e1, ← mulVec_mulVec, dotProduct_mulVec, vecMul_transpose]
  have q2 : u ⬝ᵥ (Y *ᵥ u) = (C *ᵥ u) ⬝ᵥ ((1 + P) *ᵥ (C *ᵥ u)) := by
    rw [e2, ← mulVec_mulVec, ← mulVec_mulVec, dotProduct_mulVec, vecMul_transpose]
  rw [hx, hy, q1, q2]
  nlinarith [mul_le_mul_of_nonneg_right (det_bounds hP (C *ᵥ u)) (sq_nonneg C.det)]

/-- The marginal of a Gaussian, as the least value of the exponent. -/
theorem marginal_le {m n : ℕ} {H : Matrix (Fin n) (Fin n) ℝ} (hH : H.PosDef) (L : Matrix (Fin m) (Fin n) ℝ) (hM : (L * H⁻¹ * Lᵀ).PosDef)
    (u : Fin n → ℝ) : (L *ᵥ u) ⬝ᵥ ((L * H⁻¹ * Lᵀ)⁻¹ *ᵥ (L *ᵥ u)) ≤ u ⬝ᵥ (H *ᵥ u) := by
  set M := L * H⁻¹ * Lᵀ with hMd
  have dM : IsUnit M.det := isUnit_iff_ne_zero.2 hM.det_pos.ne'
  have dH : IsUnit H.det := isUnit_iff_ne_zero.2 hH.det_pos.ne'
  have h := square_completed hH.inv u (Lᵀ *ᵥ (M⁻¹ *ᵥ (L *ᵥ u)))
  rw [nonsing_inv_nonsing_inv _ dH, ← quad_sandwich, ← hMd, mulVec_mulVec _ M, mul_nonsing_inv _ dM, one_mulVec, dotProduct_mulVec,
    vecMul_transpose, dotProduct_comm (M⁻¹ *ᵥ (L *ᵥ u))] at h
  linarith

theorem marginal_attained {m n : ℕ} {H : Matrix (Fin n) (Fin n) ℝ} (hH : H.PosDef) (L : Matrix (Fin m) (Fin n) ℝ) (hM : (L * H⁻¹ * Lᵀ).PosDef)
    (x : Fin m → ℝ) : ∃ u, L *ᵥ u = x ∧ u ⬝ᵥ (H *ᵥ u) = x ⬝ᵥ ((L * H⁻¹ * Lᵀ)⁻¹ *ᵥ x) := by
  set M := L * H⁻¹ * Lᵀ with hMd
  have dM : IsUnit M.det := isUnit_iff_ne_zero.2 hM.det_pos.ne'
  have dH : IsUnit H.det := isUnit_iff_ne_zero.2 hH.det_pos.ne'
  have e1 : L *ᵥ (H⁻¹ *ᵥ (Lᵀ *ᵥ (M⁻¹ *ᵥ x))) = x := by
    rw [mulVec_mulVec, mulVec_mulVec, ← hMd, mulVec_mulVec, mul_nonsing_inv _ dM, one_mulVec]
  refine ⟨H⁻¹ *ᵥ (Lᵀ *ᵥ (M⁻¹ *ᵥ x)), e1, ?_⟩
  rw [mulVec_mulVec _ H, mul_nonsing_inv _ dH, one_mulVec, dotProduct_mulVec, vecMul_transpose, e1]

theorem marginal_ratio {m n : ℕ} {H H' : Matrix (Fin n) (Fin n) ℝ} (h : Below H' H) (hH : H.PosDef) (hH' : H'.PosDef) (L : Matrix (Fin m) (Fin n) ℝ)
    (hM : (L * H⁻¹ * Lᵀ).PosDef) (hM' : (L * H'⁻¹ * Lᵀ).PosDef) (x : Fin m → ℝ) :
    x ⬝ᵥ ((L * H⁻¹ * Lᵀ)⁻¹ *ᵥ x) * H'.det ≤ x ⬝ᵥ ((L * H'⁻¹ * Lᵀ)⁻¹ *ᵥ x) * H.det := by
  obtain ⟨u, e1, e2⟩ := marginal_attained hH' L hM' x
  rw [← e2]
  refine le_trans (mul_le_mul_of_nonneg_right ?_ hH'.det_pos.le) (h.ratio hH' hH u)
  have := marginal_le hH L hM u
  rwa [e1] at this

/-! ## One point -/

/-- The integrated intensity of a point without the determinant of the resolution. -/
noncomputable def crystalFactor (k : Kin) : ℝ := k.ki ^ 3 / tan k.thetam * (k.kf ^ 3 / tan k.thetaa) * (2 * π) ^ 4 / (64 * π ^ 2 * sin k.thetam * sin k.thetaa)

theorem crystalFactor_pos {k : Kin} {q : ℝ} (hk : k.Good q) : 0 < crystalFactor k := by
  have r1 := reflRate_pos hk.ki hk.sm
  have r2 := reflRate_pos hk.kf hk.sa
  have : crystalFactor k = (k.ki ^ 3 / tan k.thetam / sin k.thetam) * (k.kf ^ 3 / tan k.thetaa / sin k.thetaa) * ((2 * π) ^ 4 / (64 * π ^ 2)) := by
    unfold crystalFactor
    simp only [div_eq_mul_inv, mul_inv]; ring
  rw [this]
  positivity

theorem prefactor_integrated {c : Conf} (hc : c.Good) {l : Loop} (hl : l.Good) {k : Kin} {q : ℝ} (hk : k.Good q) {d : ℝ} (hd : 0 < d) {RM : M4}
    (hR : RM.PosDef) {r : ℝ} (e : prefactor c l k d RM = .ok r) :
    ∃ m f, monitorFlux c l k = .ok f ∧ 0 < f ∧ m = (if c.moncor = 1 then k.ki / f else 1) ∧
      r / √RM.det = crystalFactor k * √((matF c).det / d) * m / (2 * π) ^ 2 * k.kf / k.ki := by
  have hF := (matF_posDef hc.mosaics).det_pos
  obtain ⟨f, hf, fpos⟩ := monitorFlux_ok hc hl hk
  refine ⟨_, f, hf, fpos, rfl, ?_⟩
  have hdet : √RM.det ≠ 0 := (Real.sqrt_pos.2 hR.det_pos).ne'
  unfold prefactor at e
  simp only [npDiv_ok hd.ne', ok_bind, npSqrt_ok (div_pos hF hd).le, npSqrt_ok hR.det_pos.le] at e
  by_cases h1 : c.moncor = 1
  · simp only [if_pos h1, hf, ok_bind, npDiv_ok fpos.ne'] at e ⊢
    rw [← Except.ok.inj e, div_eq_iff hdet]
    unfold crystalFactor
    ring
  · simp only [if_neg h1] at e ⊢
    rw [← Except.ok.inj e, div_eq_iff hdet]
    unfold crystalFactor
    ring

/-- The same values with a sample without mosaic. -/
def Conf.perfect (c : Conf) : Conf := { c with etas := none }

theorem Conf.Good.perfect {c : Conf} (h : c.Good) : c.perfect.Good :=
  ⟨⟨h.mosaics.m, h.mosaics.mv, h.mosaics.a, h.mosaics.av⟩, (fun hp => ⟨(h.arms hp).l0, (h.arms hp).l1, (h.arms hp).l2, (h.arms hp).l3, (h.arms hp).mon⟩), h.bshape, h.mshape, h.ashape, h.dshape, h.monitorshape, h.taua, h.refl⟩

theorem point_integrated {c : Conf} (hc : c.Good) {l : Loop} (hl : l.Good) (hr : c.popovici = true → l.Curved) {k : Kin} {q : ℝ} (hk : k.Good q) {X : M3}
    (hX : X.PosDef) (hf : c.refl = none) {r : ℝ × M4} (e : pointAt c.perfect l X k q = .ok r) :
    ∃ Mi d m f, coreMatrix c l k (matSinv c (turnShape k X))⁻¹ = .ok (Mi, d) ∧ 0 < d ∧ monitorFlux c l k = .ok f ∧ 0 < f ∧
      m = (if c.moncor = 1 then k.ki / f else 1) ∧ Mi.PosDef ∧ r.2 = Mi⁻¹ ∧
      integrated r = crystalFactor k * √((matF c).det / d) * m / (2 * π) ^ 2 * k.kf / k.ki := by
  have hS := matSinv_posDef hc (turnShape_posDef k hX)
  obtain ⟨Mi, d, h1, hM, hd⟩ := coreMatrix_ok hc hl hr hk hS.inv
  have hS' : matSinv c.perfect (turnShape k X) = matSinv c (turnShape k X) := rfl
  have h1' : coreMatrix c.perfect l k (matSinv c (turnShape k X))⁻¹ = .ok (Mi, d) := h1
  unfold pointAt at e
  split_ifs at e
  simp only [hS', npInv_ok hS, ok_bind, h1', npInv_ok hM] at e
  obtain ⟨r0, e3, e⟩ := bind_ok e
  obtain ⟨m, f, g1, g2, g3, g4⟩ := prefactor_integrated hc.perfect hl hk hd hM.inv e3
  have hm : c.perfect.etas = none := rfl
  have hf' : c.perfect.refl = none := hf
  simp only [withMosaic, hm, withReflectivity, hf', pure, Except.pure, bind, Except.bind] at e
  refine ⟨Mi, d, m, f, h1, hd, g1, g2, g3, hM, ?_, ?_⟩
  · rw [← Except.ok.inj e]
  · rw [← Except.ok.inj e]
    exact g4

/-- What a mosaic of the sample does to the integrated intensity. -/
theorem widened_integrated {r r' : ℝ × M4} {x y : ℝ} (hR : r.2.PosDef) (x0 : 0 ≤ x) (y0 : 0 ≤ y) (h12 : r.2 1 2 = 0)
    (h1 : r'.1 = r.1 / √((1 + x * r.2 2 2) * (1 + y * r.2 1 1))) (h2 : r'.2 = (r.2⁻¹ + diagonal ![0, x, y, 0])⁻¹) :
    integrated r' = integrated r * √((1 + x * r.2 1 1) / (1 + y * r.2 1 1) * ((1 + y * r.2 2 2) / (1 + x * r.2 2 2))) := by
  have d1 := hR.diag_pos (i := 1)
  have d2 := hR.diag_pos (i := 2)
  have dp := hR.det_pos
  have hdet : r'.2.det = r.2.det / ((1 + x * r.2 1 1) * (1 + y * r.2 2 2)) := by
    have : r.2⁻¹ + diagonal ![0, x, y, 0] = r.2⁻¹ * (1 + r.2 * diagonal ![0, x, y, 0]) := by
      rw [Matrix.mul_add, Matrix.mul_one, nonsing_inv_mul_cancel_left _ _ dp.ne'.isUnit]
    rw [h2, this, det_nonsing_inv, det_mul, det_nonsing_inv, det_widen, Ring.inverse_eq_inv', _root_.mul_inv_rev, inv_inv, div_eq_inv_mul, h12,
      mul_zero, zero_mul, sub_zero]
  unfold integrated
  rw [hdet, h1, div_mul_div_comm, Real.sqrt_div dp.le, Real.sqrt_div (by positivity), mul_comm (1 + y * r.2 1 1)]
  have : √r.2.det ≠ 0 := (Real.sqrt_pos.2 dp).ne'
  have : √((1 + x * r.2 1 1) * (1 + y * r.2 2 2)) ≠ 0 := (Real.sqrt_pos.2 (by positivity)).ne'
  have : √((1 + x * r.2 2 2) * (1 + y * r.2 1 1)) ≠ 0 := (Real.sqrt_pos.2 (by positivity)).ne'
  field_simp

theorem quotient_le {a b x x' d d' : ℝ} (ha : 0 ≤ a) (hb : 0 ≤ b) (hx' : 0 < x') (h : x' ≤ x) (hd : d ≤ d') (hp : 0 ≤ d) (hxd : x * d ≤ x' * d') :
    (1 + a * x) / (1 + b * x) * d ≤ (1 + a * x') / (1 + b * x') * d' := by
  have n : (1 + a * x) * d ≤ (1 + a * x') * d' := by nlinarith
  have m : 1 + b * x' ≤ 1 + b * x := by nlinarith
  rw [div_mul_eq_mul_div, div_mul_eq_mul_div]
  have hp' := hp.trans hd
  exact div_le_div₀ (by positivity) n (by positivity) m

theorem falling_le {a b x x' : ℝ} (ha : 0 ≤ a) (hab : a ≤ b) (hx : 0 < x) (hx' : 0 < x') (h : x' ≤ x) :
    (1 + a * x) / (1 + b * x) ≤ (1 + a * x') / (1 + b * x') := by
  have hb := ha.trans hab
  rw [div_le_div_iff₀ (by positivity) (by positivity)]
  nlinarith [mul_le_mul_of_nonneg_right hab (sub_nonneg.2 h)]

theorem widened_le {r s r' s' : ℝ × M4} {x y : ℝ} (hR : r.2.PosDef) (hS : s.2.PosDef) (x0 : 0 ≤ x) (y0 : 0 ≤ y) (hr : r.2 1 2 = 0) (hs : s.2 1 2 = 0)
    (p : 0 ≤ integrated r) (h : integrated r ≤ integrated s) (hb : Below s.2 r.2)
    (hm : x = y ∨ ∀ v, v ⬝ᵥ (r.2 *ᵥ v) * integrated r ^ 2 ≤ v ⬝ᵥ (s.2 *ᵥ v) * integrated s ^ 2)
    (h1 : r'.1 = r.1 / √((1 + x * r.2 2 2) * (1 + y * r.2 1 1))) (h2 : r'.2 = (r.2⁻¹ + diagonal ![0, x, y, 0])⁻¹)
    (g1 : s'.1 = s.1 / √((1 + x * s.2 2 2) * (1 + y * s.2 1 1))) (g2 : s'.2 = (s.2⁻¹ + diagonal ![0, x, y, 0])⁻¹) :
    integrated r' ≤ integrated s' := by
  rw [widened_integrated hR x0 y0 hr h1 h2, widened_integrated hS x0 y0 hs g1 g2]
  have a1 := hR.diag_pos (i := 1)
  have a2 := hR.diag_pos (i := 2)
  have b1 := hS.diag_pos (i := 1)
  have b2 := hS.diag_pos (i := 2)
  have el (A : M4) (i : Fin 4) : (Pi.single i 1 : Fin 4 → ℝ) ⬝ᵥ (A *ᵥ Pi.single i 1) = A i i := by simp
  have l (i : Fin 4) : s.2 i i ≤ r.2 i i := by
    have := hb (Pi.single i 1)
    rwa [el, el] at this
  have q : 0 ≤ integrated s := p.trans h
  rcases hm with rfl | hm
  · have one {u v : ℝ} (hu : 0 < u) (hv : 0 < v) : (1 + x * u) / (1 + x * u) * ((1 + x * v) / (1 + x * v)) = 1 := by
      rw [div_self (by positivity), div_self (by positivity), one_mul]
    rw [one a1 a2, one b1 b2]
    simpa using h
  · have m (i : Fin 4) : r.2 i i * integrated r ^ 2 ≤ s.2 i i * integrated s ^ 2 := by
      have := hm (Pi.single i 1)
      rwa [el, el] at this
    have sq : integrated r ^ 2 ≤ integrated s ^ 2 := by nlinarith
    have key : (1 + x * r.2 1 1) / (1 + y * r.2 1 1) * ((1 + y * r.2 2 2) / (1 + x * r.2 2 2)) * integrated r ^ 2 ≤
        (1 + x * s.2 1 1) / (1 + y * s.2 1 1) * ((1 + y * s.2 2 2) / (1 + x * s.2 2 2)) * integrated s ^ 2 := by
      have u1 : 0 ≤ (1 + x * r.2 1 1) / (1 + y * r.2 1 1) := by positivity
      have u2 : 0 ≤ (1 + y * r.2 2 2) / (1 + x * r.2 2 2) := by positivity
      have w1 : 0 ≤ (1 + x * s.2 1 1) / (1 + y * s.2 1 1) := by positivity
      have w2 : 0 ≤ (1 + y * s.2 2 2) / (1 + x * s.2 2 2) := by positivity
      rcases le_total x y with hxy | hxy
      · have k1 := falling_le x0 hxy a1 b1 (l 1)
        have k2 := quotient_le y0 x0 b2 (l 2) sq (sq_nonneg _) (m 2)
        rw [mul_assoc, mul_assoc]
        exact mul_le_mul k1 k2 (by positivity) w1
      · have k1 := falling_le y0 hxy a2 b2 (l 2)
        have k2 := quotient_le x0 y0 b1 (l 1) sq (sq_nonneg _) (m 1)
        rw [mul_right_comm, mul_right_comm (_ / _) (_ / _) (integrated s ^ 2)]
        exact mul_le_mul k2 k1 u2 (by positivity)
    have e (t i : ℝ) (hi : 0 ≤ i) : i * √t = √(t * i ^ 2) := by
      rw [mul_comm t, Real.sqrt_mul (sq_nonneg i), Real.sqrt_sq hi]
    rw [e _ _ p, e _ _ q]
    exact Real.sqrt_le_sqrt key

structure OpenedConf (c c' : Conf) : Prop where
  coarser : CoarserConf c c'
  mosaics : c'.etam = c.etam ∧ c'.etamv = c.etamv ∧ c'.etaa = c.etaa ∧ c'.etaav = c.etaav
  etas : c'.etas = c.etas
  even : ∀ p, c.etas = some p → c.popovici = true ∨ c.horifoc ≤ 0 ∨ p.1 = p.2
  refl : c'.refl = c.refl
  moncor : c'.moncor = c.moncor
  source : c.moncor = 1 → c'.bshape = c.bshape ∧ c'.mshape = c.mshape ∧ c'.monitorshape = c.monitorshape ∧ c'.L1mon = c.L1mon

structure OpenedLoop (c : Conf) (l l' : Loop) : Prop where
  coarser : CoarserLoop l l'
  source : c.moncor = 1 → l'.alpha 0 = l.alpha 0 ∧ l'.alpha 1 = l.alpha 1 ∧ l'.beta 0 = l.beta 0 ∧ l'.beta 1 = l.beta 1
  thick : c.refl ≠ none → l'.alpha 2 = l.alpha 2 ∧ l'.alpha 3 = l.alpha 3

theorem opened_flux {c c' : Conf} (h : OpenedConf c c') {l l' : Loop} (hl : OpenedLoop c l l') (h1 : c.moncor = 1) (k : Kin) :
    monitorFlux c' l' k = monitorFlux c l k := by
  obtain ⟨b1, b2, b3, b4⟩ := h.source h1
  obtain ⟨a1, a2, a3, a4⟩ := hl.source h1
  obtain ⟨r1, r2, -, -⟩ := hl.coarser.radii
  have eg : mong l' = mong l := by
    unfold mong matG
    ext i j
    simp only [submatrix_apply, diagonal_apply]
    split_ifs
    · fin_cases i
      · exact congrArg (fun x => 1 / x ^ 2) a1
      · exact congrArg (fun x => 1 / x ^ 2) a2
      · exact congrArg (fun x => 1 / x ^ 2) a3
      · exact congrArg (fun x => 1 / x ^ 2) a4
    · rfl
  have ef : matF c' = matF c := by
    unfold matF
    rw [h.mosaics.1, h.mosaics.2.1, h.mosaics.2.2.1, h.mosaics.2.2.2]
  have emf : monf c' = monf c := by unfold monf; rw [ef]
  have et : monT c' l' k = monT c l k := by unfold monT; rw [h.coarser.arms.1, b4, r1, r2]
  have ed : monD c' k = monD c k := by unfold monD; rw [h.coarser.arms.1, b4]
  unfold monitorFlux monitorDen
  rw [b1, b2, b3, b4, eg, emf, et, ed, h.coarser.popovici]

theorem CoarserConf.perfect {c c' : Conf} (h : CoarserConf c c') : CoarserConf c.perfect c'.perfect :=
  ⟨h.popovici, h.horifoc, h.etam, h.etamv, h.etaa, h.etaav, (fun _ hp => nomatch hp), h.arms, h.senses, h.kin, h.sizes⟩

theorem ratio_core {c c' : Conf} (hc : c.Good) (hc' : c'.Good) (h : CoarserConf c c') {l l' : Loop} (hl : l.Good) (hl' : l'.Good)
    (hr : l.Curved) (hr' : l'.Curved) (hll : CoarserLoop l l') {k : Kin} {q : ℝ} (hk : k.Good q) {S S' : Matrix (Fin 13) (Fin 13) ℝ}
    (hS : S.PosDef) (hS' : S'.PosDef) (hb : c.popovici = true → Below S' S) (hf : c.popovici = true ∨ c.horifoc ≤ 0) {r r' : M4 × ℝ}
    (e : coreMatrix c l k S = .ok r) (e' : coreMatrix c' l' k S' = .ok r') (x : Fin 4 → ℝ) :
    x ⬝ᵥ (r.1⁻¹ *ᵥ x) * r'.2 ≤ x ⬝ᵥ (r'.1⁻¹ *ᵥ x) * r.2 := by
  have fin {Y Y' : Matrix (Fin 8) (Fin 8) ℝ} (hY : Y.PosDef) (hY' : Y'.PosDef) (b : Below Y' Y) :
      x ⬝ᵥ ((matB k * (matA k * Y⁻¹ * (matA k)ᵀ) * (matB k)ᵀ)⁻¹ *ᵥ x) * Y'.det ≤
        x ⬝ᵥ ((matB k * (matA k * Y'⁻¹ * (matA k)ᵀ) * (matB k)ᵀ)⁻¹ *ᵥ x) * Y.det := by
    have as (Z : Matrix (Fin 8) (Fin 8) ℝ) : matB k * (matA k * Z * (matA k)ᵀ) * (matB k)ᵀ = matB k * matA k * Z * (matB k * matA k)ᵀ := by
      rw [transpose_mul]
      simp only [Matrix.mul_assoc]
    have p {Z : Matrix (Fin 8) (Fin 8) ℝ} (hZ : Z.PosDef) : (matB k * matA k * Z⁻¹ * (matB k * matA k)ᵀ).PosDef := by
      rw [← as]
      exact congr_posDef (congr_posDef hZ.inv (matA k) (matA_inj hk)) _ (matB_inj hk)
    rw [as, as]
    exact marginal_ratio b hY hY' _ (p hY) (p hY') x
  unfold coreMatrix at e e'
  dsimp only at e e'
  rw [h.popovici] at e'
  split_ifs at e e' with hp
  · obtain ⟨⟨N, d⟩, g, e⟩ := bind_ok e
    obtain ⟨⟨N', d'⟩, g', e'⟩ := bind_ok e'
    obtain ⟨Y, Y', hY, hY', b, i1, i2⟩ := below_popovici hc.mosaics hc'.mosaics (hc.arms hp) (hc'.arms (h.popovici.trans hp)) h hl hl' hr hr' hll
      hS hS' (hb hp) g g'
    rw [← Except.ok.inj e, ← Except.ok.inj e', (Prod.mk.inj i1).1, (Prod.mk.inj i1).2, (Prod.mk.inj i2).1, (Prod.mk.inj i2).2]
    exact fin hY hY' b
  · obtain ⟨⟨N, d⟩, g, e⟩ := bind_ok e
    obtain ⟨⟨N', d'⟩, g', e'⟩ := bind_ok e'
    have hz : ¬ 0 < c.horifoc := not_lt.2 (hf.resolve_left hp)
    have hH := cnH_posDef hc.mosaics hl k
    have hH' := cnH_posDef hc'.mosaics hl' k
    have b1 : Below (matG l' + (matC k)ᵀ * matF c' * matC k) (matG l + (matC k)ᵀ * matF c * matC k) :=
      (below_G hl hll).add ((below_F hc.mosaics h).gram _)
    unfold cooperNathansN at g g'
    simp only [npInv_ok hH, ok_bind, if_neg hz] at g
    simp only [npInv_ok hH', ok_bind, h.horifoc, if_neg hz] at g'
    have i1 := (Except.ok.inj g).symm
    have i2 := (Except.ok.inj g').symm
    rw [← Except.ok.inj e, ← Except.ok.inj e', (Prod.mk.inj i1).1, (Prod.mk.inj i1).2, (Prod.mk.inj i2).1, (Prod.mk.inj i2).2]
    exact fin hH hH' b1

/-- A sample without mosaic. -/
theorem opened_perfect {c c' : Conf} (hc : c.Good) (hc' : c'.Good) (h : OpenedConf c c') (h0 : c.refl = none) {l l' : Loop} (hl : l.Good) (hl' : l'.Good)
    (hr : l.Curved) (hr' : l'.Curved) (hll : OpenedLoop c l l') {k : Kin} {q : ℝ} (hk : k.Good q) {X X' : M3} (hX : X.PosDef) (hX' : X'.PosDef)
    (hb : c.popovici = true → Below X X') {r r' : ℝ × M4} (e : pointAt c.perfect l X k q = .ok r) (e' : pointAt c'.perfect l' X' k q = .ok r') :
    0 ≤ integrated r ∧ integrated r ≤ integrated r' ∧ ((c.popovici = true ∨ c.horifoc ≤ 0) →
      ∀ v, v ⬝ᵥ (r.2 *ᵥ v) * integrated r ^ 2 ≤ v ⬝ᵥ (r'.2 *ᵥ v) * integrated r' ^ 2) := by
  obtain ⟨Mi, d, m, f, g1, g2, g3, g4, g5, pM, g7, g6⟩ := point_integrated hc hl (fun _ => hr) hk hX h0 e
  obtain ⟨Mi', d', m', f', g1', g2', g3', g4', g5', pM', g7', g6'⟩ := point_integrated hc' hl' (fun _ => hr') hk hX' (h.refl.trans h0) e'
  have hS := matSinv_posDef hc (turnShape_posDef k hX)
  have hS' := matSinv_posDef hc' (turnShape_posDef k hX')
  have hbS := fun hp => (below_Sinv h.coarser hp k (hb hp)).inv hS hS'
  have hd := (below_core hc hc' h.coarser hl hl' hr hr' hll.coarser hk hS.inv hS'.inv hbS g1 g1').2
  have ef : matF c' = matF c := by
    unfold matF
    rw [h.mosaics.1, h.mosaics.2.1, h.mosaics.2.2.1, h.mosaics.2.2.2]
  have em : m' = m := by
    rw [g5, g5', h.moncor]
    split_ifs with h1
    · rw [opened_flux h hll h1, g3] at g3'
      rw [Except.ok.inj g3']
    · rfl
  have mpos : 0 < m := by
    rw [g5]
    have := hk.ki
    split_ifs <;> positivity
  have hF := (matF_posDef hc.mosaics).det_pos
  have hs : √((matF c).det / d) ≤ √((matF c).det / d') :=
    Real.sqrt_le_sqrt (div_le_div_of_nonneg_left hF.le g2' hd)
  have p := crystalFactor_pos hk
  have h1 := hk.ki
  have h2 := hk.kf
  rw [g6, g6', em, ef]
  refine ⟨by positivity, by gcongr, fun hf v => ?_⟩
  have key := ratio_core hc hc' h.coarser hl hl' hr hr' hll.coarser hk hS.inv hS'.inv hbS hf g1 g1' v
  have e2 (t : ℝ) (ht : 0 < t) : (crystalFactor k * √((matF c).det / t) * m / (2 * π) ^ 2 * k.kf / k.ki) ^ 2 =
      (crystalFactor k * m / (2 * π) ^ 2 * k.kf / k.ki) ^ 2 * (matF c).det / t := by
    have : √((matF c).det / t) ^ 2 = (matF c).det / t := Real.sq_sqrt (by positivity)
    calc _ = (crystalFactor k * m / (2 * π) ^ 2 * k.kf / k.ki) ^ 2 * √((matF c).det / t) ^ 2 := by ring
      _ = _ := by rw [this]; ring
  rw [e2 d g2, e2 d' g2', g7, g7', ← mul_div_assoc, ← mul_div_assoc, div_le_div_iff₀ g2 g2']
  have w : 0 ≤ (crystalFactor k * m / (2 * π) ^ 2 * k.kf / k.ki) ^ 2 * (matF c).det := by positivity
  nlinarith [mul_le_mul_of_nonneg_left key w]

theorem opened_kinematic {c c' : Conf} (hc : c.Good) (hc' : c'.Good) (ea : 0 < c.etaa) (ea' : 0 < c'.etaa) (h : OpenedConf c c') (h0 : c.refl = none) {l l' : Loop} (hl : l.Good)
    (hl' : l'.Good) (hr : l.Curved) (hr' : l'.Curved) (hll : OpenedLoop c l l') {k : Kin} {q : ℝ} (hk : k.Good q) (ha : c.taua < 2 * k.kf)
    (ha' : c'.taua < 2 * k.kf) {X X' : M3} (hX : X.PosDef) (hX' : X'.PosDef) (hb : c.popovici = true → Below X X')
    (hm : c.etas ≠ none → Mirror ![1, 1, -1] ![1, 1, -1] X ∧ Mirror ![1, 1, -1] ![1, 1, -1] X') {r r' : ℝ × M4} (e : pointAt c l X k q = .ok r)
    (e' : pointAt c' l' X' k q = .ok r') : integrated r ≤ integrated r' := by
  cases hs : c.etas with
  | none =>
    have e0 : c.perfect = c := by unfold Conf.perfect; rw [← hs]
    have e0' : c'.perfect = c' := by unfold Conf.perfect; rw [← hs, ← h.etas]
    exact (opened_perfect hc hc' h h0 hl hl' hr hr' hll hk hX hX' hb (by rw [e0]; exact e) (by rw [e0']; exact e')).2.1
  | some p =>
    obtain ⟨a, b⟩ := p
    obtain ⟨m1, m2⟩ := hm (by rw [hs]; simp)
    obtain ⟨r0, r1, f1, f2, -, f3, f4, f5⟩ := pointAt_widen (c := c.perfect) rfl hc.perfect hl (fun _ => hr) hk ha ea hX a b
    obtain ⟨r0', r1', f1', f2', -, f3', f4', f5'⟩ := pointAt_widen (c := c'.perfect) rfl hc'.perfect hl' (fun _ => hr') hk ha' ea' hX' a b
    have e0 : ({ c.perfect with etas := some (a, b) } : Conf) = c := by unfold Conf.perfect; rw [← hs]
    have e0' : ({ c'.perfect with etas := some (a, b) } : Conf) = c' := by unfold Conf.perfect; rw [← hs, ← h.etas]
    rw [e0, e] at f2
    rw [e0', e'] at f2'
    have i := Except.ok.inj f2
    have i' := Except.ok.inj f2'
    subst i i'
    obtain ⟨j1, j2, j3⟩ := opened_perfect hc hc' h h0 hl hl' hr hr' hll hk hX hX' hb f1 f1'
    have d1 := (mirror_decoupled (mirror_point m1 f1) 1 (by decide)).1
    have d2 := (mirror_decoupled (mirror_point m2 f1') 1 (by decide)).1
    have bl : Below r0'.2 r0.2 := below_point hc.perfect hc'.perfect h.coarser.perfect hl hl' hr hr' hll.coarser hk hX hX' hb f1 f1'
    rw [← mul_pow, ← mul_pow] at f5 f5'
    refine widened_le f3 f3' (sq_nonneg _) (sq_nonneg _) d1 d2 j1 j2 bl ?_ f4 f5 f4' f5'
    rcases h.even (a, b) hs with k1 | k1 | k1
    · exact Or.inr (j3 (Or.inl k1))
    · exact Or.inr (j3 (Or.inr k1))
    · exact Or.inl (by rw [show a = b from k1])

theorem OpenedConf.kinematic {c c' : Conf} (h : OpenedConf c c') : OpenedConf { c with refl := none } { c' with refl := none } :=
  ⟨⟨h.coarser.popovici, h.coarser.horifoc, h.coarser.etam, h.coarser.etamv, h.coarser.etaa, h.coarser.etaav, h.coarser.etas, h.coarser.arms,
    h.coarser.senses, h.coarser.kin, h.coarser.sizes⟩, h.mosaics, h.etas, h.even, rfl, h.moncor, h.source⟩

theorem opened_point {c c' : Conf} (hc : c.Good) (hc' : c'.Good) (ea : 0 < c.etaa) (ea' : 0 < c'.etaa) (h : OpenedConf c c') (et : c'.taua = c.taua)
    {l l' : Loop} (hl : l.Good) (hl' : l'.Good) (hr : l.Curved) (hr' : l'.Curved) (hll : OpenedLoop c l l') {k : Kin} {q : ℝ} (hk : k.Good q)
    (ha : c.taua < 2 * k.kf) {X X' : M3} (hX : X.PosDef) (hX' : X'.PosDef) (hb : c.popovici = true → Below X X')
    (hm : c.etas ≠ none → Mirror ![1, 1, -1] ![1, 1, -1] X ∧ Mirror ![1, 1, -1] ![1, 1, -1] X') {r r' : ℝ × M4} (e : pointAt c l X k q = .ok r)
    (e' : pointAt c' l' X' k q = .ok r') : integrated r ≤ integrated r' := by
  have ha' : c'.taua < 2 * k.kf := by rw [et]; exact ha
  obtain ⟨a, A, g, -⟩ := pointAt_ok hc.kinematic hl (fun _ => hr) hk ha ea hX
  obtain ⟨a', A', g', -⟩ := pointAt_ok hc'.kinematic hl' (fun _ => hr') hk ha' ea' hX'
  obtain ⟨i, p⟩ := pointAt_reflected hc ha ea g
  obtain ⟨i', -⟩ := pointAt_reflected hc' ha' ea' g'
  have key := opened_kinematic hc.kinematic hc'.kinematic ea ea' h.kinematic rfl hl hl' hr hr'
    ⟨hll.coarser, hll.source, fun hn => (hn rfl).elim⟩ hk ha ha' hX hX' hb hm g g'
  have same : c'.reflected l' k = c.reflected l k := by
    unfold Conf.reflected
    rw [h.refl, et, h.mosaics.2.2.1]
    cases hf : c.refl with
    | none => rfl
    | some u =>
      obtain ⟨a2, a3⟩ := hll.thick (by rw [hf]; simp)
      rw [a2, a3]
  rw [i] at e
  rw [i', same] at e'
  rw [← Except.ok.inj e, ← Except.ok.inj e']
  have m (x y : ℝ) (M : M4) : integrated (x * y, M) = integrated (x, M) * y := by unfold integrated; ring
  rw [m, m]
  exact mul_le_mul_of_nonneg_right key p.le

theorem opened_loop {c c' : Conf} (hc : c.Good) (hc' : c'.Good) (ea : 0 < c.etaa) (ea' : 0 < c'.etaa) (h : OpenedConf c c') (et : c'.taua = c.taua) (sm : c.sm = 1 ∨ c.sm = -1) (sa : c.sa = 1 ∨ c.sa = -1)
    {a a' : SampleAttrs} {m : ℕ} (va : a.Valid m) (va' : a'.Valid m)
    (hs : c.popovici = true → ∀ n X X', sshapeAt a n = .ok X → sshapeAt a' n = .ok X' → Below X X')
    (hm : c.etas ≠ none → FlatShape a.shape ∧ FlatShape a'.shape) :
    ∀ (pts : List (ℝ × ℝ)) (n : ℕ) {l l' : Loop}, n + pts.length ≤ m → (∀ p ∈ pts, ∀ k, kinematics c p.1 p.2 = .ok k → k.Good p.1 ∧ c.taua < 2 * k.kf) →
      l.Good → l'.Good → l.Curved → l'.Curved → OpenedLoop c l l' → ∀ {rs rs' : List (ℝ × M4)}, runLoop c a n l pts = .ok rs →
      runLoop c' a' n l' pts = .ok rs' → ∀ (k : ℕ) (r r' : ℝ × M4), rs[k]? = some r → rs'[k]? = some r' → integrated r ≤ integrated r'
  | [], n, l, l', hn, hk, hl, hl', hr, hr', hll, rs, rs', e, e' => by
    rw [← Except.ok.inj e]
    intro k r r' h
    simp at h
  | (q, w) :: pts, n, l, l', hn, hk, hl, hl', hr, hr', hll, rs, rs', e, e' => by
    unfold runLoop at e e'
    obtain ⟨X, e1, e⟩ := bind_ok e
    obtain ⟨X', e1', e'⟩ := bind_ok e'
    obtain ⟨k, e2, e⟩ := bind_ok e
    obtain ⟨k', e2', e'⟩ := bind_ok e'
    rw [h.coarser.kin, e2] at e2'
    have := Except.ok.inj e2'
    subst this
    obtain ⟨r, e3, e⟩ := bind_ok e
    obtain ⟨r', e3', e'⟩ := bind_ok e'
    obtain ⟨rs1, e4, e⟩ := bind_ok e
    obtain ⟨rs1', e4', e'⟩ := bind_ok e'
    rw [← Except.ok.inj e, ← Except.ok.inj e']
    obtain ⟨kg, kt⟩ : k.Good q ∧ c.taua < 2 * k.kf := hk (q, w) (by simp) k e2
    have hll' : OpenedLoop c (l.advance c k.ki) (l'.advance c' k.ki) := by
      refine ⟨below_advance h.coarser hll.coarser kg.ki, fun h1 => ?_, fun h1 => ?_⟩
      · obtain ⟨a1, a2, a3, a4⟩ := hll.source h1
        simp only [Loop.advance, a1, a2, a3, a4, and_self]
      · obtain ⟨a2, a3⟩ := hll.thick h1
        simp only [Loop.advance, a2, a3, and_self]
    have g := advance_good hl c kg.ki
    have g' := advance_good hl' c' kg.ki
    have f := advance_curved hr sm sa k.ki
    have f' : (l'.advance c' k.ki).Curved :=
      advance_curved hr' (by rw [h.coarser.senses.1]; exact sm) (by rw [h.coarser.senses.2]; exact sa) k.ki
    have hn' : n < m := by simp at hn; omega
    obtain ⟨Y, y1, y2⟩ := sshapeAt_ok va hn'
    obtain ⟨Y', y1', y2'⟩ := sshapeAt_ok va' hn'
    rw [y1] at e1
    rw [y1'] at e1'
    have x1 := Except.ok.inj e1
    have x1' := Except.ok.inj e1'
    subst x1 x1'
    intro i p p' hp hp'
    cases i with
    | zero =>
      simp only [List.getElem?_cons_zero, Option.some.injEq] at hp hp'
      rw [← hp, ← hp']
      exact opened_point hc hc' ea ea' h et g g' f f' hll' kg kt y2 y2' (fun hpop => hs hpop n Y Y' y1 y1')
        (fun hne => ⟨mirror_sshape (hm hne).1 y1, mirror_sshape (hm hne).2 y1'⟩) e3 e3'
    | succ i =>
      simp only [List.getElem?_cons_succ] at hp hp'
      exact opened_loop hc hc' ea ea' h et sm sa va va' hs hm pts (n + 1) (by simp at hn; omega) (fun p hp => hk p (List.mem_cons_of_mem _ hp)) g g' f f' hll'
        e4 e4' i p p' hp hp'

theorem opened_decode {s s' : Settings} {n : ℕ} (v : s.Valid n) (h : s.Opened s') (hs : s.moncor.getD 1 = 1 → s.SameSource s') {c c' : Conf}
    (e : decode s = .ok c) (e' : decode s' = .ok c') : OpenedConf c c' := by
  have hco := below_decode v h.coarser e e'
  have hm : s'.theMethod = s.theMethod := by unfold Settings.theMethod; rw [h.coarser.method]
  have hv : s'.vmosaicUsed = s.vmosaicUsed := by unfold Settings.vmosaicUsed; rw [hm]
  have ha : decodeArms s' = decodeArms s := by unfold decodeArms; rw [h.coarser.arms, hm]
  unfold decode at e e'
  obtain ⟨⟨l0, l1, lm, l2, l3⟩, ea, e⟩ := bind_ok e
  rw [ha, ea] at e'
  simp only [ok_bind] at e'
  have nr {b : Blade} (hb : b.thickness = none ∨ b.reflQ = none) : (match b.thickness, b.reflQ with
      | some t, some q => some (t, q)
      | _, _ => none) = none := by
    rcases hb with hb | hb <;> rw [hb]
    cases b.thickness <;> rfl
  refine ⟨hco, ?_, ?_, ?_, ?_, ?_, ?_⟩ <;> rw [← Except.ok.inj e] <;> (try rw [← Except.ok.inj e']) <;> dsimp only
  · have hv1 : s'.mono.vmosaic.getD s'.mono.mosaic = s.mono.vmosaic.getD s.mono.mosaic := h.mono.2
    have hv2 : s'.ana.vmosaic.getD s'.ana.mosaic = s.ana.vmosaic.getD s.ana.mosaic := h.ana.2
    rw [hv, hv1, hv2, h.mono.1, h.ana.1]
    exact ⟨rfl, rfl, rfl, rfl⟩
  · rw [h.sample.1, h.sample.2]
  · intro p hp
    obtain ⟨m, hm, hmp⟩ := Option.map_eq_some_iff.1 hp
    rcases (h.flat m hm).2.2 with k | k | k
    · exact Or.inl k
    · exact Or.inr (Or.inl k)
    · refine Or.inr (Or.inr ?_)
      rw [← hmp]
      dsimp only
      rw [k]
  · rcases h.thick with z | z
    · exact (nr z.2).trans (nr z.1).symm
    · rw [z.1, z.2.1]
  · rw [h.moncor]
  · intro h1
    have z := hs h1
    rw [z.guide, z.mono.1, z.mono.2.1, z.mono.2.2, z.monitor]
    exact ⟨rfl, rfl, rfl, rfl⟩

/-- C192.  Let two valid instruments differ by larger collimations (or guide m-values) and, with the Popovici method, sizes of
guide, crystals, sample and detector.  Let the sample have no mosaic, or look the same from above and below; with a focusing
analyzer a mosaic has to be isotropic.  If the reflectivity of a thick analyzer is calculated, let the horizontal collimations
at the analyzer be the same.  If the answer refers to a number of neutrons from the source, or if it refers to a
number of counts in the monitor and everything up to the monitor is the same, then at every point of every scan the
second gives at least the same integrated intensity: prefactor times the volume of the resolution ellipsoid.  Missing:
the reflectivity of thick analyzers between collimators that change, tilted samples with a mosaic and anisotropic mosaics with a focusing analyzer. -/
theorem C192_open_partial {s s' : Settings} {pts : List (ℝ × ℝ)} (v : s.Valid pts.length) (v' : s'.Valid pts.length) (h : s.Opened s')
    (hs : s.moncor.getD 1 = 1 → s.SameSource s') (hr : ∀ p ∈ pts, Reaches s p.1 p.2) :
    ∃ rs rs', calcInQ s pts = .ok rs ∧ calcInQ s' pts = .ok rs' ∧ rs.length = pts.length ∧ rs'.length = pts.length ∧
      ∀ (k : ℕ) (r r' : ℝ × M4), rs[k]? = some r → rs'[k]? = some r' → r.1 / √r.2.det ≤ r'.1 / √r'.2.det := by
  obtain ⟨rs, e, l, -⟩ := C61_spd s pts v hr
  obtain ⟨rs', e', l', -⟩ := C61_spd s' pts v' fun p hp => (hr p hp).coarser h.coarser
  refine ⟨rs, rs', e, e', l, l', ?_⟩
  obtain ⟨c, g, hc, ea, d1, d2, d3, d4, d5, d6, d7⟩ := decode_ok v
  obtain ⟨c', g', hc', ea', -, -, -, d4', -⟩ := decode_ok v'
  have w := opened_decode v h hs g g'
  have hpop : c.popovici = s.popovici ∧ c.moncor = s.moncor.getD 1 ∧ (c.etas ≠ none → s.sample.mosaic ≠ none) ∧
      (c.refl ≠ none → s.ana.thickness ≠ none ∧ s.ana.reflQ ≠ none) := by
    unfold decode at g
    obtain ⟨x, -, g⟩ := bind_ok g
    rw [← Except.ok.inj g]
    refine ⟨rfl, rfl, fun hne h0 => hne ?_, fun hne => ?_⟩
    · dsimp only
      rw [h0]
      rfl
    · dsimp only at hne
      cases ht : s.ana.thickness <;> cases hq : s.ana.reflQ <;> simp [ht, hq] at hne ⊢
  unfold calcInQ at e e'
  rw [g, ok_bind] at e
  rw [g', ok_bind] at e'
  have sm : c.sm = 1 ∨ c.sm = -1 := by rw [d5]; exact v.mono.dir
  have ss : c.ss = 1 ∨ c.ss = -1 := by rw [d6]; exact v.sample.dir
  have sa : c.sa = 1 ∨ c.sa = -1 := by rw [d7]; exact v.ana.dir
  have st : OpenedLoop c (Loop.start s) (Loop.start s') := by
    refine ⟨start_coarser h.coarser, fun h1 => ?_, fun h1 => ?_⟩
    · have z := hs (hpop.2.1 ▸ h1)
      simp only [Loop.start, z.hcol.1, z.hcol.2, z.vcol.1, z.vcol.2, h.coarser.horifoc, and_self]
    · obtain ⟨y1, y2⟩ := hpop.2.2.2 h1
      rcases h.thick with z | z
      · rcases z.1 with z | z
        · exact absurd z y1
        · exact absurd z y2
      · simp only [Loop.start, z.2.2.1, z.2.2.2, h.coarser.horifoc, and_self]
  intro k r r' hk hk'
  exact opened_loop hc hc' ea ea' w (by rw [d4, d4', h.coarser.ana.tau]) sm sa v.sample v'.sample
    (fun hp n X X' => below_shape v.sample (h.coarser.sizes (hpop.1 ▸ hp)).2.2.1 n X X')
    (fun hne => by
      obtain ⟨m, hm⟩ := Option.ne_none_iff_exists'.1 (hpop.2.2.1 hne)
      exact ⟨(h.flat m hm).1, (h.flat m hm).2.1⟩) pts 0
    (by simp) (fun p hp k' hk' => by
      obtain ⟨k'', x1, x2⟩ := kinematics_ok d1 d2 d3 d4 sm ss sa v.mono.tau v.ana.tau (hr p hp)
      rw [hk'] at x1
      rw [Except.ok.inj x1]
      exact x2) (start_good v) (start_good v') (start_curved v) (start_curved v') st e e' k r r' hk hk'

/-- A sample with a mosaic that differs in the two directions. -/
noncomputable def demoRock : Settings := { demoSized with sample := { demoSized.sample with mosaic := some 20, vmosaic := some 30 } }

/-- The default instrument with the Popovici method, with wider collimations after the sample, a larger sample and a larger detector. -/
noncomputable def demoOpen : Settings :=
  { demoRock with
      hcol := ![demoRock.hcol 0, demoRock.hcol 1, 2 * demoRock.hcol 2, 3 * demoRock.hcol 3]
      sample := { demoRock.sample with height := some 2 }, detector := ⟨some 4, some 10⟩ }

/-- The hypotheses are met by an instrument with a monitor. -/
example : demoRock.Opened demoOpen ∧ demoRock.SameSource demoOpen ∧ demoOpen.Valid 1 ∧ demoOpen.popovici = true ∧ demoOpen.sample.mosaic = some 20 ∧ demoOpen.moncor.getD 1 = 1 := by
  have pos {v : ℝ} (hv : 0 < v) : Pos (some v) := fun u hu => by rw [← Option.some.inj hu]; exact hv
  have same (x : Option ℝ) : Grows x x := by
    cases x with
    | none => exact Or.inl ⟨rfl, rfl⟩
    | some v => exact Or.inr ⟨v, v, rfl, rfl, le_rfl⟩
  have d := demo_valid 1
  have hp (i : Fin 4) : 0 < demoRock.hcol i := by fin_cases i <;> simp [demoRock, demoSized, demo]
  have op (i : Fin 4) : Opens (demoRock.hcol i) (demoOpen.hcol i) := by
    refine Or.inl ⟨hp i, ?_⟩
    have h2 := hp 2
    have h3 := hp 3
    fin_cases i
    · exact le_rfl
    · exact le_rfl
    · show demoRock.hcol 2 ≤ 2 * demoRock.hcol 2
      linarith
    · show demoRock.hcol 3 ≤ 3 * demoRock.hcol 3
      linarith
  have vp (i : Fin 4) : Opens (demoRock.vcol i) (demoRock.vcol i) := by
    have hi : 0 < demoRock.vcol i := by fin_cases i <;> simp [demoRock, demoSized, demo]
    exact Or.inl ⟨hi, le_rfl⟩
  have co : demoRock.Coarser demoOpen :=
    ⟨rfl, rfl, rfl, rfl, rfl, op, vp, ⟨rfl, rfl, rfl, rfl, le_rfl, le_rfl⟩, ⟨rfl, rfl, rfl, rfl, le_rfl, le_rfl⟩, rfl, fun m hm => ⟨m, hm, le_rfl, le_rfl⟩, fun _ =>
      ⟨⟨same _, same _⟩, ⟨same _, same _, same _⟩,
        Or.inr ⟨1, 1, 1, 1, 1, 2, rfl, rfl, rfl, rfl, rfl, rfl, le_rfl, le_rfl, by norm_num, rfl⟩, ⟨same _, same _, same _⟩,
        ⟨Or.inr ⟨3, 4, rfl, rfl, by norm_num⟩, same _⟩⟩⟩
  refine ⟨⟨co, ⟨rfl, rfl⟩, ⟨rfl, rfl⟩, ⟨rfl, rfl⟩, fun m _ => ⟨trivial, trivial, Or.inl rfl⟩, Or.inl ⟨Or.inl rfl, Or.inl rfl⟩, rfl⟩, ⟨⟨rfl, rfl⟩, ⟨rfl, rfl⟩, rfl, ⟨rfl, rfl, rfl⟩, rfl⟩, ?_, rfl, rfl, ?_⟩
  · refine ⟨{ d.mono with width := pos (by norm_num), height := pos (by norm_num), depth := pos (by norm_num) },
      { d.ana with width := pos (by norm_num), height := pos (by norm_num), depth := pos (by norm_num) },
      ⟨pos (by norm_num), pos (by norm_num)⟩, d.monitor, ⟨pos (by norm_num), pos (by norm_num)⟩,
      { d.sample with width := pos (by norm_num), height := pos (by norm_num), depth := pos (by norm_num) },
      fun i => ?_, d.vcol, by
        intro L hL
        rw [← Option.some.inj hL]
        refine ⟨by simp, fun x hx => ?_⟩
        simp only [List.mem_cons, List.not_mem_nil, or_false] at hx
        rcases hx with rfl | rfl | rfl | rfl <;> norm_num⟩
    rcases op i with h | h
    · exact (h.1.trans_le h.2).ne'
    · exact (h.1.trans_lt h.2).ne
  · simp [demoOpen, demoRock, demoSized, demo]

end Verif.Resolution
