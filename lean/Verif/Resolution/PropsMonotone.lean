import Verif.Resolution.PropsScale
import Mathlib.Analysis.Matrix.Order

/-! # Property theorems: larger uncertainties never sharpen a triple-axis resolution (C191) -/

namespace Verif.Resolution

open Real Matrix
open Verif.Crystal (Fail npDiv npSqrt)
open Verif.Tools (SPD quad)

/-! ## Specification -/

/-- A collimation (positive) or the m-value of a guide (negative) that lets through at least as much. -/
def Opens (a a' : ℝ) : Prop := (0 < a ∧ a ≤ a') ∨ (a' ≤ a ∧ a < 0)

/-- A size that is given in both cases and is at least as large in the second, or is given in neither. -/
def Grows (x x' : Option ℝ) : Prop := (x = none ∧ x' = none) ∨ ∃ a a', x = some a ∧ x' = some a' ∧ a ≤ a'

/-- The mosaic out of the plane, which is that in the plane if it is not given. -/
def Blade.vertical (b : Blade) : ℝ := b.vmosaic.getD b.mosaic

structure Window.Larger (w w' : Window) : Prop where
  width : Grows w.width w'.width
  height : Grows w.height w'.height

/-- The same crystal in the same place, with mosaics that are at least as large. -/
structure Blade.Coarser (b b' : Blade) : Prop where
  tau : b'.tau = b.tau
  dir : b'.dir = b.dir
  rh : b'.rh = b.rh
  rv : b'.rv = b.rv
  mosaic : b.mosaic ≤ b'.mosaic
  vertical : b.vertical ≤ b'.vertical

structure Blade.Larger (b b' : Blade) : Prop where
  width : Grows b.width b'.width
  height : Grows b.height b'.height
  depth : Grows b.depth b'.depth

/-- The shape of the sample is the same, or its three edges are given and at least as large. -/
def SampleAttrs.Larger (a a' : SampleAttrs) : Prop :=
  (a'.width = a.width ∧ a'.depth = a.depth ∧ a'.height = a.height ∧ a'.shape = a.shape ∧ a'.shapeType = a.shapeType) ∨
  ∃ w d h w' d' h', a.width = some w ∧ a.depth = some d ∧ a.height = some h ∧ a'.width = some w' ∧ a'.depth = some d' ∧
    a'.height = some h' ∧ w ≤ w' ∧ d ≤ d' ∧ h ≤ h' ∧ a'.shapeType = a.shapeType

/-- The second instrument differs from the first by larger divergences, mosaics and, if the method takes them into account,
sizes.  Nothing is said about the monitor, its correction and the reflectivity of the analyzer. -/
structure Settings.Coarser (s s' : Settings) : Prop where
  efixed : s'.efixed = s.efixed
  infin : s'.infin = s.infin
  method : s'.method = s.method
  horifoc : s'.horifoc = s.horifoc
  arms : s'.arms = s.arms
  hcol : ∀ i, Opens (s.hcol i) (s'.hcol i)
  vcol : ∀ i, Opens (s.vcol i) (s'.vcol i)
  mono : s.mono.Coarser s'.mono
  ana : s.ana.Coarser s'.ana
  senseSample : s'.sample.dir = s.sample.dir
  mosaic : ∀ m, s.sample.mosaic = some m → ∃ m', s'.sample.mosaic = some m' ∧ |m| ≤ |m'| ∧
    |s.sample.vmosaic.getD m| ≤ |s'.sample.vmosaic.getD m'|
  sizes : s.popovici = true → s.guide.Larger s'.guide ∧ s.mono.Larger s'.mono ∧ s.sample.Larger s'.sample ∧
    s.ana.Larger s'.ana ∧ s.detector.Larger s'.detector

/-! ## The order of quadratic forms -/

def Below {n : ℕ} (X Y : Matrix (Fin n) (Fin n) ℝ) : Prop := ∀ x, x ⬝ᵥ (X *ᵥ x) ≤ x ⬝ᵥ (Y *ᵥ x)

theorem square_completed {n : ℕ} {C : Matrix (Fin n) (Fin n) ℝ} (h : C.PosDef) (x y : Fin n → ℝ) :
    2 * (x ⬝ᵥ y) - y ⬝ᵥ (C *ᵥ y) ≤ x ⬝ᵥ (C⁻¹ *ᵥ x) := by
  have hdet : IsUnit C.det := isUnit_iff_ne_zero.2 h.det_pos.ne'
  have hsym : Cᵀ = C := by
    have := h.isHermitian
    rwa [IsHermitian, conjTranspose_eq_transpose_of_trivial] at this
  have hpos := h.inv.posSemidef.dotProduct_mulVec_nonneg (x - C *ᵥ y)
  have e : C⁻¹ *ᵥ (C *ᵥ y) = y := by rw [mulVec_mulVec, nonsing_inv_mul _ hdet, one_mulVec]
  have e2 : (C *ᵥ y) ⬝ᵥ (C⁻¹ *ᵥ x) = x ⬝ᵥ y := by
    rw [dotProduct_comm, dotProduct_mulVec, ← mulVec_transpose, hsym, mulVec_mulVec, mul_nonsing_inv _ hdet, one_mulVec]
  rw [star_trivial, mulVec_sub, e, sub_dotProduct, dotProduct_sub, dotProduct_sub, e2, dotProduct_comm (C *ᵥ y) y] at hpos
  linarith

theorem Below.inv {n : ℕ} {C D : Matrix (Fin n) (Fin n) ℝ} (h : Below C D) (hC : C.PosDef) (hD : D.PosDef) : Below D⁻¹ C⁻¹ := fun x => by
  have hdet : IsUnit D.det := isUnit_iff_ne_zero.2 hD.det_pos.ne'
  have h1 := square_completed hC x (D⁻¹ *ᵥ x)
  have h2 := h (D⁻¹ *ᵥ x)
  have e : D *ᵥ (D⁻¹ *ᵥ x) = x := by rw [mulVec_mulVec, mul_nonsing_inv _ hdet, one_mulVec]
  rw [e, dotProduct_comm (D⁻¹ *ᵥ x) x] at h2
  linarith

theorem quad_sandwich {m n : ℕ} (A : Matrix (Fin m) (Fin n) ℝ) (X : Matrix (Fin n) (Fin n) ℝ) (x : Fin m → ℝ) :
    x ⬝ᵥ ((A * X * Aᵀ) *ᵥ x) = (Aᵀ *ᵥ x) ⬝ᵥ (X *ᵥ (Aᵀ *ᵥ x)) := by
  rw [← mulVec_mulVec, ← mulVec_mulVec, dotProduct_mulVec, ← mulVec_transpose]

theorem Below.sandwich {m n : ℕ} {X Y : Matrix (Fin n) (Fin n) ℝ} (h : Below X Y) (A : Matrix (Fin m) (Fin n) ℝ) :
    Below (A * X * Aᵀ) (A * Y * Aᵀ) := fun x => by
  rw [quad_sandwich, quad_sandwich]
  exact h _

theorem Below.gram {m n : ℕ} {X Y : Matrix (Fin n) (Fin n) ℝ} (h : Below X Y) (A : Matrix (Fin n) (Fin m) ℝ) :
    Below (Aᵀ * X * A) (Aᵀ * Y * A) := by
  have := h.sandwich Aᵀ
  rwa [transpose_transpose] at this

theorem Below.add {n : ℕ} {X Y X' Y' : Matrix (Fin n) (Fin n) ℝ} (h : Below X Y) (h' : Below X' Y') : Below (X + X') (Y + Y') := fun x => by
  rw [add_mulVec, add_mulVec, dotProduct_add, dotProduct_add]
  exact add_le_add (h x) (h' x)

theorem Below.refl {n : ℕ} (X : Matrix (Fin n) (Fin n) ℝ) : Below X X := fun _ => le_rfl

theorem Below.diagonal {n : ℕ} {d d' : Fin n → ℝ} (h : ∀ i, d i ≤ d' i) : Below (Matrix.diagonal d) (Matrix.diagonal d') := fun x => by
  simp only [dotProduct, mulVec_diagonal]
  refine Finset.sum_le_sum fun i _ => ?_
  nlinarith [h i, mul_self_nonneg (x i)]

theorem quad_blkdiag {m n : ℕ} (X : Matrix (Fin m) (Fin m) ℝ) (Y : Matrix (Fin n) (Fin n) ℝ) (x : Fin (m + n) → ℝ) :
    x ⬝ᵥ (blkdiag X Y *ᵥ x) = (fun i => x (Fin.castAdd n i)) ⬝ᵥ (X *ᵥ fun i => x (Fin.castAdd n i)) +
      (fun i => x (Fin.natAdd m i)) ⬝ᵥ (Y *ᵥ fun i => x (Fin.natAdd m i)) := by
  simp [dotProduct, mulVec, blkdiag, Fin.sum_univ_add]

theorem Below.blkdiag {m n : ℕ} {X X' : Matrix (Fin m) (Fin m) ℝ} {Y Y' : Matrix (Fin n) (Fin n) ℝ} (h : Below X X') (h' : Below Y Y') :
    Below (Resolution.blkdiag X Y) (Resolution.blkdiag X' Y') := fun x => by
  rw [quad_blkdiag, quad_blkdiag]
  exact add_le_add (h _) (h' _)

theorem one_le_eigenvalue {n : ℕ} {P : Matrix (Fin n) (Fin n) ℝ} (h : P.PosSemidef) (hh : (1 + P).IsHermitian) (i : Fin n) :
    1 ≤ hh.eigenvalues i := by
  have e := hh.eigenvalues_eq i
  set v := ⇑(hh.eigenvectorBasis i)
  have hv : star v ⬝ᵥ v = 1 := by
    have := hh.eigenvectorBasis.orthonormal.1 i
    have h2 := EuclideanSpace.real_norm_sq_eq (hh.eigenvectorBasis i)
    rw [this] at h2
    simp only [dotProduct, star_trivial]
    rw [show (∑ j, v j * v j) = ∑ j, v j ^ 2 from Finset.sum_congr rfl fun j _ => (sq _).symm]
    rw [← h2]
    norm_num
  have hp := h.dotProduct_mulVec_nonneg v
  rw [add_mulVec, one_mulVec, dotProduct_add, hv] at e
  simp only [RCLike.re_to_real] at e
  rw [e]
  exact le_add_of_nonneg_right hp

theorem one_le_det {n : ℕ} {P : Matrix (Fin n) (Fin n) ℝ} (h : P.PosSemidef) : 1 ≤ (1 + P).det := by
  have hh : (1 + P).IsHermitian := isHermitian_one.add h.isHermitian
  rw [hh.det_eq_prod_eigenvalues]
  exact Finset.one_le_prod fun i _ => one_le_eigenvalue h hh i

open scoped MatrixOrder in
theorem Below.factor {n : ℕ} {X Y : Matrix (Fin n) (Fin n) ℝ} (h : Below X Y) (hX : X.PosDef) (hY : Y.PosDef) :
    ∃ C P : Matrix (Fin n) (Fin n) ℝ, P.PosSemidef ∧ X = Cᵀ * C ∧ Y = Cᵀ * (1 + P) * C := by
  obtain ⟨C, hC⟩ := CStarAlgebra.nonneg_iff_eq_star_mul_self.mp hX.posSemidef.nonneg
  rw [star_eq_conjTranspose, conjTranspose_eq_transpose_of_trivial] at hC
  have dC : IsUnit C.det := by
    refine isUnit_iff_ne_zero.2 fun h0 => hX.det_pos.ne' ?_
    rw [hC, det_mul, h0, mul_zero]
  have hP : (C⁻¹ᵀ * (Y - X) * C⁻¹).PosSemidef := by
    have hd : (Y - X).PosSemidef := by
      refine PosSemidef.of_dotProduct_mulVec_nonneg (hY.isHermitian.sub hX.isHermitian) fun x => ?_
      rw [star_trivial, sub_mulVec, dotProduct_sub]
      linarith [h x]
    have := hd.conjTranspose_mul_mul_same C⁻¹
    rwa [conjTranspose_eq_transpose_of_trivial] at this
  refine ⟨C, _, hP, hC, ?_⟩
  have i1 : Cᵀ * C⁻¹ᵀ = 1 := by rw [← transpose_mul, nonsing_inv_mul _ dC, transpose_one]
  have i2 : C⁻¹ * C = 1 := nonsing_inv_mul _ dC
  rw [Matrix.mul_add, Matrix.add_mul, Matrix.mul_one, ← hC]
  rw [show Cᵀ * (C⁻¹ᵀ * (Y - X) * C⁻¹) * C = Cᵀ * C⁻¹ᵀ * (Y - X) * (C⁻¹ * C) by simp only [Matrix.mul_assoc], i1, i2, Matrix.one_mul, Matrix.mul_one]
  abel

/-- A larger quadratic form has a larger determinant. -/
theorem Below.det_le {n : ℕ} {X Y : Matrix (Fin n) (Fin n) ℝ} (h : Below X Y) (hX : X.PosDef) (hY : Y.PosDef) : X.det ≤ Y.det := by
  obtain ⟨C, P, hP, hC, e⟩ := h.factor hX hY
  have hx : X.det = C.det ^ 2 := by rw [hC, det_mul, det_transpose, sq]
  rw [e, det_mul, det_mul, det_transpose, hx]
  nlinarith [one_le_det hP, sq_nonneg C.det]

/-! ## The stages of the calculation -/

structure CoarserConf (c c' : Conf) : Prop where
  popovici : c'.popovici = c.popovici
  horifoc : c'.horifoc = c.horifoc
  etam : |c.etam| ≤ |c'.etam|
  etamv : |c.etamv| ≤ |c'.etamv|
  etaa : |c.etaa| ≤ |c'.etaa|
  etaav : |c.etaav| ≤ |c'.etaav|
  etas : ∀ p, c.etas = some p → ∃ p', c'.etas = some p' ∧ |p.1| ≤ |p'.1| ∧ |p.2| ≤ |p'.2|
  arms : c'.L0 = c.L0 ∧ c'.L1 = c.L1 ∧ c'.L2 = c.L2 ∧ c'.L3 = c.L3
  senses : c'.sm = c.sm ∧ c'.sa = c.sa
  kin : ∀ q w, kinematics c' q w = kinematics c q w
  sizes : c.popovici = true → (∀ i, c.bshape i ≤ c'.bshape i) ∧ (∀ i, c.mshape i ≤ c'.mshape i) ∧ (∀ i, c.ashape i ≤ c'.ashape i) ∧
    (∀ i, c.dshape i ≤ c'.dshape i)

structure CoarserLoop (l l' : Loop) : Prop where
  alpha : ∀ i, Opens (l.alpha i) (l'.alpha i)
  beta : ∀ i, Opens (l.beta i) (l'.beta i)
  radii : l'.monorh = l.monorh ∧ l'.monorv = l.monorv ∧ l'.anarh = l.anarh ∧ l'.anarv = l.anarv

theorem Opens.abs {a a' : ℝ} (h : Opens a a') : |a| ≤ |a'| := by
  rcases h with ⟨h0, h1⟩ | ⟨h0, h1⟩
  · rwa [abs_of_pos h0, abs_of_pos (h0.trans_le h1)]
  · rw [abs_of_neg h1, abs_of_neg (h0.trans_lt h1)]
    linarith

theorem inv_sq_le {a a' : ℝ} (h0 : a ≠ 0) (h : |a| ≤ |a'|) : 1 / a' ^ 2 ≤ 1 / a ^ 2 :=
  one_div_le_one_div_of_le (by positivity) (sq_le_sq.2 h)

theorem below_G {l l' : Loop} (hl : l.Good) (h : CoarserLoop l l') : Below (matG l') (matG l) := by
  refine Below.diagonal fun i => ?_
  have a := fun i => inv_sq_le (hl.alpha i) (h.alpha i).abs
  have b := fun i => inv_sq_le (hl.beta i) (h.beta i).abs
  fin_cases i
  · exact a 0
  · exact a 1
  · exact b 0
  · exact b 1
  · exact a 2
  · exact a 3
  · exact b 2
  · exact b 3

theorem below_F {c c' : Conf} (hc : c.Mosaics) (h : CoarserConf c c') : Below (matF c') (matF c) := by
  refine Below.diagonal fun i => ?_
  fin_cases i
  · exact inv_sq_le hc.m h.etam
  · exact inv_sq_le hc.mv h.etamv
  · exact inv_sq_le hc.a h.etaa
  · exact inv_sq_le hc.av h.etaav

theorem focus_split {c : Conf} {l : Loop} {k : Kin} {N : Matrix (Fin 6) (Fin 6) ℝ}
    (comm : diagonal (p6 1 1 0 1) * N = N * diagonal (p6 1 1 0 1)) :
    focusBlock c l k N = (diagonal (p6 1 1 0 1))ᵀ * N * diagonal (p6 1 1 0 1) +
      diagonal ![0, 0, 0, (tan k.thetaa / (c.etaa * k.kf)) ^ 2, (1 / (k.kf * l.alpha 2)) ^ 2, 0] := by
  have z : ∀ i j, p6 1 1 0 1 i ≠ p6 1 1 0 1 j → N i j = 0 := fun i j h => comm_zero comm h
  have zs : ∀ i : Fin 6, p6 1 1 0 1 i = 0 → ∀ j, p6 1 1 0 1 j = 1 → N i j = 0 ∧ N j i = 0 := fun i hi j hj =>
    ⟨z i j (by rw [hi, hj]; norm_num), z j i (by rw [hi, hj]; norm_num)⟩
  have h3 := zs 3 rfl
  have h4 := zs 4 rfl
  ext i j
  rw [Matrix.add_apply, diagonal_transpose, mul_diagonal, diagonal_mul]
  fin_cases i <;> fin_cases j <;>
    simp [focusBlock, p6, (h3 0 rfl), (h3 1 rfl), (h3 2 rfl), (h3 5 rfl), (h4 0 rfl), (h4 1 rfl),
      (h4 2 rfl), (h4 5 rfl)]

theorem div_sq_le {a a' : ℝ} (h0 : a ≠ 0) (h : |a| ≤ |a'|) (x y : ℝ) : (x / (a' * y)) ^ 2 ≤ (x / (a * y)) ^ 2 := by
  have e (b : ℝ) : (x / (b * y)) ^ 2 = (x / y) ^ 2 * (1 / b ^ 2) := by
    rw [div_mul_eq_div_div_swap, div_pow _ b, div_eq_mul_one_div]
  rw [e, e]
  exact mul_le_mul_of_nonneg_left (inv_sq_le h0 h) (sq_nonneg _)

theorem below_focus {c c' : Conf} (hc : c.Mosaics) (h : CoarserConf c c') {l l' : Loop} (hl : l.Good) (hll : CoarserLoop l l') {k : Kin}
    {N N' : Matrix (Fin 6) (Fin 6) ℝ} (hN : Below N' N) (comm : diagonal (p6 1 1 0 1) * N = N * diagonal (p6 1 1 0 1))
    (comm' : diagonal (p6 1 1 0 1) * N' = N' * diagonal (p6 1 1 0 1)) : Below (focusBlock c' l' k N') (focusBlock c l k N) := by
  rw [focus_split comm, focus_split comm']
  refine (hN.gram _).add (Below.diagonal fun i => ?_)
  have a := div_sq_le hc.a h.etaa (tan k.thetaa) k.kf
  have b : (1 / (k.kf * l'.alpha 2)) ^ 2 ≤ (1 / (k.kf * l.alpha 2)) ^ 2 := by
    rw [mul_comm k.kf, mul_comm k.kf]
    exact div_sq_le (hl.alpha 2) (hll.alpha 2).abs 1 k.kf
  fin_cases i
  · exact le_rfl
  · exact le_rfl
  · exact le_rfl
  · exact a
  · exact b
  · exact le_rfl

theorem below_cooperNathans {c c' : Conf} (hc : c.Mosaics) (hc' : c'.Mosaics) (h : CoarserConf c c') {l l' : Loop} (hl : l.Good) (hl' : l'.Good)
    (hll : CoarserLoop l l') {k : Kin} {q : ℝ} (hk : k.Good q) {r r' : Matrix (Fin 6) (Fin 6) ℝ × ℝ} (e : cooperNathansN c l k = .ok r)
    (e' : cooperNathansN c' l' k = .ok r') : Below r.1 r'.1 ∧ r'.2 ≤ r.2 := by
  have hH := cnH_posDef hc hl k
  have hH' := cnH_posDef hc' hl' k
  have hN := congr_posDef hH.inv (matA k) (matA_inj hk)
  have hN' := congr_posDef hH'.inv (matA k) (matA_inj hk)
  have b1 : Below (matG l' + (matC k)ᵀ * matF c' * matC k) (matG l + (matC k)ᵀ * matF c * matC k) :=
    (below_G hl hll).add ((below_F hc h).gram _)
  have b2 := (b1.inv hH' hH).sandwich (matA k)
  unfold cooperNathansN at e e'
  simp only [npInv_ok hH, ok_bind] at e
  simp only [npInv_ok hH', ok_bind, h.horifoc] at e'
  by_cases hf : 0 < c.horifoc
  · have k1 := comm_inv hN (cnN_comm 1 1 0 1 hc hl k)
    have k1' := comm_inv hN' (cnN_comm 1 1 0 1 hc' hl' k)
    have hfb := focus_posDef hc hl hk hN.inv k1
    have hfb' := focus_posDef hc' hl' hk hN'.inv k1'
    simp only [if_pos hf, npInv_ok hN, ok_bind, npInv_ok hfb] at e
    simp only [if_pos hf, npInv_ok hN', ok_bind, npInv_ok hfb'] at e'
    rw [← Except.ok.inj e, ← Except.ok.inj e']
    exact ⟨(below_focus hc h hl hll (b2.inv hN hN') k1 k1').inv hfb' hfb, b1.det_le hH' hH⟩
  · simp only [if_neg hf] at e e'
    rw [← Except.ok.inj e, ← Except.ok.inj e']
    exact ⟨b2, b1.det_le hH' hH⟩

theorem below_popovici {c c' : Conf} (hc : c.Mosaics) (hc' : c'.Mosaics) (ha : c.Arms) (ha' : c'.Arms) (h : CoarserConf c c') {l l' : Loop}
    (hl : l.Good) (hl' : l'.Good) (hr : l.Curved) (hr' : l'.Curved) (hll : CoarserLoop l l') {k : Kin}
    {S S' : Matrix (Fin 13) (Fin 13) ℝ} (hS : S.PosDef) (hS' : S'.PosDef) (hb : Below S' S) {r r' : Matrix (Fin 6) (Fin 6) ℝ × ℝ}
    (e : popoviciN c l k S = .ok r) (e' : popoviciN c' l' k S' = .ok r') :
    ∃ Y Y', Y.PosDef ∧ Y'.PosDef ∧ Below Y' Y ∧ r = (matA k * Y⁻¹ * (matA k)ᵀ, Y.det) ∧ r' = (matA k * Y'⁻¹ * (matA k)ᵀ, Y'.det) := by
  have eT : matT c' l' k = matT c l k := by
    unfold matT
    rw [h.arms.1, h.arms.2.1, h.arms.2.2.1, h.arms.2.2.2, hll.radii.1, hll.radii.2.1, hll.radii.2.2.1, hll.radii.2.2.2]
  have eD : matD c' k = matD c k := by
    unfold matD
    rw [h.arms.1, h.arms.2.1, h.arms.2.2.1, h.arms.2.2.2]
  have hK : (S + (matT c l k)ᵀ * matF c * matT c l k).PosDef := hS.add_posSemidef (gram_posSemidef (matF_posDef hc) _)
  have hK' : (S' + (matT c' l' k)ᵀ * matF c' * matT c' l' k).PosDef := hS'.add_posSemidef (gram_posSemidef (matF_posDef hc') _)
  have hD := congr_posDef hK.inv (matD c k) (matD_inj ha k)
  have hD' := congr_posDef hK'.inv (matD c' k) (matD_inj ha' k)
  have hG := hD.inv.add (matG_posDef hl.alpha hl.beta)
  have hG' := hD'.inv.add (matG_posDef hl'.alpha hl'.beta)
  unfold popoviciN at e e'
  rw [if_neg (by simp [ha.l0, ha.l1, ha.l2, ha.l3, hr.monorh, hr.monorv, hr.anarh, hr.anarv])] at e
  rw [if_neg (by simp [ha'.l0, ha'.l1, ha'.l2, ha'.l3, hr'.monorh, hr'.monorv, hr'.anarh, hr'.anarv])] at e'
  simp only [npInv_ok hK, ok_bind, npInv_ok hD, npInv_ok hG] at e
  simp only [npInv_ok hK', ok_bind, npInv_ok hD', npInv_ok hG'] at e'
  rw [eT] at hK' hD' hG' e'
  rw [eD] at hD' hG' e'
  have b1 : Below (S' + (matT c l k)ᵀ * matF c' * matT c l k) (S + (matT c l k)ᵀ * matF c * matT c l k) := hb.add ((below_F hc h).gram _)
  have b2 := ((b1.inv hK' hK).sandwich (matD c k)).inv hD hD'
  have b3 := b2.add (below_G hl hll)
  exact ⟨_, _, hG, hG', b3, (Except.ok.inj e).symm, (Except.ok.inj e').symm⟩

theorem below_Sinv {c c' : Conf} (h : CoarserConf c c') (hp : c.popovici = true) (k : Kin) {X X' : M3} (hX : Below X X') :
    Below (matSinv c (turnShape k X)) (matSinv c' (turnShape k X')) := by
  obtain ⟨h1, h2, h3, h4⟩ := h.sizes hp
  exact (Below.diagonal h1).blkdiag ((Below.diagonal h2).blkdiag ((hX.sandwich _).blkdiag ((Below.diagonal h3).blkdiag (Below.diagonal h4))))

theorem below_core {c c' : Conf} (hc : c.Good) (hc' : c'.Good) (h : CoarserConf c c') {l l' : Loop} (hl : l.Good) (hl' : l'.Good)
    (hr : l.Curved) (hr' : l'.Curved) (hll : CoarserLoop l l') {k : Kin} {q : ℝ} (hk : k.Good q) {S S' : Matrix (Fin 13) (Fin 13) ℝ}
    (hS : S.PosDef) (hS' : S'.PosDef) (hb : c.popovici = true → Below S' S) {r r' : M4 × ℝ} (e : coreMatrix c l k S = .ok r)
    (e' : coreMatrix c' l' k S' = .ok r') : Below r.1 r'.1 ∧ r'.2 ≤ r.2 := by
  unfold coreMatrix at e e'
  dsimp only at e e'
  rw [h.popovici] at e'
  split_ifs at e e' with hp
  · obtain ⟨⟨N, d⟩, g, e⟩ := bind_ok e
    obtain ⟨⟨N', d'⟩, g', e'⟩ := bind_ok e'
    have i := below_popovici hc.mosaics hc'.mosaics (hc.arms hp) (hc'.arms (h.popovici.trans hp)) h hl hl' hr hr' hll hS hS' (hb hp) g g'
    obtain ⟨Y, Y', hY, hY', b, i1, i2⟩ := i
    rw [← Except.ok.inj e, ← Except.ok.inj e', (Prod.mk.inj i1).1, (Prod.mk.inj i1).2, (Prod.mk.inj i2).1, (Prod.mk.inj i2).2]
    exact ⟨((b.inv hY' hY).sandwich _).sandwich _, b.det_le hY' hY⟩
  · obtain ⟨⟨N, d⟩, g, e⟩ := bind_ok e
    obtain ⟨⟨N', d'⟩, g', e'⟩ := bind_ok e'
    have i := below_cooperNathans hc.mosaics hc'.mosaics h hl hl' hll hk g g'
    rw [← Except.ok.inj e, ← Except.ok.inj e']
    exact ⟨i.1.sandwich _, i.2⟩

/-- The inverse of the matrix that is returned for a point. -/
noncomputable def returnedInverse (c : Conf) (q : ℝ) (Mi : M4) : M4 := match c.etas with
  | none => Mi
  | some (a, b) => Mi + diagonal ![0, q ^ 2 * a ^ 2, q ^ 2 * b ^ 2, 0]

theorem returnedInverse_posDef (c : Conf) (q : ℝ) {Mi : M4} (h : Mi.PosDef) : (returnedInverse c q Mi).PosDef := by
  unfold returnedInverse
  split
  · exact h
  · refine h.add_posSemidef (PosSemidef.diagonal fun i => ?_)
    fin_cases i <;> simp <;> positivity

theorem point_returned {c : Conf} (hc : c.Good) {l : Loop} (hl : l.Good) (hr : l.Curved) {k : Kin} {q : ℝ} (hk : k.Good q) {X : M3} (hX : X.PosDef)
    {r : ℝ × M4} (e : pointAt c l X k q = .ok r) :
    ∃ Mi d, coreMatrix c l k (matSinv c (turnShape k X))⁻¹ = .ok (Mi, d) ∧ Mi.PosDef ∧ r.2 = (returnedInverse c q Mi)⁻¹ := by
  have hS := matSinv_posDef hc (turnShape_posDef k hX)
  obtain ⟨Mi, d, h1, hM, hd⟩ := coreMatrix_ok hc hl (fun _ => hr) hk hS.inv
  refine ⟨Mi, d, h1, hM, ?_⟩
  unfold pointAt at e
  split_ifs at e
  simp only [npInv_ok hS, ok_bind, h1, npInv_ok hM] at e
  obtain ⟨r0, -, e⟩ := bind_ok e
  obtain ⟨⟨s0, RS⟩, e4, e⟩ := bind_ok e
  obtain ⟨u0, -, e⟩ := bind_ok e
  rw [← Except.ok.inj e]
  have hsp := returnedInverse_posDef c q hM
  show RS = _
  unfold withMosaic at e4
  unfold returnedInverse at hsp ⊢
  cases hm : c.etas with
  | none =>
    rw [hm] at e4
    exact (Prod.mk.inj (Except.ok.inj e4)).2.symm
  | some p =>
    rw [hm] at e4 hsp
    unfold sampleMosaic at e4
    obtain ⟨_, -, e4⟩ := bind_ok e4
    obtain ⟨_, -, e4⟩ := bind_ok e4
    rw [npInv_ok hsp, ok_bind] at e4
    exact (Prod.mk.inj (Except.ok.inj e4)).2.symm

theorem below_returned {c c' : Conf} (h : CoarserConf c c') (q : ℝ) {Mi Mi' : M4} (hb : Below Mi Mi') : Below (returnedInverse c q Mi) (returnedInverse c' q Mi') := by
  cases hm : c.etas with
  | none =>
    have e : returnedInverse c q Mi = Mi := by unfold returnedInverse; rw [hm]
    rw [e]
    unfold returnedInverse
    split
    · exact hb
    · next a b _ =>
      have z : Below (0 : M4) (diagonal ![0, q ^ 2 * a ^ 2, q ^ 2 * b ^ 2, 0]) := by
        rw [← diagonal_zero]
        refine Below.diagonal fun i => ?_
        fin_cases i <;> simp <;> positivity
      have := hb.add z
      rwa [add_zero] at this
  | some p =>
    obtain ⟨p', hm', h1, h2⟩ := h.etas p hm
    unfold returnedInverse
    rw [hm, hm']
    refine hb.add (Below.diagonal fun i => ?_)
    have s1 := mul_le_mul_of_nonneg_left (sq_le_sq.2 h1) (sq_nonneg q)
    have s2 := mul_le_mul_of_nonneg_left (sq_le_sq.2 h2) (sq_nonneg q)
    fin_cases i
    · exact le_rfl
    · exact s1
    · exact s2
    · exact le_rfl

theorem below_point {c c' : Conf} (hc : c.Good) (hc' : c'.Good) (h : CoarserConf c c') {l l' : Loop} (hl : l.Good) (hl' : l'.Good)
    (hr : l.Curved) (hr' : l'.Curved) (hll : CoarserLoop l l') {k : Kin} {q : ℝ} (hk : k.Good q) {X X' : M3} (hX : X.PosDef) (hX' : X'.PosDef)
    (hb : c.popovici = true → Below X X') {r r' : ℝ × M4} (e : pointAt c l X k q = .ok r) (e' : pointAt c' l' X' k q = .ok r') :
    Below r'.2 r.2 := by
  obtain ⟨Mi, d, g, pM, hR⟩ := point_returned hc hl hr hk hX e
  obtain ⟨Mi', d', g', pM', hR'⟩ := point_returned hc' hl' hr' hk hX' e'
  have hS := matSinv_posDef hc (turnShape_posDef k hX)
  have hS' := matSinv_posDef hc' (turnShape_posDef k hX')
  rw [hR, hR']
  refine (below_returned h q ?_).inv (returnedInverse_posDef c q pM) (returnedInverse_posDef c' q pM')
  exact (below_core hc hc' h hl hl' hr hr' hll hk hS.inv hS'.inv (fun hp => (below_Sinv h hp k (hb hp)).inv hS hS') g g').1

theorem Opens.mul {a a' t : ℝ} (h : Opens a a') (ht : 0 < t) : Opens (a * t) (a' * t) := by
  rcases h with ⟨h0, h1⟩ | ⟨h0, h1⟩
  · exact Or.inl ⟨mul_pos h0 ht, mul_le_mul_of_nonneg_right h1 ht.le⟩
  · exact Or.inr ⟨mul_le_mul_of_nonneg_right h0 ht.le, mul_neg_of_neg_of_pos h1 ht⟩

theorem Opens.guide {a a' ki : ℝ} (h : Opens a a') (hk : 0 < ki) : Opens (guideDivergence a ki) (guideDivergence a' ki) := by
  unfold guideDivergence
  rcases h with ⟨h0, h1⟩ | ⟨h0, h1⟩
  · rw [if_neg (not_lt.2 h0.le), if_neg (not_lt.2 (h0.trans_le h1).le)]
    exact Or.inl ⟨h0, h1⟩
  · rw [if_pos h1, if_pos (h0.trans_lt h1)]
    have t : 0 < 1 / 10 * 60 * (2 * π / ki) / (427 / 1000) / √3 := by positivity
    have e (b : ℝ) : -b * (1 / 10) * 60 * (2 * π / ki) / (427 / 1000) / √3 = -b * (1 / 10 * 60 * (2 * π / ki) / (427 / 1000) / √3) := by ring
    rw [e, e]
    exact Opens.mul (Or.inl ⟨by linarith, by linarith⟩) t

theorem below_advance {c c' : Conf} (h : CoarserConf c c') {l l' : Loop} (hl : CoarserLoop l l') {ki : ℝ} (hk : 0 < ki) :
    CoarserLoop (l.advance c ki) (l'.advance c' ki) := by
  refine ⟨fun i => (hl.alpha i).guide hk, fun i => (hl.beta i).guide hk, ?_⟩
  obtain ⟨r1, r2, r3, r4⟩ := hl.radii
  refine ⟨?_, ?_, ?_, ?_⟩ <;> simp only [Loop.advance, r1, r2, r3, r4, h.senses.1, h.senses.2]

theorem below_loop {c c' : Conf} (hc : c.Good) (hc' : c'.Good) (h : CoarserConf c c') (sm : c.sm = 1 ∨ c.sm = -1) (sa : c.sa = 1 ∨ c.sa = -1)
    {a a' : SampleAttrs} {m : ℕ} (va : a.Valid m) (va' : a'.Valid m)
    (hs : c.popovici = true → ∀ n X X', sshapeAt a n = .ok X → sshapeAt a' n = .ok X' → Below X X') :
    ∀ (pts : List (ℝ × ℝ)) (n : ℕ) {l l' : Loop}, n + pts.length ≤ m → (∀ p ∈ pts, ∀ k, kinematics c p.1 p.2 = .ok k → k.Good p.1) →
      l.Good → l'.Good → l.Curved → l'.Curved → CoarserLoop l l' → ∀ {rs rs' : List (ℝ × M4)}, runLoop c a n l pts = .ok rs →
      runLoop c' a' n l' pts = .ok rs' → ∀ (k : ℕ) (r r' : ℝ × M4), rs[k]? = some r → rs'[k]? = some r' → Below r'.2 r.2
  | [], n, l, l', hn, hk, hl, hl', hr, hr', hll, rs, rs', e, e' => by
    rw [← Except.ok.inj e]
    intro k r r' h
    simp at h
  | (q, w) :: pts, n, l, l', hn, hk, hl, hl', hr, hr', hll, rs, rs', e, e' => by
    unfold runLoop at e e'
    obtain ⟨X, e1, e⟩ := bind_ok e
    obtain ⟨X', e1', e'⟩ := bind_ok e'
    obtain ⟨k, e2, e⟩ := bind_ok e
    obtain ⟨k', e2', e'⟩ := bind_ok e'
    rw [h.kin, e2] at e2'
    have := Except.ok.inj e2'
    subst this
    obtain ⟨r, e3, e⟩ := bind_ok e
    obtain ⟨r', e3', e'⟩ := bind_ok e'
    obtain ⟨rs1, e4, e⟩ := bind_ok e
    obtain ⟨rs1', e4', e'⟩ := bind_ok e'
    rw [← Except.ok.inj e, ← Except.ok.inj e']
    have kg : k.Good q := hk (q, w) (by simp) k e2
    have hll' := below_advance h hll kg.ki
    have g := advance_good hl c kg.ki
    have g' := advance_good hl' c' kg.ki
    have f := advance_curved hr sm sa k.ki
    have f' : (l'.advance c' k.ki).Curved := advance_curved hr' (by rw [h.senses.1]; exact sm) (by rw [h.senses.2]; exact sa) k.ki
    have hn' : n < m := by simp at hn; omega
    obtain ⟨Y, y1, y2⟩ := sshapeAt_ok va hn'
    obtain ⟨Y', y1', y2'⟩ := sshapeAt_ok va' hn'
    rw [y1] at e1
    rw [y1'] at e1'
    have x1 := Except.ok.inj e1
    have x1' := Except.ok.inj e1'
    subst x1 x1'
    intro i p p' hp hp'
    cases i with
    | zero =>
      simp only [List.getElem?_cons_zero, Option.some.injEq] at hp hp'
      rw [← hp, ← hp']
      exact below_point hc hc' h g g' f f' hll' kg y2 y2' (fun hpop => hs hpop n Y Y' y1 y1') e3 e3'
    | succ i =>
      simp only [List.getElem?_cons_succ] at hp hp'
      exact below_loop hc hc' h sm sa va va' hs pts (n + 1) (by simp at hn; omega) (fun p hp => hk p (List.mem_cons_of_mem _ hp)) g g' f f' hll'
        e4 e4' i p p' hp hp'

theorem extent_le {x x' : Option ℝ} (h : Grows x x') (hp : Pos x) : extent x ≤ extent x' := by
  rcases h with ⟨rfl, rfl⟩ | ⟨a, a', rfl, rfl, h⟩
  · exact le_rfl
  · have := hp a rfl
    simp only [extent]
    have : a ^ 2 ≤ a' ^ 2 := by nlinarith
    linarith

theorem below_shape {a a' : SampleAttrs} {m : ℕ} (va : a.Valid m) (h : a.Larger a') (n : ℕ) (X X' : M3) (e : sshapeAt a n = .ok X)
    (e' : sshapeAt a' n = .ok X') : Below X X' := by
  rcases h with ⟨h1, h2, h3, h4, h5⟩ | ⟨w, d, g, w', d', g', h1, h2, h3, h1', h2', h3', l1, l2, l3, h5⟩
  · have : sshapeAt a' n = sshapeAt a n := by unfold sshapeAt; rw [h1, h2, h3, h4, h5]
    rw [this, e] at e'
    rw [Except.ok.inj e']
    exact Below.refl _
  · have p1 := va.width w h1
    have p2 := va.depth d h2
    have p3 := va.height g h3
    have hf : (0 : ℝ) < if a.shapeType = some ['c', 'y', 'l', 'i', 'n', 'd', 'r', 'i', 'c', 'a', 'l'] then 16 else 12 := by
      split_ifs <;> norm_num
    unfold sshapeAt at e e'
    rw [h5] at e'
    simp only [h1, h2, h3] at e
    simp only [h1', h2', h3'] at e'
    rw [← Except.ok.inj e, ← Except.ok.inj e']
    refine Below.diagonal fun i => ?_
    have q {x y : ℝ} (hx : 0 < x) (hy : x ≤ y) : x ^ 2 ≤ y ^ 2 := by nlinarith
    fin_cases i
    · exact div_le_div_of_nonneg_right (q p2 l2) hf.le
    · exact div_le_div_of_nonneg_right (q p1 l1) hf.le
    · exact div_le_div_of_nonneg_right (q p3 l3) hf.le

theorem below_decode {s s' : Settings} {n : ℕ} (v : s.Valid n) (h : s.Coarser s') {c c' : Conf} (e : decode s = .ok c)
    (e' : decode s' = .ok c') : CoarserConf c c' := by
  have hm : s'.theMethod = s.theMethod := by unfold Settings.theMethod; rw [h.method]
  have hp : s'.popovici = s.popovici := by unfold Settings.popovici; rw [hm]
  have hv : s'.vmosaicUsed = s.vmosaicUsed := by unfold Settings.vmosaicUsed; rw [hm]
  have ha : decodeArms s' = decodeArms s := by unfold decodeArms; rw [h.arms, hm]
  have c1 := convert1_pos
  have g {x y : ℝ} (hx : 0 < x) (hy : x ≤ y) : |x * convert1| ≤ |y * convert1| := by
    rw [abs_of_pos (mul_pos hx c1), abs_of_pos (mul_pos (hx.trans_le hy) c1)]
    exact mul_le_mul_of_nonneg_right hy c1.le
  have g' {x y : ℝ} (hy : |x| ≤ |y|) : |x * convert1| ≤ |y * convert1| := by
    rw [abs_mul, abs_mul]
    exact mul_le_mul_of_nonneg_right hy (abs_nonneg _)
  unfold decode at e e'
  obtain ⟨⟨l0, l1, lm, l2, l3⟩, ea, e⟩ := bind_ok e
  rw [ha, ea] at e'
  simp only [ok_bind] at e'
  rw [← Except.ok.inj e, ← Except.ok.inj e']
  refine ⟨hp, ?_, ?_, ?_, ?_, ?_, ?_, ⟨rfl, rfl, rfl, rfl⟩, ⟨h.mono.dir, h.ana.dir⟩, fun q w => ?_, ?_⟩
  · dsimp only
    rw [h.horifoc]
  · exact g v.mono.mosaic h.mono.mosaic
  · dsimp only
    rw [hv]
    split_ifs
    · exact g (getD_pos v.mono.vmosaic v.mono.mosaic) h.mono.vertical
    · exact g v.mono.mosaic h.mono.mosaic
  · exact g v.ana.mosaic h.ana.mosaic
  · exact g (getD_pos v.ana.vmosaic v.ana.mosaic) h.ana.vertical
  · intro p hq
    obtain ⟨m, hm, hmp⟩ := Option.map_eq_some_iff.1 hq
    obtain ⟨m', hm', i1, i2⟩ := h.mosaic m hm
    refine ⟨(m' * convert1, s'.sample.vmosaic.getD m' * convert1), ?_, ?_, ?_⟩
    · dsimp only
      rw [hm']
      rfl
    · rw [← hmp]
      exact g' i1
    · rw [← hmp]
      exact g' i2
  · unfold kinematics
    dsimp only
    rw [h.efixed, h.infin, h.mono.tau, h.ana.tau, h.mono.dir, h.ana.dir, h.senseSample]
  · intro hpop
    obtain ⟨z1, z2, -, z3, z4⟩ := h.sizes hpop
    refine ⟨fun i => ?_, fun i => ?_, fun i => ?_, fun i => ?_⟩
    · fin_cases i
      exacts [extent_le z1.width v.guide.width, extent_le z1.height v.guide.height]
    · fin_cases i
      exacts [extent_le z2.depth v.mono.depth, extent_le z2.width v.mono.width, extent_le z2.height v.mono.height]
    · fin_cases i
      exacts [extent_le z3.depth v.ana.depth, extent_le z3.width v.ana.width, extent_le z3.height v.ana.height]
    · fin_cases i
      exacts [extent_le z4.width v.detector.width, extent_le z4.height v.detector.height]

theorem Reaches.coarser {s s' : Settings} (h : s.Coarser s') {q w : ℝ} (r : Reaches s q w) : Reaches s' q w := by
  have ei : incident s' w = incident s w := by unfold incident; rw [h.infin, h.efixed]
  have ef : final s' w = final s w := by unfold final; rw [h.infin, h.efixed]
  exact ⟨ei ▸ r.ei, ef ▸ r.ef, by rw [h.mono.tau, ei]; exact r.mono, by rw [h.ana.tau, ef]; exact r.ana,
    by rw [ei, ef]; exact r.closes, r.q⟩

theorem start_coarser {s s' : Settings} (h : s.Coarser s') : CoarserLoop (Loop.start s) (Loop.start s') := by
  refine ⟨fun i => ?_, fun i => (h.vcol i).mul convert1_pos, ?_⟩
  · show Opens (s.hcol i * convert1 * _) (s'.hcol i * convert1 * _)
    rw [h.horifoc]
    refine ((h.hcol i).mul convert1_pos).mul ?_
    have : 0 < log 2 := log_pos (by norm_num)
    split_ifs <;> positivity
  · unfold Loop.start
    dsimp only
    rw [h.mono.rh, h.mono.rv, h.ana.rh, h.ana.rv]
    exact ⟨rfl, rfl, rfl, rfl⟩

/-- C191.  Let two valid instruments differ by larger collimations (or guide m-values), mosaics and, with the Popovici method,
sizes of guide, crystals, sample and detector.  Then at every point of every scan the second has a resolution function that
falls off no faster in any direction: the region where it is above any given fraction of its maximum contains that of
the first. -/
theorem C191_coarser {s s' : Settings} {pts : List (ℝ × ℝ)} (v : s.Valid pts.length) (v' : s'.Valid pts.length) (h : s.Coarser s')
    (hr : ∀ p ∈ pts, Reaches s p.1 p.2) :
    ∃ rs rs', calcInQ s pts = .ok rs ∧ calcInQ s' pts = .ok rs' ∧ rs.length = pts.length ∧ rs'.length = pts.length ∧
      ∀ (k : ℕ) (r r' : ℝ × M4), rs[k]? = some r → rs'[k]? = some r' → ∀ d, quad r'.2 d ≤ quad r.2 d := by
  obtain ⟨rs, e, l, -⟩ := C61_spd s pts v hr
  obtain ⟨rs', e', l', -⟩ := C61_spd s' pts v' fun p hp => (hr p hp).coarser h
  refine ⟨rs, rs', e, e', l, l', ?_⟩
  obtain ⟨c, g, hc, -, d1, d2, d3, d4, d5, d6, d7⟩ := decode_ok v
  obtain ⟨c', g', hc', -⟩ := decode_ok v'
  have w := below_decode v h g g'
  have hpop : c.popovici = s.popovici := by
    unfold decode at g
    obtain ⟨x, -, g⟩ := bind_ok g
    rw [← Except.ok.inj g]
  unfold calcInQ at e e'
  rw [g, ok_bind] at e
  rw [g', ok_bind] at e'
  have sm : c.sm = 1 ∨ c.sm = -1 := by rw [d5]; exact v.mono.dir
  have ss : c.ss = 1 ∨ c.ss = -1 := by rw [d6]; exact v.sample.dir
  have sa : c.sa = 1 ∨ c.sa = -1 := by rw [d7]; exact v.ana.dir
  have st := start_coarser h
  intro k r r' hk hk' d
  have b := below_loop hc hc' w sm sa v.sample v'.sample (fun hp n X X' => below_shape v.sample (h.sizes (hpop ▸ hp)).2.2.1 n X X') pts 0
    (by simp) (fun p hp k' hk' => by
      obtain ⟨k'', x1, x2, -⟩ := kinematics_ok d1 d2 d3 d4 sm ss sa v.mono.tau v.ana.tau (hr p hp)
      rw [hk'] at x1
      rw [Except.ok.inj x1]
      exact x2) (start_good v) (start_good v') (start_curved v) (start_curved v') st e e' k r r' hk hk' d
  rwa [quad_eq, quad_eq]

/-- The default instrument with the Popovici method, with wider collimations, a coarser analyzer, a sample
with a mosaic and a larger guide. -/
noncomputable def demoCoarse : Settings :=
  { demoSized with
      hcol := fun i => 2 * demoSized.hcol i, ana := { demoSized.ana with mosaic := 30, vmosaic := some 40 }
      sample := { demoSized.sample with mosaic := some 20, height := some 2 }, guide := ⟨some 6, some 10⟩ }

/-- The hypotheses are met. -/
example : demoSized.Coarser demoCoarse ∧ demoCoarse.Valid 1 ∧ demoCoarse.popovici = true := by
  have pos {v : ℝ} (hv : 0 < v) : Pos (some v) := fun u hu => by rw [← Option.some.inj hu]; exact hv
  have same (x : Option ℝ) : Grows x x := by
    cases x with
    | none => exact Or.inl ⟨rfl, rfl⟩
    | some v => exact Or.inr ⟨v, v, rfl, rfl, le_rfl⟩
  have d := demo_valid 1
  have op (i : Fin 4) : Opens (demoSized.hcol i) (2 * demoSized.hcol i) := by
    have hi : 0 < demoSized.hcol i := by fin_cases i <;> simp [demoSized, demo]
    exact Or.inl ⟨hi, by linarith⟩
  have vp (i : Fin 4) : Opens (demoSized.vcol i) (demoSized.vcol i) := by
    have hi : 0 < demoSized.vcol i := by fin_cases i <;> simp [demoSized, demo]
    exact Or.inl ⟨hi, le_rfl⟩
  refine ⟨⟨rfl, rfl, rfl, rfl, rfl, op, vp, ⟨rfl, rfl, rfl, rfl, le_rfl, le_rfl⟩, ⟨rfl, rfl, rfl, rfl, ?_, ?_⟩, rfl, fun m hm => (nomatch hm), fun _ =>
    ⟨⟨Or.inr ⟨5, 6, rfl, rfl, by norm_num⟩, same _⟩, ⟨same _, same _, same _⟩,
      Or.inr ⟨1, 1, 1, 1, 1, 2, rfl, rfl, rfl, rfl, rfl, rfl, le_rfl, le_rfl, by norm_num, rfl⟩, ⟨same _, same _, same _⟩, ⟨same _, same _⟩⟩⟩, ?_, rfl⟩
  · show (25 : ℝ) ≤ 30
    norm_num
  · show (25 : ℝ) ≤ 40
    norm_num
  · exact ⟨{ d.mono with width := pos (by norm_num), height := pos (by norm_num), depth := pos (by norm_num) },
      { d.ana with
          mosaic := by show (0 : ℝ) < 30; norm_num
          vmosaic := pos (by norm_num), width := pos (by norm_num), height := pos (by norm_num), depth := pos (by norm_num) },
      ⟨pos (by norm_num), pos (by norm_num)⟩, d.monitor, ⟨pos (by norm_num), pos (by norm_num)⟩,
      { d.sample with width := pos (by norm_num), height := pos (by norm_num), depth := pos (by norm_num) },
      fun i => mul_ne_zero two_ne_zero (d.hcol i), d.vcol, by
        intro L hL
        rw [← Option.some.inj hL]
        refine ⟨by simp, fun x hx => ?_⟩
        simp only [List.mem_cons, List.not_mem_nil, or_false] at hx
        rcases hx with rfl | rfl | rfl | rfl <;> norm_num⟩

end Verif.Resolution
