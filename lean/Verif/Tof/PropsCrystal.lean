import Verif.Tof.PropsTriangle
import Verif.Crystal.PropsOrient
import Verif.Tools.Props

/-!
# Property C138: the resolution in the frame of the crystal
-/

namespace Verif.Tof

open Real Matrix
open Verif.Crystal (Fail Vec Mat Lattice deg2rad Valid getPhi ubmatrix)
open Verif.Resolution (M4)
open Verif.Tools (quad kinetic Closes arctan2)

/-- A displacement in units of the reciprocal lattice, in the axes along `Q`, across it in the plane, and upright: the
components of the Cartesian vector `UB δ` along the direction of `UB Q` in the plane, across it, and upright, and the
energy. -/
noncomputable def alongQ (UB : Mat) (Q : Vec) (d : Fin 4 → ℝ) : Fin 4 → ℝ :=
  let x := (UB *ᵥ Q) 0
  let y := (UB *ᵥ Q) 1
  let p := UB *ᵥ ![d 0, d 1, d 2]
  ![(p 0 * x + p 1 * y) / √(x ^ 2 + y ^ 2), (p 1 * x - p 0 * y) / √(x ^ 2 + y ^ 2), p 2, d 3]

theorem cos_right : cos (deg2rad 90) = 0 := by
  rw [show deg2rad 90 = π / 2 by unfold deg2rad; ring]; exact cos_pi_div_two

theorem sin_right : sin (deg2rad 90) = 1 := by
  rw [show deg2rad 90 = π / 2 by unfold deg2rad; ring]; exact sin_pi_div_two

theorem valid_ortho {a b c : ℝ} (ha : 0 < a) (hb : 0 < b) (hc : 0 < c) : Valid ⟨a, b, c, 90, 90, 90⟩ := by
  constructor <;> first | exact ha | exact hb | exact hc | norm_num

/-- The reciprocal axes of a cell with right angles. -/
theorem ub_ortho {a b c : ℝ} (ha : 0 < a) (hb : 0 < b) (hc : 0 < c) :
    ubmatrix ⟨a, b, c, 90, 90, 90⟩ ![1, 0, 0] ![0, 1, 0] = .ok !![2 * π / a, 0, 0; 0, 2 * π / b, 0; 0, 0, 2 * π / c] := by
  have h := valid_ortho ha hb hc
  have hp := pi_pos
  have hU : Verif.Crystal.umatrix ![1, 0, 0] ![0, 1, 0] = .ok 1 := by
    have n1 : Verif.Crystal.norm3 ![1, 0, 0] = 1 := by
      unfold Verif.Crystal.norm3; simp
    have n2 : Verif.Crystal.norm3 ![0, 1, 0] = 1 := by
      unfold Verif.Crystal.norm3; simp
    have e : (![0, 1, 0] : Vec) - (0 : ℝ) • ![1, 0, 0] = ![0, 1, 0] := by simp
    have d1 : Verif.Crystal.npDiv (0 : ℝ) 1 = .ok 0 := by unfold Verif.Crystal.npDiv; simp
    have d2 : Verif.Crystal.npDiv (1 : ℝ) 1 = .ok 1 := by unfold Verif.Crystal.npDiv; simp
    have hg : Verif.Crystal.gramSchmidt ![1, 0, 0] ![0, 1, 0] = .ok (![1, 0, 0], ![0, 1, 0]) := by
      unfold Verif.Crystal.gramSchmidt
      have e2 : (![0, 1, 0] : Vec) ⬝ᵥ ![1, 0, 0] = 0 := by simp
      simp only [e2, n1, one_pow, d1, ok_bind, e, n2, d2, one_smul]
      rfl
    unfold Verif.Crystal.umatrix
    rw [hg, ok_bind]
    change Except.ok _ = _
    congr 1
    ext i j
    fin_cases i <;> fin_cases j <;> simp [cross_apply]
  have hB : Lattice.Bmatrix ⟨a, b, c, 90, 90, 90⟩ = .ok !![2 * π / a, 0, 0; 0, 2 * π / b, 0; 0, 0, 2 * π / c] := by
    have hal := Verif.Crystal.alphastar_eq h
    generalize arccos _ = al at hal
    obtain ⟨as, bs, cs, be, ga, e1, e2, e3, e5, e6, hB⟩ := Verif.Crystal.bmatrix_eq h hal
    rw [hB]
    congr 1
    obtain ⟨cb, sb, _, _⟩ := Verif.Crystal.cos_betastar h e5
    obtain ⟨cg, sg, _, _⟩ := Verif.Crystal.cos_gammastar h e6
    obtain ⟨_, sal, _, _⟩ := Verif.Crystal.cos_alphastar h hal
    have ca : cos (Lattice.alphaRad ⟨a, b, c, 90, 90, 90⟩) = 0 := cos_right
    have cb' : cos (Lattice.betaRad ⟨a, b, c, 90, 90, 90⟩) = 0 := cos_right
    have cg' : cos (Lattice.gammaRad ⟨a, b, c, 90, 90, 90⟩) = 0 := cos_right
    have sa : sin (Lattice.alphaRad ⟨a, b, c, 90, 90, 90⟩) = 1 := sin_right
    have sb' : sin (Lattice.betaRad ⟨a, b, c, 90, 90, 90⟩) = 1 := sin_right
    have sg' : sin (Lattice.gammaRad ⟨a, b, c, 90, 90, 90⟩) = 1 := sin_right
    have hd : Verif.Crystal.disc ⟨a, b, c, 90, 90, 90⟩ = 1 := by unfold Verif.Crystal.disc; rw [ca, cb', cg']; norm_num
    rw [Verif.Crystal.astar_eq h, hd, sa] at e1
    rw [Verif.Crystal.bstar_eq h, hd, sb'] at e2
    rw [Verif.Crystal.cstar_eq h, hd, sg'] at e3
    rw [ca, cb', cg', sa, sg'] at cb
    rw [sa, sg', hd] at sb
    rw [ca, cb', cg', sa, sb'] at cg
    rw [sa, sb', hd] at sg
    rw [sb', sg', hd] at sal
    cases e1; cases e2; cases e3
    rw [cb, sb, cg, sg, sal, ca]
    ext i j
    fin_cases i <;> fin_cases j <;> simp
  unfold ubmatrix
  rw [hU, ok_bind, hB, ok_bind, one_mul]
  rfl

theorem polar {x y : ℝ} (h : x ≠ 0 ∨ y ≠ 0) : cos (arctan2 y x) = x / √(x ^ 2 + y ^ 2) ∧ sin (arctan2 y x) = y / √(x ^ 2 + y ^ 2) := by
  have hz : (⟨x, y⟩ : ℂ) ≠ 0 := fun e => by
    have e1 := congrArg Complex.re e
    have e2 := congrArg Complex.im e
    simp at e1 e2
    tauto
  have hn : ‖(⟨x, y⟩ : ℂ)‖ = √(x ^ 2 + y ^ 2) := by
    rw [Complex.norm_def, Complex.normSq_apply]
    congr 1
    ring
  unfold arctan2
  rw [Complex.cos_arg hz, Complex.sin_arg, hn]
  exact ⟨rfl, rfl⟩

theorem getQ_ortho {a b c : ℝ} (ha : 0 < a) (hb : 0 < b) (hc : 0 < c) {Q : Vec} (hQ : Q ≠ 0) : Lattice.getQ ⟨a, b, c, 90, 90, 90⟩ Q =
    .ok √((2 * π / a * Q 0) ^ 2 + (2 * π / b * Q 1) ^ 2 + (2 * π / c * Q 2) ^ 2) := by
  have hv := valid_ortho ha hb hc
  obtain ⟨E, F, hE, hF⟩ := Verif.Crystal.valid_realised hv
  obtain ⟨d, -, -, h, -⟩ := Verif.Crystal.C41_spacing hv hE hF hQ
  rw [h, Verif.Crystal.len, Verif.Crystal.vecOf_dot (Verif.Crystal.dual_gram hv hE hF)]
  congr 2
  simp only [Verif.Crystal.gstarOf, Verif.Crystal.disc, Lattice.alphaRad, Lattice.betaRad, Lattice.gammaRad, cos_right, sin_right]
  have := pi_pos.ne'
  simp [mulVec, dotProduct, Fin.sum_univ_three]
  field_simp
  ring

/-- The spectrometer of the examples with another crystal. -/
noncomputable def benchWith (c : Consts) (l : Lattice) : Inst :=
  { bench c cs!"spherical" {} with sample := { benchSample with lattice := l } }

/-- It has a result at every point in reach. -/
theorem benchWith_ok (c : Consts) {l : Lattice} (hl : Valid l) {Q : Vec} (hQ : Q ≠ 0) {q : ℝ} (hq : l.getQ Q = .ok q) (hcl : Closes 1 1 q) :
    ∃ r0 RM, calcInQ c (benchWith c l) Q 0 = .ok (r0, RM) := by
  have hp := pi_pos
  obtain ⟨lam, hlam, hl0⟩ := wave_bench c cs!"spherical" {}
  obtain ⟨m, hm, e1, e2, e3, e4, -, e6, -, e8, e9, e10, e11, -⟩ := decode_bench c cs!"spherical" {} lam
  refine C137_exists_partial (i := benchWith c l) (m := m) (f := .spherical) hl hQ ?_ hlam hm (spherical_form _ rfl) hq le_rfl one_pos one_pos rfl ?_ hcl e1 e2 ?_ ?_ ?_
    ?_ ?_ ?_ (fun h => by cases h)
  · change crossProduct benchSample.u benchSample.v ≠ 0
    rw [cross_bench]
    exact fun h => by simpa using congrFun h 2
  · change _ = kinetic c.scipy 1 - 0
    ring
  · rw [e6]; norm_num
  · rw [e8]; norm_num
  · rw [e4]; norm_num
  · rw [e9]
    unfold deg2rad
    simp only [Option.getD_none]
    positivity
  · rw [e10]
    unfold deg2rad
    simp only [Option.getD_none]
    positivity
  · rw [e11]
    unfold deg2rad
    simp only [Option.getD_none]
    positivity

theorem closes_one : Closes 1 1 1 := by
  rw [Verif.Tools.closes_iff one_pos zero_le_one one_pos, abs_le]
  norm_num

/-- **C138** (partial) for a cubic cell oriented along its axes the matrix in the frame of the crystal, before small entries
are removed, gives a displacement in reciprocal lattice units the exponent which the matrix in the frame of `Q` gives its
components along and across `Q`.  Missing: other cells and orientations; see `C138_ortho_false`. -/
theorem C138_cubic_partial {c : Consts} {i : Inst} {Q : Vec} {W a : ℝ} {r : Res} (ha : 0 < a) (hl : i.sample.lattice = ⟨a, a, a, 90, 90, 90⟩)
    (hu : i.sample.u = ![1, 0, 0]) (hv : i.sample.v = ![0, 1, 0]) (hQ : Q 0 ≠ 0 ∨ Q 1 ≠ 0) (h : pointAt c i (Q, W) = .ok r) :
    ∃ UB r0 RM, ubmatrix i.sample.lattice i.sample.u i.sample.v = .ok UB ∧ calcInQ c i Q W = .ok (r0, RM) ∧
      r = ⟨chopNumber r0, RM.map chopEntry, (crystalFrame UB Q RM).map chopEntry⟩ ∧
      ∀ d, quad (crystalFrame UB Q RM) d = quad RM (alongQ UB Q d) := by
  unfold pointAt at h
  obtain ⟨⟨r0, RM⟩, h1, h⟩ := bind_eq_ok.1 h
  obtain ⟨UB, h2, h⟩ := bind_eq_ok.1 h
  have h3 : ubmatrix i.sample.lattice i.sample.u i.sample.v = .ok UB := lift_ok h2
  cases h
  refine ⟨UB, r0, RM, h3, h1, rfl, fun d => ?_⟩
  rw [hl, hu, hv, ub_ortho ha ha ha] at h3
  have h3 := Except.ok.inj h3
  have hp := pi_pos
  have hs : 0 < 2 * π / a := by positivity
  obtain ⟨s, hs'⟩ : ∃ s, s = 2 * π / a := ⟨_, rfl⟩
  rw [← hs'] at h3 hs
  have hx : (UB *ᵥ Q) 0 = s * Q 0 := by rw [← h3]; simp [mulVec, dotProduct, Fin.sum_univ_three]
  have hy : (UB *ᵥ Q) 1 = s * Q 1 := by rw [← h3]; simp [mulVec, dotProduct, Fin.sum_univ_three]
  obtain ⟨e1, e2⟩ := polar (x := s * Q 0) (y := s * Q 1) (by
    rcases hQ with h | h
    · exact .inl (mul_ne_zero hs.ne' h)
    · exact .inr (mul_ne_zero hs.ne' h))
  unfold crystalFrame alongQ
  dsimp only
  rw [hx, hy, neg_neg]
  unfold rotation
  rw [e1, e2, ← h3]
  generalize √((s * Q 0) ^ 2 + (s * Q 1) ^ 2) = n
  simp only [quad, extend, mul_apply, transpose_apply, mulVec, dotProduct, Fin.sum_univ_four, Fin.sum_univ_three]
  simp
  ring

/-- A point to which `C138_cubic_partial` applies. -/
example (c : Consts) : ∃ r, pointAt c (benchWith c ⟨2 * π, 2 * π, 2 * π, 90, 90, 90⟩) (![0, 1, 0], 0) = .ok r := by
  have hp : 0 < 2 * π := by linarith [pi_pos]
  have hQ : (![0, 1, 0] : Vec) ≠ 0 := fun h => by simpa using congrFun h 1
  obtain ⟨r0, RM, h⟩ := benchWith_ok c (valid_ortho hp hp hp) hQ (q := 1) (by
    rw [getQ_ortho hp hp hp hQ]
    simp) closes_one
  unfold pointAt
  rw [h, ok_bind]
  change ∃ r, (lift (ubmatrix ⟨2 * π, 2 * π, 2 * π, 90, 90, 90⟩ ![1, 0, 0] ![0, 1, 0]) >>= _) = Except.ok r
  rw [ub_ortho hp hp hp, lift, ok_bind]
  exact ⟨_, rfl⟩

/-- **C138** fails in general: the columns of the matrix in the frame of the crystal are scaled by the wrong reciprocal
axes.  For a cell with a = 4π, b = 2π and `Q` along b, a step along a* counts four times as much as it should. -/
theorem C138_ortho_false (c : Consts) : ∃ (i : Inst) (Q : Vec) (UB : Mat) (r0 : ℝ) (RM : M4) (d : Fin 4 → ℝ),
    Valid i.sample.lattice ∧ ubmatrix i.sample.lattice i.sample.u i.sample.v = .ok UB ∧ calcInQ c i Q 0 = .ok (r0, RM) ∧
      pointAt c i (Q, 0) = .ok ⟨chopNumber r0, RM.map chopEntry, (crystalFrame UB Q RM).map chopEntry⟩ ∧
      quad (crystalFrame UB Q RM) d = 4 * quad RM (alongQ UB Q d) ∧ 0 < quad RM (alongQ UB Q d) := by
  have hp : 0 < 2 * π := by linarith [pi_pos]
  have hp' : 0 < 4 * π := by linarith [pi_pos]
  have hQ : (![0, 1, 0] : Vec) ≠ 0 := fun h => by simpa using congrFun h 1
  have hv := valid_ortho hp' hp hp
  have hub := ub_ortho hp' hp hp
  rw [div_self hp.ne', show 2 * π / (4 * π) = 1 / 2 by field_simp; norm_num] at hub
  have hq : Lattice.getQ ⟨4 * π, 2 * π, 2 * π, 90, 90, 90⟩ ![0, 1, 0] = .ok 1 := by
    rw [getQ_ortho hp' hp hp hQ]
    simp
  obtain ⟨r0, RM, h⟩ := benchWith_ok c hv hQ hq closes_one
  obtain ⟨hS, -⟩ := C137_spd (i := benchWith c _) hv h
  have hubi : ubmatrix (benchWith c ⟨4 * π, 2 * π, 2 * π, 90, 90, 90⟩).sample.lattice (benchWith c ⟨4 * π, 2 * π, 2 * π, 90, 90, 90⟩).sample.u
      (benchWith c ⟨4 * π, 2 * π, 2 * π, 90, 90, 90⟩).sample.v = .ok _ := hub
  have e11 : 0 < RM 1 1 := by
    have := hS.pos ![0, 1, 0, 0] ⟨1, by simp⟩
    simpa [quad, Fin.sum_univ_four] using this
  have hpt : pointAt c (benchWith c ⟨4 * π, 2 * π, 2 * π, 90, 90, 90⟩) (![0, 1, 0], 0) = .ok ⟨chopNumber r0, RM.map chopEntry,
      (crystalFrame !![1 / 2, 0, 0; 0, 1, 0; 0, 0, 1] ![0, 1, 0] RM).map chopEntry⟩ := by
    unfold pointAt
    rw [h, ok_bind]
    dsimp only
    rw [hubi, lift, ok_bind]
    rfl
  have ex : ((!![1 / 2, 0, 0; 0, 1, 0; 0, 0, 1] : Mat) *ᵥ ![0, 1, 0]) 0 = 0 := by simp [mulVec, dotProduct, Fin.sum_univ_three]
  have ey : ((!![1 / 2, 0, 0; 0, 1, 0; 0, 0, 1] : Mat) *ᵥ ![0, 1, 0]) 1 = 1 := by simp [mulVec, dotProduct, Fin.sum_univ_three]
  have e2 : quad RM (alongQ !![1 / 2, 0, 0; 0, 1, 0; 0, 0, 1] ![0, 1, 0] ![1, 0, 0, 0]) = RM 1 1 / 4 := by
    unfold alongQ
    dsimp only
    rw [ex, ey]
    simp [quad, mulVec, dotProduct, Fin.sum_univ_four, Fin.sum_univ_three]
    ring
  have e1 : quad (crystalFrame !![1 / 2, 0, 0; 0, 1, 0; 0, 0, 1] ![0, 1, 0] RM) ![1, 0, 0, 0] = RM 1 1 := by
    obtain ⟨p1, p2⟩ := polar (x := 0) (y := 1) (.inr one_ne_zero)
    unfold crystalFrame rotation
    dsimp only
    rw [ex, ey, neg_neg, p1, p2]
    simp [quad, extend, mul_apply, vecMul, dotProduct, Fin.sum_univ_four]
  refine ⟨benchWith c ⟨4 * π, 2 * π, 2 * π, 90, 90, 90⟩, ![0, 1, 0], _, r0, RM, ![1, 0, 0, 0], hv, hubi, h, hpt, ?_, ?_⟩
  · rw [e1, e2]; ring
  · rw [e2]; positivity

end Verif.Tof
