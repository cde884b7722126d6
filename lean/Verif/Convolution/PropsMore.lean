import Verif.Convolution.Props
import Mathlib.Analysis.Matrix.Order

/-!
# Property theorems C145: an example, and what fails
-/

namespace Verif.Convolution

open Real Matrix MeasureTheory Filter Topology
open scoped MatrixOrder
open Verif.Crystal (Fail Vec Mat npSqrt npDiv npDiv_ok npSqrt_ok standardSystem vecOf len)
open Verif.Resolution (M4 Decoupled Inst Res calcResolution hkls Query InPlane demoSetup demoSetup_valid demo_valid demo_reaches demo_len)
open Verif.Tools (quad SPD Arg cleanArgs)

/-! ## C145 -/

/-- Two points of the default instrument, one of them inelastic. -/
noncomputable def twoPoints : Query := ⟨[3 / 5, 1], [4 / 5, 0], [0, 0], [1, 1 / 2]⟩

theorem twoPoints_ok : Points demoSetup 1 twoPoints := by
  intro p hp
  simp only [twoPoints, hkls, List.zip_cons_cons, List.zip_nil_right, List.mem_cons, List.not_mem_nil, or_false] at hp
  rcases hp with rfl | rfl
  · refine ⟨fun h => by have := congrFun h 0; norm_num at this, ?_, ![3 / 5, 4 / 5, 0] 0, ![3 / 5, 4 / 5, 0] 1, ?_⟩
    · have e : len (vecOf 1 ![(3 / 5 : ℝ), 4 / 5, 0]) = 1 := by rw [demo_len, sqrt_eq_one]; norm_num
      rw [e]
      exact demo_reaches (by norm_num) (by norm_num) (by norm_num) (by norm_num)
    · ext i
      fin_cases i <;> simp [demoSetup]
  · refine ⟨fun h => by have := congrFun h 0; norm_num at this, ?_, 1, 0, ?_⟩
    · have e : len (vecOf 1 ![(1 : ℝ), 0, 0]) = 1 := by rw [demo_len, sqrt_eq_one]; norm_num
      rw [e]
      exact demo_reaches (by norm_num) (by norm_num) (by norm_num) (by norm_num)
    · ext i
      fin_cases i <;> simp [demoSetup]

/-- A cross section that depends on all coordinates: a Lorentzian around a dispersion. -/
noncomputable def lorentzian (p : Point) : ℝ := 1 / (1 + (p.2 - p.1 0 - p.1 1 ^ 2 - p.1 2) ^ 2)

theorem lorentzian_smooth : Smooth lorentzian where
  cont := by
    unfold lorentzian
    refine Continuous.div (by fun_prop) (by fun_prop) fun p => ?_
    positivity
  bounded := ⟨1, fun p => by
    unfold lorentzian
    rw [abs_of_nonneg (by positivity), div_le_one (by positivity)]
    have := sq_nonneg (p.2 - p.1 0 - p.1 1 ^ 2 - p.1 2)
    linarith⟩

example {G : Type} (gen : Random G) (g : G) : ∃ (P : Fin 2 → Point) (r : Fin 2 → Res) (ax : Vec × Vec × Vec) (v : ℕ → ℕ → Fin 2 → ℝ),
    (∀ M0 M1, (convolve gen g (Verif.Resolution.new demoSetup) (fun _ : Fin 1 => lorentzian) none 0 (.list twoPoints.H) (.list twoPoints.K)
      (.list twoPoints.L) (.list twoPoints.W) .fix (.list [M0, M1]) none).2 = .ok (List.ofFn (v M0 M1), g)) ∧
    ∀ k, Tendsto (fun M : ℕ × ℕ => v M.1 M.2 k) atTop (𝓝 (expected ax (fun _ : Fin 1 => lorentzian) ⟨fun _ _ => 1, fun _ => 0⟩ (P k) (r k))) := by
  obtain ⟨i', ax, P, r, v, -, -, -, -, h1, h2⟩ := C145_grid_partial gen g (i := Verif.Resolution.new demoSetup) (.of demoSetup_valid) (q := twoPoints) (m := 2)
    ⟨rfl, rfl, rfl, rfl⟩ (by norm_num) (demo_valid 2) twoPoints_ok (sqw := fun _ : Fin 1 => lorentzian) (fun _ => lorentzian_smooth) none 0 rfl none
  exact ⟨P, r, ax, v, fun M0 M1 => by rw [h1], h2⟩

/-- The default instrument with a sample that is the same seen from above and below. -/
noncomputable def turnedSetup : Verif.Resolution.Setup :=
  { demoSetup with settings.sample.shape := some (.one !![2, 1, 0; 1, 4, 0; 0, 0, 9]) }

theorem turned_level : Level turnedSetup ((2 * π) • 1) 1 :=
  ⟨demoSetup_valid.cell, demoSetup_valid.real, demoSetup_valid.dual, demoSetup_valid.indep, Or.inr ⟨_, rfl, by simp [Verif.Resolution.Flat]⟩⟩

theorem turned_spd : SPD !![(2 : ℝ), 1, 0; 1, 4, 0; 0, 0, 9] := by
  refine ⟨fun i j => by fin_cases i <;> fin_cases j <;> simp, fun v ⟨k, hk⟩ => ?_⟩
  simp only [quad, Fin.sum_univ_three]
  simp
  by_contra hc
  push Not at hc
  have h0 : v 0 = 0 := by nlinarith [sq_nonneg (v 0), sq_nonneg (v 0 + v 1), sq_nonneg (v 1), sq_nonneg (v 2)]
  have h1 : v 1 = 0 := by nlinarith [sq_nonneg (v 0), sq_nonneg (v 0 + v 1), sq_nonneg (v 1), sq_nonneg (v 2)]
  have h2 : v 2 = 0 := by nlinarith [sq_nonneg (v 0), sq_nonneg (v 0 + v 1), sq_nonneg (v 1), sq_nonneg (v 2)]
  fin_cases k
  exacts [hk h0, hk h1, hk h2]

example {G : Type} (gen : Random G) (g : G) : ∃ (P : Fin 2 → Point) (r : Fin 2 → Res) (ax : Vec × Vec × Vec) (v : ℕ → ℕ → Fin 2 → ℝ),
    (∀ M0 M1, (convolve gen g (Verif.Resolution.new turnedSetup) (fun _ : Fin 1 => lorentzian) none 0 (.list twoPoints.H) (.list twoPoints.K)
      (.list twoPoints.L) (.list twoPoints.W) .fix (.list [M0, M1]) none).2 = .ok (List.ofFn (v M0 M1), g)) ∧
    ∀ k, Tendsto (fun M : ℕ × ℕ => v M.1 M.2 k) atTop (𝓝 (expected ax (fun _ : Fin 1 => lorentzian) ⟨fun _ _ => 1, fun _ => 0⟩ (P k) (r k))) := by
  have d := demo_valid 2
  obtain ⟨i', ax, P, r, v, -, -, -, -, h1, h2⟩ := C145_grid_partial gen g (i := Verif.Resolution.new turnedSetup) turned_level (q := twoPoints) (m := 2)
    ⟨rfl, rfl, rfl, rfl⟩ (by norm_num)
    ⟨d.mono, d.ana, d.guide, d.monitor, d.detector, ⟨d.sample.width, d.sample.depth, d.sample.height,
      (fun M e => by obtain rfl := Verif.Resolution.Shape.one.inj (Option.some.inj e); exact turned_spd), (fun _ e => nomatch e), d.sample.dir⟩,
      d.hcol, d.vcol, d.arms⟩
    (fun p hp => ⟨(twoPoints_ok p hp).1, (twoPoints_ok p hp).2.1 |> fun h => ⟨h.ei, h.ef, h.mono, h.ana, h.closes, h.q⟩, (twoPoints_ok p hp).2.2⟩)
    (sqw := fun _ : Fin 1 => lorentzian) (fun _ => lorentzian_smooth) none 0 rfl none
  exact ⟨P, r, ax, v, fun M0 M1 => by rw [h1], h2⟩

/-- The integral of the Gaussian of a positive definite matrix. -/
theorem integral_quad {R : M4} (h : SPD R) : ∫ d : Fin 4 → ℝ, exp (-(1 / 2) * quad R d) = (2 * π) ^ 2 / √R.det := by
  have hp := (Verif.Resolution.posDef_iff_spd R).2 h
  obtain ⟨B, hB⟩ := CStarAlgebra.nonneg_iff_eq_star_mul_self.mp hp.posSemidef.nonneg
  rw [star_eq_conjTranspose, conjTranspose_eq_transpose_of_trivial] at hB
  have hdet : R.det = B.det ^ 2 := by rw [hB, det_mul, det_transpose, sq]
  have hne : B.det ≠ 0 := fun h0 => by
    have := hp.det_pos
    rw [hdet, h0] at this
    norm_num at this
  have hmap := Real.map_matrix_volume_pi_eq_smul_volume_pi hne
  have hT : Measurable (toLin' B) := (LinearMap.continuous_on_pi _).measurable
  have hi := integral_map (μ := volume) hT.aemeasurable (f := fun d : Fin 4 → ℝ => exp (-(1 / 2) * (d ⬝ᵥ d)))
    (by apply Continuous.aestronglyMeasurable; unfold dotProduct; fun_prop)
  rw [hmap, integral_smul_measure] at hi
  have e1 : ∀ d : Fin 4 → ℝ, toLin' B d ⬝ᵥ toLin' B d = quad R d := fun d => by
    rw [toLin'_apply, Verif.Resolution.quad_eq, hB, ← mulVec_mulVec, dotProduct_mulVec _ Bᵀ, vecMul_transpose]
  simp only [e1] at hi
  rw [← hi]
  have e2 : ∫ d : Fin 4 → ℝ, exp (-(1 / 2) * (d ⬝ᵥ d)) = (2 * π) ^ 2 := by
    have := integral_fintype_prod_volume_eq_pow (ι := Fin 4) fun t : ℝ => exp (-(1 / 2) * t ^ 2)
    rw [integral_gaussian] at this
    have e : (fun d : Fin 4 → ℝ => exp (-(1 / 2) * (d ⬝ᵥ d))) = fun d => ∏ i, exp (-(1 / 2) * d i ^ 2) := by
      funext d
      rw [← exp_sum, ← Finset.mul_sum]
      congr 2
      exact Finset.sum_congr rfl fun i _ => by ring
    rw [e, this, Fintype.card_fin, show π / (1 / 2) = 2 * π by ring, show 4 = 2 * 2 from rfl, pow_mul,
      sq_sqrt (by have := pi_pos; positivity)]
  rw [e2, hdet, sqrt_sq_eq_abs, ENNReal.toReal_ofReal (abs_nonneg _), abs_inv, smul_eq_mul]
  field_simp

/-- Leaving out the elements of the vertical component makes the determinant larger. -/
theorem det_cut {R : M4} (h : SPD R) (hd : ¬ Decoupled R) : R.det < (cut R).det := by
  have hL := Verif.Resolution.SPD.sub h (e := ![(0 : Fin 4), 1, 3]) (by decide)
  have hLp := (Verif.Resolution.posDef_iff_spd _).2 hL
  obtain ⟨L, hLdef⟩ : ∃ L, L = R.submatrix ![(0 : Fin 4), 1, 3] ![(0 : Fin 4), 1, 3] := ⟨_, rfl⟩
  rw [← hLdef] at hL hLp
  have hinv := (Verif.Resolution.posDef_iff_spd _).1 hLp.inv
  have hb : ∃ k, ![R 0 2, R 1 2, R 3 2] k ≠ 0 := by
    by_contra hn
    push Not at hn
    apply hd
    intro k hk
    rw [h.symm 2 k]
    fin_cases k
    · exact ⟨hn 0, hn 0⟩
    · exact ⟨hn 1, hn 1⟩
    · exact absurd rfl hk
    · exact ⟨hn 2, hn 2⟩
  have hq := hinv.pos _ hb
  have hdet := hLp.det_pos
  have hadj : L⁻¹ = L.det⁻¹ • L.adjugate := by rw [inv_def, Ring.inverse_eq_inv]
  have hq' : 0 < quad L.adjugate ![R 0 2, R 1 2, R 3 2] := by
    have e : quad L.adjugate ![R 0 2, R 1 2, R 3 2] = L.det * quad L⁻¹ ![R 0 2, R 1 2, R 3 2] := by
      rw [hadj]
      unfold quad
      simp only [Matrix.smul_apply, smul_eq_mul, Finset.mul_sum]
      refine Finset.sum_congr rfl fun k _ => Finset.sum_congr rfl fun l _ => ?_
      field_simp
    rw [e]
    positivity
  have e : (cut R).det - R.det = quad L.adjugate ![R 0 2, R 1 2, R 3 2] := by
    have hL3 : L = !![R 0 0, R 0 1, R 0 3; R 1 0, R 1 1, R 1 3; R 3 0, R 3 1, R 3 3] := by
      rw [hLdef]
      ext i j
      fin_cases i <;> fin_cases j <;> rfl
    rw [hL3, adjugate_fin_three_of]
    rw [Matrix.det_succ_row_zero, Matrix.det_succ_row_zero]
    simp [Fin.sum_univ_four, Matrix.det_fin_three, Fin.succAbove, cut, quad, Fin.sum_univ_three]
    rw [h.symm 1 0, h.symm 2 0, h.symm 3 0, h.symm 2 1, h.symm 3 1, h.symm 3 2]
    ring
  linarith

/-- C145 fails for matrices with elements between the vertical component and the others, which the code does not read.  For
any list of such matrices, a constant cross section and every point, the limit of the results for fine grids is smaller than
the convolution. -/
theorem C145_coupled_false {G : Type} {m : ℕ} (gen : Random G) (g : G) (ax : Vec × Vec × Vec) (hm : m ≠ 1) {r : Fin m → Res} {P : Fin m → Point}
    (hR : ∀ k, SPD (r k).rms ∧ ¬ Decoupled (r k).rms ∧ 0 < (r k).r0) (seed : Option ℕ) :
    ∃ (v : ℕ → ℕ → Fin m → ℝ) (u : Fin m → ℝ), (∀ M0 M1, convolveAt gen g ax (List.ofFn r) (List.ofFn P) (fun (_ : Fin 1) _ => 1) none 0 .fix
        (.list [M0, M1]) seed = .ok (List.ofFn (v M0 M1), g)) ∧
      ∀ k, Tendsto (fun M : ℕ × ℕ => v M.1 M.2 k) atTop (𝓝 (u k)) ∧
        u k < expected ax (fun (_ : Fin 1) _ => 1) ⟨fun _ _ => 1, fun _ => 0⟩ (P k) (r k) := by
  have hex : ∀ k, ∃ c, coeffs (r k).rms = .ok c := fun k => by
    obtain ⟨c, hc, -⟩ := coeffs_ok (hR k).1
    exact ⟨c, hc⟩
  choose c hc using hex
  have hcs : (List.ofFn r).mapM (fun r => coeffs r.rms) = .ok (List.ofFn c) := by
    clear hm hR
    induction m with
    | zero => rfl
    | succ m ih =>
      rw [List.ofFn_succ, List.ofFn_succ, List.mapM_cons, hc 0, ih (P := fun k => P k.succ) _ fun k => hc k.succ]
      rfl
  refine ⟨fun M0 M1 k => fixValue (c k) ax (P k) (fun (_ : Fin 1) _ => 1) (fun _ => 1) M0 M1 * (r k).r0 + 0,
    fun k => (∑ j, smeared ax (cut (r k).rms) ((fun (_ : Fin 1) _ => 1) j) (P k) * (fun _ => 1) j) * (r k).r0 + 0, fun M0 M1 => ?_, fun k => ⟨?_, ?_⟩⟩
  · rw [convolveAt_fix gen g ax (by simpa using hm) (fun x hx => by
      obtain ⟨k, rfl⟩ := (List.mem_ofFn' _ _).1 hx
      exact (hR k).1) hcs _ _ none 0 (f := ⟨fun _ _ => 1, fun _ => 0⟩) rfl]
    congr 2
    refine List.ext_getElem (by simp) fun k h1 h2 => ?_
    simp
  · exact ((fixValue_tendsto (hR k).1 (hc k) ax (P k) (fun _ => ⟨continuous_const, 1, fun _ => by simp⟩) _).mul_const _).add_const _
  · rw [expected_eq]
    obtain ⟨s1, s2, s3⟩ := hR k
    have q0 : 0 < (r k).rms.det := ((Verif.Resolution.posDef_iff_spd _).2 s1).det_pos
    simp only [smeared, one_mul, integral_quad s1, integral_quad (cut_spd s1), mul_one, Finset.univ_unique, Finset.sum_const, Finset.card_singleton,
      one_smul, add_zero]
    refine mul_lt_mul_of_pos_right ?_ s3
    refine div_lt_div_of_pos_left (by have := pi_pos; positivity) (sqrt_pos.2 q0) ?_
    exact sqrt_lt_sqrt q0.le (det_cut s1 s2)

/-- A matrix with an element between the vertical component and the energy. -/
example : ∃ R : M4, SPD R ∧ ¬ Decoupled R := by
  refine ⟨!![3, 1, 0, 1; 1, 3, 0, 1; 0, 0, 2, 1; 1, 1, 1, 3], ⟨?_, ?_⟩, ?_⟩
  · intro k l
    fin_cases k <;> fin_cases l <;> rfl
  · intro x hx
    have e : quad !![(3 : ℝ), 1, 0, 1; 1, 3, 0, 1; 0, 0, 2, 1; 1, 1, 1, 3] x =
        2 * x 0 ^ 2 + 2 * x 1 ^ 2 + x 2 ^ 2 + x 3 ^ 2 + (x 0 + x 1 + x 3) ^ 2 + (x 2 + x 3) ^ 2 := by
      simp [quad, Fin.sum_univ_four]
      ring
    rw [e]
    obtain ⟨k, hk⟩ := hx
    have : 0 < x k ^ 2 := by positivity
    fin_cases k <;> simp at this <;> positivity
  · intro h
    have := (h 3 (by decide)).1
    simp at this

end Verif.Convolution
