import Verif.Convolution.Lemmas
import Verif.Convolution.Reach

/-!
# Property theorems C144 and C145: the convolution with the resolution function
-/

namespace Verif.Convolution

open Real Matrix MeasureTheory Filter Topology
open Verif.Crystal (Fail Vec Mat npSqrt npDiv npDiv_ok npSqrt_ok standardSystem)
open Verif.Resolution (M4 Decoupled Inst Res calcResolution hkls Query)
open Verif.Tools (quad SPD Arg cleanArgs)

theorem continuous_displaced (ax : Vec × Vec × Vec) (p : Point) : Continuous (displaced ax p) := by
  unfold displaced
  fun_prop

/-- The transformation as a matrix, for variables in the order vertical, along the first axis, along the second, energy. -/
def transform (c : Coeffs) : M4 := !![0, c.tqx, 0, 0; 0, c.tqyx, c.tqyy, 0; c.tqz, 0, 0, 0; 0, c.tqwx, c.tqwy, c.tqww]

theorem transform_apply (c : Coeffs) (v : Fin 4 → ℝ) : toLin' (transform c) v = displacement c (v 1) (v 2) (v 0) (v 3) := by
  ext i
  fin_cases i <;> simp [transform, displacement, mulVec, dotProduct, Fin.sum_univ_four] <;> ring

theorem det_transform (c : Coeffs) : (transform c).det = c.tqx * c.tqyy * c.tqz * c.tqww := by
  rw [det_succ_row_zero]
  simp [Fin.sum_univ_four, det_fin_three, Fin.succAbove, transform]
  ring

/-- C144.  For a positive definite matrix without elements between the vertical component and the others, the coefficients
exist, and they are a change of variables under which the Gaussian of the matrix becomes the standard Gaussian: the point
sampled for the variables `t` is displaced by a `d` at which the quadratic form is `t ⬝ t`; each displacement belongs to exactly
one `t`; and volumes shrink by the square root of the determinant of the matrix. -/
theorem C144_variables {R : M4} (h : SPD R) (hd : Decoupled R) : ∃ c, coeffs R = .ok c ∧
    (∀ (ax : Vec × Vec × Vec) (p : Point), ∃ T : (Fin 4 → ℝ) ≃ₗ[ℝ] (Fin 4 → ℝ),
      (∀ t, sampled c ax p (t 0) (t 1) (t 2) (t 3) = displaced ax p (T t)) ∧ (∀ t, quad R (T t) = t ⬝ᵥ t) ∧
      LinearMap.det (T : (Fin 4 → ℝ) →ₗ[ℝ] (Fin 4 → ℝ)) = 1 / √R.det) ∧ c.detM = R.det := by
  obtain ⟨c, hc, hx, hy, hz, hw, e1, d0, e2, e3⟩ := coeffs_ok h
  rw [cut_of_decoupled hd] at e1 e3
  refine ⟨c, hc, fun ax p => ?_, e1⟩
  let B : M4 := !![c.tqx, 0, 0, 0; c.tqyx, c.tqyy, 0, 0; 0, 0, c.tqz, 0; c.tqwx, c.tqwy, 0, c.tqww]
  have hB : B.det = c.tqx * c.tqyy * c.tqz * c.tqww := by
    rw [det_succ_row_zero]
    simp [Fin.sum_univ_four, det_fin_three, Fin.succAbove, B]
    ring
  have happ : ∀ t, toLin' B t = displacement c (t 0) (t 1) (t 2) (t 3) := fun t => by
    ext i
    fin_cases i <;> simp [B, displacement, mulVec, dotProduct, Fin.sum_univ_four] <;> ring
  have hne : LinearMap.det (toLin' B) ≠ 0 := by
    rw [LinearMap.det_toLin', hB]
    positivity
  refine ⟨LinearMap.equivOfDetNeZero _ hne, fun t => ?_, fun t => ?_, ?_⟩
  · rw [sampled_eq, ← happ]
    rfl
  · change quad R (toLin' B t) = _
    rw [happ, e3]
    simp only [dotProduct, Fin.sum_univ_four]
    ring
  · change LinearMap.det (toLin' B) = _
    rw [LinearMap.det_toLin', hB, ← e1, eq_div_iff (sqrt_pos.2 d0).ne', e2]

/-- A diagonal matrix with couplings of the energy. -/
example : ∃ R : M4, SPD R ∧ Decoupled R ∧ R 0 3 ≠ 0 ∧ R 0 1 ≠ 0 := by
  refine ⟨!![3, 1, 0, 1; 1, 3, 0, 1; 0, 0, 2, 0; 1, 1, 0, 3], ⟨?_, ?_⟩, ?_, by simp, by simp⟩
  · intro k l
    fin_cases k <;> fin_cases l <;> rfl
  · intro x hx
    have e : quad !![(3 : ℝ), 1, 0, 1; 1, 3, 0, 1; 0, 0, 2, 0; 1, 1, 0, 3] x =
        2 * x 0 ^ 2 + 2 * x 1 ^ 2 + 2 * x 2 ^ 2 + 2 * x 3 ^ 2 + (x 0 + x 1 + x 3) ^ 2 := by
      simp [quad, Fin.sum_univ_four]
      ring
    rw [e]
    obtain ⟨k, hk⟩ := hx
    have : 0 < x k ^ 2 := by positivity
    fin_cases k <;> simp at this <;> positivity
  · intro k hk
    fin_cases k <;> first | exact absurd rfl hk | simp

/-- The change of variables in the integral. -/
theorem gauss4_displacement {R : M4} {c : Coeffs} (hx : 0 < c.tqx) (hy : 0 < c.tqyy) (hz : 0 < c.tqz) (hw : 0 < c.tqww) (d0 : 0 < c.detM)
    (e2 : c.tqx * c.tqyy * c.tqz * c.tqww * √c.detM = 1)
    (e3 : ∀ tx ty tz tw, quad (cut R) (displacement c tx ty tz tw) = tx ^ 2 + ty ^ 2 + tz ^ 2 + tw ^ 2)
    {f : (Fin 4 → ℝ) → ℝ} (hf : Continuous f) {C : ℝ} (hC : ∀ d, |f d| ≤ C) :
    gauss4 (fun x y z w => f (displacement c x y z w)) / √c.detM = ∫ d : Fin 4 → ℝ, f d * exp (-(1 / 2) * quad (cut R) d) := by
  have hdet : (transform c).det ≠ 0 := by
    rw [det_transform]
    positivity
  have hcont : Continuous fun q : ℝ × ℝ × ℝ × ℝ => f (displacement c q.1 q.2.1 q.2.2.1 q.2.2.2) := by
    refine hf.comp ?_
    unfold displacement
    fun_prop
  rw [gauss4_eq hcont fun x y z w => hC _]
  have hq : Continuous fun d : Fin 4 → ℝ => f d * exp (-(1 / 2) * quad (cut R) d) := by
    refine hf.mul ?_
    unfold quad
    fun_prop
  have hmap := Real.map_matrix_volume_pi_eq_smul_volume_pi hdet
  have hT : Measurable (toLin' (transform c)) := (LinearMap.continuous_on_pi _).measurable
  have hi := integral_map (μ := volume) hT.aemeasurable (f := fun d : Fin 4 → ℝ => f d * exp (-(1 / 2) * quad (cut R) d))
    hq.aestronglyMeasurable
  rw [hmap, integral_smul_measure] at hi
  have e : (fun v : Fin 4 → ℝ => f (toLin' (transform c) v) * exp (-(1 / 2) * quad (cut R) (toLin' (transform c) v))) =
      fun v : Fin 4 → ℝ => f (displacement c (v 1) (v 2) (v 0) (v 3)) * exp (-(1 / 2) * ∑ i, v i ^ 2) := by
    funext v
    rw [transform_apply, e3, Fin.sum_univ_four]
    congr 3
    ring
  rw [e] at hi
  rw [← hi]
  have hs := (sqrt_pos.2 d0).ne'
  have hpos : 0 < c.tqx * c.tqyy * c.tqz * c.tqww := by positivity
  rw [det_transform, ENNReal.toReal_ofReal (abs_nonneg _), abs_of_pos (by positivity), smul_eq_mul, mul_comm, mul_div_assoc]
  have : (c.tqx * c.tqyy * c.tqz * c.tqww)⁻¹ = √c.detM := inv_eq_of_mul_eq_one_right e2
  rw [this, div_self hs, mul_one]

/-- What is asked of a cross section. -/
structure Smooth (S : Point → ℝ) : Prop where
  cont : Continuous S
  bounded : ∃ C, ∀ q, |S q| ≤ C

theorem continuous_sampled (c : Coeffs) (ax : Vec × Vec × Vec) (p : Point) {S : Point → ℝ} (hS : Smooth S) :
    Continuous fun q : ℝ × ℝ × ℝ × ℝ => S (sampled c ax p q.1 q.2.1 q.2.2.1 q.2.2.2) := by
  refine hS.cont.comp ?_
  unfold sampled
  fun_prop

/-- The value of `fixAt`. -/
noncomputable def fixValue {n : ℕ} (c : Coeffs) (ax : Vec × Vec × Vec) (p : Point) (sqw : Fin n → Point → ℝ) (factor : Fin n → ℝ) (M0 M1 : ℕ) : ℝ :=
  (∑ j, quadrature4 M0 M1 (fun x y z w => sqw j (sampled c ax p x y z w)) * factor j) / √c.detM * (if M1 = 0 then 0.79788 else 1) *
    (if M0 = 0 then 0.79788 ^ 3 else 1)

theorem fixAt_ok {n : ℕ} {c : Coeffs} (d0 : 0 < c.detM) (ax : Vec × Vec × Vec) (p : Point) (sqw : Fin n → Point → ℝ) (factor : Fin n → ℝ)
    (M0 M1 : ℕ) : fixAt c ax p sqw factor M0 M1 = .ok (fixValue c ax p sqw factor M0 M1) := by
  unfold fixAt fixValue
  rw [npSqrt_ok d0.le, ok_bind, npDiv_ok (sqrt_pos.2 d0).ne', ok_bind]
  have e : (∑ j, gridSum c ax p (sqw j) M0 M1 * factor j) * step M0 ^ 3 * step M1 =
      ∑ j, quadrature4 M0 M1 (fun x y z w => sqw j (sampled c ax p x y z w)) * factor j := by
    rw [Finset.sum_mul, Finset.sum_mul]
    refine Finset.sum_congr rfl fun j _ => ?_
    rw [← gridSum_eq]
    ring
  rw [e]
  by_cases h0 : M0 = 0 <;> by_cases h1 : M1 = 0 <;> simp [h0, h1, pure_ok]

theorem fixValue_tendsto {n : ℕ} {R : M4} (h : SPD R) {c : Coeffs} (hc : coeffs R = .ok c) (ax : Vec × Vec × Vec) (p : Point)
    {sqw : Fin n → Point → ℝ} (hS : ∀ j, Smooth (sqw j)) (factor : Fin n → ℝ) :
    Tendsto (fun m : ℕ × ℕ => fixValue c ax p sqw factor m.1 m.2) atTop (𝓝 (∑ j, smeared ax (cut R) (sqw j) p * factor j)) := by
  obtain ⟨c', hc', hx, hy, hz, hw, -, d0, e2, e3⟩ := coeffs_ok h
  rw [hc] at hc'
  obtain rfl := Except.ok.inj hc'
  have key : Tendsto (fun m : ℕ × ℕ => (∑ j, quadrature4 m.1 m.2 (fun x y z w => sqw j (sampled c ax p x y z w)) * factor j) / √c.detM) atTop
      (𝓝 (∑ j, smeared ax (cut R) (sqw j) p * factor j)) := by
    have e : ∑ j, smeared ax (cut R) (sqw j) p * factor j =
        (∑ j, gauss4 (fun x y z w => sqw j (sampled c ax p x y z w)) * factor j) / √c.detM := by
      rw [Finset.sum_div]
      refine Finset.sum_congr rfl fun j _ => ?_
      obtain ⟨C, hC⟩ := (hS j).bounded
      unfold smeared
      rw [← gauss4_displacement hx hy hz hw d0 e2 e3 (f := fun d => sqw j (displaced ax p d))
        ((hS j).cont.comp (continuous_displaced ax p)) fun d => hC _, div_mul_eq_mul_div]
      rfl
    rw [e]
    refine Tendsto.div_const (tendsto_finset_sum _ fun j _ => Tendsto.mul_const _ ?_) _
    obtain ⟨C, hC⟩ := (hS j).bounded
    rw [← prod_atTop_atTop_eq]
    exact tendsto_quadrature4 tendsto_fst tendsto_snd (continuous_sampled c ax p (hS j)) fun x y z w => hC _
  refine key.congr' ?_
  filter_upwards [eventually_ge_atTop (1, 1)] with m hm
  have h0 : m.1 ≠ 0 := by have := hm.1; simp only at this; omega
  have h1 : m.2 ≠ 0 := by have := hm.2; simp only at this; omega
  simp [fixValue, h0, h1]

/-- The results for all points. -/
theorem convolveAt_fix {G : Type} {n : ℕ} (gen : Random G) (g : G) (ax : Vec × Vec × Vec) {rs : List Res} (h1 : rs.length ≠ 1)
    (hR : ∀ r ∈ rs, SPD r.rms) {cs : List Coeffs} (hcs : rs.mapM (fun r => coeffs r.rms) = .ok cs) (ps : List Point) (sqw : Fin n → Point → ℝ)
    (pref : Option (Pref n)) (nargout : ℤ) {f : Pref n} (hf : prefactor pref nargout = .ok f) (M0 M1 : ℕ) (seed : Option ℕ) :
    convolveAt gen g ax rs ps sqw pref nargout .fix (.list [M0, M1]) seed =
      .ok ((ps.zip (rs.zip cs)).map (fun x => fixValue x.2.2 ax x.1 sqw (f.factor x.1) M0 M1 * x.2.1.r0 + f.background x.1), g) := by
  have hd : ∀ x ∈ ps.zip (rs.zip cs), 0 < x.2.2.detM := by
    intro x hx
    have hm := (List.of_mem_zip hx).2
    have : ∀ (rs : List Res) (cs : List Coeffs), rs.mapM (fun r => coeffs r.rms) = .ok cs → (∀ r ∈ rs, SPD r.rms) → ∀ y ∈ rs.zip cs, 0 < y.2.detM := by
      intro rs
      induction rs with
      | nil => intro cs _ _ y hy; simp at hy
      | cons r rs ih =>
        intro cs h hR y hy
        obtain ⟨c, hc, -, -, -, -, -, d0, -⟩ := coeffs_ok (hR r (by simp))
        rw [List.mapM_cons, hc, ok_bind] at h
        obtain ⟨cs', h', e⟩ := bind_eq_ok.1 h
        obtain rfl := Except.ok.inj e
        rcases List.mem_cons.1 hy with rfl | hy
        · exact d0
        · exact ih cs' h' (fun r hr => hR r (by simp [hr])) y hy
    exact this rs cs hcs hR _ hm
  unfold convolveAt
  rw [if_neg h1, hcs, hf]
  simp only [lift, gridSize, ok_bind]
  have : fixAll ax sqw f (M0, M1) (ps.zip (rs.zip cs)) =
      .ok ((ps.zip (rs.zip cs)).map (fun x => fixValue x.2.2 ax x.1 sqw (f.factor x.1) M0 M1 * x.2.1.r0 + f.background x.1)) := by
    unfold fixAll
    generalize ps.zip (rs.zip cs) = l at hd
    induction l with
    | nil => rfl
    | cons x l ih =>
      rw [List.mapM_cons, ih fun y hy => hd y (by simp [hy]), fixAt_ok (hd x (by simp))]
      rfl
  change (do
    let l ← fixAll ax sqw f (M0, M1) (ps.zip (rs.zip cs))
    pure (l, g)) = _
  rw [this]
  rfl

theorem coeffs_all : ∀ {rs : List Res}, (∀ r ∈ rs, SPD r.rms) → ∃ cs, rs.mapM (fun r => coeffs r.rms) = .ok cs ∧
    List.Forall₂ (fun r c => coeffs r.rms = .ok c) rs cs
  | [], _ => ⟨[], rfl, .nil⟩
  | r :: rs, h => by
    obtain ⟨c, hc, -⟩ := coeffs_ok (h r (by simp))
    obtain ⟨cs, h1, h2⟩ := coeffs_all (rs := rs) fun r hr => h r (by simp [hr])
    exact ⟨c :: cs, by rw [List.mapM_cons, hc, h1]; rfl, .cons hc h2⟩

theorem expected_eq {n : ℕ} (ax : Vec × Vec × Vec) (sqw : Fin n → Point → ℝ) (f : Pref n) (p : Point) (r : Res) :
    expected ax sqw f p r = (∑ j, smeared ax r.rms (sqw j) p * f.factor p j) * r.r0 + f.background p := by
  unfold expected smeared
  rw [Finset.sum_mul]
  congr 1
  refine Finset.sum_congr rfl fun j _ => ?_
  have e : ∫ d : Fin 4 → ℝ, sqw j (displaced ax p d) * (r.r0 * exp (-(1 / 2) * quad r.rms d)) =
      r.r0 * ∫ d : Fin 4 → ℝ, sqw j (displaced ax p d) * exp (-(1 / 2) * quad r.rms d) := by
    rw [← integral_const_mul]
    refine integral_congr_ae (Eventually.of_forall fun d => ?_)
    dsimp only
    ring
  rw [e]
  ring

/-- The method `'fix'` at points that the instrument can reach. -/
theorem convolve_fix {G : Type} {n m : ℕ} (gen : Random G) (g : G) {i : Inst} {E F : Mat} (h : Level i.setup E F) {q : Query}
    (hq : q.Len m) (hm : m ≠ 1) (hS : i.setup.settings.Valid m) (hp : Points i.setup F q) (sqw : Fin n → Point → ℝ)
    (pref : Option (Pref n)) (nargout : ℤ) {f : Pref n} (hf : prefactor pref nargout = .ok f) (seed : Option ℕ) :
    ∃ (i' : Inst) (ax : Vec × Vec × Vec) (P : Fin m → Point) (r : Fin m → Res) (c : Fin m → Coeffs),
      calcResolution i (.list q.H) (.list q.K) (.list q.L) (.list q.W) = (i', none) ∧ i'.result = some (List.ofFn r) ∧
      standardSystem i.setup.lattice i.setup.u i.setup.v = .ok ax ∧ (hkls q.H q.K q.L).zip q.W = List.ofFn P ∧
      (∀ k, SPD (r k).rms ∧ Decoupled (r k).rms ∧ coeffs (r k).rms = .ok (c k)) ∧
      ∀ M0 M1, convolve gen g i sqw pref nargout (.list q.H) (.list q.K) (.list q.L) (.list q.W) .fix (.list [M0, M1]) seed =
        (i', .ok (List.ofFn fun k => fixValue (c k) ax (P k) sqw (f.factor (P k)) M0 M1 * (r k).r0 + f.background (P k), g)) := by
  obtain ⟨i', rs, hc, hset, hres, hlen, hgood⟩ := calc_points h hq hS hp
  obtain ⟨x, y, z, hax, -⟩ := h.axes
  obtain ⟨cs, hcs, hall⟩ := coeffs_all fun r hr => (hgood r hr).1
  have hlc : cs.length = m := by rw [← hall.length_eq, hlen]
  obtain ⟨ps, hps⟩ : ∃ ps, ps = (hkls q.H q.K q.L).zip q.W := ⟨_, rfl⟩
  have hlp : ps.length = m := by
    rw [hps, List.length_zip, Verif.Resolution.hkls_length hq.H hq.K hq.L, hq.W, min_self]
  have e1 : ps = List.ofFn fun k : Fin m => ps[(k : ℕ)] := by
    refine List.ext_getElem (by simp [hlp]) fun k h1 h2 => by simp
  have e2 : rs = List.ofFn fun k : Fin m => rs[(k : ℕ)] := by
    refine List.ext_getElem (by simp [hlen]) fun k h1 h2 => by simp
  refine ⟨i', (x, y, z), fun k => ps[(k : ℕ)], fun k => rs[(k : ℕ)], fun k => cs[(k : ℕ)], hc, by rw [hres]; exact congrArg some e2, hax,
    by rw [← hps]; exact e1, fun k => ?_, fun M0 M1 => ?_⟩
  · obtain ⟨s1, s2, -⟩ := hgood rs[(k : ℕ)] (List.getElem_mem _)
    exact ⟨s1, s2, List.forall₂_iff_get.1 hall |>.2 k _ _⟩
  · unfold convolve
    rw [hc, Verif.Resolution.clean_query hq]
    dsimp only
    rw [hset.1, hset.2.1, hset.2.2, hax, hres]
    simp only [lift, ok_bind, Option.getD_some]
    rw [convolveAt_fix gen g (x, y, z) (by omega) (fun r hr => (hgood r hr).1) hcs _ sqw pref nargout hf, ← hps]
    congr 3
    refine List.ext_getElem (by simp [hlp, hlen, hlc]) fun k h1 h2 => ?_
    rw [List.getElem_map, List.getElem_ofFn]
    simp only [List.getElem_zip]

/-- C145.  For every valid instrument with a sample that is the same seen from above and below (or without shape), two or more
points (or none) in the scattering plane that it
can reach, bounded and continuous cross sections, and any prefactor and background: the method `'fix'` succeeds for every
`ACCURACY`, and when both its numbers grow, the results converge to the convolution with the resolution function.  Missing:
samples with a tilted shape (`C145_coupled_false`), points outside the plane (the matrix is wrong there, C95), and single points
(`C147_single`). -/
theorem C145_grid_partial {G : Type} {n m : ℕ} (gen : Random G) (g : G) {i : Inst} {E F : Mat} (h : Level i.setup E F) {q : Query}
    (hq : q.Len m) (hm : m ≠ 1) (hS : i.setup.settings.Valid m) (hp : Points i.setup F q) {sqw : Fin n → Point → ℝ} (hw : ∀ j, Smooth (sqw j))
    (pref : Option (Pref n)) (nargout : ℤ) {f : Pref n} (hf : prefactor pref nargout = .ok f) (seed : Option ℕ) :
    ∃ (i' : Inst) (ax : Vec × Vec × Vec) (P : Fin m → Point) (r : Fin m → Res) (v : ℕ → ℕ → Fin m → ℝ),
      calcResolution i (.list q.H) (.list q.K) (.list q.L) (.list q.W) = (i', none) ∧ i'.result = some (List.ofFn r) ∧
      standardSystem i.setup.lattice i.setup.u i.setup.v = .ok ax ∧ (hkls q.H q.K q.L).zip q.W = List.ofFn P ∧
      (∀ M0 M1, convolve gen g i sqw pref nargout (.list q.H) (.list q.K) (.list q.L) (.list q.W) .fix (.list [M0, M1]) seed =
          (i', .ok (List.ofFn (v M0 M1), g))) ∧
      ∀ k, Tendsto (fun M : ℕ × ℕ => v M.1 M.2 k) atTop (𝓝 (expected ax sqw f (P k) (r k))) := by
  obtain ⟨i', ax, P, r, c, h1, h2, h3, h4, h5, h6⟩ := convolve_fix gen g h hq hm hS hp sqw pref nargout hf seed
  refine ⟨i', ax, P, r, _, h1, h2, h3, h4, h6, fun k => ?_⟩
  obtain ⟨s1, s2, s3⟩ := h5 k
  have ht := fixValue_tendsto s1 s3 ax (P k) hw (f.factor (P k))
  rw [cut_of_decoupled s2] at ht
  rw [expected_eq]
  exact (ht.mul_const _).add_const _

/-- The factor of the rule with one vertical point. -/
noncomputable def kappa : ℝ := 0.79788 * √(π / 2)

theorem kappa_near : |kappa - 1| < 1e-5 := by
  have h1 : (0.79788 * √(π / 2)) ^ 2 = 0.79788 ^ 2 * (π / 2) := by
    rw [mul_pow, sq_sqrt (by have := pi_pos; positivity)]
  have h2 := pi_gt_d6
  have h3 := pi_lt_d6
  have h0 : 0 ≤ 0.79788 * √(π / 2) := by positivity
  unfold kappa
  rw [abs_lt]
  constructor
  · nlinarith
  · nlinarith

/-- One point in the vertical direction. -/
theorem quadrature4_zero (M0 : ℕ) (f : ℝ → ℝ → ℝ → ℝ → ℝ) :
    quadrature4 M0 0 f = (quadrature M0 fun x => quadrature M0 fun y => quadrature M0 fun w => f x y 0 w) * π := by
  unfold quadrature4
  rw [quadrature]
  have e : node 0 0 = 0 := by
    unfold node step
    simp
    ring
  simp [e, weight, step]

theorem gauss4_const (f : ℝ → ℝ → ℝ → ℝ) : gauss4 (fun x y _ w => f x y w) =
    (∫ x, (∫ y, (∫ w, f x y w * exp (-(1 / 2) * w ^ 2)) * exp (-(1 / 2) * y ^ 2)) * exp (-(1 / 2) * x ^ 2)) * √(2 * π) := by
  unfold gauss4
  rw [integral_const_mul, integral_gaussian]
  congr 2
  ring

theorem fixValue_level {n : ℕ} {R : M4} (h : SPD R) {c : Coeffs} (hc : coeffs R = .ok c) (ax : Vec × Vec × Vec) (p : Point)
    {sqw : Fin n → Point → ℝ} (hS : ∀ j, Smooth (sqw j)) (factor : Fin n → ℝ) :
    Tendsto (fun m : ℕ => fixValue c ax p sqw factor m 0) atTop
      (𝓝 (kappa * ∑ j, (∫ d : Fin 4 → ℝ, sqw j (displaced ax p (Function.update d 2 0)) * exp (-(1 / 2) * quad (cut R) d)) * factor j)) := by
  obtain ⟨c', hc', hx, hy, hz, hw, -, d0, e2, e3⟩ := coeffs_ok h
  rw [hc] at hc'
  obtain rfl := Except.ok.inj hc'
  have hupd : ∀ x y z w, sampled c ax p x y 0 w = displaced ax p (Function.update (displacement c x y z w) 2 0) := fun x y z w => by
    rw [sampled_eq]
    congr 1
    ext i
    fin_cases i <;> simp [displacement, Function.update]
  have key : Tendsto (fun m : ℕ => (∑ j, quadrature4 m 0 (fun x y z w => sqw j (sampled c ax p x y z w)) * factor j) / √c.detM * 0.79788) atTop
      (𝓝 (kappa * ∑ j, (∫ d : Fin 4 → ℝ, sqw j (displaced ax p (Function.update d 2 0)) * exp (-(1 / 2) * quad (cut R) d)) * factor j)) := by
    have e : kappa * ∑ j, (∫ d : Fin 4 → ℝ, sqw j (displaced ax p (Function.update d 2 0)) * exp (-(1 / 2) * quad (cut R) d)) * factor j =
        (∑ j, ((∫ x, (∫ y, (∫ w, sqw j (sampled c ax p x y 0 w) * exp (-(1 / 2) * w ^ 2)) * exp (-(1 / 2) * y ^ 2)) * exp (-(1 / 2) * x ^ 2)) * π) *
          factor j) / √c.detM * 0.79788 := by
      rw [Finset.mul_sum, Finset.sum_div, Finset.sum_mul]
      refine Finset.sum_congr rfl fun j _ => ?_
      obtain ⟨C, hC⟩ := (hS j).bounded
      rw [← gauss4_displacement hx hy hz hw d0 e2 e3 (f := fun d => sqw j (displaced ax p (Function.update d 2 0)))
        ((hS j).cont.comp ((continuous_displaced ax p).comp (by fun_prop))) fun d => hC _]
      simp only [← hupd]
      rw [gauss4_const fun x y w => sqw j (sampled c ax p x y 0 w)]
      have hk : kappa * √(2 * π) = 0.79788 * π := by
        unfold kappa
        rw [mul_assoc, ← sqrt_mul (by have := pi_pos; positivity), show π / 2 * (2 * π) = π ^ 2 by ring, sqrt_sq pi_pos.le]
      generalize (∫ x, (∫ y, (∫ w, sqw j (sampled c ax p x y 0 w) * exp (-(1 / 2) * w ^ 2)) * exp (-(1 / 2) * y ^ 2)) * exp (-(1 / 2) * x ^ 2)) = I
      linear_combination I * factor j / √c.detM * hk
    rw [e]
    refine (Tendsto.div_const (tendsto_finset_sum _ fun j _ => Tendsto.mul_const _ ?_) _).mul_const _
    obtain ⟨C, hC⟩ := (hS j).bounded
    simp only [quadrature4_zero]
    exact (tendsto_quadrature3 tendsto_id (continuous_sampled c ax p (hS j)) (fun x y z w => hC _) tendsto_const_nhds).mul_const _
  refine key.congr' ?_
  filter_upwards [eventually_ge_atTop 1] with m hm
  have h0 : m ≠ 0 := by omega
  simp [fixValue, h0]

/-- C145, the default of one point in the vertical direction.  When `ACCURACY[1]` is zero and the other number grows, the results
converge to the convolution of the cross section without its dependence on the vertical displacement, apart from a factor of
the integral that differs from 1 by less than 0.00001. -/
theorem C145_level {G : Type} {n m : ℕ} (gen : Random G) (g : G) {i : Inst} {E F : Mat} (h : Level i.setup E F) {q : Query}
    (hq : q.Len m) (hm : m ≠ 1) (hS : i.setup.settings.Valid m) (hp : Points i.setup F q) {sqw : Fin n → Point → ℝ} (hw : ∀ j, Smooth (sqw j))
    (pref : Option (Pref n)) (nargout : ℤ) {f : Pref n} (hf : prefactor pref nargout = .ok f) (seed : Option ℕ) :
    ∃ (i' : Inst) (ax : Vec × Vec × Vec) (P : Fin m → Point) (r : Fin m → Res) (v : ℕ → Fin m → ℝ) (κ : ℝ),
      calcResolution i (.list q.H) (.list q.K) (.list q.L) (.list q.W) = (i', none) ∧ i'.result = some (List.ofFn r) ∧
      standardSystem i.setup.lattice i.setup.u i.setup.v = .ok ax ∧ (hkls q.H q.K q.L).zip q.W = List.ofFn P ∧
      (∀ M, convolve gen g i sqw pref nargout (.list q.H) (.list q.K) (.list q.L) (.list q.W) .fix (.list [M, 0]) seed =
          (i', .ok (List.ofFn (v M), g))) ∧ |κ - 1| < 1e-5 ∧
      ∀ k, Tendsto (fun M => v M k) atTop (𝓝 (κ * (∑ j, f.factor (P k) j *
        ∫ d : Fin 4 → ℝ, sqw j (displaced ax (P k) (Function.update d 2 0)) * ((r k).r0 * exp (-(1 / 2) * quad (r k).rms d))) +
        f.background (P k))) := by
  obtain ⟨i', ax, P, r, c, h1, h2, h3, h4, h5, h6⟩ := convolve_fix gen g h hq hm hS hp sqw pref nargout hf seed
  refine ⟨i', ax, P, r, _, kappa, h1, h2, h3, h4, fun M => h6 M 0, kappa_near, fun k => ?_⟩
  obtain ⟨s1, s2, s3⟩ := h5 k
  have ht := fixValue_level s1 s3 ax (P k) hw (f.factor (P k))
  rw [cut_of_decoupled s2] at ht
  have e : kappa * (∑ j, f.factor (P k) j *
        ∫ d : Fin 4 → ℝ, sqw j (displaced ax (P k) (Function.update d 2 0)) * ((r k).r0 * exp (-(1 / 2) * quad (r k).rms d))) =
      kappa * (∑ j, (∫ d : Fin 4 → ℝ, sqw j (displaced ax (P k) (Function.update d 2 0)) * exp (-(1 / 2) * quad (r k).rms d)) *
        f.factor (P k) j) * (r k).r0 := by
    rw [mul_assoc, Finset.sum_mul]
    congr 1
    refine Finset.sum_congr rfl fun j _ => ?_
    have e : ∫ d : Fin 4 → ℝ, sqw j (displaced ax (P k) (Function.update d 2 0)) * ((r k).r0 * exp (-(1 / 2) * quad (r k).rms d)) =
        (r k).r0 * ∫ d : Fin 4 → ℝ, sqw j (displaced ax (P k) (Function.update d 2 0)) * exp (-(1 / 2) * quad (r k).rms d) := by
      rw [← integral_const_mul]
      refine integral_congr_ae (Eventually.of_forall fun d => ?_)
      dsimp only
      ring
    rw [e]
    ring
  rw [e]
  exact (ht.mul_const _).add_const _

end Verif.Convolution
