import Verif.Tof.PropsCrystal

/-!
# Properties C139 to C143: uncertainties, detectors, the constructor, units and the prefactor
-/

namespace Verif.Tof

open Real Matrix
open Verif.Crystal (Fail Vec Mat Lattice deg2rad Valid getPhi ubmatrix npDiv)
open Verif.Resolution (M4 quad_eq posDef_iff_spd)
open Verif.Tools (quad SPD kinetic Closes ClosesAt arctan2)

/-! ## C139 -/

theorem completed_square {C : M4} (h : C.PosDef) (x y : Fin 4 → ℝ) :
    2 * (x ⬝ᵥ y) - y ⬝ᵥ (C *ᵥ y) ≤ x ⬝ᵥ (C⁻¹ *ᵥ x) := by
  have hdet : IsUnit C.det := isUnit_iff_ne_zero.2 h.det_pos.ne'
  have hsym : Cᵀ = C := by
    have := h.isHermitian
    rwa [IsHermitian, conjTranspose_eq_transpose_of_trivial] at this
  have hpos := h.inv.posSemidef.dotProduct_mulVec_nonneg (x - C *ᵥ y)
  have e : C⁻¹ *ᵥ (C *ᵥ y) = y := by rw [mulVec_mulVec, nonsing_inv_mul _ hdet, one_mulVec]
  have e2 : (C *ᵥ y) ⬝ᵥ (C⁻¹ *ᵥ x) = x ⬝ᵥ y := by
    rw [dotProduct_comm, dotProduct_mulVec, ← mulVec_transpose, hsym, mulVec_mulVec, mul_nonsing_inv _ hdet, one_mulVec]
  rw [star_trivial, mulVec_sub, e, sub_dotProduct, dotProduct_sub, dotProduct_sub, e2, dotProduct_comm (C *ᵥ y) y] at hpos
  linarith

theorem inverse_antitone {C D : M4} (hC : C.PosDef) (hD : D.PosDef) (h : ∀ y, y ⬝ᵥ (C *ᵥ y) ≤ y ⬝ᵥ (D *ᵥ y)) (x : Fin 4 → ℝ) :
    x ⬝ᵥ (D⁻¹ *ᵥ x) ≤ x ⬝ᵥ (C⁻¹ *ᵥ x) := by
  have hdet : IsUnit D.det := isUnit_iff_ne_zero.2 hD.det_pos.ne'
  have h1 := completed_square hC x (D⁻¹ *ᵥ x)
  have h2 := h (D⁻¹ *ᵥ x)
  have e : D *ᵥ (D⁻¹ *ᵥ x) = x := by rw [mulVec_mulVec, mul_nonsing_inv _ hdet, one_mulVec]
  rw [e, dotProduct_comm (D⁻¹ *ᵥ x) x] at h2
  linarith

/-- The lengths and angles of two sets of measures are the same and no uncertainty of the first is larger. -/
structure Sharper (m m' : Measures) : Prop where
  lPm : m.lPm = m'.lPm
  lMs : m.lMs = m'.lMs
  lSd : m.lSd = m'.lSd
  thetaI : m.thetaI = m'.thetaI
  phiI : m.phiI = m'.phiI
  tauP : |m.tauP| ≤ |m'.tauP|
  tauM : |m.tauM| ≤ |m'.tauM|
  tauD : |m.tauD| ≤ |m'.tauD|
  sLPm : |m.sLPm| ≤ |m'.sLPm|
  sLMs : |m.sLMs| ≤ |m'.sLMs|
  sLSd : |m.sLSd| ≤ |m'.sLSd|
  sThetaI : |m.sThetaI| ≤ |m'.sThetaI|
  sPhiI : |m.sPhiI| ≤ |m'.sPhiI|
  sTheta : |m.sTheta| ≤ |m'.sTheta|
  sPhi : |m.sPhi| ≤ |m'.sPhi|

theorem Sharper.variances_le {m m' : Measures} (h : Sharper m m') (j : Fin 9) : variances m j ≤ variances m' j := by
  have hp := sq_le_sq.2 h.tauP
  have hm := sq_le_sq.2 h.tauM
  have hd := sq_le_sq.2 h.tauD
  fin_cases j
  · exact add_le_add hp hm
  · exact add_le_add hm hd
  · exact sq_le_sq.2 h.sLPm
  · exact sq_le_sq.2 h.sLMs
  · exact sq_le_sq.2 h.sLSd
  · exact sq_le_sq.2 h.sThetaI
  · exact sq_le_sq.2 h.sPhiI
  · exact sq_le_sq.2 h.sTheta
  · exact sq_le_sq.2 h.sPhi

theorem jacobi_congr (c : Consts) (f : Form) (k : Kin) (ti tf : ℝ) {m m' : Measures} (h : Sharper m m') :
    jacobi c f m k ti tf = jacobi c f m' k ti tf := by
  have hR : matR f m k = matR f m' k := by
    cases f <;> simp only [matR, h.thetaI, h.phiI]
  unfold jacobi qDerivs eDerivs matRttI matRphI
  rw [hR, h.lPm, h.lMs, h.lSd, h.thetaI, h.phiI]

/-- **C139** an instrument whose uncertainties are at least as large has a resolution that is nowhere sharper: at every
distance from the point the exponent of the resolution function is at most as large. -/
theorem C139_monotone {c : Consts} {i i' : Inst} {Q : Vec} {W r0 r0' lam : ℝ} {RM RM' : M4} {m m' : Measures}
    (hk : kinematics c i Q W = kinematics c i' Q W) (hei : i.ei = i'.ei) (hq : i.sample.lattice.getQ Q = i'.sample.lattice.getQ Q)
    (hs : i.detector.shape = i'.detector.shape) (hlam : (Verif.Energy.derive c.scipy i.ei).wavelen = .num lam)
    (hm : decode i lam = .ok m) (hm' : decode i' lam = .ok m') (hle : Sharper m m')
    (h : calcInQ c i Q W = .ok (r0, RM)) (h' : calcInQ c i' Q W = .ok (r0', RM')) (x : Fin 4 → ℝ) : quad RM' x ≤ quad RM x := by
  obtain ⟨n, k, f, q, a, st⟩ := steps h
  obtain ⟨n', k', f', q', a', st'⟩ := steps h'
  obtain ⟨l1, l2, l3⟩ := st.dec
  obtain ⟨l1', l2', l3'⟩ := st'.dec
  rw [hlam] at l2
  cases l2
  rw [← hei, hlam] at l2'
  cases l2'
  rw [hm] at l3
  cases l3
  rw [hm'] at l3'
  cases l3'
  have e1 := st.kin
  rw [hk, st'.kin] at e1
  cases e1
  have e2 := st.len
  rw [hq, st'.len] at e2
  cases e2
  have e3 := st.angle
  rw [st'.angle] at e3
  cases e3
  have e4 : f = f' := by
    have h1 := st.form
    have h2 := st'.form
    unfold formOf at h1 h2
    rw [hs, h2] at h1
    cases h1
    rfl
  subst e4
  have hdet := st.det
  have hdet' := st'.det
  have eJ : jacobi c f m k (m.lPm / k.vi) (m.lSd / k.vf) = jacobi c f m' k (m'.lPm / k.vi) (m'.lSd / k.vf) := by
    rw [hle.lPm, hle.lSd]
    exact jacobi_congr c f k _ _ hle
  rw [st.rm, st'.rm, quad_eq, quad_eq]
  rw [eJ] at hdet ⊢
  have key := inverse_antitone (covariance_posDef_of_det hdet) (covariance_posDef_of_det hdet') (fun y => by
    rw [covariance_quad, covariance_quad]
    refine Finset.sum_le_sum fun j _ => ?_
    rw [mul_pow, mul_pow, sigmas_sq, sigmas_sq]
    exact mul_le_mul_of_nonneg_right (hle.variances_le j) (sq_nonneg _)) (rotation a *ᵥ x)
  have e5 (C : M4) : x ⬝ᵥ (((rotation a)ᵀ * C⁻¹ * rotation a) *ᵥ x) = (rotation a *ᵥ x) ⬝ᵥ (C⁻¹ *ᵥ (rotation a *ᵥ x)) := by
    rw [Matrix.mul_assoc, ← mulVec_mulVec, dotProduct_mulVec, ← mulVec_transpose, transpose_transpose, ← mulVec_mulVec]
  rw [e5, e5]
  exact key

theorem decode_sPhi {i : Inst} {lam : ℝ} {m : Measures} (h : decode i lam = .ok m) (x : ℝ) :
    decode { i with over := { i.over with sPhi := some x } } lam = .ok { m with sPhi := deg2rad x } := by
  unfold decode at h ⊢
  dsimp only at h ⊢
  obtain ⟨pm, h1, h⟩ := bind_eq_ok.1 h
  rw [h1, ok_bind]
  obtain ⟨tp, h2, h⟩ := bind_eq_ok.1 h
  rw [h2, ok_bind]
  obtain ⟨tm, h3, h⟩ := bind_eq_ok.1 h
  rw [h3, ok_bind]
  obtain ⟨d, h4, h⟩ := bind_eq_ok.1 h
  rw [h4, ok_bind]
  obtain ⟨gh, h5, h⟩ := bind_eq_ok.1 h
  rw [h5, ok_bind]
  obtain ⟨sl, h6, h⟩ := bind_eq_ok.1 h
  rw [h6, ok_bind]
  obtain ⟨st, h7, h⟩ := bind_eq_ok.1 h
  rw [h7, ok_bind]
  obtain ⟨tp, h8, h⟩ := bind_eq_ok.1 h
  rw [h8, ok_bind]
  obtain ⟨px, h9, h⟩ := bind_eq_ok.1 h
  rw [h9, ok_bind]
  cases h
  rfl

/-- Two instruments to which `C139_monotone` applies. -/
example (c : Consts) : ∃ lam m m' r0 r0' RM RM', Sharper m m' ∧ m.sPhi < m'.sPhi ∧
    (Verif.Energy.derive c.scipy (bench c cs!"spherical" { sPhi := some 1 }).ei).wavelen = .num lam ∧
    decode (bench c cs!"spherical" { sPhi := some 1 }) lam = .ok m ∧ decode (bench c cs!"spherical" { sPhi := some 2 }) lam = .ok m' ∧
    calcInQ c (bench c cs!"spherical" { sPhi := some 1 }) ![1, 0, 0] 0 = .ok (r0, RM) ∧
    calcInQ c (bench c cs!"spherical" { sPhi := some 2 }) ![1, 0, 0] 0 = .ok (r0', RM') := by
  obtain ⟨⟨r0, RM, h⟩, -⟩ := bench_points c spherical_form (some 1)
  obtain ⟨⟨r0', RM', h'⟩, -⟩ := bench_points c spherical_form (some 2)
  obtain ⟨lam, hlam, -⟩ := wave_bench c cs!"spherical" { sPhi := some 1 }
  obtain ⟨m, hm, -⟩ := decode_bench c cs!"spherical" { sPhi := none } lam
  have h1 := decode_sPhi hm 1
  have h2 := decode_sPhi hm 2
  have hp := pi_pos
  have hlt : deg2rad 1 < deg2rad 2 := by unfold deg2rad; linarith
  have h0 : 0 ≤ deg2rad 1 := by unfold deg2rad; positivity
  refine ⟨lam, { m with sPhi := deg2rad 1 }, { m with sPhi := deg2rad 2 }, r0, r0', RM, RM', ⟨rfl, rfl, rfl, rfl, rfl, le_rfl, le_rfl, le_rfl, le_rfl, le_rfl, le_rfl, le_rfl, le_rfl, le_rfl, ?_⟩, hlt,
    hlam, h1, h2, h, h'⟩
  dsimp only
  rw [abs_of_nonneg h0, abs_of_nonneg (h0.trans hlt.le)]
  exact hlt.le

/-! ## C140 -/

/-- **C140** the shapes of detector that are known, and no others, give a resolution. -/
theorem C140_shape {c : Consts} {i : Inst} {Q : Vec} {W r0 : ℝ} {RM : M4} (h : calcInQ c i Q W = .ok (r0, RM)) :
    i.detector.shape = cs!"spherical" ∨ i.detector.shape = cs!"cylindrical" := by
  obtain ⟨m, k, f, q, a, st⟩ := steps h
  have hf := st.form
  unfold formOf at hf
  split_ifs at hf with h1 h2
  · exact .inl h1
  · exact .inr h2

/-- **C140** where everything else can be computed, another shape raises a `DetectorError`. -/
theorem C140_other {c : Consts} {i : Inst} {Q : Vec} {W r0 : ℝ} {RM : M4} (h : calcInQ c i Q W = .ok (r0, RM)) {s : List Char}
    (h1 : s ≠ cs!"spherical") (h2 : s ≠ cs!"cylindrical") :
    calcInQ c { i with detector := { i.detector with shape := s } } Q W = .error .detectorError := by
  unfold calcInQ at h ⊢
  obtain ⟨lam, e1, h⟩ := bind_eq_ok.1 h
  obtain ⟨m, e2, h⟩ := bind_eq_ok.1 h
  obtain ⟨k, e3, h⟩ := bind_eq_ok.1 h
  obtain ⟨ti, e4, h⟩ := bind_eq_ok.1 h
  obtain ⟨tf, e5, h⟩ := bind_eq_ok.1 h
  have e2' : decode { i with detector := { i.detector with shape := s } } lam = .ok m := e2
  have e3' : kinematics c { i with detector := { i.detector with shape := s } } Q W = .ok k := e3
  have e6 : formOf { i.detector with shape := s } = .error .detectorError := by
    unfold formOf
    dsimp only
    rw [if_neg h1, if_neg h2]
  dsimp only
  rw [e1, ok_bind, e2', ok_bind, e3', ok_bind, e4, ok_bind, e5, ok_bind, e6, error_bind]

/-- **C140** the orientation of a cylinder changes nothing. -/
theorem C140_orientation (c : Consts) (i : Inst) (o : Option (List Char)) (Q : Vec) (W : ℝ) :
    calcInQ c { i with detector := { i.detector with orientation := o } } Q W = calcInQ c i Q W := rfl

/-- **C140** fails in part: the exception meant for a horizontal cylinder is never raised; a resolution is returned, the
one of the vertical cylinder. -/
theorem C140_horizontal_false (c : Consts) : ∃ (i : Inst) (Q : Vec) (W : ℝ) (r : ℝ × M4),
    i.detector.shape = cs!"cylindrical" ∧ i.detector.orientation = some cs!"horizontal" ∧ calcInQ c i Q W = .ok r ∧
      calcInQ c { i with detector := { i.detector with orientation := some cs!"vertical" } } Q W = .ok r := by
  obtain ⟨⟨r0, RM, h⟩, -⟩ := bench_points c cylindrical_form (some 1)
  refine ⟨{ bench c cs!"cylindrical" { sPhi := some 1 } with detector := { (bench c cs!"cylindrical" { sPhi := some 1 }).detector with orientation := some cs!"horizontal" } },
    ![1, 0, 0], 0, (r0, RM), rfl, rfl, ?_, ?_⟩
  · rw [C140_orientation]; exact h
  · rw [C140_orientation, C140_orientation]; exact h

/-! ## C141 -/

/-- **C141** the order in which choppers with different distances are listed is of no consequence. -/
theorem C141_order {ei : ℝ} {l l' : List Disc} (hp : l.Perm l') (hd : l.Pairwise fun a b => a.distance ≠ b.distance) (sample : Option Sample)
    (detector : Option Detector) (guides : Option (List Guide)) (thetaI phiI : ℝ) (over : Overrides) :
    create ei (.list l) sample detector guides thetaI phiI over = create ei (.list l') sample detector guides thetaI phiI over := by
  have key : choppersOf (.list l) = choppersOf (.list l') := by
    cases l with
    | nil => rw [hp.nil_eq]
    | cons a t =>
      cases l' with
      | nil => exact absurd hp.symm (by simp)
      | cons b t' =>
        unfold choppersOf
        have tr (x y z : Disc) (h1 : decide (x.distance ≤ y.distance) = true) (h2 : decide (y.distance ≤ z.distance) = true) :
            decide (x.distance ≤ z.distance) = true := by
          simp only [decide_eq_true_eq] at *
          exact h1.trans h2
        have tot (x y : Disc) : (decide (x.distance ≤ y.distance) || decide (y.distance ≤ x.distance)) = true := by
          simp only [Bool.or_eq_true, decide_eq_true_eq]
          exact le_total _ _
        have p1 := isort_perm (fun a b : Disc => decide (a.distance ≤ b.distance)) (a :: t)
        have p2 := isort_perm (fun a b : Disc => decide (a.distance ≤ b.distance)) (b :: t')
        refine List.Perm.eq_of_pairwise ?_ (isort_pairwise tr tot _) (isort_pairwise tr tot _) (p1.trans (hp.trans p2.symm))
        intro x y hx hy h1 h2
        simp only [decide_eq_true_eq] at h1 h2
        have e := le_antisymm h1 h2
        by_contra hne
        haveI : Std.Symm fun a b : Disc => a.distance ≠ b.distance := ⟨fun _ _ h => h.symm⟩
        exact hd.forall (p1.mem_iff.1 hx) (hp.mem_iff.2 (p2.mem_iff.1 hy)) hne e
  unfold create
  rw [key]

/-- **C141** choppers are used in the order in which the neutrons meet them. -/
theorem C141_sorted {ei : ℝ} {l : List Disc} {sample : Option Sample} {detector : Option Detector} {guides : Option (List Guide)} {thetaI phiI : ℝ}
    {over : Overrides} {i : Inst} (hl : l ≠ []) (h : create ei (.list l) sample detector guides thetaI phiI over = .ok i) :
    i.choppers.Perm l ∧ i.choppers.Pairwise fun a b => a.distance ≤ b.distance := by
  unfold create at h
  obtain ⟨gs, -, h⟩ := bind_eq_ok.1 h
  cases h
  cases l with
  | nil => exact absurd rfl hl
  | cons a t =>
    unfold choppersOf
    refine ⟨isort_perm _ _, (isort_pairwise (fun x y z h1 h2 => ?_) (fun x y => ?_) _).imp fun h => of_decide_eq_true h⟩
    · simp only [decide_eq_true_eq] at *
      exact h1.trans h2
    · simp only [Bool.or_eq_true, decide_eq_true_eq]
      exact le_total _ _

/-- **C141** fails in part: an instrument with one chopper, which the documentation allows, cannot be created without
guides. -/
theorem C141_single_false (ei : ℝ) (c : Disc) (sample : Option Sample) (detector : Option Detector) (thetaI phiI : ℝ) (over : Overrides) :
    create ei (.one c) sample detector none thetaI phiI over = .error .indexError ∧
      create ei (.list [c]) sample detector none thetaI phiI over = .error .indexError := ⟨rfl, rfl⟩

/-- **C141** and with guides it has no resolution at any point. -/
theorem C141_single_guides {k : Consts} {ei : ℝ} {c : Disc} {sample : Option Sample} {detector : Option Detector} {guides : Option (List Guide)}
    {thetaI phiI : ℝ} {over : Overrides} {i : Inst} (he : 0 < ei) (h : create ei (.one c) sample detector guides thetaI phiI over = .ok i) (Q : Vec)
    (W : ℝ) : calcInQ k i Q W = .error .indexError := by
  unfold create at h
  obtain ⟨gs, -, h⟩ := bind_eq_ok.1 h
  cases h
  obtain ⟨lam, -, -, e1, -⟩ := Verif.Energy.derive_consistent k.scipy he
  unfold calcInQ
  dsimp only
  rw [e1]
  rfl

/-- The examples for `C141_order`, `C141_sorted` and `C141_single_guides`. -/
example : ([defaultP, defaultM] : List Disc).Pairwise (fun a b => a.distance ≠ b.distance) ∧
    (∃ i, create 5 (.list [defaultM, defaultP]) none none none 0 0 {} = .ok i ∧ i.choppers ≠ [defaultM, defaultP]) ∧
    ∃ i, create 5 (.one defaultP) none none (some [⟨1, 2, 3, 4⟩]) 0 0 {} = .ok i := by
  have hlt : ¬(2500 : ℝ) ≤ 0 := by norm_num
  have hs : choppersOf (.list [defaultM, defaultP]) = [defaultP, defaultM] := by
    unfold choppersOf
    simp [isort, insertSorted, defaultP, defaultM]
  refine ⟨by simp [defaultP, defaultM], ?_, ⟨_, rfl⟩⟩
  unfold create
  rw [hs]
  refine ⟨_, rfl, ?_⟩
  intro h
  have := congrArg (fun l => (l.map Disc.distance).head?) h
  simp [defaultP, defaultM] at this

/-! ## C142 -/

/-- The assignments of `decode` when no attribute is replaced. -/
theorem decode_parts {i : Inst} {lam : ℝ} {m : Measures} (ho : i.over = {}) (h : decode i lam = .ok m) :
    ∃ p q r g g' gs tp tq l st top px, i.choppers = p :: q :: r ∧ i.guides = g :: g' :: gs ∧ p.toChopper.tau = .ok tp ∧ q.toChopper.tau = .ok tq ∧
      i.sample.distance = some l ∧ g'.sigmaTheta = .ok st ∧ npMax i.detector.height = .ok top ∧ npDiv top i.detector.vpixels = .ok px ∧
      m.tauP = tp / 10 ^ 6 ∧ m.tauM = tq / 10 ^ 6 ∧ m.tauD = i.detector.tau / 10 ^ 6 ∧ m.lPm = |p.distance - q.distance| / 10 ^ 2 ∧
      m.lMs = l / 10 ^ 2 ∧ m.lSd = i.detector.radius / 10 ^ 2 ∧ m.sThetaI = deg2rad (st * lam) ∧
      m.sTheta = deg2rad (max (i.sample.mosaic.getD 60 / 60) i.detector.hpixels) ∧ m.sPhi = deg2rad (max (i.sample.vmosaic.getD 60 / 60) px) := by
  unfold decode at h
  rw [ho] at h
  obtain ⟨pm, h1, h⟩ := bind_eq_ok.1 h
  obtain ⟨tp, h2, h⟩ := bind_eq_ok.1 h
  obtain ⟨tm, h3, h⟩ := bind_eq_ok.1 h
  obtain ⟨d, h4, h⟩ := bind_eq_ok.1 h
  obtain ⟨gh, h5, h⟩ := bind_eq_ok.1 h
  obtain ⟨sl, h6, h⟩ := bind_eq_ok.1 h
  obtain ⟨st, h7, h⟩ := bind_eq_ok.1 h
  obtain ⟨top, h8, h⟩ := bind_eq_ok.1 h
  obtain ⟨px, h9, h⟩ := bind_eq_ok.1 h
  split at h1
  swap
  · cases h1
  rename_i p q r hc
  cases h1
  split at h5
  swap
  · cases h5
  rename_i g g' gs hg
  cases h5
  dsimp only at h2 h3
  split at h2
  swap
  · cases h2
  rename_i t1 ht1
  cases h2
  split at h3
  swap
  · cases h3
  rename_i t2 ht2
  cases h3
  split at h4
  swap
  · cases h4
  rename_i d' hd'
  cases h4
  cases h
  exact ⟨p, q, r, g, g', gs, tp, tm, d, st, top, px, hc, hg, ht1, ht2, hd', lift_ok h7, h8, lift_ok h9, rfl, rfl, rfl, rfl, rfl, rfl, rfl, rfl, rfl⟩

theorem deg2rad_max (x y : ℝ) : x * (π / 180) ≤ deg2rad (max x y) := by
  unfold deg2rad
  rw [← mul_div_assoc]
  exact div_le_div_of_nonneg_right (mul_le_mul_of_nonneg_right (le_max_left _ _) pi_pos.le) (by norm_num)

/-- **C142** (partial) what the calculation makes of an instrument whose attributes are not replaced: times in
microseconds and lengths in centimetres become SI units; the mosaic, in minutes of arc, becomes radian.  Missing: see
`C142_distance_false`, `C142_pixel_false`, `C142_height_false` and `C142_guide_false`. -/
theorem C142_units_partial {i : Inst} {lam : ℝ} {m : Measures} (ho : i.over = {}) (h : decode i lam = .ok m) :
    ∃ p q r tp tq, i.choppers = p :: q :: r ∧ p.toChopper.tau = .ok tp ∧ q.toChopper.tau = .ok tq ∧
      m.tauP = tp / 1000000 ∧ m.tauM = tq / 1000000 ∧ m.tauD = i.detector.tau / 1000000 ∧ m.lPm = |q.distance - p.distance| / 100 ∧
      m.lSd = i.detector.radius / 100 ∧ i.sample.mosaic.getD 60 / 60 * (π / 180) ≤ m.sTheta ∧ i.sample.vmosaic.getD 60 / 60 * (π / 180) ≤ m.sPhi := by
  obtain ⟨p, q, r, g, g', gs, tp, tq, l, st, top, px, h1, h2, h3, h4, h5, h6, h7, h8, h9, h10, h11, h12, h13, h14, h15, h16, h17⟩ := decode_parts ho h
  refine ⟨p, q, r, tp, tq, h1, h3, h4, ?_, ?_, ?_, ?_, ?_, ?_, ?_⟩
  · rw [h9]; norm_num
  · rw [h10]; norm_num
  · rw [h11]; norm_num
  · rw [h12, abs_sub_comm]; norm_num
  · rw [h14]; norm_num
  · rw [h16]; exact deg2rad_max _ _
  · rw [h17]; exact deg2rad_max _ _

/-- **C142** fails for the path from the second chopper to the sample: the constructor takes `sample.distance` as measured
from the source, like the distances of the choppers, and the calculation takes it as measured from the second chopper.  The
length used exceeds that of the guide by the distance of the chopper. -/
theorem C142_distance_false {ei thetaI phiI lam : ℝ} {cs : ChoppersArg} {s : Option Sample} {d : Option Detector} {i : Inst} {m : Measures}
    (hi : create ei cs s d none thetaI phiI {} = .ok i) (hm : decode i lam = .ok m) :
    ∃ p q r g g', i.choppers = p :: q :: r ∧ i.guides = [g, g'] ∧ m.lMs = (g'.length + q.distance) / 100 := by
  unfold create at hi
  obtain ⟨gs, hg, hi⟩ := bind_eq_ok.1 hi
  cases hi
  obtain ⟨p, q, r, -, -, -, tp, tq, l, -, -, -, h1, -, -, -, h5, -, -, -, -, -, -, -, h13, -⟩ := decode_parts rfl hm
  dsimp only at h1 h5
  rw [h1] at hg
  dsimp only at hg
  rw [h5] at hg
  cases hg
  refine ⟨p, q, r, _, _, h1, rfl, ?_⟩
  rw [h13]
  norm_num

/-- **C142** fails for the pixels of the detector, documented as minutes of arc: they are used as degrees, so that their
share of the uncertainty is sixty times too large. -/
theorem C142_pixel_false {i : Inst} {lam : ℝ} {m : Measures} (ho : i.over = {}) (h : decode i lam = .ok m)
    (hp : i.sample.mosaic.getD 60 / 60 ≤ i.detector.hpixels) : m.sTheta = 60 * (i.detector.hpixels / 60 * (π / 180)) := by
  obtain ⟨p, q, r, g, g', gs, tp, tq, l, st, top, px, h1, h2, h3, h4, h5, h6, h7, h8, h9, h10, h11, h12, h13, h14, h15, h16, h17⟩ := decode_parts ho h
  rw [h16, max_eq_right hp]
  unfold deg2rad
  ring

/-- **C142** fails for the vertical pixels: the coverage of the detector is taken to be the upper end of the range instead
of its extent.  For a range symmetric about the plane this is half of it. -/
theorem C142_height_false {i : Inst} {lam t : ℝ} {m : Measures} (ho : i.over = {}) (h : decode i lam = .ok m) (hh : i.detector.height = [-t, t])
    (ht : 0 ≤ t) (hp : i.sample.vmosaic.getD 60 / 60 ≤ t / i.detector.vpixels) :
    m.sPhi = (t - -t) / i.detector.vpixels * (π / 180) / 2 := by
  obtain ⟨p, q, r, g, g', gs, tp, tq, l, st, top, px, h1, h2, h3, h4, h5, h6, h7, h8, h9, h10, h11, h12, h13, h14, h15, h16, h17⟩ := decode_parts ho h
  rw [hh] at h7
  have e7 : top = t := by
    have := Except.ok.inj h7
    rw [← this]
    simp [ht]
  have e8 : px = t / i.detector.vpixels := by
    rw [e7] at h8
    unfold Verif.Crystal.npDiv at h8
    split_ifs at h8
    cases h8
    rfl
  rw [h17, e8, max_eq_right hp]
  unfold deg2rad
  ring

/-- **C142** fails for the divergence of the beam: the angle that the guide gives in radian is converted from degrees to
radian again. -/
theorem C142_guide_false {i : Inst} {lam : ℝ} {m : Measures} (ho : i.over = {}) (h : decode i lam = .ok m) :
    ∃ g g' gs st, i.guides = g :: g' :: gs ∧ g'.sigmaTheta = .ok st ∧ m.sThetaI = st * lam * (π / 180) := by
  obtain ⟨p, q, r, g, g', gs, tp, tq, l, st, top, px, h1, h2, h3, h4, h5, h6, h7, h8, h9, h10, h11, h12, h13, h14, h15, h16, h17⟩ := decode_parts ho h
  refine ⟨g, g', gs, st, h2, h6, ?_⟩
  rw [h15]
  unfold deg2rad
  ring

/-- Where the attributes needed exist and nothing is divided by zero, there is no exception. -/
theorem decode_exists {i : Inst} {p q : Disc} {r : List Disc} {g g' : Guide} {gs : List Guide} {tp tq l x : ℝ} {xs : List ℝ}
    (h1 : i.choppers = p :: q :: r) (h2 : i.guides = g :: g' :: gs) (h3 : p.toChopper.tau = .ok tp) (h4 : q.toChopper.tau = .ok tq)
    (h5 : i.sample.distance = some l) (h6 : g'.m = 1) (h7 : i.detector.height = x :: xs) (h8 : i.detector.vpixels ≠ 0)
    (h9 : 0 ≤ i.sample.mosaic.getD 60) (h10 : i.sample.mosaic.getD 60 ≤ 60) (lam : ℝ) : ∃ m, decode i lam = .ok m := by
  have hp := two_le_pi
  have hc : cos (deg2rad (i.sample.mosaic.getD 60 / 60)) ≠ 0 := by
    have e : deg2rad (i.sample.mosaic.getD 60 / 60) = i.sample.mosaic.getD 60 * (π / 10800) := by unfold deg2rad; ring
    have h0 : (0 : ℝ) < π / 10800 := by positivity
    refine (cos_pos_of_mem_Ioo ⟨?_, ?_⟩).ne' <;> rw [e]
    · have := mul_nonneg h9 h0.le
      linarith
    · have := mul_le_mul_of_nonneg_right h10 h0.le
      linarith
  have hst : g'.sigmaTheta = .ok 2.03e-3 := by
    unfold Guide.sigmaTheta
    have h0 : 0 ≤ sin (2.03e-3 : ℝ) := sin_nonneg_of_nonneg_of_le_pi (by norm_num) (by linarith)
    rw [h6, one_mul, Verif.Crystal.npSqrt_ok (sq_nonneg _), sqrt_sq h0, ok_bind, Verif.Crystal.npArcsin_ok ⟨neg_one_le_sin _, sin_le_one _⟩,
      arcsin_sin]
    · linarith
    · linarith
  unfold decode
  simp only [h1, ok_bind, h3, h4, h5, h2, hst, Verif.Crystal.npDiv_ok hc, lift, h7, npMax, Verif.Crystal.npDiv_ok h8]
  exact ⟨_, rfl⟩

/-- Instruments to which these apply: the default one, and one with pixels of 15 minutes of arc and a sample of small
mosaic. -/
example (ei lam : ℝ) : (∃ i m, create ei .missing none none none 0 0 {} = .ok i ∧ decode i lam = .ok m ∧ m.lMs = 36) ∧
    ∃ (i : Inst) (m : Measures), i.over = {} ∧ decode i lam = .ok m ∧ i.sample.mosaic.getD 60 / 60 ≤ i.detector.hpixels ∧
      i.detector.height = [-15, 15] ∧ i.sample.vmosaic.getD 60 / 60 ≤ 15 / i.detector.vpixels := by
  constructor
  · obtain ⟨i, hi⟩ : ∃ i, create ei .missing none none none 0 0 {} = .ok i := ⟨_, rfl⟩
    obtain ⟨m, hm⟩ := decode_exists (i := i) (p := defaultP) (q := defaultM) (r := []) (g := ⟨1, 2500 - 0, 15, 15⟩) (g' := ⟨1, 3600 - 2500, 15, 15⟩)
      (gs := []) (tp := 38) (tq := 6) (l := 3600) (x := -15) (xs := [15]) (by cases hi; rfl) (by cases hi; rfl) rfl rfl (by cases hi; rfl) rfl
      (by cases hi; rfl) (by cases hi; change (256 : ℝ) ≠ 0; norm_num) (by cases hi; change (0 : ℝ) ≤ 60; norm_num) (by cases hi; exact le_rfl) lam
    refine ⟨i, m, hi, hm, ?_⟩
    obtain ⟨p, q, r, g, g', h1, h2, h3⟩ := C142_distance_false hi hm
    cases hi
    cases h1
    cases h2
    rw [h3]
    norm_num [defaultM]
  · obtain ⟨m, hm⟩ := decode_exists (i := ⟨ei, [defaultP, defaultM], ⟨⟨6, 7, 8, 90, 90, 90⟩, ![1, 0, 0], ![0, 1, 0], some 3, some 3, some 3600⟩,
      ⟨cs!"spherical", [-15, 15], 300, 15, 256, 1 / 10, none⟩, [⟨1, 2500, 15, 15⟩, ⟨1, 1100, 15, 15⟩], 0, 0, {}⟩) rfl rfl (tp := 38) (tq := 6) rfl rfl rfl rfl rfl
      (by norm_num) (by norm_num) (by norm_num) lam
    exact ⟨_, m, rfl, hm, by norm_num, rfl, by norm_num⟩

/-! ## C143 -/

theorem scaled_valid {l : Lattice} (h : Valid l) {s : ℝ} (hs : 0 < s) : Valid { l with a := s * l.a, b := s * l.b, c := s * l.c } :=
  ⟨mul_pos hs h.a_pos, mul_pos hs h.b_pos, mul_pos hs h.c_pos, h.sum, h.tri_a, h.tri_b, h.tri_c⟩

theorem scaled_gram {l : Lattice} {s : ℝ} (x y : Vec) :
    (Verif.Crystal.gstarOf { l with a := s * l.a, b := s * l.b, c := s * l.c } *ᵥ x) ⬝ᵥ y = (Verif.Crystal.gstarOf l *ᵥ x) ⬝ᵥ y / s ^ 2 := by
  simp only [Verif.Crystal.gstarOf, Verif.Crystal.disc, Lattice.alphaRad, Lattice.betaRad, Lattice.gammaRad]
  simp [mulVec, dotProduct, Fin.sum_univ_three]
  simp only [mul_pow, div_eq_mul_inv, mul_inv]
  ring

theorem scaled_lengths {l : Lattice} (h : Valid l) {s : ℝ} (hs : 0 < s) {Q : Vec} (hQ : Q ≠ 0) :
    Lattice.getDSpacing { l with a := s * l.a, b := s * l.b, c := s * l.c } (s • Q) = l.getDSpacing Q := by
  have h' := scaled_valid h hs
  obtain ⟨E, F, hE, hF⟩ := Verif.Crystal.valid_realised h
  obtain ⟨E', F', hE', hF'⟩ := Verif.Crystal.valid_realised h'
  have hQ' : s • Q ≠ 0 := smul_ne_zero hs.ne' hQ
  obtain ⟨d, e1, e2, -, e3⟩ := Verif.Crystal.C41_spacing h hE hF hQ
  obtain ⟨d', e1', e2', -, e3'⟩ := Verif.Crystal.C41_spacing h' hE' hF' hQ'
  have key : Verif.Crystal.len (Verif.Crystal.vecOf F' (s • Q)) = Verif.Crystal.len (Verif.Crystal.vecOf F Q) := by
    unfold Verif.Crystal.len
    rw [Verif.Crystal.vecOf_dot (Verif.Crystal.dual_gram h' hE' hF'), Verif.Crystal.vecOf_dot (Verif.Crystal.dual_gram h hE hF), scaled_gram,
      mulVec_smul, smul_dotProduct, dotProduct_smul, smul_eq_mul, smul_eq_mul]
    congr 1
    field_simp
  rw [e1, e1']
  congr 1
  rw [key, ← e3] at e3'
  have h0 : Verif.Crystal.len (Verif.Crystal.vecOf F Q) ≠ 0 := by
    rintro h0
    rw [h0, zero_mul] at e3
    linarith [pi_pos]
  exact mul_left_cancel₀ h0 e3'

theorem scaled_phi {l : Lattice} (h : Valid l) {s : ℝ} (hs : 0 < s) {Q u v : Vec} (hQ : Q ≠ 0) (hn : crossProduct u v ≠ 0) :
    getPhi { l with a := s * l.a, b := s * l.b, c := s * l.c } u v (s • Q) = getPhi l u v Q := by
  have h' := scaled_valid h hs
  obtain ⟨E, F, hE, hF⟩ := Verif.Crystal.valid_realised h
  obtain ⟨E', F', hE', hF'⟩ := Verif.Crystal.valid_realised h'
  have hQ' : s • Q ≠ 0 := smul_ne_zero hs.ne' hQ
  unfold getPhi
  rw [Verif.Crystal.C42_angle h hE hF hQ hn, Verif.Crystal.C42_angle h' hE' hF' hQ' hn]
  unfold Verif.Crystal.angleDeg Verif.Crystal.len
  simp only [Verif.Crystal.vecOf_dot (Verif.Crystal.dual_gram h' hE' hF'), Verif.Crystal.vecOf_dot (Verif.Crystal.dual_gram h hE hF), scaled_gram,
      mulVec_smul, smul_dotProduct, dotProduct_smul, smul_eq_mul]
  have e1 (x : ℝ) : √(x / s ^ 2) = √x / s := by rw [sqrt_div' _ (sq_nonneg s), sqrt_sq hs.le]
  simp only [e1]
  congr 4
  field_simp

/-- **C143** (partial) the resolution matrix does not depend on the cell chosen to describe the crystal: with all edges
multiplied by `s` and the indices of the point with them, it is the same.  Missing: the prefactor; for an elastic point it is
divided by the square of `s`, and by something else for others; see `C143_prefactor_false`. -/
theorem C143_cell_partial {c : Consts} {i : Inst} {Q : Vec} {W r0 s : ℝ} {RM : M4} (hl : Valid i.sample.lattice) (hs : 0 < s)
    (h : calcInQ c i Q W = .ok (r0, RM)) :
    ∃ r0', calcInQ c { i with sample := { i.sample with lattice := { i.sample.lattice with
        a := s * i.sample.lattice.a, b := s * i.sample.lattice.b, c := s * i.sample.lattice.c } } } (s • Q) W = .ok (r0', RM) ∧
      (W = 0 → r0' = r0 / s ^ 2) := by
  obtain ⟨hS, hr⟩ := C137_spd hl h
  obtain ⟨m, k, f, q, a, st⟩ := steps h
  obtain ⟨hQ, -, -⟩ := facts hl st.kin st.len
  have hQ' : s • Q ≠ 0 := smul_ne_zero hs.ne' hQ
  have hd := scaled_lengths hl hs hQ
  have hn : crossProduct i.sample.u i.sample.v ≠ 0 := by
    intro h0
    obtain ⟨ph, hph, -⟩ := kinematics_phi st.kin
    unfold getPhi Lattice.getAngleBetweenPlanes at hph
    rw [h0] at hph
    obtain ⟨gs, -, hph⟩ := bind_eq_ok.1 hph
    obtain ⟨n1, -, hph⟩ := bind_eq_ok.1 hph
    obtain ⟨n2, h2, hph⟩ := bind_eq_ok.1 hph
    obtain ⟨q1, -, hph⟩ := bind_eq_ok.1 hph
    obtain ⟨q2, h4, -⟩ := bind_eq_ok.1 hph
    rw [dotProduct_zero, Verif.Crystal.npSqrt_ok le_rfl, sqrt_zero] at h2
    cases h2
    unfold npDiv at h4
    rw [if_pos rfl] at h4
    split_ifs at h4
  have hph := scaled_phi hl hs hQ hn
  obtain ⟨lam, hlam, hm⟩ := st.dec
  have ht : Lattice.getTwoTheta { i.sample.lattice with a := s * i.sample.lattice.a, b := s * i.sample.lattice.b, c := s * i.sample.lattice.c } (s • Q)
      = i.sample.lattice.getTwoTheta Q := by
    funext x
    unfold Lattice.getTwoTheta
    rw [hd]
  have hk : kinematics c { i with sample := { i.sample with lattice := { i.sample.lattice with
        a := s * i.sample.lattice.a, b := s * i.sample.lattice.b, c := s * i.sample.lattice.c } } } (s • Q) W = .ok k := by
    rw [← st.kin]
    unfold kinematics
    dsimp only
    rw [ht, hph]
  have hlen : Lattice.getQ { i.sample.lattice with a := s * i.sample.lattice.a, b := s * i.sample.lattice.b, c := s * i.sample.lattice.c } (s • Q)
      = .ok q := by
    rw [← st.len]
    unfold Lattice.getQ
    rw [hd]
  have hpos : 0 < quad RM ![(s • Q) 0, (s • Q) 1, (s • Q) 2, W] := by
    refine hS.pos _ ?_
    by_contra hz
    push Not at hz
    refine hQ' (funext fun j => ?_)
    fin_cases j
    · simpa using hz 0
    · simpa using hz 1
    · simpa using hz 2
  have hrm := st.rm
  obtain ⟨r0', RM', h'⟩ := calcInQ_of (i := { i with sample := { i.sample with lattice := { i.sample.lattice with
        a := s * i.sample.lattice.a, b := s * i.sample.lattice.b, c := s * i.sample.lattice.c } } }) hlam hm hk st.form st.vi st.vf st.pm st.sd st.tan st.det
        hlen st.angle (by rw [← hrm]; exact hpos.ne')
  obtain ⟨m2, k2, f2, q2, a2, st'⟩ := steps h'
  obtain ⟨lam', hlam', hm'⟩ := st'.dec
  dsimp only at hlam'
  rw [hlam] at hlam'
  cases hlam'
  have e1 : m = m2 := Except.ok.inj (hm.symm.trans hm')
  have e2 : k = k2 := Except.ok.inj (hk.symm.trans st'.kin)
  have e3 : f = f2 := Except.ok.inj (st.form.symm.trans st'.form)
  have e4 : q = q2 := Except.ok.inj (hlen.symm.trans st'.len)
  subst e1 e2 e3 e4
  have e5 : a = a2 := Except.ok.inj (st.angle.symm.trans st'.angle)
  subst e5
  have eRM : RM' = RM := by rw [st'.rm, hrm]
  subst eRM
  refine ⟨r0', h', fun hW => ?_⟩
  rw [st'.r0, st.r0, hW]
  have : quad RM' ![(s • Q) 0, (s • Q) 1, (s • Q) 2, 0] = s ^ 2 * quad RM' ![Q 0, Q 1, Q 2, 0] := by
    simp [quad, Fin.sum_univ_four]
    ring
  rw [this, div_div, mul_comm (s ^ 2)]

/-- **C143** fails for the prefactor: two descriptions of one crystal give prefactors that differ by a factor of four. -/
theorem C143_prefactor_false (c : Consts) : ∃ (l l' : Lattice) (Q : Vec) (r0 r0' : ℝ) (RM : M4), Valid l ∧
    l' = { l with a := 2 * l.a, b := 2 * l.b, c := 2 * l.c } ∧ calcInQ c (benchWith c l) Q 0 = .ok (r0, RM) ∧
      calcInQ c (benchWith c l') ((2 : ℝ) • Q) 0 = .ok (r0', RM) ∧ 0 < r0 ∧ r0' = r0 / 4 := by
  have hp : 0 < 2 * π := by linarith [pi_pos]
  have hQ : (![0, 1, 0] : Vec) ≠ 0 := fun h => by simpa using congrFun h 1
  have hv := valid_ortho hp hp hp
  obtain ⟨r0, RM, h⟩ := benchWith_ok c hv hQ (q := 1) (by
    rw [getQ_ortho hp hp hp hQ]
    simp) closes_one
  obtain ⟨-, hr⟩ := C137_spd (i := benchWith c _) hv h
  obtain ⟨r0', h', e⟩ := C143_cell_partial (s := 2) (i := benchWith c _) hv two_pos h
  refine ⟨_, _, _, r0, r0', RM, hv, rfl, h, h', hr, ?_⟩
  rw [e rfl]
  norm_num

end Verif.Tof
