import Verif.Tof.PropsMore

/-!
# Properties C135, C138 and C142: cylinders at every elevation, what is stored, points of a list, lengths of guides
-/

namespace Verif.Tof

open Real Matrix
open Verif.Crystal (Fail Vec Mat Lattice deg2rad Valid npDiv ubmatrix)
open Verif.Resolution (M4 hkls Query)
open Verif.Tools (quad Closes ClosesAt kinetic)

/-! ## Cylinders at every elevation -/

/-- Momentum transfer on a cylinder, and the energy transfer that belongs to the horizontal part of the final velocity. -/
noncomputable def levelTransfer (c : Consts) (x : Fin 9 → ℝ) : Fin 4 → ℝ :=
  ![momentum c .cylinder x 0, momentum c .cylinder x 1, momentum c .cylinder x 2,
    c.mn / 2 * (speedIn x ^ 2 - (velocityOut .cylinder x 0 ^ 2 + velocityOut .cylinder x 1 ^ 2)) / (1e-3 * c.e)]

/-- What is measured for a neutron whose horizontal speed is `k.vf`. -/
noncomputable def level (m : Measures) (k : Kin) : Fin 9 → ℝ :=
  ![m.lPm / k.vi, m.lMs / k.vi + m.lSd / k.vf, m.lPm, m.lMs, m.lSd, m.thetaI, m.phiI, k.theta, k.phi]

theorem at_level {m : Measures} {k : Kin} {ti tf : ℝ} (hvi : k.vi ≠ 0) (hvf : k.vf ≠ 0) (hti : ti ≠ 0)
    (hpm : m.lPm = k.vi * ti) (hsd : m.lSd = k.vf * tf) : At (level m k) m k ti tf := by
  have x0 : level m k 0 = ti := by simp [level, hpm, hvi]
  have x2 : level m k 2 = k.vi * ti := by simp [level, hpm]
  have x1 : level m k 1 = m.lMs / k.vi + tf := by simp [level, hsd, hvf]
  have x3 : level m k 3 = m.lMs := by simp [level]
  have hin : speedIn (level m k) = k.vi := by rw [speedIn, x0, x2]; field_simp
  exact ⟨x0, x2, x3, by simp [level, hsd], by simp [level], by simp [level], by simp [level], by simp [level], hin,
    by rw [timeOut, hin, x1, x3]; ring⟩

theorem level_deriv (c : Consts) {m : Measures} {k : Kin} {ti tf : ℝ} (hvi : k.vi ≠ 0) (hvf : k.vf ≠ 0) (hti : ti ≠ 0) (htf : tf ≠ 0)
    (hpm : m.lPm = k.vi * ti) (hsd : m.lSd = k.vf * tf) (hphi : cos k.phi ≠ 0) (d : Fin 9 → ℝ) (a : Fin 4) :
    HasDerivAt (fun s : ℝ => levelTransfer c (level m k + s • d) a) (∑ j, jacobi c .cylinder m k ti tf a j * d j) 0 := by
  have hx := at_level hvi hvf hti hpm hsd
  set x := level m k
  clear_value x
  have vel (s : ℝ) : velocityOut .cylinder (x + s • d) = ((x + s • d) 4 / timeOut (x + s • d)) •
      ![cos ((x + s • d) 7), sin ((x + s • d) 7), tan ((x + s • d) 8)] := by
    simp only [velocityOut, pixel, smul_smul]
    congr 1
    ring
  have T : HasDerivAt (fun s : ℝ => tan ((x + s • d) 8)) ((1 + tan k.phi ^ 2) * d 8) 0 := by
    have h1 : HasDerivAt tan (1 / cos ((x + (0 : ℝ) • d) 8) ^ 2) ((x + (0 : ℝ) • d) 8) :=
      hasDerivAt_tan (by simpa [hx.x8] using hphi)
    have := h1.comp (0 : ℝ) (line x d 8)
    refine this.congr_deriv ?_
    rw [zero_smul, add_zero, hx.x8, tan_eq_sin_div_cos]
    field_simp
    rw [cos_sq_add_sin_sq, mul_one]
  have D0 := momentumDeriv (c := c) hvi hti htf hx (f := .cylinder) d 0 (line x d 7).cos fun s => by rw [vel]; rfl
  have D1 := momentumDeriv (c := c) hvi hti htf hx (f := .cylinder) d 1 (line x d 7).sin fun s => by rw [vel]; rfl
  have D2 := momentumDeriv (c := c) hvi hti htf hx (f := .cylinder) d 2 T fun s => by rw [vel]; rfl
  have De := ((((inDeriv hti hx d).pow 2).sub ((outDeriv hvi hti htf hx d).pow 2)).const_mul (c.mn / 2)).div_const (1e-3 * c.e)
  have ee : (fun s : ℝ => levelTransfer c (x + s • d) 3) = fun s => c.mn / 2 * (speedIn (x + s • d) ^ 2 -
      ((x + s • d) 4 / timeOut (x + s • d)) ^ 2) / (1e-3 * c.e) := by
    funext s
    have e : (velocityOut .cylinder (x + s • d) 0) ^ 2 + (velocityOut .cylinder (x + s • d) 1) ^ 2 =
        ((x + s • d) 4 / timeOut (x + s • d)) ^ 2 := by
      rw [vel]
      simp only [Pi.smul_apply, smul_eq_mul, cons_val_zero, cons_val_one]
      rw [mul_pow, mul_pow, ← mul_add, cos_sq_add_sin_sq, mul_one]
    simp only [levelTransfer, cons_val]
    rw [e]
  simp only [zero_smul, add_zero, hx.x7, hx.x8] at D0 D1 D2
  have hh := c.hbar_pos.ne'
  have hee := c.e_pos.ne'
  rw [sum9]
  fin_cases a
  · refine D0.congr_deriv ?_
    simp [jacobi, qDerivs, matR, matRtt, matRph, matRttI, matRphI, hpm, heading]
    field_simp
    ring
  · refine D1.congr_deriv ?_
    simp [jacobi, qDerivs, matR, matRtt, matRph, matRttI, matRphI, hpm, heading]
    field_simp
    ring
  · refine D2.congr_deriv ?_
    simp [jacobi, qDerivs, matR, matRtt, matRph, matRttI, matRphI, hpm, heading]
    field_simp
    ring
  · show HasDerivAt (fun s : ℝ => levelTransfer c (x + s • d) 3) _ 0
    rw [ee]
    refine De.congr_deriv ?_
    simp only [zero_smul, add_zero, hx.hin, hx.hout, hx.x4]
    rw [mul_div_cancel_right₀ _ htf]
    simp [jacobi, eDerivs, hpm, hsd]
    field_simp
    ring

/-- **C135** (partial) for a cylindrical detector, at every elevation: the matrix is the inverse of the covariance of the
momentum transfer and of the energy transfer of the horizontal motion, for a neutron whose horizontal speed is the final
speed.  Missing: the vertical part of the motion in speed and energy, see `C135_cylinder_false`. -/
theorem C135_cylinder_level_partial {c : Consts} {i : Inst} {Q : Vec} {W r0 : ℝ} {RM : M4} (hl : Valid i.sample.lattice)
    (hs : i.detector.shape = cs!"cylindrical") (h : calcInQ c i Q W = .ok (r0, RM)) :
    ∃ lam m k q a D, (Verif.Energy.derive c.scipy i.ei).wavelen = .num lam ∧ decode i lam = .ok m ∧
      kinematics c i Q W = .ok k ∧ i.sample.lattice.getQ Q = .ok q ∧ ClosesAt k.ki k.kf q a ∧ a ≤ 0 ∧ |a| ≤ π ∧
      (∀ (d : Fin 9 → ℝ) (b : Fin 4), HasDerivAt (fun s : ℝ => inAxes a (levelTransfer c (level m k + s • d)) b) (∑ j, D b j * d j) 0) ∧
      RM * propagated D (diagonal (variances m)) = 1 := by
  obtain ⟨m, k, f, q, a, st⟩ := steps h
  have hf : f = .cylinder := by
    have := st.form
    rw [cylindrical_form _ hs] at this
    cases this
    rfl
  subst hf
  obtain ⟨lam, l1, l2⟩ := st.dec
  obtain ⟨-, hq0, hF⟩ := facts hl st.kin st.len
  obtain ⟨h1, -, h2, -, h3⟩ := Verif.Tools.C57_angle_partial hF.ki hF.kf.le hq0 (by norm_num : (-1 : ℝ) ≠ 0) st.angle
  have hD := level_deriv c st.vi st.vf (div_ne_zero st.pm st.vi) (div_ne_zero st.sd st.vf)
    (mul_div_cancel₀ _ st.vi).symm (mul_div_cancel₀ _ st.vf).symm (st.tan rfl)
  refine ⟨lam, m, k, q, a, (rotation a)ᵀ * jacobi c .cylinder m k (m.lPm / k.vi) (m.lSd / k.vf), l1, l2, st.kin, st.len, h1,
    h3 (by norm_num), h2, fun d b => ?_, ?_⟩
  · simp only [inAxes_eq, mulVec, dotProduct]
    have := HasDerivAt.fun_sum (u := Finset.univ) fun (e : Fin 4) _ => (hD d e).const_mul ((rotation a)ᵀ b e)
    refine this.congr_deriv ?_
    simp only [Matrix.mul_apply, Finset.mul_sum, Finset.sum_mul]
    rw [Finset.sum_comm]
    exact Finset.sum_congr rfl fun i _ => Finset.sum_congr rfl fun j _ => by ring
  · rw [propagated_turn, ← covariance_propagated, transpose_transpose, st.rm]
    exact inverse_turned st.det a

/-- A point out of the plane. -/
example (c : Consts) : ∃ r0 RM, Valid (bench c cs!"cylindrical" {}).sample.lattice ∧
    calcInQ c (bench c cs!"cylindrical" {}) ![1, 0, 1] 0 = .ok (r0, RM) := by
  obtain ⟨-, -, r0, RM, h⟩ := bench_points c cylindrical_form none
  exact ⟨r0, RM, bench_valid, h⟩

/-! ## What is stored -/

theorem chopEntry_near (x : ℝ) : |chopEntry x - x| < 1e-12 ∧ (chopEntry x ≠ x → chopEntry x = 0) := by
  unfold chopEntry
  split
  · rename_i h
    exact ⟨by rwa [zero_sub, abs_neg], fun _ => rfl⟩
  · exact ⟨by rw [sub_self, abs_zero]; norm_num, fun h => absurd rfl h⟩

/-- **C138** the stored matrices and the stored prefactor are those computed, up to numbers of magnitude less than `1e-12`, which
become zero. -/
theorem C138_stored {c : Consts} {i : Inst} {Q : Vec} {W : ℝ} {r : Res} (hl : Valid i.sample.lattice) (h : pointAt c i (Q, W) = .ok r) :
    ∃ UB r0 RM, ubmatrix i.sample.lattice i.sample.u i.sample.v = .ok UB ∧ calcInQ c i Q W = .ok (r0, RM) ∧
      (∀ a b, |r.rm a b - RM a b| < 1e-12 ∧ (r.rm a b ≠ RM a b → r.rm a b = 0)) ∧
      (∀ a b, |r.rms a b - crystalFrame UB Q RM a b| < 1e-12 ∧ (r.rms a b ≠ crystalFrame UB Q RM a b → r.rms a b = 0)) ∧
      |r.r0 - r0| < 1e-12 ∧ (r.r0 ≠ r0 → r.r0 = 0) := by
  unfold pointAt at h
  obtain ⟨⟨r0, RM⟩, h1, h⟩ := bind_eq_ok.1 h
  obtain ⟨UB, h2, h⟩ := bind_eq_ok.1 h
  cases h
  refine ⟨UB, r0, RM, lift_ok h2, h1, fun a b => chopEntry_near _, fun a b => chopEntry_near _, ?_⟩
  have hp : 0 < r0 := (C137_spd hl h1).2
  dsimp only
  unfold chopNumber
  split
  · rename_i h
    exact ⟨by rwa [zero_sub, abs_neg, abs_of_pos hp], fun _ => rfl⟩
  · exact ⟨by rw [sub_self, abs_zero]; norm_num, fun h => absurd rfl h⟩

/-! ## Points of a list -/

theorem zip_hkls_get {H K L W : List ℝ} {n : ℕ} (hH : H.length = n) (hK : K.length = n) (hL : L.length = n) (hW : W.length = n) :
    ∃ e : ((hkls H K L).zip W).length = n, ∀ j (hj : j < n), ((hkls H K L).zip W)[j]'(by omega) =
      (![H[j]'(by omega), K[j]'(by omega), L[j]'(by omega)], W[j]'(by omega)) := by
  induction n generalizing H K L W with
  | zero =>
    rw [List.length_eq_zero_iff] at hH hW
    subst hH hW
    exact ⟨by simp, fun j hj => absurd hj (by omega)⟩
  | succ n ih =>
    obtain ⟨h, H, rfl⟩ := List.exists_cons_of_length_eq_add_one hH
    obtain ⟨k, K, rfl⟩ := List.exists_cons_of_length_eq_add_one hK
    obtain ⟨l, L, rfl⟩ := List.exists_cons_of_length_eq_add_one hL
    obtain ⟨w, W, rfl⟩ := List.exists_cons_of_length_eq_add_one hW
    simp only [List.length_cons, Nat.add_right_cancel_iff] at hH hK hL hW
    obtain ⟨e, he⟩ := ih hH hK hL hW
    refine ⟨by simp [hkls, List.zip_cons_cons] ; simpa using e, fun j hj => ?_⟩
    rcases j with _ | j
    · rfl
    · simpa [hkls] using he j (by omega)

theorem mapM_get {α β : Type} {f : α → Except Err β} {l : List α} {r : List β} (h : l.mapM f = .ok r) :
    ∃ e : r.length = l.length, ∀ j (hj : j < l.length), f (l[j]) = .ok (r[j]'(by omega)) := by
  induction l generalizing r with
  | nil =>
    cases h
    exact ⟨rfl, fun j hj => absurd hj (by simp)⟩
  | cons a l ih =>
    rw [List.mapM_cons] at h
    obtain ⟨b, hb, h⟩ := bind_eq_ok.1 h
    obtain ⟨bs, hbs, h⟩ := bind_eq_ok.1 h
    cases h
    obtain ⟨e, he⟩ := ih hbs
    refine ⟨by simp [e], fun j hj => ?_⟩
    rcases j with _ | j
    · exact hb
    · exact he j (by simpa using hj)

/-- **C138** `calc_resolution` with four lists of one length stores for each position the result for the point made of the four
numbers at that position. -/
theorem C138_points {c : Consts} {i : Inst} {q : Query} {n : ℕ} (hq : q.Len n) {rs : List Res}
    (h : calcResolution c i (.list q.H) (.list q.K) (.list q.L) (.list q.W) = .ok rs) :
    ∃ e : rs.length = n, ∀ j (hj : j < n), pointAt c i (![q.H[j]'(hq.H ▸ hj), q.K[j]'(hq.K ▸ hj), q.L[j]'(hq.L ▸ hj)], q.W[j]'(hq.W ▸ hj)) =
      .ok (rs[j]'(e ▸ hj)) := by
  unfold calcResolution at h
  rw [Verif.Resolution.clean_query hq] at h
  dsimp only at h
  obtain ⟨e1, h1⟩ := zip_hkls_get hq.H hq.K hq.L hq.W
  obtain ⟨e2, h2⟩ := mapM_get h
  refine ⟨e2.trans e1, fun j hj => ?_⟩
  rw [← h1 j hj]
  exact h2 j (by omega)

/-- Two points, one of them out of the plane. -/
example (c : Consts) : ∃ rs, (⟨[1, 1], [0, 0], [0, 1], [0, 0]⟩ : Query).Len 2 ∧
    calcResolution c (bench c cs!"spherical" {}) (.list [1, 1]) (.list [0, 0]) (.list [0, 1]) (.list [0, 0]) = .ok rs ∧ rs.length = 2 := by
  obtain ⟨⟨r0, RM, h⟩, -, r0', RM', h'⟩ := bench_points c spherical_form none
  have hp : 0 < 2 * π := by linarith [pi_pos]
  have hU : ubmatrix (bench c cs!"spherical" {}).sample.lattice (bench c cs!"spherical" {}).sample.u (bench c cs!"spherical" {}).sample.v =
      .ok _ := ub_ortho hp hp hp
  have hq : (⟨[1, 1], [0, 0], [0, 1], [0, 0]⟩ : Query).Len 2 := ⟨rfl, rfl, rfl, rfl⟩
  have p : ∃ r, pointAt c (bench c cs!"spherical" {}) (![1, 0, 0], 0) = .ok r := by
    unfold pointAt
    dsimp only
    rw [h, hU]
    exact ⟨_, rfl⟩
  have p' : ∃ r, pointAt c (bench c cs!"spherical" {}) (![1, 0, 1], 0) = .ok r := by
    unfold pointAt
    dsimp only
    rw [h', hU]
    exact ⟨_, rfl⟩
  obtain ⟨r, hr⟩ := p
  obtain ⟨r', hr'⟩ := p'
  refine ⟨[r, r'], hq, ?_, rfl⟩
  unfold calcResolution
  rw [Verif.Resolution.clean_query hq]
  simp only [hkls, List.zip_cons_cons, List.zip_nil_right, List.mapM_cons, List.mapM_nil]
  rw [hr, hr']
  rfl

/-! ## Lengths of guides -/

/-- The distance of two points. -/
noncomputable def distance (p q : Fin 3 → ℝ) : ℝ := √((p 0 - q 0) ^ 2 + (p 1 - q 1) ^ 2 + (p 2 - q 2) ^ 2)

/-- The lengths of the straight flights through the guide: from a point of its entrance to a point of its exit. -/
def Guide.flights (g : Guide) : Set ℝ :=
  {s | ∃ p q, p 0 = 0 ∧ q 0 = g.length ∧ 0 ≤ p 1 ∧ p 1 ≤ g.width ∧ 0 ≤ q 1 ∧ q 1 ≤ g.width ∧ 0 ≤ p 2 ∧ p 2 ≤ g.height ∧
    0 ≤ q 2 ∧ q 2 ≤ g.height ∧ s = distance p q}

theorem sigmaL_greatest {g : Guide} (hw : 0 ≤ g.width) (hh : 0 ≤ g.height) : IsGreatest g.flights (g.length + g.sigmaL) := by
  have e : g.length + g.sigmaL = √(g.length ^ 2 + g.width ^ 2 + g.height ^ 2) := by unfold Guide.sigmaL; ring
  rw [e]
  constructor
  · refine ⟨![0, 0, 0], ![g.length, g.width, g.height], rfl, rfl, le_refl _, hw, hw, le_refl _, le_refl _, hh, hh, le_refl _, ?_⟩
    unfold distance
    congr 1
    simp
  · rintro s ⟨p, q, p0, q0, a, b, c, d, a', b', c', d', rfl⟩
    unfold distance
    refine sqrt_le_sqrt ?_
    rw [p0, q0]
    nlinarith [mul_nonneg a c, mul_nonneg a' c', abs_le_abs (show p 1 - q 1 ≤ g.width by linarith) (by linarith),
      sq_le_sq' (show -g.width ≤ p 1 - q 1 by linarith) (by linarith), sq_le_sq' (show -g.height ≤ p 2 - q 2 by linarith) (by linarith)]

theorem decode_guides {i : Inst} {lam : ℝ} {m : Measures} (ho : i.over = {}) (h : decode i lam = .ok m) :
    ∃ g g' gs, i.guides = g :: g' :: gs ∧ m.sLPm = g.sigmaL / 10 ^ 2 ∧ m.sLMs = g'.sigmaL / 10 ^ 2 := by
  unfold decode at h
  rw [ho] at h
  obtain ⟨pm, h1, h⟩ := bind_eq_ok.1 h
  obtain ⟨tp, h2, h⟩ := bind_eq_ok.1 h
  obtain ⟨tm, h3, h⟩ := bind_eq_ok.1 h
  obtain ⟨d, h4, h⟩ := bind_eq_ok.1 h
  obtain ⟨gh, h5, h⟩ := bind_eq_ok.1 h
  obtain ⟨sl, h6, h⟩ := bind_eq_ok.1 h
  obtain ⟨st, h7, h⟩ := bind_eq_ok.1 h
  obtain ⟨top, h8, h⟩ := bind_eq_ok.1 h
  obtain ⟨px, h9, h⟩ := bind_eq_ok.1 h
  split at h5
  swap
  · cases h5
  rename_i g g' gs hg
  cases h5
  cases h
  exact ⟨g, g', gs, hg, rfl, rfl⟩

/-- **C142** (partial: see the negative theorems) the uncertainties of the lengths of the first two sections are, in metres, what
the longest straight flight through their guides exceeds the length of the guide by. -/
theorem C142_lengths_partial {i : Inst} {lam : ℝ} {m : Measures} (ho : i.over = {}) (h : decode i lam = .ok m) :
    ∃ g g' gs, i.guides = g :: g' :: gs ∧
      (0 ≤ g.width → 0 ≤ g.height → IsGreatest g.flights (g.length + 100 * m.sLPm)) ∧
      (0 ≤ g'.width → 0 ≤ g'.height → IsGreatest g'.flights (g'.length + 100 * m.sLMs)) := by
  obtain ⟨g, g', gs, h1, h2, h3⟩ := decode_guides ho h
  refine ⟨g, g', gs, h1, fun hw hh => ?_, fun hw hh => ?_⟩
  · have := sigmaL_greatest hw hh
    rwa [h2, show 100 * (g.sigmaL / 10 ^ 2) = g.sigmaL by ring]
  · have := sigmaL_greatest hw hh
    rwa [h3, show 100 * (g'.sigmaL / 10 ^ 2) = g'.sigmaL by ring]

/-- The default guides. -/
example (c : Consts) (lam : ℝ) : ∃ m, decode (bench c cs!"spherical" {}) lam = .ok m := by
  obtain ⟨m, h, -⟩ := decode_bench c cs!"spherical" {} lam
  exact ⟨m, h⟩

end Verif.Tof
