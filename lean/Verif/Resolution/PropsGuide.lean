import Mathlib.Analysis.SpecialFunctions.Integrals.Basic
import Mathlib.Analysis.SpecialFunctions.Log.Deriv
import Mathlib.Analysis.Complex.ExponentialBounds
import Verif.Resolution.PropsMonitor

/-! # Property theorems: the divergence of guides (C155) -/

namespace Verif.Resolution

open Real Matrix MeasureTheory
open Verif.Crystal (Fail npSqrt npArcsin npDiv)
open Verif.Tools (arctan2 quad SPD Closes)

/-! ## Specification -/

/-- The critical angle (radian) of a guide: `0.1°` per ångström of wavelength, times `m`. -/
noncomputable def critical (m wl : ℝ) : ℝ := 0.1 * m * wl * (π / 180)

/-- A collimation of `x` arc minutes stands for a guide: its Gaussian has the variance of the uniform distribution of
directions within the critical angle of the guide. -/
structure StandsFor (x m wl : ℝ) : Prop where
  pos : 0 < x
  var : sigma x ^ 2 = (∫ t in (-critical m wl)..critical m wl, t ^ 2) / (2 * critical m wl)

/-- Wavelength of the neutrons that reach the sample. -/
noncomputable def wavelengthIn (s : Settings) (w : ℝ) : ℝ := 2 * π / wavevector (incident s w)

/-- Wavelength of the neutrons that leave the sample. -/
noncomputable def wavelengthOut (s : Settings) (w : ℝ) : ℝ := 2 * π / wavevector (final s w)

/-- The same instrument with another horizontal collimation at place `i`. -/
def Settings.setH (s : Settings) (i : Fin 4) (x : ℝ) : Settings := { s with hcol := Function.update s.hcol i x }

/-- The same instrument with another vertical collimation at place `i`. -/
def Settings.setV (s : Settings) (i : Fin 4) (x : ℝ) : Settings := { s with vcol := Function.update s.vcol i x }

/-! ## Lemmas -/

theorem standsFor_iff {x m wl : ℝ} (h0 : 0 < m * wl) :
    StandsFor x m wl ↔ x = 6 * (m * wl) * (2 * √(2 * log 2)) / √3 := by
  have hl : 0 < log 2 := log_pos (by norm_num)
  have hp := pi_pos
  have c0 : 0 < critical m wl := by
    unfold critical
    rw [show (0.1 : ℝ) * m * wl = 0.1 * (m * wl) by ring]
    positivity
  have hv : (∫ t in (-critical m wl)..critical m wl, t ^ 2) / (2 * critical m wl) = (critical m wl / √3) ^ 2 := by
    rw [integral_pow, div_pow, Real.sq_sqrt (by norm_num)]
    field_simp
    norm_num
    ring
  have key : sigma (6 * (m * wl) * (2 * √(2 * log 2)) / √3) = critical m wl / √3 := by
    unfold sigma critical
    have : 0 < √(2 * log 2) := Real.sqrt_pos.2 (by positivity)
    field_simp
    ring
  have y0 : 0 < 6 * (m * wl) * (2 * √(2 * log 2)) / √3 := by positivity
  constructor
  · rintro ⟨x0, hx⟩
    rw [hv, ← key] at hx
    have := (sq_eq_sq₀ (sigma_pos x0).le (sigma_pos y0).le).1 hx
    rw [sigma_eq, sigma_eq] at this
    exact mul_right_cancel₀ convert1_pos.ne' this
  · rintro rfl
    exact ⟨y0, by rw [hv, key]⟩

/-- What the code takes for a guide. -/
noncomputable def guideCode (m wl : ℝ) : ℝ := 6 * (m * wl) / 0.427 / √3

theorem guideCode_near {m wl : ℝ} (h0 : 0 < m * wl) {x : ℝ} (hx : StandsFor x m wl) :
    0.994 * x ≤ guideCode m wl ∧ guideCode m wl ≤ 0.995 * x := by
  rw [standsFor_iff h0] at hx
  have l1 := Real.log_two_gt_d9
  have l2 := Real.log_two_lt_d9
  have r1 : 1.1774 ≤ √(2 * log 2) := Real.le_sqrt_of_sq_le (by norm_num at l1 ⊢; linarith)
  have r2 : √(2 * log 2) ≤ 1.1775 := Real.sqrt_le_iff.2 ⟨by norm_num, by norm_num at l2 ⊢; linarith⟩
  have e : guideCode m wl = (6 * (m * wl) / √3) * (1 / 0.427) := by
    unfold guideCode
    ring
  have ex : x = (6 * (m * wl) / √3) * (2 * √(2 * log 2)) := by rw [hx]; ring
  have p0 : 0 < 6 * (m * wl) / √3 := by positivity
  rw [e, ex]
  constructor
  · rw [mul_left_comm (_ : ℝ) (6 * (m * wl) / √3)]
    refine mul_le_mul_of_nonneg_left ?_ p0.le
    norm_num at r2 ⊢
    linarith
  · rw [mul_left_comm (_ : ℝ) (6 * (m * wl) / √3)]
    refine mul_le_mul_of_nonneg_left ?_ p0.le
    norm_num at r1 ⊢
    linarith

theorem guideCode_pos {m wl : ℝ} (h0 : 0 < m * wl) : 0 < guideCode m wl := by
  unfold guideCode
  positivity

theorem guideDivergence_code {m f : ℝ} (hm : 0 < m) (hf : 0 < f) {ki : ℝ} (hk : 0 < ki) :
    guideDivergence (-m * convert1 * f) ki = guideCode m (2 * π / ki) * convert1 * f := by
  have c1 := convert1_pos
  have h : 0 < m * convert1 * f := by positivity
  unfold guideDivergence guideCode
  rw [if_pos (by linarith)]
  ring

theorem start_setH {s : Settings} {i : Fin 4} {m : ℝ} (hm : 0 < m) (hi : s.hcol i = -m) (c : Conf) {ki : ℝ} (hk : 0 < ki) :
    (Loop.start s).advance c ki = (Loop.start (s.setH i (guideCode m (2 * π / ki)))).advance c ki := by
  have hp := pi_pos
  have c1 := convert1_pos
  have g0 : 0 < guideCode m (2 * π / ki) := guideCode_pos (by positivity)
  have e : ((Loop.start s).advance c ki).alpha =
      ((Loop.start (s.setH i (guideCode m (2 * π / ki)))).advance c ki).alpha := by
    funext j
    simp only [Loop.advance, Loop.start, Settings.setH]
    by_cases h : j = i
    · subst h
      rw [Function.update_self, hi]
      have f0 : (0 : ℝ) < if s.horifoc = some 1 ∧ j = 2 then √(8 * log 2 / 12) else 1 := by
        have : 0 < log 2 := log_pos (by norm_num)
        split_ifs <;> positivity
      rw [guideDivergence_code hm f0 hk, guideDivergence_pos (by positivity)]
      rfl
    · rw [Function.update_of_ne h]
      rfl
  unfold Loop.advance Loop.start Settings.setH at e ⊢
  simp only [Loop.mk.injEq] at e ⊢
  exact ⟨e, trivial, trivial, trivial, trivial, trivial⟩

theorem start_setV {s : Settings} {i : Fin 4} {m : ℝ} (hm : 0 < m) (hi : s.vcol i = -m) (c : Conf) {ki : ℝ} (hk : 0 < ki) :
    (Loop.start s).advance c ki = (Loop.start (s.setV i (guideCode m (2 * π / ki)))).advance c ki := by
  have hp := pi_pos
  have c1 := convert1_pos
  have g0 : 0 < guideCode m (2 * π / ki) := guideCode_pos (by positivity)
  have e : ((Loop.start s).advance c ki).beta =
      ((Loop.start (s.setV i (guideCode m (2 * π / ki)))).advance c ki).beta := by
    funext j
    simp only [Loop.advance, Loop.start, Settings.setV]
    by_cases h : j = i
    · subst h
      have := guideDivergence_code hm one_pos hk
      rw [mul_one, mul_one] at this
      rw [Function.update_self, hi, this, guideDivergence_pos (by positivity)]
    · rw [Function.update_of_ne h]
  unfold Loop.advance Loop.start Settings.setV at e ⊢
  simp only [Loop.mk.injEq] at e ⊢
  exact ⟨trivial, e, trivial, trivial, trivial, trivial⟩

theorem calc_loop {s s' : Settings} {q w : ℝ} (hd : decode s' = decode s) (hs : s'.sample = s.sample)
    (h : ∀ c k, decode s = .ok c → kinematics c q w = .ok k →
      (Loop.start s).advance c k.ki = (Loop.start s').advance c k.ki) :
    calcInQ s [(q, w)] = calcInQ s' [(q, w)] := by
  unfold calcInQ
  rw [hd, hs]
  cases hc : decode s with
  | error e => rw [error_bind, error_bind]
  | ok c =>
    simp only [ok_bind, runLoop]
    cases sshapeAt s.sample 0 with
    | error e => rw [error_bind, error_bind]
    | ok X =>
      simp only [ok_bind]
      cases hk : kinematics c q w with
      | error e => rw [error_bind, error_bind]
      | ok k => simp only [ok_bind, h c k hc hk]

theorem decode_ki {s : Settings} {c : Conf} (hd : decode s = .ok c) {q w : ℝ} {k : Kin} (hk : kinematics c q w = .ok k) :
    k.ki = wavevector (incident s w) := by
  obtain ⟨a, h1, h2⟩ := ok_of_bind hd
  cases h2
  have c2 : convert2 = 2.072 := by norm_num [convert2]
  rw [(kinematics_fields hk).1, c2]
  rfl

theorem calc_setH {s : Settings} {i : Fin 4} {m : ℝ} (hm : 0 < m) (hi : s.hcol i = -m) {q w : ℝ} (he : 0 < incident s w) :
    calcInQ s [(q, w)] = calcInQ (s.setH i (guideCode m (wavelengthIn s w))) [(q, w)] := by
  refine calc_loop rfl rfl fun c k hd hk => ?_
  have := decode_ki hd hk
  unfold wavelengthIn
  rw [← this]
  exact start_setH hm hi c (by rw [this]; exact Real.sqrt_pos.2 (div_pos he (by norm_num)))

theorem calc_setV {s : Settings} {i : Fin 4} {m : ℝ} (hm : 0 < m) (hi : s.vcol i = -m) {q w : ℝ} (he : 0 < incident s w) :
    calcInQ s [(q, w)] = calcInQ (s.setV i (guideCode m (wavelengthIn s w))) [(q, w)] := by
  refine calc_loop rfl rfl fun c k hd hk => ?_
  have := decode_ki hd hk
  unfold wavelengthIn
  rw [← this]
  exact start_setV hm hi c (by rw [this]; exact Real.sqrt_pos.2 (div_pos he (by norm_num)))

theorem wavelengthIn_pos {s : Settings} {w : ℝ} (he : 0 < incident s w) : 0 < wavelengthIn s w :=
  div_pos (by have := pi_pos; positivity) (Real.sqrt_pos.2 (div_pos he (by norm_num)))

theorem wavelengthOut_pos {s : Settings} {w : ℝ} (he : 0 < final s w) : 0 < wavelengthOut s w :=
  div_pos (by have := pi_pos; positivity) (Real.sqrt_pos.2 (div_pos he (by norm_num)))

/-! ## C155 -/

/-- C155 in part: guides before the sample, one point per call.  The result is that of the instrument whose
collimation at that place stands for the guide at the wavelength of the incident neutrons, to within one percent of
the collimation.  Missing: guides after the sample (`C155_after_false`), and further points of the same call, for
which the divergence of the first point is kept (C62). -/
theorem C155_before_partial {s : Settings} {i : Fin 4} (_ : i < 2) {m : ℝ} (hm : 0 < m) {q w : ℝ} (he : 0 < incident s w) :
    (∃ x0, StandsFor x0 m (wavelengthIn s w)) ∧ ∀ x0, StandsFor x0 m (wavelengthIn s w) →
      ∃ x, |x - x0| ≤ 0.01 * x0 ∧
        (s.hcol i = -m → calcInQ s [(q, w)] = calcInQ (s.setH i x) [(q, w)]) ∧
        (s.vcol i = -m → calcInQ s [(q, w)] = calcInQ (s.setV i x) [(q, w)]) := by
  have h0 : 0 < m * wavelengthIn s w := mul_pos hm (wavelengthIn_pos he)
  refine ⟨⟨_, (standsFor_iff h0).2 rfl⟩, fun x0 hx => ⟨guideCode m (wavelengthIn s w), ?_, fun h => calc_setH hm h he,
    fun h => calc_setV hm h he⟩⟩
  obtain ⟨h1, h2⟩ := guideCode_near h0 hx
  have := hx.pos
  rw [abs_le]
  constructor <;> norm_num at h1 h2 ⊢ <;> linarith

theorem det_moved {n : ℕ} {A : Matrix (Fin n) (Fin n) ℝ} {g g' : Fin n → ℝ} (h : (A + diagonal g).PosDef) {j : Fin n}
    (hj : ∀ i, i ≠ j → g' i = g i) (e : (A + diagonal g').det = (A + diagonal g).det) : g' j = g j := by
  have s : A + diagonal g' = (A + diagonal g).updateRow j ((A + diagonal g) j + (g' j - g j) • Pi.single j 1) := by
    ext i k
    by_cases h1 : i = j
    · subst h1
      rw [updateRow_self]
      by_cases h2 : i = k
      · subst h2; simp
      · simp [h2, Ne.symm h2]
    · rw [updateRow_ne h1]
      by_cases h2 : i = k
      · subst h2; simp [hj i h1]
      · simp [h2]
  rw [s, det_updateRow_add, det_updateRow_smul, updateRow_eq_self, ← adjugate_apply] at e
  have d := h.inv.diag_pos (i := j)
  rw [inv_def, Matrix.smul_apply, Ring.inverse_eq_inv', smul_eq_mul] at d
  have d : (A + diagonal g).adjugate j j ≠ 0 := right_ne_zero_of_mul d.ne'
  have e : (g' j - g j) * (A + diagonal g).adjugate j j = 0 := by linarith
  linarith [(mul_eq_zero.1 e).resolve_right d]

/-- What is added to the divergences in the matrix of which the determinant is taken. -/
noncomputable def coreRest (c : Conf) (l : Loop) (k : Kin) (S : Matrix (Fin 13) (Fin 13) ℝ) : Matrix (Fin 8) (Fin 8) ℝ :=
  if c.popovici then (matD c k * (S + (matT c l k)ᵀ * matF c * matT c l k)⁻¹ * (matD c k)ᵀ)⁻¹ else (matC k)ᵀ * matF c * matC k

theorem coreMatrix_rest {c : Conf} (hc : c.Good) {l : Loop} (hl : l.Good) (hr : l.Curved) {k : Kin} {S : Matrix (Fin 13) (Fin 13) ℝ}
    (hS : S.PosDef) {r : M4 × ℝ} (e : coreMatrix c l k S = .ok r) :
    (coreRest c l k S + matG l).PosDef ∧ r.2 = (coreRest c l k S + matG l).det := by
  unfold coreMatrix at e
  unfold coreRest
  dsimp only at e
  split_ifs at e ⊢ with hp
  · have ha := hc.arms hp
    have hK : (S + (matT c l k)ᵀ * matF c * matT c l k).PosDef := hS.add_posSemidef (gram_posSemidef (matF_posDef hc.mosaics) _)
    have hD := congr_posDef hK.inv (matD c k) (matD_inj ha k)
    have hG := hD.inv.add (matG_posDef hl.alpha hl.beta)
    obtain ⟨⟨N, d⟩, g, e⟩ := bind_ok e
    unfold popoviciN at g
    rw [if_neg (by simp [ha.l0, ha.l1, ha.l2, ha.l3, hr.monorh, hr.monorv, hr.anarh, hr.anarv])] at g
    simp only [npInv_ok hK, ok_bind, npInv_ok hD, npInv_ok hG] at g
    rw [← Except.ok.inj e]
    exact ⟨hG, (Prod.mk.inj (Except.ok.inj g)).2.symm⟩
  · obtain ⟨⟨N, d⟩, g, e⟩ := bind_ok e
    have hH := cnH_posDef hc.mosaics hl k
    rw [← Except.ok.inj e, add_comm]
    refine ⟨hH, ?_⟩
    unfold cooperNathansN at g
    simp only [npInv_ok hH, ok_bind] at g
    split_ifs at g
    · obtain ⟨N1, -, g⟩ := bind_ok g
      obtain ⟨N2, -, g⟩ := bind_ok g
      exact (Prod.mk.inj (Except.ok.inj g)).2.symm
    · exact (Prod.mk.inj (Except.ok.inj g)).2.symm

/-- The divergences in the order of the matrix `G`. -/
def Loop.order (l : Loop) : Fin 8 → ℝ := ![l.alpha 0, l.alpha 1, l.beta 0, l.beta 1, l.alpha 2, l.alpha 3, l.beta 2, l.beta 3]

/-- Only the divergence `j`, which is one after the sample, differs. -/
structure Loop.Alike (l l' : Loop) (j : Fin 8) : Prop where
  after : 4 ≤ j
  same : ∀ i, i ≠ j → l'.order i = l.order i
  radii : l'.monorh = l.monorh ∧ l'.monorv = l.monorv ∧ l'.anarh = l.anarh ∧ l'.anarv = l.anarv

theorem alike_order {l l' : Loop} {j : Fin 8} (a : ∀ i, (![0, 1, 4, 5] : Fin 4 → Fin 8) i ≠ j → l'.alpha i = l.alpha i)
    (b : ∀ i, (![2, 3, 6, 7] : Fin 4 → Fin 8) i ≠ j → l'.beta i = l.beta i) : ∀ i, i ≠ j → l'.order i = l.order i := by
  intro i hi
  fin_cases i
  exacts [a 0 hi, a 1 hi, b 0 hi, b 1 hi, a 2 hi, a 3 hi, b 2 hi, b 3 hi]

theorem alike_flux {l l' : Loop} {j : Fin 8} (h : l.Alike l' j) (c : Conf) (k : Kin) : monitorFlux c l' k = monitorFlux c l k := by
  have n (i : Fin 8) (hi : i < 4) : i ≠ j := fun e => absurd h.after (not_le.2 (e ▸ hi))
  have eg : mong l' = mong l := by
    unfold mong matG
    ext i j
    simp only [submatrix_apply, diagonal_apply]
    split_ifs
    · fin_cases i
      · exact congrArg (fun x => 1 / x ^ 2) (h.same 0 (n 0 (by decide)))
      · exact congrArg (fun x => 1 / x ^ 2) (h.same 1 (n 1 (by decide)))
      · exact congrArg (fun x => 1 / x ^ 2) (h.same 2 (n 2 (by decide)))
      · exact congrArg (fun x => 1 / x ^ 2) (h.same 3 (n 3 (by decide)))
    · rfl
  have et : monT c l' k = monT c l k := by unfold monT; rw [h.radii.1, h.radii.2.1]
  unfold monitorFlux monitorDen
  rw [eg, et]

/-- Two instruments that differ in one divergence after the sample never give the same point. -/
theorem point_alike {c : Conf} (hc : c.Good) (ea : 0 < c.etaa) {l l' : Loop} (hl : l.Good) (hl' : l'.Good) (hr : l.Curved) (hr' : l'.Curved)
    {j : Fin 8} (h : l.Alike l' j) (ht : c.reflected l' = c.reflected l) {k : Kin} {q : ℝ} (hk : k.Good q) (ha : c.taua < 2 * k.kf)
    {X : M3} (hX : X.PosDef) {r : ℝ × M4} (e : pointAt c l X k q = .ok r) (e' : pointAt c l' X k q = .ok r) :
    l'.order j ^ 2 = l.order j ^ 2 := by
  -- without reflectivity
  obtain ⟨a, A, g, ap, -⟩ := pointAt_ok hc.kinematic hl (fun _ => hr) hk ha ea hX
  obtain ⟨a', A', g', -⟩ := pointAt_ok hc.kinematic hl' (fun _ => hr') hk ha ea hX
  obtain ⟨i, p⟩ := pointAt_reflected hc ha ea g
  obtain ⟨i', -⟩ := pointAt_reflected hc ha ea g'
  rw [ht] at i'
  have i1 := Except.ok.inj ((i'.symm.trans e').trans (e.symm.trans i))
  have eA : A' = A := (Prod.mk.inj i1).2
  have ea' : a' = a := mul_right_cancel₀ p.ne' (Prod.mk.inj i1).1
  subst eA ea'
  clear i i' i1 e e' p
  have hc := hc.kinematic
  have h0 : ({ c with refl := none } : Conf).refl = none := rfl
  have ea : 0 < ({ c with refl := none } : Conf).etaa := ea
  have ha : ({ c with refl := none } : Conf).taua < 2 * k.kf := ha
  clear ht
  generalize ({ c with refl := none } : Conf) = c at *
  -- without mosaic
  obtain ⟨b, e, e'⟩ : ∃ b, pointAt c.perfect l X k q = .ok b ∧ pointAt c.perfect l' X k q = .ok b := by
    cases hs : c.etas with
    | none =>
      have e0 : c.perfect = c := by unfold Conf.perfect; rw [← hs]
      rw [e0]
      exact ⟨_, g, g'⟩
    | some u =>
      obtain ⟨x, y⟩ := u
      obtain ⟨r0, r1, f1, f2, -, f3, f4, f5⟩ := pointAt_widen (c := c.perfect) rfl hc.perfect hl (fun _ => hr) hk ha ea hX x y
      obtain ⟨r0', r1', f1', f2', -, f3', f4', f5'⟩ := pointAt_widen (c := c.perfect) rfl hc.perfect hl' (fun _ => hr') hk ha ea hX x y
      have e0 : ({ c.perfect with etas := some (x, y) } : Conf) = c := by unfold Conf.perfect; rw [← hs]
      rw [e0, g] at f2
      rw [e0, g'] at f2'
      have z := Except.ok.inj f2
      have z' := Except.ok.inj f2'
      subst z z'
      have hD (M : M4) (hM : M.PosDef) : (M⁻¹ + diagonal ![0, q ^ 2 * x ^ 2, q ^ 2 * y ^ 2, 0]).PosDef := by
        refine hM.inv.add_posSemidef (PosSemidef.diagonal fun i => ?_)
        fin_cases i <;> simp <;> positivity
      have z2 : r0'.2 = r0.2 := by
        have := f5'.symm.trans f5
        have := congrArg Inv.inv this
        rw [nonsing_inv_nonsing_inv _ (hD _ f3').det_pos.ne'.isUnit, nonsing_inv_nonsing_inv _ (hD _ f3).det_pos.ne'.isUnit] at this
        have := congrArg Inv.inv (add_right_cancel this)
        rwa [nonsing_inv_nonsing_inv _ f3'.det_pos.ne'.isUnit, nonsing_inv_nonsing_inv _ f3.det_pos.ne'.isUnit] at this
      have d1 := f3.diag_pos (i := 1)
      have d2 := f3.diag_pos (i := 2)
      have z1 : r0'.1 = r0.1 := by
        have := f4'.symm.trans f4
        rw [z2] at this
        have hp : 0 < √((1 + (q * x) ^ 2 * r0.2 2 2) * (1 + (q * y) ^ 2 * r0.2 1 1)) := Real.sqrt_pos.2 (by positivity)
        exact (div_left_inj' hp.ne').1 this
      exact ⟨r0, f1, f1'.trans (congrArg _ (Prod.ext z1 z2))⟩
  -- the prefactor
  obtain ⟨Mi, d, m, f, k1, k2, k3, k4, k5, -, -, k6⟩ := point_integrated hc hl (fun _ => hr) hk hX h0 e
  obtain ⟨Mi', d', m', f', k1', k2', k3', k4', k5', -, -, k6'⟩ := point_integrated hc hl' (fun _ => hr') hk hX h0 e'
  rw [alike_flux h, k3] at k3'
  have ff := Except.ok.inj k3'
  subst ff
  rw [← k5] at k5'
  rw [k5'] at k6'
  have mp : 0 < m := by
    rw [k5]
    have := hk.ki
    split_ifs <;> positivity
  have cp := crystalFactor_pos hk
  have fp := (matF_posDef hc.mosaics).det_pos
  have hki := hk.ki
  have hkf := hk.kf
  have hpi := pi_pos
  have ed : d' = d := by
    have := k6'.symm.trans k6
    have : √((matF c).det / d') = √((matF c).det / d) := by
      have w : 0 < crystalFactor k * m / (2 * π) ^ 2 * k.kf / k.ki := by positivity
      refine mul_left_cancel₀ w.ne' ?_
      linear_combination this
    have := (Real.sqrt_inj (by positivity) (by positivity)).1 this
    rw [div_eq_div_iff k2'.ne' k2.ne'] at this
    exact (mul_left_cancel₀ fp.ne' this).symm
  have hS := (matSinv_posDef hc (turnShape_posDef k hX)).inv
  obtain ⟨o1, o2⟩ := coreMatrix_rest hc hl hr hS k1
  obtain ⟨-, o2'⟩ := coreMatrix_rest hc hl' hr' hS k1'
  have er : coreRest c l' k (matSinv c (turnShape k X))⁻¹ = coreRest c l k (matSinv c (turnShape k X))⁻¹ := by
    unfold coreRest matT
    rw [h.radii.1, h.radii.2.1, h.radii.2.2.1, h.radii.2.2.2]
  rw [er] at o2'
  have eG (l : Loop) : matG l = diagonal fun i => 1 / l.order i ^ 2 := rfl
  rw [eG] at o1 o2 o2'
  have := det_moved o1 (j := j) (g' := fun i => 1 / l'.order i ^ 2) (fun i hi => by rw [h.same i hi]) (o2'.symm.trans (ed.trans o2))
  simpa using this

/-- C155 fails after the sample, for each method and each instrument: the wavelength of the incident neutrons is used there
as well.  At every inelastic point at which the two wavelengths differ by two percent, no collimation within one percent
of the one that stands for the guide gives the same result.  (For horizontal guides the reflectivity of a thick analyzer,
which depends on the smaller divergence, is left out.) -/
theorem C155_after_false {s : Settings} (h : s.Valid 1) {i : Fin 4} (hi : 2 ≤ i) {m : ℝ} (m0 : 0 < m) {q w : ℝ} (hr : Reaches s q w)
    (hw : 1.02 * wavelengthIn s w ≤ wavelengthOut s w ∨ 1.02 * wavelengthOut s w ≤ wavelengthIn s w)
    {x0 : ℝ} (hx : StandsFor x0 m (wavelengthOut s w)) {x : ℝ} (hxx : |x - x0| ≤ 0.01 * x0) :
    (s.vcol i = -m → ∃ r r', calcInQ s [(q, w)] = .ok [r] ∧ calcInQ (s.setV i x) [(q, w)] = .ok [r'] ∧ r ≠ r') ∧
    (s.hcol i = -m → s.ana.thickness = none ∨ s.ana.reflQ = none →
      ∃ r r', calcInQ s [(q, w)] = .ok [r] ∧ calcInQ (s.setH i x) [(q, w)] = .ok [r'] ∧ r ≠ r') := by
  have li := wavelengthIn_pos hr.ei
  have lo := wavelengthOut_pos hr.ef
  have hi0 : 0 < m * wavelengthIn s w := by positivity
  have ho0 : 0 < m * wavelengthOut s w := by positivity
  obtain ⟨g1, g2⟩ := guideCode_near ho0 hx
  have x00 := hx.pos
  rw [abs_le] at hxx
  have xpos : 0 < x := by norm_num at hxx; linarith [hxx.1]
  have y0 := guideCode_pos hi0
  have hne : x ≠ guideCode m (wavelengthIn s w) := by
    intro hx'
    have e : guideCode m (wavelengthIn s w) * wavelengthOut s w = guideCode m (wavelengthOut s w) * wavelengthIn s w := by
      unfold guideCode
      ring
    rw [← hx'] at e
    norm_num at hxx g1 g2
    rcases hw with hw | hw
    · norm_num at hw
      nlinarith
    · norm_num at hw
      nlinarith
  obtain ⟨c, hd, hc, ea, e1, e2, e3, e4, e5, e6, e7⟩ := decode_ok h
  have sm : c.sm = 1 ∨ c.sm = -1 := by rw [e5]; exact h.mono.dir
  have sa : c.sa = 1 ∨ c.sa = -1 := by rw [e7]; exact h.ana.dir
  obtain ⟨k, hk, gk, ka⟩ := kinematics_ok e1 e2 e3 e4 sm (e6 ▸ h.sample.dir) sa h.mono.tau h.ana.tau hr
  obtain ⟨X, hX, pX⟩ := sshapeAt_ok h.sample (i := 0) (by omega)
  have c1 := convert1_pos
  -- any two settings with the same decoding
  have main {s1 s2 : Settings} (v1 : s1.Valid 1) (v2 : s2.Valid 1) (d1 : decode s1 = .ok c) (d2 : decode s2 = .ok c)
      (x1 : s1.sample = s.sample) (x2 : s2.sample = s.sample) {j : Fin 8}
      (al : ((Loop.start s1).advance c k.ki).Alike ((Loop.start s2).advance c k.ki) j)
      (ht : c.reflected ((Loop.start s2).advance c k.ki) = c.reflected ((Loop.start s1).advance c k.ki))
      (hj : ((Loop.start s2).advance c k.ki).order j ^ 2 ≠ ((Loop.start s1).advance c k.ki).order j ^ 2) :
      ∃ r r', calcInQ s1 [(q, w)] = .ok [r] ∧ calcInQ s2 [(q, w)] = .ok [r'] ∧ r ≠ r' := by
    have l1 := advance_good (start_good v1) c gk.ki
    have l2 := advance_good (start_good v2) c gk.ki
    have r1 := advance_curved (start_curved v1) sm sa k.ki
    have r2 := advance_curved (start_curved v2) sm sa k.ki
    obtain ⟨a, A, p1, -⟩ := pointAt_ok hc l1 (fun _ => r1) gk ka ea pX
    obtain ⟨a', A', p2, -⟩ := pointAt_ok hc l2 (fun _ => r2) gk ka ea pX
    refine ⟨(a, A), (a', A'), ?_, ?_, fun he => hj ?_⟩
    · unfold calcInQ
      simp only [d1, ok_bind, runLoop, x1, hX, hk, p1]
      rfl
    · unfold calcInQ
      simp only [d2, ok_bind, runLoop, x2, hX, hk, p2]
      rfl
    · rw [← he] at p2
      exact point_alike hc ea l1 l2 r1 r2 al ht gk ka pX p1 p2
  have hh : ∀ i : Fin 4, 2 ≤ i → i = 2 ∨ i = 3 := by decide
  have sq {u v z : ℝ} (hu : 0 < u) (hv : 0 < v) (hz : 0 < z) (h : u ≠ v) : (u * z) ^ 2 ≠ (v * z) ^ 2 := fun e =>
    h (mul_right_cancel₀ hz.ne' ((sq_eq_sq₀ (by positivity) (by positivity)).1 e))
  constructor
  · intro hg
    rw [calc_setV m0 hg hr.ei]
    have hv (y : ℝ) (hy : 0 < y) : (s.setV i y).Valid 1 :=
      ⟨h.mono, h.ana, h.guide, h.monitor, h.detector, h.sample, h.hcol, fun j => by
        by_cases hj : j = i
        · subst hj; simp [Settings.setV, hy.ne']
        · simp only [Settings.setV, Function.update_of_ne hj]; exact h.vcol j, h.arms⟩
    have b (y : ℝ) (hy : 0 < y) : ((Loop.start (s.setV i y)).advance c k.ki).beta i = y * convert1 := by
      simp only [Loop.advance, Loop.start, Settings.setV, Function.update_self]
      exact guideDivergence_pos (mul_pos hy c1) _
    have o (y : ℝ) (j : Fin 4) (hj : j ≠ i) : ((Loop.start (s.setV i y)).advance c k.ki).beta j = ((Loop.start s).advance c k.ki).beta j := by
      simp only [Loop.advance, Loop.start, Settings.setV, Function.update_of_ne hj]
    rcases hh i hi with rfl | rfl
    · refine main (j := 6) (hv _ y0) (hv _ xpos) hd hd rfl rfl ⟨by decide, alike_order (fun _ _ => rfl) (fun p hp => (o _ p fun e => hp (by rw [e]; rfl)).trans (o _ p fun e => hp (by rw [e]; rfl)).symm), rfl, rfl, rfl, rfl⟩ rfl ?_
      · have u := b x xpos
        have u' := b _ y0
        show ((Loop.start (s.setV 2 x)).advance c k.ki).beta 2 ^ 2 ≠ ((Loop.start (s.setV 2 (guideCode m (wavelengthIn s w)))).advance c k.ki).beta 2 ^ 2
        rw [u, u']
        exact sq xpos y0 c1 hne
    · refine main (j := 7) (hv _ y0) (hv _ xpos) hd hd rfl rfl ⟨by decide, alike_order (fun _ _ => rfl) (fun p hp => (o _ p fun e => hp (by rw [e]; rfl)).trans (o _ p fun e => hp (by rw [e]; rfl)).symm), rfl, rfl, rfl, rfl⟩ rfl ?_
      · have u := b x xpos
        have u' := b _ y0
        show ((Loop.start (s.setV 3 x)).advance c k.ki).beta 3 ^ 2 ≠ ((Loop.start (s.setV 3 (guideCode m (wavelengthIn s w)))).advance c k.ki).beta 3 ^ 2
        rw [u, u']
        exact sq xpos y0 c1 hne
  · intro hg ht
    rw [calc_setH m0 hg hr.ei]
    have hv (y : ℝ) (hy : 0 < y) : (s.setH i y).Valid 1 :=
      ⟨h.mono, h.ana, h.guide, h.monitor, h.detector, h.sample, fun j => by
        by_cases hj : j = i
        · subst hj; simp [Settings.setH, hy.ne']
        · simp only [Settings.setH, Function.update_of_ne hj]; exact h.hcol j, h.vcol, h.arms⟩
    have f0 : (0 : ℝ) < convert1 * if s.horifoc = some 1 ∧ i = 2 then √(8 * log 2 / 12) else 1 := by
      have : 0 < log 2 := log_pos (by norm_num)
      split_ifs <;> positivity
    have b (y : ℝ) (hy : 0 < y) : ((Loop.start (s.setH i y)).advance c k.ki).alpha i =
        y * (convert1 * if s.horifoc = some 1 ∧ i = 2 then √(8 * log 2 / 12) else 1) := by
      simp only [Loop.advance, Loop.start, Settings.setH, Function.update_self]
      rw [mul_assoc]
      exact guideDivergence_pos (mul_pos hy f0) _
    have o (y : ℝ) (j : Fin 4) (hj : j ≠ i) : ((Loop.start (s.setH i y)).advance c k.ki).alpha j = ((Loop.start s).advance c k.ki).alpha j := by
      simp only [Loop.advance, Loop.start, Settings.setH, Function.update_of_ne hj]
      rfl
    have rf : c.refl = none := by
      unfold decode at hd
      obtain ⟨x, -, hd⟩ := bind_ok hd
      rw [← Except.ok.inj hd]
      dsimp only
      rcases ht with ht | ht <;> rw [ht]
      cases s.ana.thickness <;> rfl
    have ht (l l' : Loop) : c.reflected l = c.reflected l' := by
      funext k
      unfold Conf.reflected
      rw [rf]
    rcases hh i hi with rfl | rfl
    · refine main (j := 4) (hv _ y0) (hv _ xpos) hd hd rfl rfl ⟨by decide, alike_order (fun p hp => (o _ p fun e => hp (by rw [e]; rfl)).trans (o _ p fun e => hp (by rw [e]; rfl)).symm) (fun _ _ => rfl), rfl, rfl, rfl, rfl⟩ (ht _ _) ?_
      · have u := b x xpos
        have u' := b _ y0
        show ((Loop.start (s.setH 2 x)).advance c k.ki).alpha 2 ^ 2 ≠ ((Loop.start (s.setH 2 (guideCode m (wavelengthIn s w)))).advance c k.ki).alpha 2 ^ 2
        rw [u, u']
        exact sq xpos y0 f0 hne
    · refine main (j := 5) (hv _ y0) (hv _ xpos) hd hd rfl rfl ⟨by decide, alike_order (fun p hp => (o _ p fun e => hp (by rw [e]; rfl)).trans (o _ p fun e => hp (by rw [e]; rfl)).symm) (fun _ _ => rfl), rfl, rfl, rfl, rfl⟩ (ht _ _) ?_
      · have u := b x xpos
        have u' := b _ y0
        show ((Loop.start (s.setH 3 x)).advance c k.ki).alpha 3 ^ 2 ≠ ((Loop.start (s.setH 3 (guideCode m (wavelengthIn s w)))).advance c k.ki).alpha 3 ^ 2
        rw [u, u']
        exact sq xpos y0 f0 hne

/-- The default instrument with a guide of `m = 2` in front of the monochromator. -/
example : ∃ x0, StandsFor x0 2 (wavelengthIn (demo.setH 0 (-2)) 1) ∧ ∃ x, |x - x0| ≤ 0.01 * x0 ∧
    calcInQ (demo.setH 0 (-2)) [(1, 1)] = calcInQ ((demo.setH 0 (-2)).setH 0 x) [(1, 1)] := by
  have he : 0 < incident (demo.setH 0 (-2)) 1 :=
    (demo_reaches (q := 1) (by norm_num) (by norm_num) zero_le_one le_rfl).ei
  obtain ⟨⟨x0, h0⟩, h⟩ := C155_before_partial (s := demo.setH 0 (-2)) (i := 0) (by decide) (m := 2) (by norm_num) (q := 1) he
  obtain ⟨x, h1, h2, _⟩ := h x0 h0
  exact ⟨x0, h0, x, h1, h2 (by simp [Settings.setH])⟩

/-- The default instrument with a guide of `m = 1` in front of the detector, at an energy transfer of 1 meV. -/
example : ∃ x0, StandsFor x0 1 (wavelengthOut (demo.setH 3 (-1)) 1) ∧ ∀ x, |x - x0| ≤ 0.01 * x0 →
    ∃ r r', calcInQ (demo.setH 3 (-1)) [(1, 1)] = .ok [r] ∧ calcInQ ((demo.setH 3 (-1)).setH 3 x) [(1, 1)] = .ok [r'] ∧
      r ≠ r' := by
  have hd := demo_reaches (q := 1) (w := 1) (by norm_num) (by norm_num) zero_le_one le_rfl
  have hr : Reaches (demo.setH 3 (-1)) 1 1 := ⟨hd.ei, hd.ef, hd.mono, hd.ana, hd.closes, hd.q⟩
  have hv : (demo.setH 3 (-1)).Valid 1 :=
    ⟨(demo_valid 1).mono, (demo_valid 1).ana, (demo_valid 1).guide, (demo_valid 1).monitor, (demo_valid 1).detector,
      (demo_valid 1).sample, fun i => by
        by_cases hi : i = 3
        · subst hi; simp [Settings.setH]
        · simp only [Settings.setH, Function.update_of_ne hi]; exact (demo_valid 1).hcol i,
      (demo_valid 1).vcol, (demo_valid 1).arms⟩
  have lo := wavelengthOut_pos hr.ef
  refine ⟨_, (standsFor_iff (by rw [one_mul]; exact lo)).2 rfl, fun x hx => (C155_after_false hv (i := 3) (by decide) one_pos hr ?_
    ((standsFor_iff (by rw [one_mul]; exact lo)).2 rfl) hx).2 (by simp [Settings.setH]) (Or.inl rfl)⟩
  left
  have ei : incident (demo.setH 3 (-1)) 1 = 15.7 := by
    unfold incident
    rw [if_neg (by norm_num [Settings.setH, demo])]
    norm_num [Settings.setH, demo]
  have ef : final (demo.setH 3 (-1)) 1 = 14.7 := by
    unfold final
    rw [if_neg (by norm_num [Settings.setH, demo])]
    rfl
  unfold wavelengthIn wavelengthOut
  rw [ei, ef]
  have k1 : 0 < wavevector 15.7 := Real.sqrt_pos.2 (by norm_num)
  have k2 : 0 < wavevector 14.7 := Real.sqrt_pos.2 (by norm_num)
  have hk : 1.02 * wavevector 14.7 ≤ wavevector 15.7 := by
    refine abs_le_of_sq_le_sq' ?_ k1.le |>.2
    rw [mul_pow, wavevector, wavevector, Real.sq_sqrt (by norm_num), Real.sq_sqrt (by norm_num)]
    norm_num
  have hp := pi_pos
  rw [← mul_div_assoc, div_le_div_iff₀ k1 k2]
  nlinarith

end Verif.Resolution
