import Verif.Resolution.PropsMirrorSides
import Verif.Resolution.PropsFlight

/-! # Property C199, the failing side: scans with curved crystals -/

namespace Verif.Resolution

open Real Matrix
open Verif.Crystal (Fail npSqrt npArcsin npDiv)
open Verif.Tools (arctan2 SPD Closes)

/-- An entry of the covariance of the Popovici method from the solution of one linear system. -/
theorem popovici_entry {c : Conf} {l : Loop} {k : Kin} {q : ℝ} (hp : c.popovici = true) (he : c.etas = none) (hc : c.Good) (hl : l.Good)
    (hv : l.Curved) (gk : k.Good q) (gt : c.taua < 2 * k.kf) (hea : 0 < c.etaa) {X : M3} (hX : X.PosDef) (i : Fin 4) {u : Fin 8 → ℝ}
    (hu : (matB k * matA k) i = u) {x : Fin 13 → ℝ}
    (hx : ((matSinv c (turnShape k X))⁻¹ + (matT c l k)ᵀ * matF c * matT c l k) *ᵥ x + (matD c k)ᵀ *ᵥ (matG l *ᵥ (matD c k *ᵥ x)) =
      (matD c k)ᵀ *ᵥ u) :
    ∃ r RM, pointAt c l X k q = .ok (r, RM) ∧ RM⁻¹ i i = u ⬝ᵥ (matD c k *ᵥ x) := by
  have harm := hc.arms hp
  have hS := (matSinv_posDef hc (turnShape_posDef k hX)).inv
  obtain ⟨K, eK⟩ : ∃ K, K = (matSinv c (turnShape k X))⁻¹ + (matT c l k)ᵀ * matF c * matT c l k := ⟨_, rfl⟩
  have hK : K.PosDef := eK ▸ hS.add_posSemidef (gram_posSemidef (matF_posDef hc.mosaics) _)
  have hD := congr_posDef hK.inv (matD c k) (matD_inj harm k)
  have hG := hD.inv.add (matG_posDef hl.alpha hl.beta)
  have hN := congr_posDef hG.inv (matA k) (matA_inj gk)
  have hM := congr_posDef hN (matB k) (matB_inj gk)
  have hcore : coreMatrix c l k (matSinv c (turnShape k X))⁻¹ =
      .ok (matB k * (matA k * ((matD c k * K⁻¹ * (matD c k)ᵀ)⁻¹ + matG l)⁻¹ * (matA k)ᵀ) * (matB k)ᵀ,
        ((matD c k * K⁻¹ * (matD c k)ᵀ)⁻¹ + matG l).det) := by
    unfold coreMatrix popoviciN
    rw [if_pos hp, if_neg (by simp [harm.l0, harm.l1, harm.l2, harm.l3, hv.monorh, hv.monorv, hv.anarh, hv.anarv])]
    simp only [← eK, npInv_ok hK, npInv_ok hD, npInv_ok hG, pure, Except.pure, bind, Except.bind]
  obtain ⟨r, RM, h1, h2⟩ := pointAt_core hc hl gk gt hea hX hcore hM hG.det_pos
  refine ⟨r, RM, h1, ?_⟩
  rw [he] at h2
  simp only [add_zero] at h2
  rw [h2, nonsing_inv_nonsing_inv _ hM.det_pos.ne'.isUnit]
  rw [← eK] at hx
  set D := matD c k
  set G := matG l
  have u1 : IsUnit K.det := hK.det_pos.ne'.isUnit
  have u2 : IsUnit (D * K⁻¹ * Dᵀ).det := hD.det_pos.ne'.isUnit
  have u3 : IsUnit ((D * K⁻¹ * Dᵀ)⁻¹ + G).det := hG.det_pos.ne'.isUnit
  have hx1 : x = K⁻¹ *ᵥ (Dᵀ *ᵥ (u - G *ᵥ (D *ᵥ x))) := by
    have : K *ᵥ x = Dᵀ *ᵥ (u - G *ᵥ (D *ᵥ x)) := by
      rw [mulVec_sub, ← hx, add_sub_cancel_right]
    rw [← this, mulVec_mulVec, nonsing_inv_mul _ u1, one_mulVec]
  have hx2 : D *ᵥ x = (D * K⁻¹ * Dᵀ) *ᵥ (u - G *ᵥ (D *ᵥ x)) := by
    conv_lhs => rw [hx1]
    simp only [mulVec_mulVec, Matrix.mul_assoc]
  have hx3 : ((D * K⁻¹ * Dᵀ)⁻¹ + G) *ᵥ (D *ᵥ x) = u := by
    have : (D * K⁻¹ * Dᵀ)⁻¹ *ᵥ (D *ᵥ x) = u - G *ᵥ (D *ᵥ x) := by
      conv_lhs => rw [hx2]
      rw [mulVec_mulVec, nonsing_inv_mul _ u2, one_mulVec]
    rw [add_mulVec, this, sub_add_cancel]
  have hx4 : ((D * K⁻¹ * Dᵀ)⁻¹ + G)⁻¹ *ᵥ u = D *ᵥ x := by
    rw [← hx3, mulVec_mulVec, nonsing_inv_mul _ u3, one_mulVec]
  rw [← hx4]
  generalize ((D * K⁻¹ * Dᵀ)⁻¹ + G)⁻¹ = Z
  have e : matB k * (matA k * Z * (matA k)ᵀ) * (matB k)ᵀ = matB k * matA k * Z * (matB k * matA k)ᵀ := by
    rw [transpose_mul]; simp only [Matrix.mul_assoc]
  rw [e, ← hu, dotProduct_mulVec, Matrix.mul_apply_eq_vecMul, Matrix.mul_apply_eq_vecMul]
  rfl

theorem blkdiag_one {m n : ℕ} : blkdiag (1 : Matrix (Fin m) (Fin m) ℝ) (1 : Matrix (Fin n) (Fin n) ℝ) = 1 := by
  unfold blkdiag
  rw [fromBlocks_one, submatrix_one_equiv]

/-- A Popovici instrument with vertically curved crystals, all of whose widths are one, scattering to the side `d`. -/
noncomputable def curved (d : ℝ) : Settings where
  efixed := 2.072
  infin := none
  method := some (.number 1)
  moncor := none
  horifoc := none
  hcol _ := convert1⁻¹
  vcol _ := convert1⁻¹
  arms := none
  mono := ⟨1, convert1⁻¹, none, none, none, none, some 1, none, d, none, none⟩
  ana := ⟨1, convert1⁻¹, none, none, none, none, some 1, none, d, none, none⟩
  sample := ⟨none, none, none, none, none, none, none, d⟩
  guide := ⟨none, none⟩
  monitor := ⟨none, none⟩
  detector := ⟨none, none⟩

theorem curved_image (d : ℝ) : (curved d).image = curved (-d) := rfl

theorem curved_valid {d : ℝ} (h : d = 1 ∨ d = -1) (n : ℕ) : (curved d).Valid n := by
  have c1 : 0 < convert1⁻¹ := inv_pos.2 convert1_pos
  have hb : ∀ r : ℝ, some (1 : ℝ) = some r → r ≠ 0 := fun r h => by rw [← Option.some.inj h]; exact one_ne_zero
  exact
  { mono := ⟨one_pos, c1, .none, .none, .none, .none, hb, fun _ h => (nomatch h), h, .none, .none⟩
    ana := ⟨one_pos, c1, .none, .none, .none, .none, hb, fun _ h => (nomatch h), h, .none, .none⟩
    guide := ⟨.none, .none⟩
    monitor := ⟨.none, .none⟩
    detector := ⟨.none, .none⟩
    sample := ⟨.none, .none, .none, fun _ h => (nomatch h), fun _ h => (nomatch h), h⟩
    hcol _ := c1.ne'
    vcol _ := c1.ne'
    arms _ h := nomatch h }

theorem curved_incident (d : ℝ) : incident (curved d) 0 = 2.072 ∧ final (curved d) 0 = 2.072 := by
  constructor <;> simp [incident, final, curved]

theorem curved_reaches (d : ℝ) : Reaches (curved d) 1 0 := by
  have hw : wavevector 2.072 = 1 := by norm_num [wavevector]
  obtain ⟨h1, h2⟩ := curved_incident d
  refine ⟨by rw [h1]; norm_num, by rw [h2]; norm_num, ?_, ?_, ?_, one_pos⟩
  · rw [h1, hw]; norm_num [curved]
  · rw [h2, hw]; norm_num [curved]
  · rw [h1, h2, hw, Verif.Tools.closes_iff (by norm_num) (by norm_num) (by norm_num)]
    norm_num

theorem curved_nominal {d : ℝ} (h : d = 1 ∨ d = -1) : IsNominal (curved d) 1 0 1 1 (d * (π / 6)) (d * (π / 6)) (d * (π / 3)) := by
  have hp := pi_pos
  obtain ⟨h1, h2⟩ := curved_incident d
  have e : |d * (π / 6)| < π / 2 := by
    rw [abs_mul, abs_of_pos (by positivity : 0 < π / 6)]
    rcases h with rfl | rfl <;> norm_num <;> linarith
  have hs : 2 * 1 * sin (d * (π / 6)) = d * 1 := by
    rcases h with rfl | rfl
    · rw [one_mul, sin_pi_div_six]; norm_num
    · rw [neg_one_mul, sin_neg, sin_pi_div_six]; norm_num
  refine ⟨⟨one_pos, by rw [h1]; norm_num⟩, ⟨one_pos, by rw [h2]; norm_num⟩, ⟨e, hs⟩, ⟨e, hs⟩, ?_, ?_, ?_⟩
  · rcases h with rfl | rfl
    · rw [one_mul, cos_pi_div_three]; norm_num
    · rw [neg_one_mul, cos_neg, cos_pi_div_three]; norm_num
  · show 0 ≤ d * (d * (π / 3))
    rcases h with rfl | rfl <;> norm_num <;> positivity
  · show d * (d * (π / 3)) ≤ π
    rcases h with rfl | rfl <;> norm_num <;> linarith

/-- What the calculation for `curved` amounts to. -/
structure Unit13 (c : Conf) (l : Loop) (k : Kin) (sg : ℝ) : Prop where
  S : (matSinv c (turnShape k 1))⁻¹ = 1
  F : matF c = 1
  G : matG l = 1
  arms : c.L0 = 1 ∧ c.L1 = 1 ∧ c.L2 = 1 ∧ c.L3 = 1
  rv : l.monorv = 1 ∧ l.anarv = 1
  sin : sin k.thetam = sg / 2 ∧ sin k.thetaa = sg / 2
  wave : k.ki = 1 ∧ k.kf = 1

theorem unit_row {c : Conf} {l : Loop} {k : Kin} {sg : ℝ} (h : Unit13 c l k sg) : (matB k * matA k) 2 = ![0, 0, 0, 1, 0, 0, -1, 0] := by
  ext j
  fin_cases j <;> simp [matB, matA, Matrix.mul_apply, Fin.sum_univ_succ, h.wave]

theorem unit_D {c : Conf} {l : Loop} {k : Kin} {sg : ℝ} (h : Unit13 c l k sg) (g m s : ℝ) :
    matD c k *ᵥ ![0, g, 0, 0, m, 0, 0, s, 0, 0, m, 0, g] = ![0, 0, m - g, s - m, 0, 0, m - s, g - m] := by
  ext i
  fin_cases i <;> simp [matD, mulVec, dotProduct, Fin.sum_univ_succ, h.arms] <;> ring

theorem unit_T {c : Conf} {l : Loop} {k : Kin} {sg : ℝ} (hs : sg = 1 ∨ sg = -1) (h : Unit13 c l k sg) (g m s : ℝ) :
    matT c l k *ᵥ ![0, g, 0, 0, m, 0, 0, s, 0, 0, m, 0, g] =
      ![0, sg * ((2 - sg) * m - g - s), 0, sg * ((2 - sg) * m - g - s)] := by
  ext i
  rcases hs with rfl | rfl <;> fin_cases i <;>
    simp [matT, mulVec, dotProduct, Fin.sum_univ_succ, h.arms, h.rv, h.sin] <;> norm_num <;> ring

theorem unit_Tt {c : Conf} {l : Loop} {k : Kin} {sg : ℝ} (hs : sg = 1 ∨ sg = -1) (h : Unit13 c l k sg) (t : ℝ) :
    (matT c l k)ᵀ *ᵥ ![0, sg * t, 0, sg * t] = ![0, -t, 0, 0, (2 - sg) * t, 0, 0, -2 * t, 0, 0, (2 - sg) * t, 0, -t] := by
  ext i
  rcases hs with rfl | rfl <;> fin_cases i <;>
    simp [matT, mulVec, dotProduct, Fin.sum_univ_succ, h.arms, h.rv, h.sin] <;> norm_num <;> ring

theorem unit_Dt {c : Conf} {l : Loop} {k : Kin} {sg : ℝ} (h : Unit13 c l k sg) (a b e f : ℝ) :
    (matD c k)ᵀ *ᵥ ![0, 0, a, b, 0, 0, e, f] = ![0, -a, 0, 0, a - b, 0, 0, b - e, 0, 0, e - f, 0, f] := by
  ext i
  fin_cases i <;> simp [matD, mulVec, dotProduct, Fin.sum_univ_succ, h.arms] <;> ring

theorem unit_solve {c : Conf} {l : Loop} {k : Kin} {sg : ℝ} (hs : sg = 1 ∨ sg = -1) (h : Unit13 c l k sg) {g m s : ℝ}
    (e1 : g - ((2 - sg) * m - g - s) - (m - g) = 0)
    (e2 : m + (2 - sg) * ((2 - sg) * m - g - s) + (m - g) - (s - m) = -1)
    (e3 : s - 2 * ((2 - sg) * m - g - s) + (s - m) - (m - s) = 2) :
    ((matSinv c (turnShape k 1))⁻¹ + (matT c l k)ᵀ * matF c * matT c l k) *ᵥ ![0, g, 0, 0, m, 0, 0, s, 0, 0, m, 0, g] +
      (matD c k)ᵀ *ᵥ (matG l *ᵥ (matD c k *ᵥ ![0, g, 0, 0, m, 0, 0, s, 0, 0, m, 0, g])) = (matD c k)ᵀ *ᵥ ![0, 0, 0, 1, 0, 0, -1, 0] := by
  rw [h.S, h.F, h.G, Matrix.mul_one, add_mulVec, one_mulVec, ← mulVec_mulVec, unit_T hs h, unit_Tt hs h, one_mulVec, unit_D h, unit_Dt h, unit_Dt h]
  ext i
  fin_cases i <;> simp <;> linarith

/-- The second point of a scan of `curved`: the mean square of the vertical component. -/
theorem curved_scan {d : ℝ} (hd : d = 1 ∨ d = -1) {g m s : ℝ}
    (e1 : g - ((2 - d) * m - g - s) - (m - g) = 0)
    (e2 : m + (2 - d) * ((2 - d) * m - g - s) + (m - g) - (s - m) = -1)
    (e3 : s - 2 * ((2 - d) * m - g - s) + (s - m) - (m - s) = 2) :
    ∃ r r', calcInQ (curved d) [(1, 0), (1, 0)] = .ok [r, r'] ∧ r'.2⁻¹ 2 2 = 2 * (s - m) := by
  have c1 := convert1_pos.ne'
  have dd : d * d = 1 := by rcases hd with rfl | rfl <;> norm_num
  have d0 : d ≠ 0 := fun h => by rw [h] at dd; norm_num at dd
  have hv := curved_valid hd 2
  have hr := curved_reaches d
  have hX : sshapeAt (curved d).sample 0 = .ok 1 ∧ sshapeAt (curved d).sample 1 = .ok 1 := ⟨rfl, rfl⟩
  obtain ⟨c, hdc, hc, hea, he, hi, hm, ha, sm, ss, sa⟩ := decode_ok hv
  obtain ⟨k, hk, gk, gt⟩ := kinematics_ok he hi hm ha (sm ▸ hv.mono.dir) (ss ▸ hv.sample.dir) (sa ▸ hv.ana.dir) hv.mono.tau hv.ana.tau hr
  have ek := kinematics_nominal he hi hm ha sm ss sa hv.mono.dir hv.sample.dir hv.ana.dir (curved_nominal hd) hk
  have smd : c.sm = d := sm
  have sad : c.sa = d := sa
  set l0 := Loop.start (curved d)
  have g1 := advance_good (start_good hv) c gk.ki
  have v1 := advance_curved (start_curved hv) (sm ▸ hv.mono.dir) (sa ▸ hv.ana.dir) k.ki
  have g2 := advance_good g1 c gk.ki
  have v2 := advance_curved v1 (sm ▸ hv.mono.dir) (sa ▸ hv.ana.dir) k.ki
  have fields : c.popovici = true ∧ c.etas = none ∧ c.etam = 1 ∧ c.etamv = 1 ∧ c.etaa = 1 ∧ c.etaav = 1 ∧ c.bshape = ![1, 1] ∧
      c.mshape = ![1, 1, 1] ∧ c.ashape = ![1, 1, 1] ∧ c.dshape = ![1, 1] ∧ c.L0 = 1 ∧ c.L1 = 1 ∧ c.L2 = 1 ∧ c.L3 = 1 := by
    have ha : decodeArms (curved d) = .ok (1, 1, 1, 1, 1) := rfl
    unfold decode at hdc
    rw [ha] at hdc
    have hdc' := (Except.ok.inj hdc).symm
    subst hdc'
    have ei : convert1⁻¹ * convert1 = 1 := inv_mul_cancel₀ c1
    refine ⟨rfl, rfl, ei, ?_, ei, ei, rfl, rfl, rfl, rfl, rfl, rfl, rfl, rfl⟩
    show (if (curved d).vmosaicUsed = true then convert1⁻¹ else convert1⁻¹) * convert1 = 1
    rw [ite_self, ei]
  obtain ⟨f1, f2, f3, f4, f5, f6, f7, f8, f9, f10, f11⟩ := fields
  have ones2 : diagonal ![(1 : ℝ), 1] = 1 := by
    rw [← diagonal_one]; congr 1; funext i; fin_cases i <;> rfl
  have ones3 : diagonal ![(1 : ℝ), 1, 1] = 1 := by
    rw [← diagonal_one]; congr 1; funext i; fin_cases i <;> rfl
  have hturn : turnShape k 1 = 1 := by
    have := sin_sq_add_cos_sq (k.s2theta / 2 - k.phi)
    unfold turnShape
    simp only [Matrix.mul_one]
    generalize k.s2theta / 2 - k.phi = p at this
    ext i j
    rw [Matrix.mul_apply, Fin.sum_univ_three]
    fin_cases i <;> fin_cases j <;> simp <;> first | linear_combination this | ring
  have al : ∀ i, ((l0.advance c k.ki).advance c k.ki).alpha i = 1 := fun i => by
    have e : l0.alpha i = 1 := by simp [l0, Loop.start, curved, c1]
    simp [Loop.advance, e, guideDivergence_nonneg]
  have be : ∀ i, ((l0.advance c k.ki).advance c k.ki).beta i = 1 := fun i => by
    have e : l0.beta i = 1 := by simp [l0, Loop.start, curved, c1]
    simp [Loop.advance, e, guideDivergence_nonneg]
  have hsin : sin (d * (π / 6)) = d / 2 := by
    have := (curved_nominal hd).braggIn.2
    have e : 2 * 1 * sin (d * (π / 6)) = d * 1 := this
    linarith
  have hU : Unit13 c ((l0.advance c k.ki).advance c k.ki) k d := by
    refine ⟨?_, ?_, ?_, f11, ?_, ?_, ?_⟩
    · rw [hturn, matSinv, f7, f8, f9, f10, ones2, ones3, blkdiag_one, blkdiag_one, blkdiag_one, blkdiag_one, inv_one]
    · unfold matF
      rw [f3, f4, f5, f6, ← diagonal_one]
      congr 1
      funext i
      fin_cases i <;> simp
    · unfold matG
      simp only [al, be]
      rw [← diagonal_one]
      congr 1
      funext i
      fin_cases i <;> simp
    · constructor
      · show (1 : ℝ) * c.sm * c.sm = 1
        rw [smd, one_mul, dd]
      · show (1 : ℝ) * c.sa * c.sa = 1
        rw [sad, one_mul, dd]
    · rw [ek]; exact ⟨hsin, hsin⟩
    · rw [ek]; exact ⟨rfl, rfl⟩
  obtain ⟨r, RM, p1, -⟩ := pointAt_ok hc g1 (fun _ => v1) gk gt hea PosDef.one
  obtain ⟨r', RM', p2, p3⟩ := popovici_entry f1 f2 hc g2 v2 gk gt hea PosDef.one 2 (unit_row hU) (unit_solve hd hU e1 e2 e3)
  refine ⟨(r, RM), (r', RM'), ?_, ?_⟩
  · unfold calcInQ
    simp only [hdc, ok_bind, runLoop, hX, hk]
    rw [p1]
    simp only [ok_bind]
    rw [p2]
    rfl
  · rw [p3, unit_D hU]
    simp [dotProduct, Fin.sum_univ_succ]
    ring

theorem calcInQ_head {s : Settings} {p : ℝ × ℝ} {a b : ℝ × M4} (h : calcInQ s [p, p] = .ok [a, b]) : calcInQ s [p] = .ok [a] := by
  unfold calcInQ at h ⊢
  obtain ⟨c, e, h⟩ := bind_ok h
  rw [e]
  obtain ⟨q, w⟩ := p
  simp only [ok_bind, runLoop] at h ⊢
  obtain ⟨X, e, h⟩ := bind_ok h
  rw [e]
  obtain ⟨k, e, h⟩ := bind_ok h
  simp only [ok_bind]
  rw [e]
  obtain ⟨x, e, h⟩ := bind_ok h
  simp only [ok_bind]
  rw [e]
  obtain ⟨y, -, h⟩ := bind_ok h
  have := List.cons.inj (Except.ok.inj h)
  rw [this.1]
  rfl

/-- C199, the failing side.  The curvatures of the crystals are multiplied by the scattering senses once more at every point of
a list.  For this valid instrument with curved crystals and the Popovici method, the mirror image of the instrument does
not have the mirrored resolution at the second point of a list: to one side the crystals stay focusing, to the other they are
defocusing at every second point. -/
theorem C199_scan_false : (curved 1).Valid 2 ∧ Reaches (curved 1) 1 0 ∧ ∃ r r' m m', calcInQ (curved 1) [(1, 0), (1, 0)] = .ok [r, r'] ∧
    calcInQ (curved 1).image [(1, 0), (1, 0)] = .ok [m, m'] ∧ m.2 = leftRight r.2 ∧ m'.2 ≠ leftRight r'.2 := by
  have hv := curved_valid (Or.inl rfl) 2
  refine ⟨hv, curved_reaches 1, ?_⟩
  obtain ⟨r, r', h1, h2⟩ := curved_scan (d := 1) (Or.inl rfl) (g := -1 / 4) (m := -5 / 24) (s := 1 / 3) (by norm_num) (by norm_num) (by norm_num)
  obtain ⟨m, m', h3, h4⟩ := curved_scan (d := -1) (Or.inr rfl) (g := -1 / 11) (m := 3 / 44) (s := 6 / 11) (by norm_num) (by norm_num) (by norm_num)
  refine ⟨r, r', m, m', h1, by rw [curved_image]; exact h3, ?_, ?_⟩
  · have hs := C199_mirror_partial (curved 1) [(1, 0)] fun _ => le_refl 1
    rw [curved_image] at hs
    rw [calcInQ_head h1, calcInQ_head h3] at hs
    have := List.cons.inj (Except.ok.inj hs)
    rw [this.1]
  · intro h
    have e : m'.2⁻¹ 2 2 = r'.2⁻¹ 2 2 := by
      rw [h, leftRight_m4, flipBy, Matrix.mul_inv_rev, Matrix.mul_inv_rev]
      have hi : (diagonal m4)⁻¹ = diagonal m4 := Matrix.inv_eq_left_inv signs_m4.sq
      rw [hi, ← Matrix.mul_assoc]
      change flipBy m4 _ 2 2 = _
      rw [flipBy_apply]
      simp [m4]
    rw [h2, h4] at e
    norm_num at e

/-- C62, curved crystals with sense `-1`.  For this valid instrument the same point asked for twice in one list gives two different
matrices; the second differs from the matrix of the point alone. -/
theorem C62_curvature_leaks : (curved (-1)).Valid 2 ∧ Reaches (curved (-1)) 1 0 ∧ ∃ r r', calcInQ (curved (-1)) [(1, 0), (1, 0)] = .ok [r, r'] ∧
    calcInQ (curved (-1)) [(1, 0)] = .ok [r] ∧ r'.2 ≠ r.2 := by
  obtain ⟨-, -, r, r', m, m', h1, h2, h3, h4⟩ := C199_scan_false
  refine ⟨curved_valid (Or.inr rfl) 2, curved_reaches _, m, m', h2, calcInQ_head h2, fun h => h4 ?_⟩
  have c1 : 0 < convert1⁻¹ := inv_pos.2 convert1_pos
  have hb := (C62_batch_partial (curved 1) [(1, 0), (1, 0)] (by simp) (Or.inl fun _ => ⟨c1.le, c1.le⟩) (fun _ => ⟨rfl, rfl⟩)
    (fun _ h => nomatch h) [r, r']).1 h1
  rw [List.forall₂_cons, List.forall₂_cons] at hb
  have e : r = r' := (List.cons.inj (Except.ok.inj (hb.1.symm.trans hb.2.1))).1
  rw [h, h3, e]

/-- Both methods: the default instrument on a scan, and `curved` at a point. -/
example : calcInQ demo.image [(1, 0), (1 / 2, 1)] = (calcInQ demo [(1, 0), (1 / 2, 1)]).map (List.map fun r => (r.1, leftRight r.2)) :=
  C199_mirror_partial demo _ fun h => by simp [Settings.popovici, Settings.theMethod, demo] at h

example : ∃ r m, calcInQ (curved 1) [(1, 0)] = .ok [r] ∧ calcInQ (curved 1).image [(1, 0)] = .ok [m] ∧ m = (r.1, leftRight r.2) := by
  obtain ⟨rs, h, hl, -⟩ := C61_spd (curved 1) [(1, 0)] (curved_valid (Or.inl rfl) 1) fun p hp => by
    rw [List.mem_singleton.1 hp]; exact curved_reaches 1
  match rs, hl, h with
  | [r], _, h =>
    have := C199_mirror_partial (curved 1) [(1, 0)] fun _ => le_refl 1
    rw [h] at this
    exact ⟨r, _, h, this, rfl⟩

end Verif.Resolution
