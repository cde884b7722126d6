import Verif.Resolution.PropsUnits
import Verif.Resolution.PropsMonotone

/-!
# Property C200: the method by name
-/

namespace Verif.Resolution

open Real Matrix
open Verif.Crystal (Fail npDiv npSqrt)
open Verif.Tools (SPD quad)

theorem Blade.Valid.inUnits {b : Blade} (h : b.Valid) {t : ℝ} (ht : 0 < t) : (b.inUnits t).Valid := by
  refine ⟨h.tau, h.mosaic, h.vmosaic, h.width.stretch ht, h.height.stretch ht, h.depth.stretch ht, ?_, ?_, h.dir, ?_, ?_⟩
  · intro v hv
    obtain ⟨u, hu, rfl⟩ := Option.map_eq_some_iff.1 hv
    exact mul_ne_zero ht.ne' (h.rv u hu)
  · intro v hv
    obtain ⟨u, hu, rfl⟩ := Option.map_eq_some_iff.1 hv
    exact mul_ne_zero ht.ne' (h.rh u hu)
  · exact Pos.stretch h.thickness ht
  · intro v hv
    obtain ⟨u, hu, rfl⟩ := Option.map_eq_some_iff.1 hv
    exact div_pos (h.reflQ u hu) ht

theorem Settings.Valid.inUnits {s : Settings} {n : ℕ} (h : s.Valid n) {t : ℝ} (ht : 0 < t) : (s.inUnits t).Valid n where
  mono := h.mono.inUnits ht
  ana := h.ana.inUnits ht
  guide := ⟨h.guide.width.stretch ht, h.guide.height.stretch ht⟩
  monitor := ⟨h.monitor.width.stretch ht, h.monitor.height.stretch ht⟩
  detector := ⟨h.detector.width.stretch ht, h.detector.height.stretch ht⟩
  sample := by
    have := (h.stretch ht).sample
    exact ⟨this.width, this.depth, this.height, this.one, this.stack, this.dir⟩
  hcol := h.hcol
  vcol := h.vcol
  arms := by
    intro L hL
    obtain ⟨K, hK, rfl⟩ := Option.map_eq_some_iff.1 hL
    obtain ⟨g1, g2⟩ := h.arms K hK
    refine ⟨by rwa [List.length_map], fun x hx => ?_⟩
    obtain ⟨y, hy, rfl⟩ := List.mem_map.1 hx
    exact mul_pos ht (g2 y hy)

/-- What is computed for one point. -/
theorem single_point {s : Settings} (v : s.Valid 1) {q w : ℝ} (hr : Reaches s q w) {c : Conf} (hd : decode s = .ok c) {X : M3}
    (hX : sshapeAt s.sample 0 = .ok X) {k : Kin} (hk : kinematics c q w = .ok k) :
    ∃ r RM Mi d, calcInQ s [(q, w)] = .ok [(r, RM)] ∧ k.Good q ∧ c.Good ∧ ((Loop.start s).advance c k.ki).Good ∧
      ((Loop.start s).advance c k.ki).Curved ∧ X.PosDef ∧
      coreMatrix c ((Loop.start s).advance c k.ki) k (matSinv c (turnShape k X))⁻¹ = .ok (Mi, d) ∧ Mi.PosDef ∧ RM = (returnedInverse c q Mi)⁻¹ := by
  obtain ⟨rs, e, l, -⟩ := C61_spd s [(q, w)] v (by simpa using hr)
  obtain ⟨c', g, hc, -, d1, d2, d3, d4, d5, d6, d7⟩ := decode_ok v
  obtain rfl : c = c' := Except.ok.inj (hd.symm.trans g)
  have sm : c.sm = 1 ∨ c.sm = -1 := by rw [d5]; exact v.mono.dir
  have ss : c.ss = 1 ∨ c.ss = -1 := by rw [d6]; exact v.sample.dir
  have sa : c.sa = 1 ∨ c.sa = -1 := by rw [d7]; exact v.ana.dir
  obtain ⟨k', x1, kg, -⟩ := kinematics_ok d1 d2 d3 d4 sm ss sa v.mono.tau v.ana.tau hr
  obtain rfl : k = k' := Except.ok.inj (hk.symm.trans x1)
  obtain ⟨X', y1, y2⟩ := sshapeAt_ok v.sample (i := 0) (by norm_num)
  obtain rfl : X = X' := Except.ok.inj (hX.symm.trans y1)
  have hl := advance_good (start_good v) c kg.ki
  have hcv := advance_curved (start_curved v) sm sa k.ki
  have e0 := e
  unfold calcInQ at e
  rw [hd, ok_bind] at e
  unfold runLoop at e
  rw [hX, ok_bind, hk, ok_bind] at e
  obtain ⟨⟨r, RM⟩, e3, e⟩ := bind_ok e
  obtain ⟨rs', e4, e⟩ := bind_ok e
  obtain rfl : [] = rs' := Except.ok.inj e4
  obtain ⟨Mi, d, p1, p2, p3⟩ := point_returned hc hl hcv kg y2 e3
  refine ⟨r, RM, Mi, d, ?_, kg, hc, hl, hcv, y2, p1, p2, p3⟩
  rw [e0]
  exact e.symm

/-- The uncertainties are not larger than those of the places on the guide, the crystals, the sample and the detector alone. -/
theorem core_below {c : Conf} (hp : c.popovici = true) (hc : c.Good) {l : Loop} (hl : l.Good) (hr : l.Curved) {k : Kin}
    {Z : Matrix (Fin 13) (Fin 13) ℝ} (hZ : Z.PosDef) {Mi : M4} {d : ℝ} (e : coreMatrix c l k Z⁻¹ = .ok (Mi, d)) :
    Below Mi (matB k * (matA k * (matD c k * Z * (matD c k)ᵀ) * (matA k)ᵀ) * (matB k)ᵀ) := by
  have ha := hc.arms hp
  have hK : (Z⁻¹ + (matT c l k)ᵀ * matF c * matT c l k).PosDef := hZ.inv.add_posSemidef (gram_posSemidef (matF_posDef hc.mosaics) _)
  have hD := congr_posDef hK.inv (matD c k) (matD_inj ha k)
  have hG := hD.inv.add (matG_posDef hl.alpha hl.beta)
  unfold coreMatrix popoviciN at e
  rw [if_pos hp, if_neg (by simp [ha.l0, ha.l1, ha.l2, ha.l3, hr.monorh, hr.monorv, hr.anarh, hr.anarv])] at e
  simp only [npInv_ok hK, ok_bind, npInv_ok hD, npInv_ok hG] at e
  obtain ⟨e1, -⟩ := Prod.mk.inj (Except.ok.inj e)
  rw [← e1]
  refine Below.sandwich (Below.sandwich ?_ _) _
  have more {n : ℕ} {P Q : Matrix (Fin n) (Fin n) ℝ} (hP : P.PosDef) (hQ : Q.PosSemidef) : Below (P + Q)⁻¹ P⁻¹ :=
    Below.inv (fun x => by
      have := hQ.dotProduct_mulVec_nonneg x
      rw [star_trivial] at this
      rw [add_mulVec, dotProduct_add]
      linarith) hP (hP.add_posSemidef hQ)
  have b1 := more hD.inv (matG_posDef hl.alpha hl.beta).posSemidef
  rw [nonsing_inv_nonsing_inv _ hD.det_pos.ne'.isUnit] at b1
  have b2 := more hZ.inv (gram_posSemidef (matF_posDef hc.mosaics) (matT c l k))
  rw [nonsing_inv_nonsing_inv _ hZ.det_pos.ne'.isUnit] at b2
  exact fun x => (b1 x).trans (b2.sandwich _ x)

theorem returned_corner (c : Conf) (q : ℝ) (Mi : M4) : returnedInverse c q Mi 0 0 = Mi 0 0 := by
  unfold returnedInverse
  cases c.etas with
  | none => rfl
  | some p => simp

/-- C200 is false for an instrument whose method is given by the name that the code looks for: the arms are then not read (each is taken to be
of length one), so that the resolution, at every point, depends on the unit of the other lengths. -/
theorem C200_named_false {s : Settings} (v : s.Valid 1) (hm : s.theMethod = .name ['p', 'o', 'p', 'o', 'v', 'i', 'c', 'i']) (h : s.Sized) {q w : ℝ}
    (hr : Reaches s q w) : ∃ t > 0, calcInQ (s.inUnits t) [(q, w)] ≠ calcInQ s [(q, w)] := by
  by_contra hcon
  push Not at hcon
  have arms (s : Settings) (hm : s.theMethod = .name ['p', 'o', 'p', 'o', 'v', 'i', 'c', 'i']) : decodeArms s = .ok (1, 1, 1, 1, 1) := by
    unfold decodeArms
    rw [decide_eq_false (by rw [hm]; exact fun h => nomatch h)]
    rcases s.arms with _ | ⟨_ | ⟨_, _ | ⟨_, _ | ⟨_, _ | _⟩⟩⟩⟩ <;> rfl
  obtain ⟨c, hd, -, -, d1, d2, d3, d4, d5, d6, d7⟩ := decode_ok v
  have sm : c.sm = 1 ∨ c.sm = -1 := by rw [d5]; exact v.mono.dir
  have ss : c.ss = 1 ∨ c.ss = -1 := by rw [d6]; exact v.sample.dir
  have sa : c.sa = 1 ∨ c.sa = -1 := by rw [d7]; exact v.ana.dir
  obtain ⟨k, hk, kg, -⟩ := kinematics_ok d1 d2 d3 d4 sm ss sa v.mono.tau v.ana.tau hr
  obtain ⟨X, hX, -⟩ := sshapeAt_ok v.sample (i := 0) (by norm_num)
  obtain ⟨r, RM, Mi, d, e, -, hc, hl, hcv, hXp, e1, hM, hRM⟩ := single_point v hr hd hX hk
  set W : M4 := matB k * (matA k * (matD c k * matSinv c (turnShape k X) * (matD c k)ᵀ) * (matA k)ᵀ) * (matB k)ᵀ with hW
  have hd0 := hd
  unfold decode at hd
  rw [arms s hm, ok_bind] at hd
  have hcv' := Except.ok.inj hd
  have small {t : ℝ} (ht : 0 < t) : Mi 0 0 ≤ t ^ 2 * W 0 0 := by
    have v' := v.inUnits ht
    have hr' : Reaches (s.inUnits t) q w := ⟨hr.ei, hr.ef, hr.mono, hr.ana, hr.closes, hr.q⟩
    obtain ⟨c', hd', -⟩ := decode_ok v'
    have hX' : sshapeAt (s.inUnits t).sample 0 = .ok (t ^ 2 • X) := by
      have := units_shape t h.sample 0
      rw [hX] at this
      exact this
    have hd2 := hd'
    unfold decode at hd2
    rw [arms (s.inUnits t) hm, ok_bind] at hd2
    have hc' := Except.ok.inj hd2
    have hk' : kinematics c' q w = .ok k := by
      rw [← hk, ← hc', ← hcv']
      rfl
    obtain ⟨r', RM', Mi', d', e', -, hg', hl', hcv2, hXp', e1', hM', hRM'⟩ := single_point v' hr' hd' hX' hk'
    have heq := hcon t ht
    rw [e, e'] at heq
    have hRR : RM' = RM := by
      have := Except.ok.inj heq
      simp only [List.cons.injEq, Prod.mk.injEq, and_true] at this
      exact this.2
    rw [hRM, hRM'] at hRR
    have hinv := congrArg (fun Y : M4 => Y⁻¹) hRR
    simp only [nonsing_inv_nonsing_inv _ (returnedInverse_posDef _ _ hM).det_pos.ne'.isUnit,
      nonsing_inv_nonsing_inv _ (returnedInverse_posDef _ _ hM').det_pos.ne'.isUnit] at hinv
    have h00 : Mi' 0 0 = Mi 0 0 := by
      rw [← returned_corner c q Mi, ← returned_corner c' q Mi', hinv]
    have hpop : c'.popovici = true := by
      rw [← hc']
      show (s.inUnits t).popovici = true
      unfold Settings.popovici
      rw [show (s.inUnits t).theMethod = s.theMethod from rfl, hm]
      rfl
    have b := core_below hpop hg' hl' hcv2 (matSinv_posDef hg' (turnShape_posDef k hXp')) e1'
    have eD : matD c' k = matD c k := by
      rw [← hc', ← hcv']
      rfl
    have eS : matSinv c' (turnShape k (t ^ 2 • X)) = t ^ 2 • matSinv c (turnShape k X) := by
      have e : turnShape k (t ^ 2 • X) = t ^ 2 • turnShape k X := scale_sandwich _ _ _
      have hb : c'.bshape = t ^ 2 • c.bshape := by
        rw [← hc', ← hcv']
        funext i
        fin_cases i
        · exact units_extent h.guide.1 t
        · exact units_extent h.guide.2 t
      have hmm : c'.mshape = t ^ 2 • c.mshape := by
        rw [← hc', ← hcv']
        funext i
        fin_cases i
        · exact units_extent h.mono.1 t
        · exact units_extent h.mono.2.1 t
        · exact units_extent h.mono.2.2 t
      have han : c'.ashape = t ^ 2 • c.ashape := by
        rw [← hc', ← hcv']
        funext i
        fin_cases i
        · exact units_extent h.ana.1 t
        · exact units_extent h.ana.2.1 t
        · exact units_extent h.ana.2.2 t
      have hdd : c'.dshape = t ^ 2 • c.dshape := by
        rw [← hc', ← hcv']
        funext i
        fin_cases i
        · exact units_extent h.detector.1 t
        · exact units_extent h.detector.2 t
      unfold matSinv
      rw [e, hb, hmm, han, hdd, ← blkdiag_smul, ← blkdiag_smul, ← blkdiag_smul, ← blkdiag_smul, ← diagonal_smul, ← diagonal_smul, ← diagonal_smul,
        ← diagonal_smul]
    have b0 := b (Pi.single 0 1)
    rw [eD, eS, Matrix.mul_smul, Matrix.smul_mul, Matrix.mul_smul, Matrix.smul_mul, Matrix.mul_smul, Matrix.smul_mul, ← hW] at b0
    simpa [h00] using b0
  have hpos : 0 < Mi 0 0 := hM.diag_pos
  have hW0 : 0 < W 0 0 := by
    have := small (t := 1) one_pos
    linarith
  have ht : 0 < √(Mi 0 0 / (2 * W 0 0)) := Real.sqrt_pos.2 (by positivity)
  have := small ht
  rw [Real.sq_sqrt (by positivity)] at this
  have e2 : Mi 0 0 / (2 * W 0 0) * W 0 0 = Mi 0 0 / 2 := by field_simp
  rw [e2] at this
  linarith

/-- The hypotheses are met. -/
example : ∃ s : Settings, s.Valid 1 ∧ s.theMethod = .name ['p', 'o', 'p', 'o', 'v', 'i', 'c', 'i'] ∧ s.Sized ∧ s.arms = some [150, 200, 150, 50] ∧ Reaches s 1 0 := by
  have pos {v : ℝ} (hv : 0 < v) : Pos (some v) := fun u hu => by rw [← Option.some.inj hu]; exact hv
  have d := demo_valid 1
  refine ⟨{ demoSized with method := some (.name ['p', 'o', 'p', 'o', 'v', 'i', 'c', 'i']) }, ?_, rfl,
    ⟨⟨rfl, rfl⟩, ⟨rfl, rfl, rfl⟩, ⟨rfl, rfl, rfl⟩, ⟨rfl, rfl⟩, Or.inr ⟨rfl, rfl, rfl⟩⟩, rfl, ?_⟩
  · exact ⟨{ d.mono with width := pos (by norm_num), height := pos (by norm_num), depth := pos (by norm_num) },
      { d.ana with width := pos (by norm_num), height := pos (by norm_num), depth := pos (by norm_num) },
      ⟨pos (by norm_num), pos (by norm_num)⟩, d.monitor, ⟨pos (by norm_num), pos (by norm_num)⟩,
      { d.sample with width := pos (by norm_num), height := pos (by norm_num), depth := pos (by norm_num) }, d.hcol, d.vcol, by
        intro L hL
        rw [← Option.some.inj hL]
        refine ⟨by simp, fun x hx => ?_⟩
        simp only [List.mem_cons, List.not_mem_nil, or_false] at hx
        rcases hx with rfl | rfl | rfl | rfl <;> norm_num⟩
  · have r := demo_reaches (q := 1) (w := 0) (by norm_num) (by norm_num) (by norm_num) (by norm_num)
    exact ⟨r.ei, r.ef, r.mono, r.ana, r.closes, r.q⟩

end Verif.Resolution
