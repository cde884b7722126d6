import Verif.Resolution.PropsOpen
import Verif.Resolution.PropsUnits

/-! # Property theorems: the size of the monitor (C205) -/

namespace Verif.Resolution

open Real Matrix
open Verif.Crystal (Fail npDiv npSqrt)
open Verif.Tools (SPD quad)

/-! ## Specification -/

/-- The same instrument with a monitor of the given width and height. -/
def Settings.monitorOf (s : Settings) (w h : ℝ) : Settings := { s with monitor := ⟨some w, some h⟩ }

/-! ## A size that is not used -/

theorem blkdiag_append {m n : ℕ} (x : Fin m → ℝ) (y : Fin n → ℝ) : blkdiag (diagonal x) (diagonal y) = diagonal (Fin.append x y) := by
  unfold blkdiag
  rw [fromBlocks_diagonal, submatrix_diagonal_equiv]
  congr 1
  funext i
  refine Fin.addCases (fun i => ?_) (fun i => ?_) i
  · simp
  · simp

theorem npInv_stretched {n : ℕ} {u : Fin n → ℝ} (hu : ∀ i, u i ≠ 0) (M : Matrix (Fin n) (Fin n) ℝ) :
    npInv (diagonal u * M * diagonal u) = npInv M >>= fun N => pure (diagonal (fun i => (u i)⁻¹) * N * diagonal fun i => (u i)⁻¹) := by
  have hd : (diagonal u).det ≠ 0 := by
    rw [det_diagonal]
    exact Finset.prod_ne_zero_iff.2 fun i _ => hu i
  have hi : (diagonal u)⁻¹ = diagonal fun i => (u i)⁻¹ := by
    refine inv_eq_right_inv ?_
    rw [diagonal_mul_diagonal]
    rw [← diagonal_one]
    congr 1
    funext i
    exact mul_inv_cancel₀ (hu i)
  unfold npInv
  rw [det_mul, det_mul]
  by_cases h : M.det = 0
  · rw [if_pos h, if_pos (by rw [h]; ring)]
    rfl
  · rw [if_neg h, if_neg (mul_ne_zero (mul_ne_zero hd h) hd)]
    show Except.ok _ = Except.ok _
    rw [Matrix.mul_inv_rev, Matrix.mul_inv_rev, hi, Matrix.mul_assoc]

/-- The stretch of the horizontal coordinate on the monitor. -/
def stretch (v : ℝ) : Fin 7 → ℝ := ![1, 1, 1, 1, 1, v, 1]

theorem stretch_ne {v : ℝ} (hv : v ≠ 0) (i : Fin 7) : stretch v i ≠ 0 := by
  fin_cases i <;> simp [stretch, hv]

theorem stretch_inv (v : ℝ) : (fun i => (stretch v i)⁻¹) = stretch v⁻¹ := by
  funext i
  fin_cases i <;> simp [stretch]

theorem monT_stretch (c : Conf) (l : Loop) (k : Kin) (v : ℝ) : monT c l k * diagonal (stretch v) = monT c l k := by
  ext i j
  rw [mul_diagonal]
  fin_cases i <;> fin_cases j <;> simp [monT, stretch]

theorem monD_stretch (c : Conf) (k : Kin) (v : ℝ) : monD c k * diagonal (stretch v) = monD c k := by
  ext i j
  rw [mul_diagonal]
  fin_cases i <;> fin_cases j <;> simp [monD, stretch]

theorem shape_stretch (b : Fin 2 → ℝ) (m : Fin 3 → ℝ) (a e v : ℝ) :
    blkdiag (diagonal b) (blkdiag (diagonal m) (diagonal ![v ^ 2 * a, e])) =
      diagonal (stretch v) * blkdiag (diagonal b) (blkdiag (diagonal m) (diagonal ![a, e])) * diagonal (stretch v) := by
  simp only [blkdiag_append]
  rw [diagonal_mul_diagonal, diagonal_mul_diagonal]
  congr 1
  funext i
  have hs : stretch v = Fin.append ![1, 1] (Fin.append ![1, 1, 1] ![v, 1]) := by
    funext i
    fin_cases i <;> rfl
  rw [hs]
  refine Fin.addCases (fun i => ?_) (fun i => ?_) i
  · simp only [Fin.append_left]
    fin_cases i <;> simp
  · simp only [Fin.append_right]
    refine Fin.addCases (fun i => ?_) (fun i => ?_) i
    · simp only [Fin.append_left]
      fin_cases i <;> simp
    · simp only [Fin.append_right]
      fin_cases i
      · simp
        ring
      · simp

theorem flux_stretch {v : ℝ} (hv : v ≠ 0) (c : Conf) (a e : ℝ) (l : Loop) (k : Kin) :
    monitorFlux { c with monitorshape := ![v ^ 2 * a, e] } l k = monitorFlux { c with monitorshape := ![a, e] } l k := by
  have hden (s : Matrix (Fin 7) (Fin 7) ℝ) : monitorDen { c with monitorshape := ![v ^ 2 * a, e] } l k
      (diagonal (stretch v⁻¹) * s * diagonal (stretch v⁻¹)) = monitorDen { c with monitorshape := ![a, e] } l k s := by
    unfold monitorDen
    dsimp only
    refine if_congr Iff.rfl ?_ rfl
    refine if_congr Iff.rfl rfl ?_
    have hT := monT_stretch c l k v⁻¹
    have hD := monD_stretch c k v
    show (npInv (diagonal (stretch v⁻¹) * s * diagonal (stretch v⁻¹) + (monT c l k)ᵀ * monf c * monT c l k) >>= fun ki =>
      npInv (monD c k * ki * (monD c k)ᵀ) >>= fun h => pure (h + mong l).det) =
      (npInv (s + (monT c l k)ᵀ * monf c * monT c l k) >>= fun ki => npInv (monD c k * ki * (monD c k)ᵀ) >>= fun h => pure (h + mong l).det)
    have e1 : diagonal (stretch v⁻¹) * s * diagonal (stretch v⁻¹) + (monT c l k)ᵀ * monf c * monT c l k =
        diagonal (stretch v⁻¹) * (s + (monT c l k)ᵀ * monf c * monT c l k) * diagonal (stretch v⁻¹) := by
      have hTt : diagonal (stretch v⁻¹) * (monT c l k)ᵀ = (monT c l k)ᵀ := by
        have := congrArg transpose hT
        rwa [transpose_mul, diagonal_transpose] at this
      rw [Matrix.mul_add, Matrix.add_mul, ← Matrix.mul_assoc, ← Matrix.mul_assoc, hTt, Matrix.mul_assoc _ (monT c l k), hT]
    rw [e1, npInv_stretched (stretch_ne (inv_ne_zero hv)), bind_assoc]
    refine congrArg _ (funext fun K => ?_)
    rw [pure_bind, stretch_inv, inv_inv]
    congr 2
    have hDt : diagonal (stretch v) * (monD c k)ᵀ = (monD c k)ᵀ := by
      have := congrArg transpose hD
      rwa [transpose_mul, diagonal_transpose] at this
    rw [Matrix.mul_assoc _ _ (monD c k)ᵀ, Matrix.mul_assoc _ _ (monD c k)ᵀ, hDt, ← Matrix.mul_assoc, ← Matrix.mul_assoc, hD]
  unfold monitorFlux
  dsimp only
  rw [shape_stretch, npInv_stretched (stretch_ne hv), bind_assoc]
  refine congrArg _ (funext fun s => ?_)
  rw [pure_bind, stretch_inv, hden]
  rfl

/-- Configurations that differ in the monitor only, and have the same flux on it. -/
theorem loop_of_flux {c c' : Conf} {m : Fin 2 → ℝ} (hc : c' = { c with monitorshape := m })
    (hf : ∀ l k, monitorFlux c' l k = monitorFlux c l k) (a : SampleAttrs) :
    ∀ (pts : List (ℝ × ℝ)) (n : ℕ) (l : Loop), runLoop c' a n l pts = runLoop c a n l pts
  | [], _, _ => rfl
  | (q, w) :: pts, n, l => by
    have hp (l : Loop) (X : M3) (k : Kin) : pointAt c' l X k q = pointAt c l X k q := by
      have h3 (d : ℝ) (R : M4) : prefactor c' l k d R = prefactor c l k d R := by
        unfold prefactor
        rw [hf]
        subst hc
        rfl
      unfold pointAt
      simp only [h3]
      subst hc
      rfl
    have hk : kinematics c' q w = kinematics c q w := by subst hc; rfl
    have ha (x : ℝ) : l.advance c' x = l.advance c x := by subst hc; rfl
    unfold runLoop
    rw [hk]
    refine congrArg _ (funext fun X => ?_)
    refine congrArg _ (funext fun k => ?_)
    dsimp only
    rw [ha, hp]
    refine congrArg _ (funext fun r => ?_)
    rw [loop_of_flux hc hf a pts]

theorem decode_monitorOf (s : Settings) (w h : ℝ) :
    decode (s.monitorOf w h) = decode s >>= fun c => pure { c with monitorshape := ![w ^ 2 / 12, h ^ 2 / 12] } := by
  unfold decode
  rw [show decodeArms (s.monitorOf w h) = decodeArms s from rfl, bind_assoc]
  rfl

/-- **C205 is false**: the width of the monitor has no effect.  Two instruments that differ in the width of the
monitor only, its height being given, have the same resolution: `calc_resolution_in_Q_coords` returns the same prefactors and
matrices, or raises the same exception, for every list of points. -/
theorem C205_width_false (s : Settings) {w w' : ℝ} (hw : w ≠ 0) (hw' : w' ≠ 0) (h : ℝ) (pts : List (ℝ × ℝ)) :
    calcInQ (s.monitorOf w' h) pts = calcInQ (s.monitorOf w h) pts := by
  unfold calcInQ
  rw [decode_monitorOf, decode_monitorOf, bind_assoc, bind_assoc]
  refine congrArg _ (funext fun c => ?_)
  rw [pure_bind, pure_bind]
  have e : w' ^ 2 / 12 = (w' / w) ^ 2 * (w ^ 2 / 12) := by field_simp
  refine loop_of_flux (c := { c with monitorshape := ![w ^ 2 / 12, h ^ 2 / 12] }) (m := ![w' ^ 2 / 12, h ^ 2 / 12]) rfl (fun l k => ?_) _ pts 0 _
  rw [e]
  exact flux_stretch (div_ne_zero hw' hw) c _ _ l k

/-! ## Larger monitors -/

theorem prefactor_ratio {c c' : Conf} {m : Fin 2 → ℝ} (hc : c' = { c with monitorshape := m }) {l : Loop} {k : Kin} {f f' : ℝ} (h : monitorFlux c l k = .ok f)
    (h' : monitorFlux c' l k = .ok f') (f0 : f ≠ 0) (f0' : f' ≠ 0) (d : ℝ) (R : M4) :
    prefactor c' l k d R = prefactor c l k d R >>= fun r => pure ((if c.moncor = 1 then f / f' else 1) * r) := by
  have hF : matF c' = matF c := by subst hc; rfl
  have hm : c'.moncor = c.moncor := by subst hc; rfl
  unfold prefactor
  rw [h, h', hF, hm]
  simp only [bind_assoc]
  refine congrArg _ (funext fun x => ?_)
  refine congrArg _ (funext fun y => ?_)
  by_cases h1 : c.moncor = 1
  · simp only [if_pos h1, ok_bind, Verif.Crystal.npDiv_ok f0, Verif.Crystal.npDiv_ok f0', pure_bind]
    rw [bind_assoc]
    refine congrArg _ (funext fun z => ?_)
    refine congrArg Except.ok ?_
    field_simp
  · simp only [if_neg h1, pure_bind]
    rw [bind_assoc]
    refine congrArg _ (funext fun z => ?_)
    rw [pure_bind, one_mul]

theorem point_ratio {c c' : Conf} {m : Fin 2 → ℝ} (hc : c' = { c with monitorshape := m }) {l : Loop} {k : Kin} {f f' : ℝ} (h : monitorFlux c l k = .ok f)
    (h' : monitorFlux c' l k = .ok f') (f0 : f ≠ 0) (f0' : f' ≠ 0) (X : M3) (q : ℝ) :
    pointAt c' l X k q = pointAt c l X k q >>= fun r => pure ((if c.moncor = 1 then f / f' else 1) * r.1, r.2) := by
  have e1 := prefactor_ratio hc h h' f0 f0'
  have hρ : (if c.moncor = 1 then f / f' else 1) ≠ 0 := by
    split_ifs
    · exact div_ne_zero f0 f0'
    · exact one_ne_zero
  generalize (if c.moncor = 1 then f / f' else 1) = ρ at e1 hρ ⊢
  have e2 (r : ℝ) (R M : M4) : withMosaic c' q (ρ * r) R M = withMosaic c q r R M >>= fun p => pure (ρ * p.1, p.2) := by
    have : c'.etas = c.etas := by subst hc; rfl
    unfold withMosaic
    rw [this]
    rcases c.etas with _ | ⟨a, b⟩
    · rfl
    · unfold sampleMosaic
      simp only [bind_assoc]
      refine congrArg _ (funext fun x => ?_)
      have e (z : ℝ) : npDiv (ρ * r) z = npDiv r z >>= fun y => pure (ρ * y) := by
        unfold npDiv
        simp only [mul_eq_zero, hρ, false_or]
        split_ifs
        · rfl
        · rfl
        · show Except.ok _ = Except.ok _
          rw [mul_div_assoc]
      rw [e, bind_assoc]
      refine congrArg _ (funext fun y => ?_)
      rfl
  have e3 (r : ℝ) : withReflectivity c' l k (ρ * r) = withReflectivity c l k r >>= fun p => pure (ρ * p) := by
    subst hc
    unfold withReflectivity
    dsimp only
    rcases c.refl with _ | ⟨a, b⟩
    · rfl
    · simp only [bind_assoc]
      refine congrArg _ (funext fun x => ?_)
      show Except.ok _ = Except.ok _
      rw [mul_assoc]
  have e4 (S : Matrix (Fin 13) (Fin 13) ℝ) : coreMatrix c' l k S = coreMatrix c l k S := by subst hc; rfl
  have e5 : matSinv c' = matSinv c := by subst hc; rfl
  unfold pointAt
  by_cases hz : (∃ i, l.alpha i = 0) ∨ (∃ i, l.beta i = 0) ∨ c.etam = 0 ∨ c.etamv = 0 ∨ c.etaa = 0 ∨ c.etaav = 0 ∨
      sin k.thetam = 0 ∨ sin k.thetaa = 0
  · rw [if_pos hz, if_pos (by subst hc; exact hz)]
    rfl
  · rw [if_neg hz, if_neg (by subst hc; exact hz)]
    simp only [e4, e5, e1, bind_assoc, pure_bind]
    refine congrArg _ (funext fun S => ?_)
    refine congrArg _ (funext fun p => ?_)
    refine congrArg _ (funext fun RM => ?_)
    refine congrArg _ (funext fun r0 => ?_)
    rw [e2, bind_assoc]
    refine congrArg _ (funext fun p => ?_)
    rw [pure_bind, e3, bind_assoc]
    refine congrArg _ (funext fun p => ?_)
    rfl

/-- A larger monitor counts no fewer neutrons. -/
theorem flux_le {c c' : Conf} {m : Fin 2 → ℝ} (hc' : c' = { c with monitorshape := m }) (hm : ∀ i, c.monitorshape i ≤ m i) (hc : c.Good) {l : Loop}
    (hl : l.Good) {k : Kin} {q : ℝ} (hk : k.Good q) {f f' : ℝ} (h : monitorFlux c l k = .ok f) (h' : monitorFlux c' l k = .ok f') : f ≤ f' := by
  subst hc'
  have hs : (blkdiag (diagonal c.bshape) (blkdiag (diagonal c.mshape) (diagonal c.monitorshape))).PosDef :=
    blkdiag_posDef (diagonal_posDef hc.bshape) (blkdiag_posDef (diagonal_posDef hc.mshape) (diagonal_posDef hc.monitorshape))
  have hs' : (blkdiag (diagonal c.bshape) (blkdiag (diagonal c.mshape) (diagonal m))).PosDef :=
    blkdiag_posDef (diagonal_posDef hc.bshape) (blkdiag_posDef (diagonal_posDef hc.mshape)
      (diagonal_posDef fun i => (hc.monitorshape i).trans_le (hm i)))
  have hb := ((Below.refl (diagonal c.bshape)).blkdiag ((Below.refl (diagonal c.mshape)).blkdiag (Below.diagonal hm))).inv hs hs'
  have hf := monf_posDef hc.mosaics
  have hg := mong_posDef hl
  obtain ⟨d, hd, dpos⟩ := monitorDen_ok k hc hl hs.inv
  have hc2 : ({ c with monitorshape := m } : Conf).Good :=
    ⟨⟨hc.mosaics.m, hc.mosaics.mv, hc.mosaics.a, hc.mosaics.av⟩, (fun hp => ⟨(hc.arms hp).l0, (hc.arms hp).l1, (hc.arms hp).l2, (hc.arms hp).l3,
      (hc.arms hp).mon⟩), hc.bshape, hc.mshape, hc.ashape, hc.dshape, fun i => (hc.monitorshape i).trans_le (hm i), hc.taua, hc.refl⟩
  obtain ⟨d', hd', dpos'⟩ := monitorDen_ok k hc2 hl hs'.inv
  have hle : d' ≤ d := by
    unfold monitorDen at hd hd'
    cases hp : c.popovici with
    | false =>
      simp only [hp, Bool.false_eq_true, if_false] at hd hd'
      rw [← Except.ok.inj hd, ← Except.ok.inj hd']
      exact le_rfl
    | true =>
      have ha := hc.arms hp
      have hK := hs.inv.add_posSemidef (gram_posSemidef hf (monT c l k))
      have hK' := hs'.inv.add_posSemidef (gram_posSemidef hf (monT c l k))
      have hD := congr_posDef hK.inv (monD c k) (monD_inj ha k)
      have hD' := congr_posDef hK'.inv (monD c k) (monD_inj ha k)
      simp only [hp, if_true, if_neg ha.mon, npInv_ok hK, npInv_ok hD, ok_bind] at hd
      have eT : monT { c with monitorshape := m } l k = monT c l k := rfl
      have eD : monD { c with monitorshape := m } k = monD c k := rfl
      have eF : monf { c with monitorshape := m } = monf c := rfl
      rw [eT, eD, eF] at hd'
      simp only [hp, if_true, if_neg ha.mon, npInv_ok hK', npInv_ok hD', ok_bind] at hd'
      rw [← Except.ok.inj hd, ← Except.ok.inj hd']
      have b1 := (hb.add (Below.refl ((monT c l k)ᵀ * monf c * monT c l k))).inv hK' hK
      have b2 := (b1.sandwich (monD c k)).inv hD hD'
      exact (b2.add (Below.refl (mong l))).det_le (hD'.inv.add hg) (hD.inv.add hg)
  unfold monitorFlux at h h'
  simp only [npInv_ok hs, ok_bind, hd, npDiv_ok dpos.ne', npSqrt_ok (div_pos hf.det_pos dpos).le] at h
  have eF : monf { c with monitorshape := m } = monf c := rfl
  simp only [npInv_ok hs', ok_bind, hd', npDiv_ok dpos'.ne', eF, npSqrt_ok (div_pos hf.det_pos dpos').le] at h'
  rw [← Except.ok.inj h, ← Except.ok.inj h']
  have rate := reflRate_pos hk.ki hk.sm
  have e : k.ki ^ 3 / tan k.thetam * (2 * π) ^ 2 / (8 * π * sin k.thetam) =
      (k.ki ^ 3 / tan k.thetam / sin k.thetam) * ((2 * π) ^ 2 / (8 * π)) := by
    rw [div_mul_eq_div_div_swap]; ring
  rw [e]
  refine mul_le_mul_of_nonneg_left ?_ (by positivity)
  exact Real.sqrt_le_sqrt (div_le_div_of_nonneg_left hf.det_pos.le dpos' hle)

theorem larger_loop {c c' : Conf} {m : Fin 2 → ℝ} (hc' : c' = { c with monitorshape := m }) (hm : ∀ i, c.monitorshape i ≤ m i) (hc : c.Good)
    (gc' : c'.Good) (a : SampleAttrs) :
    ∀ (pts : List (ℝ × ℝ)) (n : ℕ) {l : Loop}, (∀ p ∈ pts, ∀ k, kinematics c p.1 p.2 = .ok k → k.Good p.1) → l.Good →
      ∀ {rs rs' : List (ℝ × M4)}, runLoop c a n l pts = .ok rs → runLoop c' a n l pts = .ok rs' →
        List.Forall₂ (fun r r' => r'.2 = r.2 ∧ ∃ ρ, 0 < ρ ∧ ρ ≤ 1 ∧ r'.1 = ρ * r.1) rs rs'
  | [], n, l, hk, hl, rs, rs', e, e' => by
    rw [← Except.ok.inj e, ← Except.ok.inj e']
    exact .nil
  | (q, w) :: pts, n, l, hk, hl, rs, rs', e, e' => by
    unfold runLoop at e e'
    obtain ⟨X, e1, e⟩ := bind_ok e
    obtain ⟨X', e1', e'⟩ := bind_ok e'
    rw [e1] at e1'
    have := Except.ok.inj e1'
    subst this
    obtain ⟨k, e2, e⟩ := bind_ok e
    obtain ⟨k', e2', e'⟩ := bind_ok e'
    have hkin : kinematics c' q w = kinematics c q w := by subst hc'; rfl
    rw [hkin, e2] at e2'
    have := Except.ok.inj e2'
    subst this
    have ha : l.advance c' k.ki = l.advance c k.ki := by subst hc'; rfl
    obtain ⟨r, e3, e⟩ := bind_ok e
    obtain ⟨r', e3', e'⟩ := bind_ok e'
    obtain ⟨rs1, e4, e⟩ := bind_ok e
    obtain ⟨rs1', e4', e'⟩ := bind_ok e'
    rw [← Except.ok.inj e, ← Except.ok.inj e']
    rw [ha] at e3' e4'
    have kg : k.Good q := hk (q, w) (by simp) k e2
    have g := advance_good hl c kg.ki
    obtain ⟨f, f1, f2⟩ := monitorFlux_ok hc g kg
    obtain ⟨f', f1', f2'⟩ := monitorFlux_ok gc' g kg
    have fl := flux_le hc' hm hc g kg f1 f1'
    refine .cons ?_ (larger_loop hc' hm hc gc' a pts (n + 1) (fun p hp => hk p (List.mem_cons_of_mem _ hp)) g e4 e4')
    rw [point_ratio hc' f1 f1' f2.ne' f2'.ne', e3, ok_bind] at e3'
    rw [← Except.ok.inj e3']
    refine ⟨rfl, _, ?_, ?_, rfl⟩
    · split_ifs
      · positivity
      · exact one_pos
    · split_ifs
      · exact (div_le_one f2').2 fl
      · exact le_rfl

/-- **C205** (partial: a wider monitor changes nothing, see `C205_width_false`) at every point of every scan a larger
monitor leaves the resolution matrix as it is and lowers the prefactor, per count of the monitor, or leaves it as it is. -/
theorem C205_larger_partial {s : Settings} {pts : List (ℝ × ℝ)} (v : s.Valid pts.length) {w h w' h' : ℝ} (w0 : 0 < w) (h0 : 0 < h)
    (hw : w ≤ w') (hh : h ≤ h') (hr : ∀ p ∈ pts, Reaches s p.1 p.2) :
    ∃ rs rs', calcInQ (s.monitorOf w h) pts = .ok rs ∧ calcInQ (s.monitorOf w' h') pts = .ok rs' ∧ rs.length = pts.length ∧
      List.Forall₂ (fun r r' => r'.2 = r.2 ∧ 0 < r'.1 ∧ r'.1 ≤ r.1) rs rs' := by
  have pos {v : ℝ} (hv : 0 < v) : Pos (some v) := fun u hu => by rw [← Option.some.inj hu]; exact hv
  have val {x y : ℝ} (hx : 0 < x) (hy : 0 < y) : (s.monitorOf x y).Valid pts.length := { v with monitor := ⟨pos hx, pos hy⟩ }
  have v1 := val w0 h0
  have v2 := val (w0.trans_le hw) (h0.trans_le hh)
  have re (x y : ℝ) : ∀ p ∈ pts, Reaches (s.monitorOf x y) p.1 p.2 := fun p hp => by
    have := hr p hp
    exact ⟨this.ei, this.ef, this.mono, this.ana, this.closes, this.q⟩
  obtain ⟨rs, e, l, p⟩ := C61_spd _ pts v1 (re w h)
  obtain ⟨rs', e', l', p'⟩ := C61_spd _ pts v2 (re w' h')
  refine ⟨rs, rs', e, e', l, ?_⟩
  obtain ⟨c, g, hc, -, d1, d2, d3, d4, d5, d6, d7⟩ := decode_ok v1
  obtain ⟨c', g', hc', -⟩ := decode_ok v2
  have hcc : c' = { c with monitorshape := ![w' ^ 2 / 12, h' ^ 2 / 12] } ∧ c.monitorshape = ![w ^ 2 / 12, h ^ 2 / 12] := by
    rw [decode_monitorOf] at g g'
    obtain ⟨c0, x, g⟩ := bind_ok g
    rw [x, ok_bind] at g'
    rw [← Except.ok.inj g, ← Except.ok.inj g']
    exact ⟨rfl, rfl⟩
  have hm : ∀ i, c.monitorshape i ≤ (![w' ^ 2 / 12, h' ^ 2 / 12] : Fin 2 → ℝ) i := by
    rw [hcc.2]
    intro i
    fin_cases i
    · show w ^ 2 / 12 ≤ w' ^ 2 / 12
      gcongr
    · show h ^ 2 / 12 ≤ h' ^ 2 / 12
      gcongr
  have sm : c.sm = 1 ∨ c.sm = -1 := by rw [d5]; exact v.mono.dir
  have ss : c.ss = 1 ∨ c.ss = -1 := by rw [d6]; exact v.sample.dir
  have sa : c.sa = 1 ∨ c.sa = -1 := by rw [d7]; exact v.ana.dir
  unfold calcInQ at e e'
  rw [g, ok_bind] at e
  rw [g', ok_bind] at e'
  have key := larger_loop hcc.1 hm hc hc' s.sample pts 0 (l := Loop.start s) (fun p hp k' hk' => by
      obtain ⟨k'', x1, x2, -⟩ := kinematics_ok d1 d2 d3 d4 sm ss sa v1.mono.tau v1.ana.tau (re w h p hp)
      rw [hk'] at x1
      rw [Except.ok.inj x1]
      exact x2) (start_good v) e e'
  have p1 : ∀ r ∈ rs, 0 < r.1 := fun r hr => (p r hr).2
  clear e e' l l' p p'
  induction key with
  | nil => exact .nil
  | @cons r r' rs rs' hd tl ih =>
    obtain ⟨h2, ρ, ρ0, ρ1, h1⟩ := hd
    have := p1 r (by simp)
    refine .cons ⟨h2, ?_, ?_⟩ (ih fun r hr => p1 r (by simp [hr]))
    · rw [h1]; positivity
    · rw [h1]; nlinarith

theorem demoSized_valid (n : ℕ) : demoSized.Valid n := by
  have pos {v : ℝ} (hv : 0 < v) : Pos (some v) := fun u hu => by rw [← Option.some.inj hu]; exact hv
  have d := demo_valid n
  exact ⟨{ d.mono with width := pos (by norm_num), height := pos (by norm_num), depth := pos (by norm_num) },
    { d.ana with width := pos (by norm_num), height := pos (by norm_num), depth := pos (by norm_num) },
    ⟨pos (by norm_num), pos (by norm_num)⟩, d.monitor, ⟨pos (by norm_num), pos (by norm_num)⟩,
    { d.sample with width := pos (by norm_num), height := pos (by norm_num), depth := pos (by norm_num) }, d.hcol, d.vcol, by
      intro L hL
      rw [← Option.some.inj hL]
      refine ⟨by simp, fun x hx => ?_⟩
      simp only [List.mem_cons, List.not_mem_nil, or_false] at hx
      rcases hx with rfl | rfl | rfl | rfl <;> norm_num⟩

theorem demoSized_reaches : Reaches demoSized 1 0 := by
  have r := demo_reaches (q := 1) (w := 0) (by norm_num) (by norm_num) (by norm_num) (by norm_num)
  exact ⟨r.ei, r.ef, r.mono, r.ana, r.closes, r.q⟩

/-- The hypotheses are met by an instrument with the Popovici method, for which the sizes are used and whose prefactor is normalised to the monitor. -/
example : demoSized.Valid 1 ∧ demoSized.popovici = true ∧ demoSized.moncor.getD 1 = 1 ∧ Reaches demoSized 1 0 :=
  ⟨demoSized_valid 1, rfl, rfl, demoSized_reaches⟩

end Verif.Resolution
