import Verif.Resolution.PropsMonitorSize

/-! # Property theorems: the height of the monitor acts horizontally (C205) -/

namespace Verif.Resolution

open Real Matrix
open Verif.Crystal (Fail npDiv npSqrt)
open Verif.Tools (SPD quad)

/-! ## Specification -/

/-- The same instrument with other settings that only concern the vertical direction between source and monitor: vertical
collimation, height of the guide, height, vertical curvature and vertical mosaic of the monochromator. -/
def Settings.vertical (s : Settings) (vcol : Fin 4 → ℝ) (guide mono rv vmosaic : Option ℝ) : Settings :=
  { s with vcol := vcol, guide := { s.guide with height := guide }, mono := { s.mono with height := mono, rv := rv, vmosaic := vmosaic } }

/-! ## Splitting into horizontal and vertical directions -/

/-- A matrix that is made of two blocks when rows and columns are sorted. -/
def Splits {m m' n n' : ℕ} {p q : ℕ} (er : Fin m ⊕ Fin m' ≃ Fin p) (ec : Fin n ⊕ Fin n' ≃ Fin q) (M : Matrix (Fin p) (Fin q) ℝ)
    (A : Matrix (Fin m) (Fin n) ℝ) (B : Matrix (Fin m') (Fin n') ℝ) : Prop := M.submatrix er ec = fromBlocks A 0 0 B

section
variable {m m' n n' k k' p q r : ℕ} {er : Fin m ⊕ Fin m' ≃ Fin p} {ec : Fin n ⊕ Fin n' ≃ Fin q} {ek : Fin k ⊕ Fin k' ≃ Fin r}

theorem Splits.mul {M : Matrix (Fin p) (Fin q) ℝ} {A : Matrix (Fin m) (Fin n) ℝ} {B : Matrix (Fin m') (Fin n') ℝ} {N : Matrix (Fin q) (Fin r) ℝ}
    {A' : Matrix (Fin n) (Fin k) ℝ} {B' : Matrix (Fin n') (Fin k') ℝ} (h : Splits er ec M A B) (h' : Splits ec ek N A' B') :
    Splits er ek (M * N) (A * A') (B * B') := by
  unfold Splits at *
  rw [← submatrix_mul_equiv M N er ec ek, h, h', fromBlocks_multiply]
  simp

theorem Splits.add {M N : Matrix (Fin p) (Fin q) ℝ} {A A' : Matrix (Fin m) (Fin n) ℝ} {B B' : Matrix (Fin m') (Fin n') ℝ}
    (h : Splits er ec M A B) (h' : Splits er ec N A' B') : Splits er ec (M + N) (A + A') (B + B') := by
  unfold Splits at *
  have e : (M + N).submatrix er ec = M.submatrix er ec + N.submatrix er ec := rfl
  rw [e, h, h', fromBlocks_add]
  simp

theorem Splits.transpose {M : Matrix (Fin p) (Fin q) ℝ} {A : Matrix (Fin m) (Fin n) ℝ} {B : Matrix (Fin m') (Fin n') ℝ}
    (h : Splits er ec M A B) : Splits ec er Mᵀ Aᵀ Bᵀ := by
  unfold Splits at *
  rw [← transpose_submatrix, h, fromBlocks_transpose]
  simp

theorem Splits.det {M : Matrix (Fin p) (Fin p) ℝ} {A : Matrix (Fin m) (Fin m) ℝ} {B : Matrix (Fin m') (Fin m') ℝ} (h : Splits er er M A B) :
    M.det = A.det * B.det := by
  unfold Splits at h
  rw [← det_submatrix_equiv_self er M, h, det_fromBlocks_zero₂₁]

theorem Splits.inv {M : Matrix (Fin p) (Fin p) ℝ} {A : Matrix (Fin m) (Fin m) ℝ} {B : Matrix (Fin m') (Fin m') ℝ} (h : Splits er er M A B)
    (hM : M.det ≠ 0) : Splits er er M⁻¹ A⁻¹ B⁻¹ := by
  have hd := h.det
  have hA : IsUnit A.det := isUnit_iff_ne_zero.2 fun e => hM (by rw [hd, e, zero_mul])
  have hB : IsUnit B.det := isUnit_iff_ne_zero.2 fun e => hM (by rw [hd, e, mul_zero])
  unfold Splits at *
  rw [← inv_submatrix_equiv, h]
  refine inv_eq_right_inv ?_
  rw [fromBlocks_multiply, mul_nonsing_inv _ hA, mul_nonsing_inv _ hB]
  simp

end

/-- Horizontal and vertical coordinates on source, monochromator and monitor. -/
def coords7 : Fin 4 ⊕ Fin 3 → Fin 7 := Sum.elim ![0, 2, 3, 6] ![1, 4, 5]

noncomputable def e7 : Fin 4 ⊕ Fin 3 ≃ Fin 7 := Equiv.ofBijective coords7 (by decide)

noncomputable def e4 : Fin 2 ⊕ Fin 2 ≃ Fin 4 := Equiv.ofBijective (Sum.elim ![0, 1] ![2, 3]) (by decide)

noncomputable def e2 : Fin 1 ⊕ Fin 1 ≃ Fin 2 := Equiv.ofBijective (Sum.elim ![0] ![1]) (by decide)

/-- The horizontal factor of the determinant. -/
noncomputable def denH (c : Conf) (l : Loop) (k : Kin) : ℝ :=
  let T : Matrix (Fin 1) (Fin 4) ℝ := !![-1 / (2 * c.L0), cos k.thetam * (1 / c.L1mon - 1 / c.L0) / 2,
       sin k.thetam * (1 / c.L0 + 1 / c.L1mon - 2 / (l.monorh * sin k.thetam)) / 2, 1 / (2 * c.L1mon)]
  let D : Matrix (Fin 2) (Fin 4) ℝ := !![-1 / c.L0, -cos k.thetam / c.L0, sin k.thetam / c.L0, 0;
     0, cos k.thetam / c.L1mon, sin k.thetam / c.L1mon, 1 / c.L1mon]
  let S : Matrix (Fin 4) (Fin 4) ℝ := (diagonal ![c.bshape 0, c.mshape 0, c.mshape 1, c.monitorshape 1])⁻¹
  let F : Matrix (Fin 1) (Fin 1) ℝ := diagonal ![1 / c.etam ^ 2]
  ((D * (S + Tᵀ * F * T)⁻¹ * Dᵀ)⁻¹ + diagonal ![1 / l.alpha 0 ^ 2, 1 / l.alpha 1 ^ 2]).det

/-- The vertical factor of the determinant. -/
noncomputable def denV (c : Conf) (l : Loop) (k : Kin) : ℝ :=
  let T : Matrix (Fin 1) (Fin 3) ℝ := !![-1 / (2 * c.L0 * sin k.thetam),
       (1 / c.L0 + 1 / c.L1mon - 2 * sin k.thetam / l.monorv) / (2 * sin k.thetam), 0]
  let D : Matrix (Fin 2) (Fin 3) ℝ := !![-1 / c.L0, 1 / c.L0, 0; 0, -1 / c.L1mon, 0]
  let S : Matrix (Fin 3) (Fin 3) ℝ := (diagonal ![c.bshape 1, c.mshape 2, c.monitorshape 0])⁻¹
  let F : Matrix (Fin 1) (Fin 1) ℝ := diagonal ![1 / c.etamv ^ 2]
  ((D * (S + Tᵀ * F * T)⁻¹ * Dᵀ)⁻¹ + diagonal ![1 / l.beta 0 ^ 2, 1 / l.beta 1 ^ 2]).det

theorem den_splits {c : Conf} {l : Loop} {k : Kin} (hc : c.Good) (hl : l.Good) (hp : c.popovici = true) :
    monitorDen c l k (blkdiag (diagonal c.bshape) (blkdiag (diagonal c.mshape) (diagonal c.monitorshape)))⁻¹ = .ok (denH c l k * denV c l k) := by
  have hs : (blkdiag (diagonal c.bshape) (blkdiag (diagonal c.mshape) (diagonal c.monitorshape))).PosDef :=
    blkdiag_posDef (diagonal_posDef hc.bshape) (blkdiag_posDef (diagonal_posDef hc.mshape) (diagonal_posDef hc.monitorshape))
  have hf := monf_posDef hc.mosaics
  have hg := mong_posDef hl
  have ha := hc.arms hp
  have hK := hs.inv.add_posSemidef (gram_posSemidef hf (monT c l k))
  have hD := congr_posDef hK.inv (monD c k) (monD_inj ha k)
  have sS : Splits e7 e7 (blkdiag (diagonal c.bshape) (blkdiag (diagonal c.mshape) (diagonal c.monitorshape)))
      (diagonal ![c.bshape 0, c.mshape 0, c.mshape 1, c.monitorshape 1]) (diagonal ![c.bshape 1, c.mshape 2, c.monitorshape 0]) := by
    unfold Splits
    rw [blkdiag_append, blkdiag_append, submatrix_diagonal_equiv, fromBlocks_diagonal]
    congr 1
    funext i
    rcases i with i | i <;> fin_cases i <;> rfl
  have sT : Splits e2 e7 (monT c l k) !![-1 / (2 * c.L0), cos k.thetam * (1 / c.L1mon - 1 / c.L0) / 2,
       sin k.thetam * (1 / c.L0 + 1 / c.L1mon - 2 / (l.monorh * sin k.thetam)) / 2, 1 / (2 * c.L1mon)] !![-1 / (2 * c.L0 * sin k.thetam),
       (1 / c.L0 + 1 / c.L1mon - 2 * sin k.thetam / l.monorv) / (2 * sin k.thetam), 0] := by
    ext i j
    rcases i with i | i <;> rcases j with j | j <;> fin_cases i <;> fin_cases j <;> rfl
  have sD : Splits e4 e7 (monD c k) !![-1 / c.L0, -cos k.thetam / c.L0, sin k.thetam / c.L0, 0;
     0, cos k.thetam / c.L1mon, sin k.thetam / c.L1mon, 1 / c.L1mon] !![-1 / c.L0, 1 / c.L0, 0; 0, -1 / c.L1mon, 0] := by
    ext i j
    rcases i with i | i <;> rcases j with j | j <;> fin_cases i <;> fin_cases j <;> rfl
  have sF : Splits e2 e2 (monf c) (diagonal ![1 / c.etam ^ 2]) (diagonal ![1 / c.etamv ^ 2]) := by
    have : monf c = diagonal ![1 / c.etam ^ 2, 1 / c.etamv ^ 2] := by
      ext i j
      fin_cases i <;> fin_cases j <;> simp [monf, matF]
    unfold Splits
    rw [this, submatrix_diagonal_equiv, fromBlocks_diagonal]
    congr 1
    funext i
    rcases i with i | i <;> fin_cases i <;> rfl
  have sG : Splits e4 e4 (mong l) (diagonal ![1 / l.alpha 0 ^ 2, 1 / l.alpha 1 ^ 2]) (diagonal ![1 / l.beta 0 ^ 2, 1 / l.beta 1 ^ 2]) := by
    unfold Splits
    have : mong l = diagonal ![1 / l.alpha 0 ^ 2, 1 / l.alpha 1 ^ 2, 1 / l.beta 0 ^ 2, 1 / l.beta 1 ^ 2] := by
      ext i j
      fin_cases i <;> fin_cases j <;> simp [mong, matG]
    rw [this, submatrix_diagonal_equiv, fromBlocks_diagonal]
    congr 1
    funext i
    rcases i with i | i <;> fin_cases i <;> rfl
  have sK := ((sS.inv hs.det_pos.ne').add ((sT.transpose.mul sF).mul sT)).inv hK.det_pos.ne'
  have sH := (((sD.mul sK).mul sD.transpose).inv hD.det_pos.ne').add sG
  unfold monitorDen
  simp only [hp, if_true, if_neg ha.mon, npInv_ok hK, npInv_ok hD, ok_bind]
  exact congrArg Except.ok sH.det

theorem flux_splits {c : Conf} {l : Loop} {k : Kin} {q : ℝ} (hc : c.Good) (hl : l.Good) (hk : k.Good q) (hp : c.popovici = true) :
    0 < denH c l k * denV c l k ∧ monitorFlux c l k = .ok (k.ki ^ 3 / tan k.thetam * (2 * π) ^ 2 / (8 * π * sin k.thetam) *
      √((monf c).det / (denH c l k * denV c l k))) := by
  have hs : (blkdiag (diagonal c.bshape) (blkdiag (diagonal c.mshape) (diagonal c.monitorshape))).PosDef :=
    blkdiag_posDef (diagonal_posDef hc.bshape) (blkdiag_posDef (diagonal_posDef hc.mshape) (diagonal_posDef hc.monitorshape))
  have hf := monf_posDef hc.mosaics
  obtain ⟨d, hd, dpos⟩ := monitorDen_ok k hc hl hs.inv
  have e := hd
  rw [den_splits hc hl hp] at e
  have e := Except.ok.inj e
  rw [← e] at dpos hd
  refine ⟨dpos, ?_⟩
  unfold monitorFlux
  simp only [npInv_ok hs, ok_bind, hd, npDiv_ok dpos.ne', npSqrt_ok (div_pos hf.det_pos dpos).le]
  rfl

/-- The ratio of the fluxes for two heights of the monitor is a matter of the horizontal direction. -/
theorem flux_ratio {c : Conf} {l : Loop} {k : Kin} {q : ℝ} {a b b' : ℝ} (hc : ({ c with monitorshape := ![a, b] } : Conf).Good)
    (hc' : ({ c with monitorshape := ![a, b'] } : Conf).Good) (hl : l.Good) (hk : k.Good q) (hp : c.popovici = true) {f f' : ℝ}
    (h : monitorFlux { c with monitorshape := ![a, b] } l k = .ok f) (h' : monitorFlux { c with monitorshape := ![a, b'] } l k = .ok f') :
    f / f' = √(denH { c with monitorshape := ![a, b'] } l k / denH { c with monitorshape := ![a, b] } l k) := by
  obtain ⟨p, e⟩ := flux_splits (k := k) hc hl hk hp
  obtain ⟨p', e'⟩ := flux_splits (k := k) hc' hl hk hp
  rw [h] at e
  rw [h'] at e'
  have hV : denV { c with monitorshape := ![a, b'] } l k = denV { c with monitorshape := ![a, b] } l k := rfl
  have hF : monf { c with monitorshape := ![a, b'] } = monf { c with monitorshape := ![a, b] } := rfl
  rw [hV] at p' e'
  rw [hF] at e'
  have hf := (monf_posDef hc.mosaics).det_pos
  have rate := reflRate_pos hk.ki hk.sm
  have er : k.ki ^ 3 / tan k.thetam * (2 * π) ^ 2 / (8 * π * sin k.thetam) =
      (k.ki ^ 3 / tan k.thetam / sin k.thetam) * ((2 * π) ^ 2 / (8 * π)) := by
    rw [div_mul_eq_div_div_swap]; ring
  have hr : k.ki ^ 3 / tan k.thetam * (2 * π) ^ 2 / (8 * π * sin k.thetam) ≠ 0 := by
    rw [er]
    positivity
  rw [Except.ok.inj e, Except.ok.inj e', mul_div_mul_left _ _ hr, ← Real.sqrt_div (div_pos hf p).le]
  congr 1
  have hv : denV { c with monitorshape := ![a, b] } l k ≠ 0 := fun z => by rw [z, mul_zero] at p; exact lt_irrefl _ p
  have hh : denH { c with monitorshape := ![a, b] } l k ≠ 0 := fun z => by rw [z, zero_mul] at p; exact lt_irrefl _ p
  have hh' : denH { c with monitorshape := ![a, b'] } l k ≠ 0 := fun z => by rw [z, zero_mul] at p'; exact lt_irrefl _ p'
  field_simp

/-- The factors by which the prefactors of a scan change with the height of the monitor. -/
noncomputable def heightRatios (c c' : Conf) : Loop → List (ℝ × ℝ) → List ℝ
  | _, [] => []
  | l, (q, w) :: pts => match kinematics c q w with
    | .ok k => (if c.moncor = 1 then √(denH c' (l.advance c k.ki) k / denH c (l.advance c k.ki) k) else 1) :: heightRatios c c' (l.advance c k.ki) pts
    | .error _ => []

theorem heightRatios_cons {c : Conf} (c' : Conf) (l : Loop) {q w : ℝ} (pts : List (ℝ × ℝ)) {k : Kin} (h : kinematics c q w = .ok k) :
    heightRatios c c' l ((q, w) :: pts) = (if c.moncor = 1 then √(denH c' (l.advance c k.ki) k / denH c (l.advance c k.ki) k) else 1) ::
      heightRatios c c' (l.advance c k.ki) pts := by
  rw [heightRatios, h]

theorem ratios_loop {c : Conf} {a b b' : ℝ} (hp : c.popovici = true) (hc : ({ c with monitorshape := ![a, b] } : Conf).Good)
    (hc' : ({ c with monitorshape := ![a, b'] } : Conf).Good) (sa : SampleAttrs) :
    ∀ (pts : List (ℝ × ℝ)) (n : ℕ) {l : Loop}, (∀ p ∈ pts, ∀ k, kinematics c p.1 p.2 = .ok k → k.Good p.1) → l.Good →
      ∀ {rs : List (ℝ × M4)}, runLoop { c with monitorshape := ![a, b] } sa n l pts = .ok rs →
        (heightRatios { c with monitorshape := ![a, b] } { c with monitorshape := ![a, b'] } l pts).length = pts.length ∧
        runLoop { c with monitorshape := ![a, b'] } sa n l pts = .ok (List.zipWith (fun ρ r => (ρ * r.1, r.2))
          (heightRatios { c with monitorshape := ![a, b] } { c with monitorshape := ![a, b'] } l pts) rs)
  | [], n, l, hk, hl, rs, e => by
    rw [← Except.ok.inj e]
    exact ⟨rfl, rfl⟩
  | (q, w) :: pts, n, l, hk, hl, rs, e => by
    unfold runLoop at e
    obtain ⟨X, e1, e⟩ := bind_ok e
    obtain ⟨k, e2, e⟩ := bind_ok e
    obtain ⟨r, e3, e⟩ := bind_ok e
    obtain ⟨rs1, e4, e⟩ := bind_ok e
    rw [← Except.ok.inj e]
    have e2' : kinematics { c with monitorshape := ![a, b'] } q w = .ok k := e2
    have kg : k.Good q := hk (q, w) (by simp) k e2
    have g := advance_good hl { c with monitorshape := ![a, b] } kg.ki
    obtain ⟨f, f1, f2⟩ := monitorFlux_ok hc g kg
    obtain ⟨f', f1', f2'⟩ := monitorFlux_ok hc' g kg
    obtain ⟨i1, i2⟩ := ratios_loop hp hc hc' sa pts (n + 1) (fun p hp => hk p (List.mem_cons_of_mem _ hp)) g e4
    have hr := flux_ratio hc hc' g kg hp f1 f1'
    have hq := point_ratio (c := { c with monitorshape := ![a, b] }) (c' := { c with monitorshape := ![a, b'] }) rfl f1 f1' f2.ne' f2'.ne' X q
    rw [e3, ok_bind, hr] at hq
    rw [heightRatios_cons _ l pts e2]
    refine ⟨by simp [i1], ?_⟩
    unfold runLoop
    rw [e1, ok_bind, e2', ok_bind]
    have ha : l.advance { c with monitorshape := ![a, b'] } k.ki = l.advance { c with monitorshape := ![a, b] } k.ki := rfl
    rw [ha]
    refine (congrArg (· >>= _) hq).trans ?_
    refine (pure_bind _ _).trans ?_
    refine (congrArg (· >>= _) i2).trans ?_
    rfl

/-- What matters in the horizontal direction. -/
structure SameAcross (c d : Conf) : Prop where
  kin : ∀ q w, kinematics c q w = kinematics d q w
  sm : c.sm = d.sm
  moncor : c.moncor = d.moncor
  l0 : c.L0 = d.L0
  l1 : c.L1mon = d.L1mon
  etam : c.etam = d.etam
  source : c.bshape 0 = d.bshape 0
  depth : c.mshape 0 = d.mshape 0
  width : c.mshape 1 = d.mshape 1
  monitor : c.monitorshape = d.monitorshape

theorem denH_same {c d : Conf} (h : SameAcross c d) {l l' : Loop} (ha : l.alpha = l'.alpha) (hm : l.monorh = l'.monorh) (k : Kin) :
    denH c l k = denH d l' k := by
  unfold denH
  rw [h.l0, h.l1, h.etam, h.source, h.depth, h.width, h.monitor, ha, hm]

theorem ratios_same {c d c' d' : Conf} (h : SameAcross c d) (h' : SameAcross c' d') :
    ∀ (pts : List (ℝ × ℝ)) {l l' : Loop}, l.alpha = l'.alpha → l.monorh = l'.monorh → heightRatios c c' l pts = heightRatios d d' l' pts
  | [], _, _, _, _ => rfl
  | (q, w) :: pts, l, l', ha, hm => by
    rw [heightRatios, heightRatios, h.kin]
    cases kinematics d q w with
    | error e => rfl
    | ok k =>
      have a1 : (l.advance c k.ki).alpha = (l'.advance d k.ki).alpha := by
        funext i
        show guideDivergence (l.alpha i) k.ki = guideDivergence (l'.alpha i) k.ki
        rw [ha]
      have a2 : (l.advance c k.ki).monorh = (l'.advance d k.ki).monorh := by
        show l.monorh * c.sm = l'.monorh * d.sm
        rw [hm, h.sm]
      dsimp only
      rw [h.moncor, denH_same h a1 a2, denH_same h' a1 a2, ratios_same h h' pts a1 a2]

theorem decode_vertical {s : Settings} {c : Conf} (hs : decode s = .ok c) (vcol : Fin 4 → ℝ) (guide mono rv vmosaic : Option ℝ) :
    ∃ d, decode (s.vertical vcol guide mono rv vmosaic) = .ok d ∧ d.popovici = c.popovici ∧
      ∀ m, SameAcross { d with monitorshape := m } { c with monitorshape := m } := by
  unfold decode at hs
  obtain ⟨⟨l0, l1, l1mon, l2, l3⟩, e, hs⟩ := bind_ok hs
  have e' : decodeArms (s.vertical vcol guide mono rv vmosaic) = .ok (l0, l1, l1mon, l2, l3) := e
  rw [← Except.ok.inj hs]
  unfold decode
  rw [e', ok_bind]
  exact ⟨_, rfl, rfl, fun m => ⟨fun _ _ => rfl, rfl, rfl, rfl, rfl, rfl, rfl, rfl, rfl, rfl⟩⟩

/-- **C205** (the claim about the height fails) the height of the monitor acts in the horizontal direction: the factors by
which the prefactors of a scan change with it are the same for every vertical collimation, every height of guide and
monochromator, every vertical curvature and every vertical mosaic. -/
theorem C205_height_false {s : Settings} {pts : List (ℝ × ℝ)} (v : s.Valid pts.length) (hp : s.popovici = true)
    {w h h' : ℝ} (w0 : 0 < w) (h0 : 0 < h) (h0' : 0 < h') (hr : ∀ p ∈ pts, Reaches s p.1 p.2) :
    ∃ ρs : List ℝ, ρs.length = pts.length ∧ ∀ vcol guide mono rv vmosaic, (s.vertical vcol guide mono rv vmosaic).Valid pts.length →
      ∃ rs, calcInQ ((s.vertical vcol guide mono rv vmosaic).monitorOf w h) pts = .ok rs ∧ rs.length = pts.length ∧
        calcInQ ((s.vertical vcol guide mono rv vmosaic).monitorOf w h') pts = .ok (List.zipWith (fun ρ r => (ρ * r.1, r.2)) ρs rs) := by
  have pos {v : ℝ} (hv : 0 < v) : Pos (some v) := fun u hu => by rw [← Option.some.inj hu]; exact hv
  have re {vcol guide mono rv vmosaic} (x y : ℝ) : ∀ p ∈ pts, Reaches ((s.vertical vcol guide mono rv vmosaic).monitorOf x y) p.1 p.2 := fun p hp => by
    have := hr p hp
    exact ⟨this.ei, this.ef, this.mono, this.ana, this.closes, this.q⟩
  obtain ⟨c, gc, -⟩ := decode_ok v
  have key (vcol guide mono rv vmosaic) (u : (s.vertical vcol guide mono rv vmosaic).Valid pts.length) :
      (heightRatios { c with monitorshape := ![w ^ 2 / 12, h ^ 2 / 12] } { c with monitorshape := ![w ^ 2 / 12, h' ^ 2 / 12] } (Loop.start s) pts).length =
        pts.length ∧ ∃ rs, calcInQ ((s.vertical vcol guide mono rv vmosaic).monitorOf w h) pts = .ok rs ∧ rs.length = pts.length ∧
        calcInQ ((s.vertical vcol guide mono rv vmosaic).monitorOf w h') pts = .ok (List.zipWith (fun ρ r => (ρ * r.1, r.2))
          (heightRatios { c with monitorshape := ![w ^ 2 / 12, h ^ 2 / 12] } { c with monitorshape := ![w ^ 2 / 12, h' ^ 2 / 12] } (Loop.start s) pts) rs) := by
    have u1 : ((s.vertical vcol guide mono rv vmosaic).monitorOf w h).Valid pts.length := { u with monitor := ⟨pos w0, pos h0⟩ }
    have u2 : ((s.vertical vcol guide mono rv vmosaic).monitorOf w h').Valid pts.length := { u with monitor := ⟨pos w0, pos h0'⟩ }
    obtain ⟨d, gd, hd, same⟩ := decode_vertical gc vcol guide mono rv vmosaic
    obtain ⟨c1, g1, hc1, -, d1, d2, d3, d4, d5, d6, d7⟩ := decode_ok u1
    obtain ⟨c2, g2, hc2, -⟩ := decode_ok u2
    have x1 := g1
    have x2 := g2
    rw [decode_monitorOf, gd, ok_bind] at x1 x2
    have x1 := Except.ok.inj x1
    have x2 := Except.ok.inj x2
    subst x1 x2
    have hpop : d.popovici = true := by
      rw [hd]
      unfold decode at gc
      obtain ⟨t, -, gc⟩ := bind_ok gc
      rw [← Except.ok.inj gc]
      exact hp
    obtain ⟨rs, e, l, -⟩ := C61_spd _ pts u1 (re w h)
    have sm : d.sm = 1 ∨ d.sm = -1 := by rw [show d.sm = s.mono.dir from d5]; exact v.mono.dir
    have ss : d.ss = 1 ∨ d.ss = -1 := by rw [show d.ss = s.sample.dir from d6]; exact v.sample.dir
    have sa : d.sa = 1 ∨ d.sa = -1 := by rw [show d.sa = s.ana.dir from d7]; exact v.ana.dir
    have e' := e
    unfold calcInQ at e'
    rw [g1, ok_bind] at e'
    obtain ⟨i1, i2⟩ := ratios_loop (c := d) hpop hc1 hc2 s.sample pts 0 (l := Loop.start (s.vertical vcol guide mono rv vmosaic)) (fun p hp k' hk' => by
      obtain ⟨k'', x1, x2, -⟩ := kinematics_ok d1 d2 d3 d4 sm ss sa u1.mono.tau u1.ana.tau (re w h p hp)
      have hk' : kinematics { d with monitorshape := ![w ^ 2 / 12, h ^ 2 / 12] } p.1 p.2 = .ok k' := hk'
      rw [hk'] at x1
      rw [Except.ok.inj x1]
      exact x2) (start_good u) e'
    rw [ratios_same (same _) (same _) pts (l := Loop.start (s.vertical vcol guide mono rv vmosaic)) (l' := Loop.start s) rfl rfl] at i1 i2
    refine ⟨i1, rs, e, l, ?_⟩
    unfold calcInQ
    rw [g2, ok_bind]
    exact i2
  refine ⟨_, (key s.vcol s.guide.height s.mono.height s.mono.rv s.mono.vmosaic v).1, fun vcol guide mono rv vmosaic u => (key vcol guide mono rv vmosaic u).2⟩

/-- The hypotheses are met, with settings that differ in the vertical direction. -/
example : demoSized.Valid 1 ∧ demoSized.popovici = true ∧ Reaches demoSized 1 0 ∧
    (demoSized.vertical demoSized.vcol (some 20) demoSized.mono.height none none).Valid 1 := by
  have d := demoSized_valid 1
  exact ⟨d, rfl, demoSized_reaches, { d with
    guide := ⟨d.guide.1, fun u hu => by rw [← Option.some.inj hu]; norm_num⟩
    mono := { d.mono with } }⟩

end Verif.Resolution
