import Verif.Resolution.PropsMirror
import Verif.Resolution.PropsBatch
import Verif.Angles.PropsQ

/-! # Helper lemmas: an instrument and its mirror image (left and right exchanged) -/

namespace Verif.Resolution

open Real Matrix
open Verif.Crystal (Fail npSqrt npArcsin npDiv)
open Verif.Tools (arctan2)

/-- All factors are `1` or `-1`. -/
def Signs {n : ℕ} (s : Fin n → ℝ) : Prop := ∀ i, s i * s i = 1

/-- `M'` is `M` with its rows and columns multiplied by the factors `s` and `t`. -/
def Reflected {m n : ℕ} (s : Fin m → ℝ) (t : Fin n → ℝ) (M M' : Matrix (Fin m) (Fin n) ℝ) : Prop := ∀ i j, M' i j = s i * M i j * t j

/-- Rows and columns of a square matrix multiplied by the same factors. -/
def flipBy {n : ℕ} (s : Fin n → ℝ) (M : Matrix (Fin n) (Fin n) ℝ) : Matrix (Fin n) (Fin n) ℝ := diagonal s * M * diagonal s

theorem flipBy_apply {n : ℕ} (s : Fin n → ℝ) (M : Matrix (Fin n) (Fin n) ℝ) (i j : Fin n) : flipBy s M i j = s i * M i j * s j := by
  rw [flipBy, mul_diagonal, diagonal_mul]

theorem reflected_flip {n : ℕ} (s : Fin n → ℝ) (M : Matrix (Fin n) (Fin n) ℝ) : Reflected s s M (flipBy s M) := flipBy_apply s M

theorem reflected_iff {m n : ℕ} {s : Fin m → ℝ} {t : Fin n → ℝ} {M M' : Matrix (Fin m) (Fin n) ℝ} :
    Reflected s t M M' ↔ M' = diagonal s * M * diagonal t := by
  constructor
  · intro h
    ext i j
    rw [mul_diagonal, diagonal_mul, h]
  · rintro rfl i j
    rw [mul_diagonal, diagonal_mul]

theorem Signs.sq {n : ℕ} {s : Fin n → ℝ} (h : Signs s) : diagonal s * diagonal s = 1 := by
  rw [diagonal_mul_diagonal, ← diagonal_one]
  congr 1
  exact funext h

theorem Reflected.eq {n : ℕ} {s : Fin n → ℝ} {M M' : Matrix (Fin n) (Fin n) ℝ} (h : Reflected s s M M') : M' = flipBy s M :=
  reflected_iff.1 h

theorem Reflected.mul {l m n : ℕ} {r : Fin l → ℝ} {s : Fin m → ℝ} {t : Fin n → ℝ} {A A' : Matrix (Fin l) (Fin m) ℝ}
    {B B' : Matrix (Fin m) (Fin n) ℝ} (hs : Signs s) (h : Reflected r s A A') (h' : Reflected s t B B') : Reflected r t (A * B) (A' * B') := by
  rw [reflected_iff] at *
  rw [h, h']
  calc diagonal r * A * diagonal s * (diagonal s * B * diagonal t) = diagonal r * A * (diagonal s * diagonal s) * B * diagonal t := by
        simp only [Matrix.mul_assoc]
    _ = diagonal r * (A * B) * diagonal t := by rw [hs.sq, Matrix.mul_one]; simp only [Matrix.mul_assoc]

theorem Reflected.transpose {m n : ℕ} {s : Fin m → ℝ} {t : Fin n → ℝ} {M M' : Matrix (Fin m) (Fin n) ℝ} (h : Reflected s t M M') :
    Reflected t s Mᵀ M'ᵀ := by
  intro i j
  rw [transpose_apply, h, transpose_apply]
  ring

theorem Reflected.add {m n : ℕ} {s : Fin m → ℝ} {t : Fin n → ℝ} {M M' N N' : Matrix (Fin m) (Fin n) ℝ} (h : Reflected s t M M')
    (h' : Reflected s t N N') : Reflected s t (M + N) (M' + N') := by
  intro i j
  rw [Matrix.add_apply, h, h', Matrix.add_apply]
  ring

theorem reflected_diagonal {n : ℕ} {s : Fin n → ℝ} (hs : Signs s) (d : Fin n → ℝ) : Reflected s s (diagonal d) (diagonal d) := by
  intro i j
  by_cases h : i = j
  · subst h
    rw [diagonal_apply_eq]
    linear_combination -d i * hs i
  · rw [diagonal_apply_ne _ h]; ring

theorem Reflected.det {n : ℕ} {s : Fin n → ℝ} (hs : Signs s) {M M' : Matrix (Fin n) (Fin n) ℝ} (h : Reflected s s M M') : M'.det = M.det := by
  have e : (diagonal s).det * (diagonal s).det = 1 := by rw [← det_mul, hs.sq, det_one]
  rw [reflected_iff.1 h, det_mul, det_mul]
  linear_combination M.det * e

theorem Reflected.npInv {n : ℕ} {s : Fin n → ℝ} (hs : Signs s) {M M' : Matrix (Fin n) (Fin n) ℝ} (h : Reflected s s M M') :
    npInv M' = (npInv M).map (flipBy s) := by
  unfold Resolution.npInv
  rw [h.det hs]
  split_ifs with h0
  · rfl
  · have u : IsUnit M.det := isUnit_iff_ne_zero.2 h0
    change Except.ok _ = Except.ok _
    congr 1
    refine Matrix.inv_eq_left_inv ?_
    rw [reflected_iff.1 h, flipBy]
    calc diagonal s * M⁻¹ * diagonal s * (diagonal s * M * diagonal s)
        = diagonal s * M⁻¹ * (diagonal s * diagonal s) * M * diagonal s := by simp only [Matrix.mul_assoc]
      _ = diagonal s * (M⁻¹ * M) * diagonal s := by rw [hs.sq, Matrix.mul_one]; simp only [Matrix.mul_assoc]
      _ = 1 := by rw [Matrix.nonsing_inv_mul _ u, Matrix.mul_one, hs.sq]

theorem reflected_blkdiag {m n : ℕ} {s : Fin m → ℝ} {t : Fin n → ℝ} {X X' : Matrix (Fin m) (Fin m) ℝ} {Y Y' : Matrix (Fin n) (Fin n) ℝ}
    (hX : Reflected s s X X') (hY : Reflected t t Y Y') : Reflected (Fin.append s t) (Fin.append s t) (blkdiag X Y) (blkdiag X' Y') := by
  intro i j
  induction i using Fin.addCases <;> induction j using Fin.addCases <;>
    simp [blkdiag, Fin.append_left, Fin.append_right, hX _ _, hY _ _]

/-- Two computations step by step. -/
theorem bind_image {ε α α' β β' : Type} {x : Except ε α} {x' : Except ε α'} {f : α → α'} {g : α → Except ε β} {g' : α' → Except ε β'}
    {h : β → β'} (hx : x' = x.map f) (hg : ∀ a, g' (f a) = (g a).map h) : (x' >>= g') = (x >>= g).map h := by
  subst hx
  cases x with
  | error e => rfl
  | ok a => exact hg a

/-- Signs of the components of `Q` and the energy, of the two wavevectors, of the collimator angles, of the mosaic
blocks, of the coordinates of guide, monochromator, sample, analyzer and detector and of those of guide, monochromator and
monitor when left and right are exchanged. -/
def m4 : Fin 4 → ℝ := ![1, -1, 1, 1]
@[inherit_doc m4] def m6 : Fin 6 → ℝ := ![1, -1, 1, 1, -1, 1]
@[inherit_doc m4] def m8 : Fin 8 → ℝ := ![-1, -1, 1, 1, -1, -1, 1, 1]
@[inherit_doc m4] def mF : Fin 4 → ℝ := ![-1, -1, -1, -1]
@[inherit_doc m4] def m13 : Fin 13 → ℝ := ![-1, 1, -1, 1, 1, 1, -1, 1, -1, 1, 1, -1, 1]
@[inherit_doc m4] def m3 : Fin 3 → ℝ := ![1, -1, 1]
@[inherit_doc m4] def m7 : Fin 7 → ℝ := ![-1, 1, -1, 1, 1, 1, -1]
@[inherit_doc m4] def m8' : Fin 4 → ℝ := ![-1, -1, 1, 1]
@[inherit_doc m4] def mF' : Fin 2 → ℝ := ![-1, -1]

theorem signs_m4 : Signs m4 := by intro i; fin_cases i <;> simp [m4]
theorem signs_m6 : Signs m6 := by intro i; fin_cases i <;> simp [m6]
theorem signs_m8 : Signs m8 := by intro i; fin_cases i <;> simp [m8]
theorem signs_mF : Signs mF := by intro i; fin_cases i <;> simp [mF]
theorem signs_m13 : Signs m13 := by intro i; fin_cases i <;> simp [m13]
theorem signs_m3 : Signs m3 := by intro i; fin_cases i <;> simp [m3]
theorem signs_m7 : Signs m7 := by intro i; fin_cases i <;> simp [m7]
theorem signs_m8' : Signs m8' := by intro i; fin_cases i <;> simp [m8']
theorem signs_mF' : Signs mF' := by intro i; fin_cases i <;> simp [mF']

/-- The angles of the mirror image of a point. -/
structure KinImage (k k' : Kin) : Prop where
  ki : k'.ki = k.ki
  kf : k'.kf = k.kf
  thetam : k'.thetam = -k.thetam
  thetaa : k'.thetaa = -k.thetaa
  s2theta : k'.s2theta = -k.s2theta
  cosphi : cos k'.phi = cos k.phi
  sinphi : sin k'.phi = -sin k.phi

/-- The loop variables of the mirror image. -/
structure LoopImage (l l' : Loop) : Prop where
  alpha : l'.alpha = l.alpha
  beta : l'.beta = l.beta
  monorh : l'.monorh = -l.monorh
  monorv : l'.monorv = -l.monorv
  anarh : l'.anarh = -l.anarh
  anarv : l'.anarv = -l.anarv

variable {c : Conf} {l l' : Loop} {k k' : Kin}

theorem KinImage.turned (h : KinImage k k') : cos (k'.phi - k'.s2theta) = cos (k.phi - k.s2theta) ∧
    sin (k'.phi - k'.s2theta) = -sin (k.phi - k.s2theta) := by
  rw [cos_sub, sin_sub, cos_sub, sin_sub, h.s2theta, h.cosphi, h.sinphi, cos_neg, sin_neg]
  constructor <;> ring

theorem KinImage.psi (h : KinImage k k') : cos (k'.s2theta / 2 - k'.phi) = cos (k.s2theta / 2 - k.phi) ∧
    sin (k'.s2theta / 2 - k'.phi) = -sin (k.s2theta / 2 - k.phi) := by
  rw [cos_sub, sin_sub, cos_sub, sin_sub, h.s2theta, h.cosphi, h.sinphi, neg_div, cos_neg, sin_neg]
  constructor <;> ring

theorem reflected_A (h : KinImage k k') : Reflected m6 m8 (matA k) (matA k') := by
  intro i j
  fin_cases i <;> fin_cases j <;> simp [m6, m8, matA, h.ki, h.kf, h.thetam, h.thetaa, tan_neg, div_neg]

theorem reflected_B (h : KinImage k k') : Reflected m4 m6 (matB k) (matB k') := by
  intro i j
  fin_cases i <;> fin_cases j <;> simp [m6, m4, matB, h.ki, h.kf, h.turned, h.cosphi, h.sinphi]

theorem reflected_C (h : KinImage k k') : Reflected mF m8 (matC k) (matC k') := by
  intro i j
  fin_cases i <;> fin_cases j <;> simp [mF, m8, matC, h.thetam, h.thetaa, div_neg]

set_option maxHeartbeats 1000000 in
theorem reflected_T (h : KinImage k k') (hl : LoopImage l l') : Reflected mF m13 (matT c l k) (matT c l' k') := by
  intro i j
  fin_cases i <;> fin_cases j <;> simp [mF, m13, matT, h.thetam, h.thetaa, h.s2theta, hl.monorh, hl.monorv, hl.anarh, hl.anarv, neg_div, div_neg]

set_option maxHeartbeats 1000000 in
theorem reflected_D (h : KinImage k k') : Reflected m8 m13 (matD c k) (matD c k') := by
  intro i j
  fin_cases i <;> fin_cases j <;> simp [m8, m13, matD, h.thetam, h.thetaa, h.s2theta, neg_div]

theorem reflected_Sinv {X X' : M3} (h : Reflected m3 m3 X X') : Reflected m13 m13 (matSinv c X) (matSinv c X') := by
  have s2 : Signs ![(-1 : ℝ), 1] := by intro i; fin_cases i <;> simp
  have s3 : Signs ![(-1 : ℝ), 1, 1] := by intro i; fin_cases i <;> simp
  have := reflected_blkdiag (reflected_diagonal s2 c.bshape) (reflected_blkdiag (reflected_diagonal s3 c.mshape)
    (reflected_blkdiag h (reflected_blkdiag (reflected_diagonal s3 c.ashape) (reflected_diagonal s2 c.dshape))))
  have e : (m13 : Fin (2 + (3 + (3 + (3 + 2)))) → ℝ) = Fin.append ![-1, 1] (Fin.append ![-1, 1, 1] (Fin.append m3 (Fin.append ![-1, 1, 1] ![-1, 1]))) := by
    funext i
    fin_cases i <;> rfl
  unfold matSinv
  rw [← e] at this
  exact this

theorem reflected_turn (h : KinImage k k') {X X' : M3} (hX : Reflected m3 m3 X X') : Reflected m3 m3 (turnShape k X) (turnShape k' X') := by
  have r : Reflected m3 m3 (!![cos (k.s2theta / 2 - k.phi), sin (k.s2theta / 2 - k.phi), 0;
      -sin (k.s2theta / 2 - k.phi), cos (k.s2theta / 2 - k.phi), 0; 0, 0, 1] : M3)
      (!![cos (k'.s2theta / 2 - k'.phi), sin (k'.s2theta / 2 - k'.phi), 0;
      -sin (k'.s2theta / 2 - k'.phi), cos (k'.s2theta / 2 - k'.phi), 0; 0, 0, 1] : M3) := by
    intro i j
    rw [h.psi.1, h.psi.2]
    fin_cases i <;> fin_cases j <;> simp [m3]
  exact (r.mul signs_m3 hX).mul signs_m3 r.transpose

theorem reflected_G (hl : LoopImage l l') : matG l' = matG l := by simp only [matG, hl.alpha, hl.beta]

theorem reflected_matG (l : Loop) : Reflected m8 m8 (matG l) (matG l) := reflected_diagonal signs_m8 _

theorem reflected_matF (c : Conf) : Reflected mF mF (matF c) (matF c) := reflected_diagonal signs_mF _

theorem reflected_focus (h : KinImage k k') (hl : LoopImage l l') {N N' : Matrix (Fin 6) (Fin 6) ℝ} (hN : Reflected m6 m6 N N') :
    Reflected m6 m6 (focusBlock c l k N) (focusBlock c l' k' N') := by
  intro i j
  have := hN i j
  unfold focusBlock
  rw [of_apply, of_apply]
  split_ifs with h1 h2 h3
  · rw [h1.1, h1.2, h.thetaa, h.kf, tan_neg]
    simp [m6, neg_div]
  · rw [h2.1, h2.2, h.kf, hl.alpha]
    simp [m6]
  · rw [mul_zero, zero_mul]
  · exact this

theorem popovici_image (h : KinImage k k') (hl : LoopImage l l') {S S' : Matrix (Fin 13) (Fin 13) ℝ} (hS : Reflected m13 m13 S S') :
    popoviciN c l' k' S' = (popoviciN c l k S).map fun r => (flipBy m6 r.1, r.2) := by
  unfold popoviciN
  simp only [hl.monorh, hl.monorv, hl.anarh, hl.anarv, neg_eq_zero, reflected_G hl]
  split_ifs
  · rfl
  · have hT := reflected_T (c := c) h hl
    have hD := reflected_D (c := c) h
    refine bind_image ((hS.add ((hT.transpose.mul signs_mF (reflected_matF c)).mul signs_mF hT)).npInv signs_m13) fun Ki => ?_
    refine bind_image (((hD.mul signs_m13 (reflected_flip m13 Ki)).mul signs_m13 hD.transpose).npInv signs_m8) fun H => ?_
    have hG := (reflected_flip m8 H).add (reflected_matG l)
    refine bind_image (hG.npInv signs_m8) fun J => ?_
    change Except.ok _ = Except.ok _
    congr 1
    exact Prod.ext (((reflected_A h).mul signs_m8 (reflected_flip m8 J)).mul signs_m8 (reflected_A h).transpose).eq (hG.det signs_m8)

theorem cooperNathans_image (h : KinImage k k') (hl : LoopImage l l') :
    cooperNathansN c l' k' = (cooperNathansN c l k).map fun r => (flipBy m6 r.1, r.2) := by
  unfold cooperNathansN
  simp only [reflected_G hl]
  have hC := reflected_C h
  have hH : Reflected m8 m8 (matG l + (matC k)ᵀ * matF c * matC k) (matG l + (matC k')ᵀ * matF c * matC k') := (reflected_matG l).add
    ((hC.transpose.mul signs_mF (reflected_matF c)).mul signs_mF hC)
  refine bind_image (hH.npInv signs_m8) fun J => ?_
  have hN := ((reflected_A h).mul signs_m8 (reflected_flip m8 J)).mul signs_m8 (reflected_A h).transpose
  split_ifs
  · refine bind_image (hN.npInv signs_m6) fun N => ?_
    refine bind_image ((reflected_focus h hl (reflected_flip m6 N)).npInv signs_m6) fun N' => ?_
    rw [hH.det signs_m8]
    rfl
  · rw [hH.det signs_m8, hN.eq]
    rfl

theorem core_image (h : KinImage k k') (hl : LoopImage l l') {S S' : Matrix (Fin 13) (Fin 13) ℝ} (hS : Reflected m13 m13 S S') :
    coreMatrix c l' k' S' = (coreMatrix c l k S).map fun r => (flipBy m4 r.1, r.2) := by
  have e (x : Except Fail (Matrix (Fin 6) (Fin 6) ℝ × ℝ)) :
      ((x.map fun r => (flipBy m6 r.1, r.2)) >>= fun r => (Except.ok (matB k' * r.1 * (matB k')ᵀ, r.2) : Except Fail (M4 × ℝ))) =
      (x >>= fun r => (Except.ok (matB k * r.1 * (matB k)ᵀ, r.2) : Except Fail (M4 × ℝ))).map fun r => (flipBy m4 r.1, r.2) := by
    refine bind_image rfl fun r => ?_
    change Except.ok _ = Except.ok _
    congr 1
    exact Prod.ext (((reflected_B h).mul signs_m6 (reflected_flip m6 r.1)).mul signs_m6 (reflected_B h).transpose).eq rfl
  unfold coreMatrix
  split_ifs
  · exact (congrArg (· >>= _) (popovici_image h hl hS)).trans (e _)
  · exact (congrArg (· >>= _) (cooperNathans_image h hl)).trans (e _)

theorem monT_image (h : KinImage k k') (hl : LoopImage l l') : Reflected mF' m7 (monT c l k) (monT c l' k') := by
  intro i j
  fin_cases i <;> fin_cases j <;> simp [mF', m7, monT, h.thetam, hl.monorh, hl.monorv, neg_div, div_neg]

theorem monD_image (h : KinImage k k') : Reflected m8' m7 (monD c k) (monD c k') := by
  intro i j
  fin_cases i <;> fin_cases j <;> simp [m8', m7, monD, h.thetam, neg_div]

theorem monc_image (h : KinImage k k') : Reflected mF' m8' (monc k) (monc k') := by
  intro i j
  have := reflected_C h (Fin.castLE (by decide) i) (Fin.castLE (by decide) j)
  have e1 : mF (Fin.castLE (by decide) i) = mF' i := by fin_cases i <;> rfl
  have e2 : m8 (Fin.castLE (by decide) j) = m8' j := by fin_cases j <;> rfl
  rw [e1, e2] at this
  exact this

theorem mong_diagonal (l : Loop) : mong l = diagonal fun i : Fin 4 => 1 / (![l.alpha 0, l.alpha 1, l.beta 0, l.beta 1] i) ^ 2 := by
  ext i j
  fin_cases i <;> fin_cases j <;> simp [mong, matG]

theorem monf_diagonal (c : Conf) : monf c = diagonal fun i : Fin 2 => 1 / (![c.etam, c.etamv] i) ^ 2 := by
  ext i j
  fin_cases i <;> fin_cases j <;> simp [monf, matF]

theorem monitorDen_image (h : KinImage k k') (hl : LoopImage l l') {s s' : Matrix (Fin 7) (Fin 7) ℝ} (hs : Reflected m7 m7 s s') :
    monitorDen c l' k' s' = monitorDen c l k s := by
  have eg : mong l' = mong l := by unfold mong; rw [reflected_G hl]
  have hg : Reflected m8' m8' (mong l) (mong l) := by rw [mong_diagonal]; exact reflected_diagonal signs_m8' _
  have hf : Reflected mF' mF' (monf c) (monf c) := by rw [monf_diagonal]; exact reflected_diagonal signs_mF' _
  unfold monitorDen
  rw [eg]
  split_ifs
  · rfl
  · have hT := monT_image (c := c) h hl
    have hD := monD_image (c := c) h
    refine (bind_image (h := id) ((hs.add ((hT.transpose.mul signs_mF' hf).mul signs_mF' hT)).npInv signs_m7) fun Ki => ?_).trans (by
      cases (npInv (s + (monT c l k)ᵀ * monf c * monT c l k) >>= _) <;> rfl)
    refine bind_image (((hD.mul signs_m7 (reflected_flip m7 Ki)).mul signs_m7 hD.transpose).npInv signs_m8') fun H => ?_
    rw [((reflected_flip m8' H).add hg).det signs_m8']
    rfl
  · have hC := monc_image h
    rw [(hg.add ((hC.transpose.mul signs_mF' hf).mul signs_mF' hC)).det signs_m8']

theorem monitorFlux_image (h : KinImage k k') (hl : LoopImage l l') : monitorFlux c l' k' = monitorFlux c l k := by
  have s2 : Signs ![(-1 : ℝ), 1] := by intro i; fin_cases i <;> simp
  have s2' : Signs ![(1 : ℝ), -1] := by intro i; fin_cases i <;> simp
  have s3 : Signs ![(-1 : ℝ), 1, 1] := by intro i; fin_cases i <;> simp
  have hB := reflected_blkdiag (reflected_diagonal s2 c.bshape) (reflected_blkdiag (reflected_diagonal s3 c.mshape) (reflected_diagonal s2' c.monitorshape))
  have e : (m7 : Fin (2 + (3 + 2)) → ℝ) = Fin.append ![-1, 1] (Fin.append ![-1, 1, 1] ![1, -1]) := by
    funext i
    fin_cases i <;> rfl
  rw [← e] at hB
  have hi := hB.npInv signs_m7
  unfold monitorFlux
  cases hs : npInv (blkdiag (diagonal c.bshape) (blkdiag (diagonal c.mshape) (diagonal c.monitorshape))) with
  | error e => rfl
  | ok s =>
    rw [hs] at hi
    have hss : Reflected m7 m7 s s := by
      have := Except.ok.inj hi
      exact reflected_iff.2 this
    simp only [ok_bind]
    rw [monitorDen_image h hl hss, h.ki, h.thetam, tan_neg, sin_neg]
    have e2 : k.ki ^ 3 / -tan k.thetam * (2 * π) ^ 2 / (8 * π * -sin k.thetam) = k.ki ^ 3 / tan k.thetam * (2 * π) ^ 2 / (8 * π * sin k.thetam) := by
      rw [div_neg, mul_neg, div_neg, neg_mul, neg_div, neg_neg]
    rw [e2]

theorem prefactor_image (h : KinImage k k') (hl : LoopImage l l') (d : ℝ) {RM RM' : M4} (hR : Reflected m4 m4 RM RM') :
    prefactor c l' k' d RM' = prefactor c l k d RM := by
  unfold prefactor
  rw [monitorFlux_image h hl, hR.det signs_m4, h.ki, h.kf, h.thetam, h.thetaa, tan_neg, tan_neg, sin_neg, sin_neg]
  have e2 : k.ki ^ 3 / -tan k.thetam * (k.kf ^ 3 / -tan k.thetaa) * (2 * π) ^ 4 / (64 * π ^ 2 * -sin k.thetam * -sin k.thetaa) =
      k.ki ^ 3 / tan k.thetam * (k.kf ^ 3 / tan k.thetaa) * (2 * π) ^ 4 / (64 * π ^ 2 * sin k.thetam * sin k.thetaa) := by
    rw [div_neg, div_neg, neg_mul_neg, mul_neg, mul_neg, neg_mul, neg_neg]
  simp only [e2]

theorem mosaic_image (q r0 : ℝ) {RM RM' Mi Mi' : M4} (hR : Reflected m4 m4 RM RM') (hM : Reflected m4 m4 Mi Mi') :
    withMosaic c q r0 RM' Mi' = (withMosaic c q r0 RM Mi).map fun r => (r.1, flipBy m4 r.2) := by
  unfold withMosaic
  cases c.etas with
  | none => exact congrArg Except.ok (Prod.ext rfl hR.eq)
  | some e =>
    obtain ⟨a, b⟩ := e
    have e1 : RM' 1 1 = RM 1 1 := by rw [hR]; simp [m4]
    have e2 : RM' 2 2 = RM 2 2 := by rw [hR]; simp [m4]
    simp only [sampleMosaic, e1, e2]
    refine bind_image (f := id) ?_ fun x => bind_image (f := id) ?_ fun y =>
      bind_image ((hM.add (reflected_diagonal signs_m4 _)).npInv signs_m4) fun Z => rfl
    · cases npSqrt _ <;> rfl
    · simp only [id]
      cases npDiv r0 x <;> rfl

theorem refl_image (h : KinImage k k') (hl : LoopImage l l') (r0 : ℝ) : withReflectivity c l' k' r0 = withReflectivity c l k r0 := by
  unfold withReflectivity reflectivity
  rw [h.kf, hl.alpha]

theorem point_image (h : KinImage k k') (hl : LoopImage l l') {X X' : M3} (hX : Reflected m3 m3 X X') (q : ℝ) :
    pointAt c l' X' k' q = (pointAt c l X k q).map fun r => (r.1, flipBy m4 r.2) := by
  unfold pointAt
  rw [hl.alpha, hl.beta, h.thetam, h.thetaa, sin_neg, sin_neg]
  simp only [neg_eq_zero]
  split_ifs
  · rfl
  · refine bind_image ((reflected_Sinv (c := c) (reflected_turn h hX)).npInv signs_m13) fun S => ?_
    refine bind_image (core_image h hl (reflected_flip m13 S)) fun r => ?_
    obtain ⟨Mi, d⟩ := r
    refine bind_image ((reflected_flip m4 Mi).npInv signs_m4) fun RM => ?_
    refine bind_image (f := id) ?_ fun r0 => ?_
    · rw [prefactor_image h hl d (reflected_flip m4 RM)]
      cases prefactor c l k d RM <;> rfl
    · refine bind_image (mosaic_image q r0 (reflected_flip m4 RM) (reflected_flip m4 Mi)) fun r => ?_
      obtain ⟨r0', RM'⟩ := r
      simp only [refl_image h hl]
      cases withReflectivity c l k r0' <;> rfl

end Verif.Resolution
