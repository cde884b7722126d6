import Verif.Resolution.PropsMirrorSides

/-! # Helper lemmas: an instrument and the same instrument passed through in the opposite direction -/

namespace Verif.Resolution

open Real Matrix
open Verif.Crystal (Fail npSqrt npArcsin npDiv)
open Verif.Tools (arctan2)

/-- `M'` is `M` with rows and columns exchanged by `p` and `q` and then multiplied by the factors `s` and `t`. -/
def Swapped {m n : ℕ} (p : Equiv.Perm (Fin m)) (s : Fin m → ℝ) (q : Equiv.Perm (Fin n)) (t : Fin n → ℝ)
    (M M' : Matrix (Fin m) (Fin n) ℝ) : Prop := Reflected s t (M.submatrix p q) M'

theorem Swapped.mul {l m n : ℕ} {p : Equiv.Perm (Fin l)} {q : Equiv.Perm (Fin m)} {o : Equiv.Perm (Fin n)} {r : Fin l → ℝ} {s : Fin m → ℝ}
    {t : Fin n → ℝ} {A A' : Matrix (Fin l) (Fin m) ℝ} {B B' : Matrix (Fin m) (Fin n) ℝ} (hs : Signs s) (h : Swapped p r q s A A')
    (h' : Swapped q s o t B B') : Swapped p r o t (A * B) (A' * B') := by
  have := Reflected.mul hs h h'
  rwa [submatrix_mul_equiv] at this

theorem Swapped.transpose {m n : ℕ} {p : Equiv.Perm (Fin m)} {q : Equiv.Perm (Fin n)} {s : Fin m → ℝ} {t : Fin n → ℝ}
    {M M' : Matrix (Fin m) (Fin n) ℝ} (h : Swapped p s q t M M') : Swapped q t p s Mᵀ M'ᵀ := Reflected.transpose h

theorem Swapped.add {m n : ℕ} {p : Equiv.Perm (Fin m)} {q : Equiv.Perm (Fin n)} {s : Fin m → ℝ} {t : Fin n → ℝ}
    {M M' N N' : Matrix (Fin m) (Fin n) ℝ} (h : Swapped p s q t M M') (h' : Swapped p s q t N N') : Swapped p s q t (M + N) (M' + N') :=
  Reflected.add h h'

theorem Swapped.det {n : ℕ} {p : Equiv.Perm (Fin n)} {s : Fin n → ℝ} (hs : Signs s) {M M' : Matrix (Fin n) (Fin n) ℝ} (h : Swapped p s p s M M') :
    M'.det = M.det := by
  rw [Reflected.det hs h, det_submatrix_equiv_self]

/-- The matrix with rows and columns exchanged by `p` and multiplied by `s`. -/
def swapBy {n : ℕ} (p : Equiv.Perm (Fin n)) (s : Fin n → ℝ) (M : Matrix (Fin n) (Fin n) ℝ) : Matrix (Fin n) (Fin n) ℝ := flipBy s (M.submatrix p p)

theorem swapped_swap {n : ℕ} (p : Equiv.Perm (Fin n)) (s : Fin n → ℝ) (M : Matrix (Fin n) (Fin n) ℝ) : Swapped p s p s M (swapBy p s M) :=
  reflected_flip s _

theorem Swapped.eq {n : ℕ} {p : Equiv.Perm (Fin n)} {s : Fin n → ℝ} {M M' : Matrix (Fin n) (Fin n) ℝ} (h : Swapped p s p s M M') :
    M' = swapBy p s M := Reflected.eq h

theorem Swapped.npInv {n : ℕ} {p : Equiv.Perm (Fin n)} {s : Fin n → ℝ} (hs : Signs s) {M M' : Matrix (Fin n) (Fin n) ℝ}
    (h : Swapped p s p s M M') : npInv M' = (npInv M).map (swapBy p s) := by
  rw [Reflected.npInv hs h]
  unfold Resolution.npInv
  rw [det_submatrix_equiv_self]
  split_ifs with h0
  · rfl
  · change Except.ok _ = Except.ok _
    rw [inv_submatrix_equiv]
    rfl

theorem swapped_diagonal {n : ℕ} {p : Equiv.Perm (Fin n)} {s : Fin n → ℝ} (hs : Signs s) {d d' : Fin n → ℝ} (h : ∀ i, d' i = d (p i)) :
    Swapped p s p s (diagonal d) (diagonal d') := by
  have e : (diagonal d).submatrix p p = diagonal d' := by
    rw [submatrix_diagonal_equiv]
    congr 1
    exact (funext h).symm
  unfold Swapped
  rw [e]
  exact reflected_diagonal hs _

/-- The exchange of the incident and the outgoing side, for the two wavevectors, the collimators, the mosaic blocks and the
coordinates of guide, monochromator, sample, analyzer and detector. -/
def ex6 : Equiv.Perm (Fin 6) := Function.Involutive.toPerm ![3, 4, 5, 0, 1, 2] (fun i => by revert i; decide)
@[inherit_doc ex6] def ex8 : Equiv.Perm (Fin 8) := Function.Involutive.toPerm ![5, 4, 7, 6, 1, 0, 3, 2] (fun i => by revert i; decide)
@[inherit_doc ex6] def exF : Equiv.Perm (Fin 4) := Function.Involutive.toPerm ![2, 3, 0, 1] (fun i => by revert i; decide)
@[inherit_doc ex6] def ex13 : Equiv.Perm (Fin 13) := Function.Involutive.toPerm ![11, 12, 8, 9, 10, 5, 6, 7, 2, 3, 4, 0, 1] (fun i => by revert i; decide)

theorem ex6_coe : (⇑ex6 : Fin 6 → Fin 6) = ![3, 4, 5, 0, 1, 2] := rfl
theorem ex8_coe : (⇑ex8 : Fin 8 → Fin 8) = ![5, 4, 7, 6, 1, 0, 3, 2] := rfl
theorem exF_coe : (⇑exF : Fin 4 → Fin 4) = ![2, 3, 0, 1] := rfl
theorem ex13_coe : (⇑ex13 : Fin 13 → Fin 13) = ![11, 12, 8, 9, 10, 5, 6, 7, 2, 3, 4, 0, 1] := rfl

/-- Signs of the components of `Q` and the energy, of the two wavevectors, of the collimator angles, of the mosaic blocks, of the
coordinates of the sample and of all coordinates when the instrument is passed through in the opposite direction. -/
def n4 : Fin 4 → ℝ := ![1, -1, 1, -1]
@[inherit_doc n4] def n6 : Fin 6 → ℝ := ![1, -1, -1, 1, -1, -1]
@[inherit_doc n4] def n8 : Fin 8 → ℝ := ![-1, -1, -1, -1, -1, -1, -1, -1]
@[inherit_doc n4] def nF : Fin 4 → ℝ := ![-1, 1, -1, 1]
@[inherit_doc n4] def n3 : Fin 3 → ℝ := ![-1, 1, 1]
@[inherit_doc n4] def n13 : Fin 13 → ℝ := ![1, 1, 1, -1, 1, -1, 1, 1, 1, -1, 1, 1, 1]

theorem signs_n4 : Signs n4 := by intro i; fin_cases i <;> simp [n4]
theorem signs_n6 : Signs n6 := by intro i; fin_cases i <;> simp [n6]
theorem signs_n8 : Signs n8 := by intro i; fin_cases i <;> simp [n8]
theorem signs_nF : Signs nF := by intro i; fin_cases i <;> simp [nF]
theorem signs_n3 : Signs n3 := by intro i; fin_cases i <;> simp [n3]
theorem signs_n13 : Signs n13 := by intro i; fin_cases i <;> simp [n13]

/-- The angles of a point and of the point measured in the opposite direction. -/
structure KinRev (k k' : Kin) : Prop where
  ki : k'.ki = k.kf
  kf : k'.kf = k.ki
  thetam : k'.thetam = k.thetaa
  thetaa : k'.thetaa = k.thetam
  s2theta : k'.s2theta = k.s2theta
  cosphi : cos k'.phi = -cos (k.phi - k.s2theta)
  sinphi : sin k'.phi = sin (k.phi - k.s2theta)

/-- The values fixed before the loop, for the two directions. -/
structure ConfRev (c c' : Conf) : Prop where
  popovici : c'.popovici = c.popovici
  flat : ¬ 0 < c.horifoc
  flat' : ¬ 0 < c'.horifoc
  moncor : c'.moncor = c.moncor
  etam : c'.etam = c.etaa
  etamv : c'.etamv = c.etaav
  etaa : c'.etaa = c.etam
  etaav : c'.etaav = c.etamv
  bshape : c'.bshape = c.dshape
  mshape : c'.mshape = c.ashape
  ashape : c'.ashape = c.mshape
  dshape : c'.dshape = c.bshape
  L0 : c'.L0 = c.L3
  L1 : c'.L1 = c.L2
  L2 : c'.L2 = c.L1
  L3 : c'.L3 = c.L0
  etas : c'.etas = c.etas

/-- The loop variables for the two directions. -/
structure LoopRev (l l' : Loop) : Prop where
  alpha : ∀ i, l'.alpha i = l.alpha i.rev
  beta : ∀ i, l'.beta i = l.beta i.rev
  monorh : l'.monorh = l.anarh
  monorv : l'.monorv = l.anarv
  anarh : l'.anarh = l.monorh
  anarv : l'.anarv = l.monorv

variable {c c' : Conf} {l l' : Loop} {k k' : Kin}

theorem KinRev.turned (h : KinRev k k') : cos (k'.phi - k'.s2theta) = -cos k.phi ∧ sin (k'.phi - k'.s2theta) = sin k.phi := by
  rw [cos_sub, sin_sub, h.s2theta, h.cosphi, h.sinphi, cos_sub, sin_sub]
  have := sin_sq_add_cos_sq k.s2theta
  constructor
  · linear_combination (-cos k.phi) * this
  · linear_combination (sin k.phi) * this

theorem KinRev.psi (h : KinRev k k') : cos (k'.s2theta / 2 - k'.phi) = -cos (k.s2theta / 2 - k.phi) ∧
    sin (k'.s2theta / 2 - k'.phi) = sin (k.s2theta / 2 - k.phi) := by
  have e : k.phi - k.s2theta = k.phi - k.s2theta / 2 - k.s2theta / 2 := by ring
  have e1 : cos (k.s2theta / 2 - k.phi) = cos (k.phi - k.s2theta / 2) := by rw [← cos_neg]; ring_nf
  have e2 : sin (k.s2theta / 2 - k.phi) = -sin (k.phi - k.s2theta / 2) := by rw [← sin_neg]; ring_nf
  rw [cos_sub (k'.s2theta / 2), sin_sub (k'.s2theta / 2), h.s2theta, h.cosphi, h.sinphi, e, cos_sub (k.phi - k.s2theta / 2),
    sin_sub (k.phi - k.s2theta / 2), e1, e2]
  have := sin_sq_add_cos_sq (k.s2theta / 2)
  constructor
  · linear_combination (-cos (k.phi - k.s2theta / 2)) * this
  · linear_combination (-sin (k.phi - k.s2theta / 2)) * this

theorem swapped_A (h : KinRev k k') : Swapped ex6 n6 ex8 n8 (matA k) (matA k') := by
  intro i j
  fin_cases i <;> fin_cases j <;> simp [ex6_coe, ex8_coe, n6, n8, matA, h.ki, h.kf, h.thetam, h.thetaa, neg_div]

theorem swapped_B (h : KinRev k k') : Swapped 1 n4 ex6 n6 (matB k) (matB k') := by
  intro i j
  fin_cases i <;> fin_cases j <;> simp [ex6_coe, n6, n4, matB, h.ki, h.kf, h.turned, h.cosphi, h.sinphi]

theorem swapped_C (h : KinRev k k') : Swapped exF nF ex8 n8 (matC k) (matC k') := by
  intro i j
  fin_cases i <;> fin_cases j <;> simp [exF_coe, ex8_coe, nF, n8, matC, h.thetam, h.thetaa, neg_div]

set_option maxHeartbeats 1000000 in
theorem swapped_T (hc : ConfRev c c') (h : KinRev k k') (hl : LoopRev l l') : Swapped exF nF ex13 n13 (matT c l k) (matT c' l' k') := by
  intro i j
  fin_cases i <;> fin_cases j <;> simp [exF_coe, ex13_coe, nF, n13, matT, h.thetam, h.thetaa, h.s2theta, hl.monorh, hl.monorv, hl.anarh, hl.anarv, hc.L0, hc.L1, hc.L2, hc.L3, neg_div] <;> first | ring1 | (left; ring1)

set_option maxHeartbeats 1000000 in
theorem swapped_D (hc : ConfRev c c') (h : KinRev k k') : Swapped ex8 n8 ex13 n13 (matD c k) (matD c' k') := by
  intro i j
  fin_cases i <;> fin_cases j <;> simp [ex8_coe, ex13_coe, n8, n13, matD, h.thetam, h.thetaa, h.s2theta, hc.L0, hc.L1, hc.L2, hc.L3, neg_div]

theorem swapped_G (hl : LoopRev l l') : Swapped ex8 n8 ex8 n8 (matG l) (matG l') := by
  refine swapped_diagonal signs_n8 fun i => ?_
  fin_cases i <;> simp [ex8_coe, hl.alpha, hl.beta, Fin.rev]

theorem swapped_F (hc : ConfRev c c') : Swapped exF nF exF nF (matF c) (matF c') := by
  refine swapped_diagonal signs_nF fun i => ?_
  fin_cases i <;> simp [exF_coe, hc.etam, hc.etamv, hc.etaa, hc.etaav]

/-- The shape matrix, written out. -/
theorem Sinv_table (c : Conf) (X : M3) : (matSinv c X : Matrix (Fin 13) (Fin 13) ℝ) =
    !![c.bshape 0, 0, 0, 0, 0, 0, 0, 0, 0, 0, 0, 0, 0;
       0, c.bshape 1, 0, 0, 0, 0, 0, 0, 0, 0, 0, 0, 0;
       0, 0, c.mshape 0, 0, 0, 0, 0, 0, 0, 0, 0, 0, 0;
       0, 0, 0, c.mshape 1, 0, 0, 0, 0, 0, 0, 0, 0, 0;
       0, 0, 0, 0, c.mshape 2, 0, 0, 0, 0, 0, 0, 0, 0;
       0, 0, 0, 0, 0, X 0 0, X 0 1, X 0 2, 0, 0, 0, 0, 0;
       0, 0, 0, 0, 0, X 1 0, X 1 1, X 1 2, 0, 0, 0, 0, 0;
       0, 0, 0, 0, 0, X 2 0, X 2 1, X 2 2, 0, 0, 0, 0, 0;
       0, 0, 0, 0, 0, 0, 0, 0, c.ashape 0, 0, 0, 0, 0;
       0, 0, 0, 0, 0, 0, 0, 0, 0, c.ashape 1, 0, 0, 0;
       0, 0, 0, 0, 0, 0, 0, 0, 0, 0, c.ashape 2, 0, 0;
       0, 0, 0, 0, 0, 0, 0, 0, 0, 0, 0, c.dshape 0, 0;
       0, 0, 0, 0, 0, 0, 0, 0, 0, 0, 0, 0, c.dshape 1] := by
  ext i j
  fin_cases i <;> fin_cases j <;> rfl

set_option maxHeartbeats 1000000 in
theorem swapped_Sinv (hc : ConfRev c c') {X X' : M3} (h : Reflected n3 n3 X X') : Swapped ex13 n13 ex13 n13 (matSinv c X) (matSinv c' X') := by
  intro i j
  rw [Sinv_table, Sinv_table]
  fin_cases i <;> fin_cases j <;> simp [ex13_coe, n13, n3, hc.bshape, hc.mshape, hc.ashape, hc.dshape, h _ _]

theorem reflected_turn_rev (h : KinRev k k') {X X' : M3} (hX : Reflected m3 m3 X X') : Reflected n3 n3 (turnShape k X) (turnShape k' X') := by
  have r : Reflected n3 m3 (!![cos (k.s2theta / 2 - k.phi), sin (k.s2theta / 2 - k.phi), 0;
      -sin (k.s2theta / 2 - k.phi), cos (k.s2theta / 2 - k.phi), 0; 0, 0, 1] : M3)
      (!![cos (k'.s2theta / 2 - k'.phi), sin (k'.s2theta / 2 - k'.phi), 0;
      -sin (k'.s2theta / 2 - k'.phi), cos (k'.s2theta / 2 - k'.phi), 0; 0, 0, 1] : M3) := by
    intro i j
    rw [h.psi.1, h.psi.2]
    fin_cases i <;> fin_cases j <;> simp [m3, n3]
  exact (r.mul signs_m3 hX).mul signs_m3 r.transpose

theorem popovici_rev (hc : ConfRev c c') (h : KinRev k k') (hl : LoopRev l l') {S S' : Matrix (Fin 13) (Fin 13) ℝ}
    (hS : Swapped ex13 n13 ex13 n13 S S') : popoviciN c' l' k' S' = (popoviciN c l k S).map fun r => (swapBy ex6 n6 r.1, r.2) := by
  have hif : (c'.L0 = 0 ∨ c'.L1 = 0 ∨ c'.L2 = 0 ∨ c'.L3 = 0 ∨ l'.monorh = 0 ∨ l'.monorv = 0 ∨ l'.anarh = 0 ∨ l'.anarv = 0) ↔
      (c.L0 = 0 ∨ c.L1 = 0 ∨ c.L2 = 0 ∨ c.L3 = 0 ∨ l.monorh = 0 ∨ l.monorv = 0 ∨ l.anarh = 0 ∨ l.anarv = 0) := by
    rw [hc.L0, hc.L1, hc.L2, hc.L3, hl.monorh, hl.monorv, hl.anarh, hl.anarv]
    tauto
  unfold popoviciN
  simp only [hif]
  split_ifs
  · rfl
  · have hT := swapped_T hc h hl
    have hD := swapped_D hc h
    have hA := swapped_A h
    refine bind_image ((hS.add ((hT.transpose.mul signs_nF (swapped_F hc)).mul signs_nF hT)).npInv signs_n13) fun Ki => ?_
    refine bind_image (((hD.mul signs_n13 (swapped_swap ex13 n13 Ki)).mul signs_n13 hD.transpose).npInv signs_n8) fun H => ?_
    have hG := (swapped_swap ex8 n8 H).add (swapped_G hl)
    refine bind_image (hG.npInv signs_n8) fun J => ?_
    change Except.ok _ = Except.ok _
    congr 1
    exact Prod.ext ((hA.mul signs_n8 (swapped_swap ex8 n8 J)).mul signs_n8 hA.transpose).eq (hG.det signs_n8)

theorem cooperNathans_rev (hc : ConfRev c c') (h : KinRev k k') (hl : LoopRev l l') :
    cooperNathansN c' l' k' = (cooperNathansN c l k).map fun r => (swapBy ex6 n6 r.1, r.2) := by
  unfold cooperNathansN
  have hC := swapped_C h
  have hA := swapped_A h
  have hH : Swapped ex8 n8 ex8 n8 (matG l + (matC k)ᵀ * matF c * matC k) (matG l' + (matC k')ᵀ * matF c' * matC k') := (swapped_G hl).add
    ((hC.transpose.mul signs_nF (swapped_F hc)).mul signs_nF hC)
  refine bind_image (hH.npInv signs_n8) fun J => ?_
  have hN := (hA.mul signs_n8 (swapped_swap ex8 n8 J)).mul signs_n8 hA.transpose
  rw [if_neg hc.flat, if_neg hc.flat', hH.det signs_n8, hN.eq]
  rfl

theorem core_rev (hc : ConfRev c c') (h : KinRev k k') (hl : LoopRev l l') {S S' : Matrix (Fin 13) (Fin 13) ℝ} (hS : Swapped ex13 n13 ex13 n13 S S') :
    coreMatrix c' l' k' S' = (coreMatrix c l k S).map fun r => (flipBy n4 r.1, r.2) := by
  have hB := swapped_B h
  have e (x : Except Fail (Matrix (Fin 6) (Fin 6) ℝ × ℝ)) :
      ((x.map fun r => (swapBy ex6 n6 r.1, r.2)) >>= fun r => (Except.ok (matB k' * r.1 * (matB k')ᵀ, r.2) : Except Fail (M4 × ℝ))) =
      (x >>= fun r => (Except.ok (matB k * r.1 * (matB k)ᵀ, r.2) : Except Fail (M4 × ℝ))).map fun r => (flipBy n4 r.1, r.2) := by
    refine bind_image rfl fun r => ?_
    change Except.ok _ = Except.ok _
    congr 1
    exact Prod.ext ((hB.mul signs_n6 (swapped_swap ex6 n6 r.1)).mul signs_n6 hB.transpose).eq rfl
  unfold coreMatrix
  rw [hc.popovici]
  split_ifs
  · exact (congrArg (· >>= _) (popovici_rev hc h hl hS)).trans (e _)
  · exact (congrArg (· >>= _) (cooperNathans_rev hc h hl)).trans (e _)

/-- The prefactor without monitor. -/
theorem prefactor_rev (hc : ConfRev c c') (h : KinRev k k') (hm : c.moncor ≠ 1) (hi : k.ki ≠ 0) (hf : k.kf ≠ 0) {d : ℝ} {RM RM' : M4}
    (hR : Reflected n4 n4 RM RM') {x y : ℝ} (e : prefactor c l k d RM = .ok x) (e' : prefactor c' l' k' d RM' = .ok y) :
    y * k.kf ^ 2 = x * k.ki ^ 2 := by
  unfold prefactor at e e'
  have hm' : c'.moncor ≠ 1 := hc.moncor ▸ hm
  simp only [hm, hm', if_false, (swapped_F hc).det signs_nF, hR.det signs_n4, h.ki, h.kf, h.thetam, h.thetaa] at e e'
  obtain ⟨a, e1, e⟩ := bind_ok e
  obtain ⟨b, e2, e⟩ := bind_ok e
  simp only [e1, ok_bind, e2] at e'
  obtain ⟨r, e3, e⟩ := bind_ok e
  obtain rfl := Except.ok.inj e3
  obtain ⟨r', e3', e'⟩ := bind_ok e'
  obtain rfl := Except.ok.inj e3'
  obtain ⟨z, e4, e⟩ := bind_ok e
  rw [e4] at e'
  obtain rfl := Except.ok.inj e
  obtain rfl := Except.ok.inj e'
  field_simp

theorem mosaic_rev (hc : ConfRev c c') {q x y : ℝ} {RM RM' Mi Mi' : M4} (hR : Reflected n4 n4 RM RM') (hM : Reflected n4 n4 Mi Mi')
    {r r' : ℝ × M4} (e : withMosaic c q x RM Mi = .ok r) (e' : withMosaic c' q y RM' Mi' = .ok r') :
    r'.2 = flipBy n4 r.2 ∧ ∀ a b : ℝ, y * a = x * b → r'.1 * a = r.1 * b := by
  unfold withMosaic at e e'
  rw [hc.etas] at e'
  cases he : c.etas with
  | none =>
    rw [he] at e e'
    obtain rfl := Except.ok.inj e
    obtain rfl := Except.ok.inj e'
    exact ⟨hR.eq, fun _ _ h => h⟩
  | some s =>
    rw [he] at e e'
    obtain ⟨u, v⟩ := s
    have e1 : RM' 1 1 = RM 1 1 := by rw [hR]; simp [n4]
    have e2 : RM' 2 2 = RM 2 2 := by rw [hR]; simp [n4]
    simp only [sampleMosaic, e1, e2] at e e'
    obtain ⟨p, f1, e⟩ := bind_ok e
    rw [f1] at e'
    obtain ⟨o, f2, e⟩ := bind_ok e
    simp only [ok_bind] at e'
    obtain ⟨o', f2', e'⟩ := bind_ok e'
    obtain ⟨Z, f3, e⟩ := bind_ok e
    rw [(hM.add (reflected_diagonal signs_n4 _)).npInv signs_n4, f3] at e'
    obtain rfl := Except.ok.inj e
    obtain rfl := Except.ok.inj e'
    refine ⟨rfl, fun a b h => ?_⟩
    unfold npDiv at f2 f2'
    split_ifs at f2 f2'
    obtain rfl := Except.ok.inj f2
    obtain rfl := Except.ok.inj f2'
    simp only
    rw [div_mul_eq_mul_div, h, div_mul_eq_mul_div]

theorem refl_none {r0 x : ℝ} (h : c.refl = none) (e : withReflectivity c l k r0 = .ok x) : x = r0 := by
  unfold withReflectivity at e
  rw [h] at e
  exact (Except.ok.inj e).symm

/-- One point, measured in both directions. -/
theorem point_rev (hc : ConfRev c c') (h : KinRev k k') (hl : LoopRev l l') (hi : k.ki ≠ 0) (hf : k.kf ≠ 0) {X X' : M3}
    (hX : Reflected m3 m3 X X') {q : ℝ} {r r' : ℝ × M4} (e : pointAt c l X k q = .ok r) (e' : pointAt c' l' X' k' q = .ok r') :
    r'.2 = flipBy n4 r.2 ∧ (c.moncor ≠ 1 → c.refl = none → c'.refl = none → r'.1 * k.kf ^ 2 = r.1 * k.ki ^ 2) := by
  unfold pointAt at e e'
  split_ifs at e e'
  obtain ⟨S, e1, e⟩ := bind_ok e
  rw [(swapped_Sinv hc (reflected_turn_rev h hX)).npInv signs_n13, e1] at e'
  change (coreMatrix c' l' k' (swapBy ex13 n13 S) >>= _) = _ at e'
  obtain ⟨⟨Mi, d⟩, e2, e⟩ := bind_ok e
  rw [core_rev hc h hl (swapped_swap ex13 n13 S), e2] at e'
  change (npInv (flipBy n4 Mi) >>= _) = _ at e'
  obtain ⟨RM, e3, e⟩ := bind_ok e
  rw [(reflected_flip n4 Mi).npInv signs_n4, e3] at e'
  change (prefactor c' l' k' d (flipBy n4 RM) >>= _) = _ at e'
  obtain ⟨x, e4, e⟩ := bind_ok e
  obtain ⟨y, e4', e'⟩ := bind_ok e'
  obtain ⟨⟨x', R⟩, e5, e⟩ := bind_ok e
  obtain ⟨⟨y', R'⟩, e5', e'⟩ := bind_ok e'
  have hm := mosaic_rev hc (reflected_flip n4 RM) (reflected_flip n4 Mi) e5 e5'
  obtain ⟨x'', e6, e⟩ := bind_ok e
  obtain ⟨y'', e6', e'⟩ := bind_ok e'
  obtain rfl := Except.ok.inj e
  obtain rfl := Except.ok.inj e'
  refine ⟨hm.1, fun h1 h2 h3 => ?_⟩
  obtain rfl := refl_none h2 e6
  obtain rfl := refl_none h3 e6'
  exact hm.2 _ _ (prefactor_rev hc h h1 hi hf (reflected_flip n4 RM) e4 e4')

end Verif.Resolution
