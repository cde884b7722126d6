import Verif.Resolution.PropsFrame

/-! # Property theorems: the choice of the cell (C193) -/

namespace Verif.Resolution

open Real Matrix
open Verif.Crystal (Fail Vec Mat npDiv Lattice getLattice standardSystem modvec scalar Valid Realises Dual vecOf len Indep)

/-! ### Specification -/

/-- Two cells of one crystal: the edges of the second, `P` times those of the first, are given in space. -/
structure Recell (P : Mat) (l l' : Lattice) (E F E' F' : Mat) : Prop where
  cell : Valid l
  cell' : Valid l'
  real : Realises l E
  real' : Realises l' E'
  dual : Dual E F
  dual' : Dual E' F'
  edges : E' = P * E

/-- A query for points with their energies. -/
def queryOf (pts : List (Vec × ℝ)) : Query :=
  ⟨pts.map (·.1 0), pts.map (·.1 1), pts.map (·.1 2), pts.map (·.2)⟩

/-! ### Lemmas -/

theorem vecOf_eq_vecMul (F : Mat) (h : Vec) : vecOf F h = h ᵥ* F := by
  ext i
  simp [vecOf, Matrix.vecMul, dotProduct, Fin.sum_univ_three]

theorem dual_mul {E F : Mat} (h : Dual E F) : F * Eᵀ = (2 * π) • (1 : Mat) := by
  ext i j
  rw [Matrix.mul_apply', Matrix.smul_apply, Matrix.one_apply, smul_eq_mul, mul_ite, mul_one, mul_zero]
  exact h i j

variable {P : Mat} {l l' : Lattice} {E F E' F' : Mat}

/-- Indices in the two cells describe the same vector in space. -/
theorem Recell.vec (h : Recell P l l' E F E' F') (p : Vec) : vecOf F' (P *ᵥ p) = vecOf F p := by
  have hp := pi_pos
  have h1 := dual_mul h.dual
  have h2 := dual_mul h.dual'
  rw [h.edges, transpose_mul, ← Matrix.mul_assoc] at h2
  -- `Pᵀ` is a right inverse up to a factor, so also a left one
  have h3 : ((2 * π)⁻¹ • (F' * Eᵀ)) * Pᵀ = 1 := by
    rw [Matrix.smul_mul, h2, smul_smul, inv_mul_cancel₀ (by positivity), one_smul]
  have h4 := mul_eq_one_comm.1 h3
  have h5 : ((2 * π)⁻¹ • F) * Eᵀ = 1 := by
    rw [Matrix.smul_mul, h1, smul_smul, inv_mul_cancel₀ (by positivity), one_smul]
  have h6 := mul_eq_one_comm.1 h5
  rw [vecOf_eq_vecMul, vecOf_eq_vecMul, ← Matrix.vecMul_transpose, Matrix.vecMul_vecMul]
  congr 1
  calc Pᵀ * F' = Pᵀ * F' * (Eᵀ * ((2 * π)⁻¹ • F)) := by rw [h6, Matrix.mul_one]
    _ = Pᵀ * ((2 * π)⁻¹ • (F' * Eᵀ)) * F := by
      simp only [Matrix.mul_smul, Matrix.smul_mul, Matrix.mul_assoc]
    _ = F := by rw [h4, Matrix.one_mul]

theorem Recell.ne (h : Recell P l l' E F E' F') {p : Vec} (hp : p ≠ 0) : P *ᵥ p ≠ 0 := by
  intro e
  have h1 := h.vec p
  rw [e] at h1
  have h2 := Verif.Crystal.vecOf_ne_zero h.cell h.real h.dual hp
  rw [← h1] at h2
  simp [vecOf] at h2

theorem Recell.indep (h : Recell P l l' E F E' F') {u v : Vec} (hi : Indep u v) : Indep (P *ᵥ u) (P *ᵥ v) := by
  intro s t e
  rw [← Matrix.mulVec_smul, ← Matrix.mulVec_smul, ← Matrix.mulVec_add] at e
  by_contra hc
  exact h.ne (fun e' => hc (hi s t e')) e

theorem pos_unit_unique {F : Mat} {x y : Vec} {r t : ℝ} (hr : 0 < r) (ht : 0 < t) (hx : vecOf F x ⬝ᵥ vecOf F x = 1)
    (hy : vecOf F y ⬝ᵥ vecOf F y = 1) (h : r • x = t • y) : x = y := by
  have e := congrArg (fun p => vecOf F p ⬝ᵥ vecOf F p) h
  simp only [Verif.Crystal.vecOf_smul, smul_dotProduct, dotProduct_smul, hx, hy, smul_eq_mul, mul_one] at e
  have : r = t := by nlinarith
  subst this
  exact smul_right_injective _ hr.ne' h

/-- The axes of the scattering plane are the same in space. -/
theorem Recell.axes (h : Recell P l l' E F E' F') {u v x y z : Vec} (hi : Indep u v) (hs : standardSystem l u v = .ok (x, y, z)) :
    ∃ z', standardSystem l' (P *ᵥ u) (P *ᵥ v) = .ok (P *ᵥ x, P *ᵥ y, z') := by
  obtain ⟨x0, y0, z0, e0, xx, yy, -, xy, -, -, ⟨r, hr, hu⟩, ⟨a, b, hb, hv⟩⟩ := Verif.Crystal.C64_standard_system h.cell h.real h.dual hi
  rw [hs] at e0
  obtain ⟨rfl, rfl, rfl⟩ : x = x0 ∧ y = y0 ∧ z = z0 := by simpa using e0
  obtain ⟨x', y', z', e1, xx', yy', -, xy', -, -, ⟨r', hr', hu'⟩, ⟨a', b', hb', hv'⟩⟩ :=
    Verif.Crystal.C64_standard_system h.cell' h.real' h.dual' (h.indep hi)
  have ex : P *ᵥ x = x' := by
    refine pos_unit_unique (F := F') hr hr' (by rw [h.vec]; exact xx) xx' ?_
    rw [← hu', hu, Matrix.mulVec_smul]
  have hv2 : a • x' + b • (P *ᵥ y) = a' • x' + b' • y' := by
    rw [← hv', hv, Matrix.mulVec_add, Matrix.mulVec_smul, Matrix.mulVec_smul, ex]
  have add (p q : Vec) : vecOf F' (p + q) = vecOf F' p + vecOf F' q := by
    simp only [vecOf, Pi.add_apply, add_smul]; abel
  have ea : a = a' := by
    have e := congrArg (fun p => vecOf F' x' ⬝ᵥ vecOf F' p) hv2
    have xy2 : vecOf F' x' ⬝ᵥ vecOf F' (P *ᵥ y) = 0 := by rw [← ex, h.vec, h.vec, xy]
    simpa only [add, Verif.Crystal.vecOf_smul, dotProduct_add, dotProduct_smul, xx', xy', xy2, smul_eq_mul, mul_one, mul_zero,
      add_zero] using e
  have ey : P *ᵥ y = y' := by
    refine pos_unit_unique (F := F') hb hb' (by rw [h.vec]; exact yy) yy' ?_
    rw [ea] at hv2
    exact add_left_cancel hv2
  exact ⟨z', by rw [e1, ex, ey]⟩

theorem len_zero : len (0 : Vec) = 0 := by simp [len]

theorem frame_recell {s s' : Setup} (h : Recell P s.lattice s'.lattice E F E' F') (hu : s'.u = P *ᵥ s.u) (hv : s'.v = P *ᵥ s.v)
    (hi : Indep s.u s.v) (hkl : Vec) : frame s' (P *ᵥ hkl) = frame s hkl := by
  obtain ⟨x, y, z, hs, -⟩ := Verif.Crystal.C64_standard_system h.cell h.real h.dual hi
  obtain ⟨z', hs'⟩ := h.axes hi hs
  rw [← hu, ← hv] at hs'
  by_cases hne : hkl = 0
  · subst hne
    obtain ⟨_, _, h1, _, _, h2, _⟩ := Verif.Crystal.C46_scalar h.cell h.real h.dual
    obtain ⟨_, _, h1', _, _, h2', _⟩ := Verif.Crystal.C46_scalar h.cell' h.real' h.dual'
    have z0 : ∀ G : Mat, len (vecOf G 0) = 0 := fun G => by
      rw [show vecOf G 0 = 0 by simp [vecOf]]; exact len_zero
    unfold frame
    simp only [hs, hs', h1, h1', ok_bind, Matrix.mulVec_zero, h2, h2', z0, if_true]
  · rw [frame_ok h.cell h.real h.dual hs hne, frame_ok h.cell' h.real' h.dual' hs' (h.ne hne)]
    simp only [direction, h.vec]

theorem hkls_queryOf (pts : List (Vec × ℝ)) :
    hkls (queryOf pts).H (queryOf pts).K (queryOf pts).L = pts.map (·.1) := by
  induction pts with
  | nil => rfl
  | cons p pts ih =>
    simp only [queryOf, List.map_cons, hkls] at ih ⊢
    rw [ih]
    congr 1
    ext i
    fin_cases i <;> rfl

theorem queryOf_len (pts : List (Vec × ℝ)) : (queryOf pts).Len pts.length :=
  ⟨by simp [queryOf], by simp [queryOf], by simp [queryOf], by simp [queryOf]⟩

/-! ### C193 -/

/-- C193, the lattice.  Spacings, momentum transfers, scattering angles and angles between planes do not depend on the cell
that is chosen to describe the crystal, and the volume of the cell is multiplied by the number of old cells in the new one. -/
theorem C193_lattice (h : Recell P l l' E F E' F') {p q : Vec} (hp : p ≠ 0) (hq : q ≠ 0) (w : ℝ) :
    l'.getDSpacing (P *ᵥ p) = l.getDSpacing p ∧ l'.getQ (P *ᵥ p) = l.getQ p ∧
      l'.getTwoTheta (P *ᵥ p) w = l.getTwoTheta p w ∧
      l'.getAngleBetweenPlanes (P *ᵥ p) (P *ᵥ q) = l.getAngleBetweenPlanes p q ∧
      ∃ v, l.volume = .ok v ∧ l'.volume = .ok (|P.det| * v) := by
  obtain ⟨d, h1, h2, h3, h4⟩ := Verif.Crystal.C41_spacing h.cell h.real h.dual hp
  obtain ⟨d', h1', h2', h3', h4'⟩ := Verif.Crystal.C41_spacing h.cell' h.real' h.dual' (h.ne hp)
  rw [h.vec] at h3' h4'
  have hl : len (vecOf F p) ≠ 0 := fun e => by
    rw [e, zero_mul] at h4
    have := pi_pos
    linarith
  have hd : d' = d := mul_left_cancel₀ hl (h4'.trans h4.symm)
  subst hd
  refine ⟨h1'.trans h1.symm, h3'.trans h3.symm, ?_, ?_, ?_⟩
  · unfold Lattice.getTwoTheta
    rw [h1, h1']
  · rw [Verif.Crystal.C42_angle h.cell h.real h.dual hp hq, Verif.Crystal.C42_angle h.cell' h.real' h.dual' (h.ne hp) (h.ne hq),
      h.vec, h.vec]
  · obtain ⟨v, e, -, hv, -⟩ := Verif.Crystal.C38_volume h.cell h.real
    obtain ⟨v', e', -, hv', -⟩ := Verif.Crystal.C38_volume h.cell' h.real'
    exact ⟨v, e, by rw [e', hv', hv, h.edges, Matrix.det_mul, abs_mul]⟩

/-- C193, the resolution.  With indices and orientation vectors changed along with the cell, the same instrument gives the
same prefactors and matrices, in the frame of Q and in that of the crystal, for all points of a query, or the same error.
This includes shaped samples. -/
theorem C193_resolution {s s' : Setup} (h : Recell P s.lattice s'.lattice E F E' F') (he : s'.settings = s.settings)
    (hu : s'.u = P *ᵥ s.u) (hv : s'.v = P *ᵥ s.v) (hi : Indep s.u s.v) (pts : List (Vec × ℝ)) :
    fresh s' (queryOf (pts.map fun p => (P *ᵥ p.1, p.2))) = fresh s (queryOf pts) := by
  rw [fresh_eq s (queryOf_len pts), fresh_eq s' (queryOf_len _)]
  have e : (hkls (queryOf (pts.map fun p => (P *ᵥ p.1, p.2))).H (queryOf (pts.map fun p => (P *ᵥ p.1, p.2))).K
      (queryOf (pts.map fun p => (P *ᵥ p.1, p.2))).L).mapM (frame s') =
      (hkls (queryOf pts).H (queryOf pts).K (queryOf pts).L).mapM (frame s) := by
    rw [hkls_queryOf, hkls_queryOf, List.map_map]
    induction pts with
    | nil => rfl
    | cons p pts ih =>
      simp only [List.map_cons, List.mapM_cons, Function.comp] at ih ⊢
      rw [frame_recell h hu hv hi, ih]
  have ew : (queryOf (pts.map fun p => (P *ᵥ p.1, p.2))).W = (queryOf pts).W := by
    simp [queryOf]
  unfold compute
  simp only [new, e, he, ew]
  cases (hkls (queryOf pts).H (queryOf pts).K (queryOf pts).L).mapM (frame s) with
  | error _ => rfl
  | ok fr =>
    dsimp only
    cases turnSample s.settings.sample.shape fr with
    | error _ => rfl
    | ok sh =>
      dsimp only
      cases calcInQ { s.settings with sample.shape := sh } ((fr.map Prod.fst).zip (queryOf pts).W) with
      | error _ => rfl
      | ok rs => rfl

/-! ### The hypotheses are met -/

/-- The cubic crystal of `demoSetup` in a cell with an angle of 45 degrees. -/
noncomputable def obliqueSetup : Setup := ⟨demo, ⟨2 * π, 2 * π * √2, 2 * π, 90, 90, 45⟩, ![1, 1, 0], ![0, 1, 0]⟩

theorem oblique_recell : Recell !![1, 0, 0; 1, 1, 0; 0, 0, 1] demoSetup.lattice obliqueSetup.lattice ((2 * π) • 1) 1
    (!![1, 0, 0; 1, 1, 0; 0, 0, 1] * ((2 * π) • 1)) !![1, -1, 0; 0, 1, 0; 0, 0, 1] where
  cell := demoSetup_valid.cell
  cell' := by
    have := pi_pos
    constructor <;> simp only [obliqueSetup] <;> first | positivity | norm_num
  real := demoSetup_valid.real
  real' := by
    have e : (90 : ℝ) * π / 180 = π / 2 := by ring
    have e4 : (45 : ℝ) * π / 180 = π / 4 := by ring
    have h2 : √2 * √2 = (2 : ℝ) := Real.mul_self_sqrt (by norm_num)
    rw [Matrix.mul_smul, Matrix.mul_one]
    constructor <;> simp [obliqueSetup, dotProduct, Fin.sum_univ_three, e, e4, pow_two]
    · linear_combination (-4 * π ^ 2) * h2
    · linear_combination (-2 * π ^ 2) * h2
  dual := demoSetup_valid.dual
  dual' := by
    rw [Matrix.mul_smul, Matrix.mul_one]
    intro i j
    fin_cases i <;> fin_cases j <;> simp [dotProduct, Fin.sum_univ_three]
  edges := rfl

example (h k l w : ℝ) : fresh obliqueSetup (one h (h + k) l w) = fresh demoSetup (one h k l w) := by
  have := C193_resolution oblique_recell (s := demoSetup) (s' := obliqueSetup) rfl
    (by ext i; fin_cases i <;> simp [demoSetup, obliqueSetup, Matrix.mulVec, dotProduct, Fin.sum_univ_three])
    (by ext i; fin_cases i <;> simp [demoSetup, obliqueSetup, Matrix.mulVec, dotProduct, Fin.sum_univ_three])
    demoSetup_valid.indep [(![h, k, l], w)]
  simpa [queryOf, one, Matrix.mulVec, dotProduct, Fin.sum_univ_three] using this

example : ∃ d, demoSetup.lattice.getDSpacing ![1, 0, 0] = .ok d ∧ obliqueSetup.lattice.getDSpacing ![1, 1, 0] = .ok d := by
  have hp : (![1, 0, 0] : Vec) ≠ 0 := fun e => by simpa using congrFun e 0
  obtain ⟨d, h1, -⟩ := Verif.Crystal.C41_spacing demoSetup_valid.cell demoSetup_valid.real demoSetup_valid.dual hp
  refine ⟨d, h1, ?_⟩
  rw [← h1, ← (C193_lattice oblique_recell hp hp 1).1]
  congr 1
  ext i
  fin_cases i <;> simp [Matrix.mulVec, dotProduct, Fin.sum_univ_three]

end Verif.Resolution
