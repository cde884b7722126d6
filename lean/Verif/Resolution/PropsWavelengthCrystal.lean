import Verif.Resolution.PropsWavelength
import Verif.Resolution.PropsCell

/-!
# Property C214 in the frame of the crystal
-/

namespace Verif.Resolution

open Real Matrix
open Verif.Crystal (Fail Vec Mat Lattice standardSystem Valid Realises Dual vecOf len Indep)

/-! ## Specification -/

/-- A crystal whose cell has edges `t` times as short. -/
noncomputable def smallerCell (t : ℝ) (l : Lattice) : Lattice := { l with a := t⁻¹ * l.a, b := t⁻¹ * l.b, c := t⁻¹ * l.c }

/-- The instrument for faster neutrons with such a crystal, in the same orientation. -/
noncomputable def Setup.faster (t : ℝ) (s : Setup) : Setup := { s with settings := s.settings.faster t, lattice := smallerCell t s.lattice }

/-- Prefactor and both matrices on the larger axes. -/
noncomputable def fasterRes (t : ℝ) (moncor : Option ℝ) (r : Res) : Res :=
  ⟨(if moncor.getD 1 = 1 then t⁻¹ else t) * r.r0, Matrix.of fun i j => r.rms i j / (fasterAxes t i * fasterAxes t j),
    Matrix.of fun i j => r.rm i j / (fasterAxes t i * fasterAxes t j)⟩

/-! ## The crystal -/

variable {l : Lattice} {E F : Mat} {t : ℝ}

theorem smallerCell_valid (ht : 0 < t) (h : Valid l) : Valid (smallerCell t l) where
  a_pos := mul_pos (inv_pos.2 ht) h.a_pos
  b_pos := mul_pos (inv_pos.2 ht) h.b_pos
  c_pos := mul_pos (inv_pos.2 ht) h.c_pos
  sum := h.sum
  tri_a := h.tri_a
  tri_b := h.tri_b
  tri_c := h.tri_c

theorem row_times (r : ℝ) (G : Mat) (i : Fin 3) : (r • G) i = r • G i := rfl

theorem smallerCell_real (h : Realises l E) : Realises (smallerCell t l) (t⁻¹ • E) := by
  have e (i j : Fin 3) : (t⁻¹ • E) i ⬝ᵥ (t⁻¹ • E) j = t⁻¹ ^ 2 * (E i ⬝ᵥ E j) := by
    rw [row_times, row_times, smul_dotProduct, dotProduct_smul, smul_eq_mul, smul_eq_mul]
    ring
  constructor <;> rw [e]
  · rw [h.aa, smallerCell]; ring
  · rw [h.bb, smallerCell]; ring
  · rw [h.cc, smallerCell]; ring
  · rw [h.bc, smallerCell]; ring
  · rw [h.ac, smallerCell]; ring
  · rw [h.ab, smallerCell]; ring

theorem smallerCell_dual (ht : 0 < t) (h : Dual E F) : Dual (t⁻¹ • E) (t • F) := by
  intro i j
  rw [row_times, row_times, smul_dotProduct, dotProduct_smul, smul_smul, mul_inv_cancel₀ ht.ne', one_smul]
  exact h i j

theorem vecOf_times (p : Vec) : vecOf (t • F) p = t • vecOf F p := by
  simp only [vecOf, row_times, smul_add, smul_comm t]

theorem vecOf_back (ht : 0 < t) (p : Vec) : vecOf (t • F) (t⁻¹ • p) = vecOf F p := by
  rw [vecOf_times, Verif.Crystal.vecOf_smul, smul_smul, mul_inv_cancel₀ ht.ne', one_smul]

/-- The axes of the scattering plane have the same directions. -/
theorem smallerCell_axes (ht : 0 < t) (h : Valid l) (hE : Realises l E) (hF : Dual E F) {u v x y z : Vec} (hi : Indep u v)
    (hs : standardSystem l u v = .ok (x, y, z)) : ∃ z', standardSystem (smallerCell t l) u v = .ok (t⁻¹ • x, t⁻¹ • y, z') := by
  obtain ⟨x0, y0, z0, e0, xx, yy, -, xy, -, -, ⟨r, hr, hu⟩, ⟨a, b, hb, hv⟩⟩ := Verif.Crystal.C64_standard_system h hE hF hi
  rw [hs] at e0
  obtain ⟨rfl, rfl, rfl⟩ : x = x0 ∧ y = y0 ∧ z = z0 := by simpa using e0
  obtain ⟨x', y', z', e1, xx', yy', -, xy', -, -, ⟨r', hr', hu'⟩, ⟨a', b', hb', hv'⟩⟩ :=
    Verif.Crystal.C64_standard_system (smallerCell_valid ht h) (smallerCell_real hE) (smallerCell_dual ht hF) hi
  have ex : t⁻¹ • x = x' := by
    refine pos_unit_unique (F := t • F) (mul_pos hr ht) hr' (by rw [vecOf_back ht]; exact xx) xx' ?_
    rw [← hu', hu, smul_smul, mul_assoc, mul_inv_cancel₀ ht.ne', mul_one]
  have hv2 : (a * t) • x' + (b * t) • (t⁻¹ • y) = a' • x' + b' • y' := by
    rw [← hv', hv, ← ex, smul_smul, smul_smul, mul_assoc, mul_assoc, mul_inv_cancel₀ ht.ne', mul_one, mul_one]
  have add (p q : Vec) : vecOf (t • F) (p + q) = vecOf (t • F) p + vecOf (t • F) q := by
    simp only [vecOf, Pi.add_apply, add_smul]; abel
  have ea : a * t = a' := by
    have e := congrArg (fun p => vecOf (t • F) x' ⬝ᵥ vecOf (t • F) p) hv2
    have xy2 : vecOf (t • F) x' ⬝ᵥ vecOf (t • F) (t⁻¹ • y) = 0 := by rw [← ex, vecOf_back ht, vecOf_back ht, xy]
    rw [add, add, Verif.Crystal.vecOf_smul, Verif.Crystal.vecOf_smul _ (b * t), Verif.Crystal.vecOf_smul _ a', Verif.Crystal.vecOf_smul _ b',
      dotProduct_add, dotProduct_add, dotProduct_smul, dotProduct_smul, dotProduct_smul, dotProduct_smul, xx', xy', xy2] at e
    simpa using e
  have ey : t⁻¹ • y = y' := by
    refine pos_unit_unique (F := t • F) (mul_pos hb ht) hb' (by rw [vecOf_back ht]; exact yy) yy' ?_
    rw [ea] at hv2
    exact add_left_cancel hv2
  exact ⟨z', by rw [e1, ex, ey]⟩

theorem len_times (ht : 0 < t) (p : Vec) : len (t • p) = t * len p := by
  unfold len
  rw [smul_dotProduct, dotProduct_smul, smul_smul, smul_eq_mul, ← sq, sqrt_mul (by positivity), sqrt_sq ht.le]

theorem frame_faster (ht : 0 < t) {s : Setup} (h : Valid s.lattice) (hE : Realises s.lattice E) (hF : Dual E F) (hi : Indep s.u s.v) (hkl : Vec) :
    frame (s.faster t) hkl = frame s hkl >>= fun f => pure (t * f.1, f.2) := by
  obtain ⟨x, y, z, hs, -⟩ := Verif.Crystal.C64_standard_system h hE hF hi
  obtain ⟨z', hs'⟩ := smallerCell_axes ht h hE hF hi hs
  by_cases hne : hkl = 0
  · subst hne
    obtain ⟨_, _, h1, _, _, h2, _⟩ := Verif.Crystal.C46_scalar h hE hF
    obtain ⟨_, _, h1', _, _, h2', _⟩ := Verif.Crystal.C46_scalar (smallerCell_valid ht h) (smallerCell_real hE) (smallerCell_dual ht hF)
    have z0 : ∀ G : Mat, len (vecOf G 0) = 0 := fun G => by
      rw [show vecOf G 0 = 0 by simp [vecOf]]; exact len_zero
    unfold frame
    simp only [Setup.faster, hs, hs', h1, h1', ok_bind, h2, h2', z0, if_true]
    rfl
  · have hp := Verif.Crystal.len_pos h hE hF hne
    rw [frame_ok h hE hF hs hne, frame_ok (s := s.faster t) (smallerCell_valid ht h) (smallerCell_real hE) (smallerCell_dual ht hF) hs' hne]
    refine congrArg Except.ok ?_
    have d : direction (t • F) hkl = direction F hkl := by
      unfold direction
      rw [vecOf_times, len_times ht, smul_smul, mul_inv, mul_right_comm, inv_mul_cancel₀ ht.ne', one_mul]
    rw [d, vecOf_back ht, vecOf_back ht, vecOf_times, len_times ht]

theorem mapM_frame_faster (ht : 0 < t) {s : Setup} (h : Valid s.lattice) (hE : Realises s.lattice E) (hF : Dual E F) (hi : Indep s.u s.v) :
    ∀ ps : List Vec, ps.mapM (frame (s.faster t)) = ps.mapM (frame s) >>= fun fr => pure (fr.map fun f => (t * f.1, f.2))
  | [] => rfl
  | p :: ps => by
    rw [List.mapM_cons, List.mapM_cons, frame_faster ht h hE hF hi, mapM_frame_faster ht h hE hF hi ps]
    simp only [bind_assoc, pure_bind, List.map_cons]

theorem turnSample_faster (sh : Option Shape) (fr : List (ℝ × ℝ × ℝ)) : turnSample sh (fr.map fun f => (t * f.1, f.2)) = turnSample sh fr := by
  unfold turnSample
  simp only [List.map_map, Function.comp_def, List.map_eq_nil_iff]

theorem toCrystal_faster (m : Option ℝ) (f : ℝ × ℝ × ℝ) (r : ℝ × M4) :
    toCrystal (t * f.1, f.2) (fasterResult t m r) = fasterRes t m (toCrystal f r) := by
  unfold toCrystal fasterResult fasterRes
  rw [Res.mk.injEq]
  refine ⟨rfl, ?_, rfl⟩
  ext i j
  simp only [Matrix.mul_apply, Fin.sum_univ_four, Matrix.of_apply, Matrix.transpose_apply]
  fin_cases i <;> fin_cases j <;> simp [tmat, fasterAxes] <;> ring

theorem zipWith_faster (m : Option ℝ) : ∀ (fr : List (ℝ × ℝ × ℝ)) (rs : List (ℝ × M4)),
    List.zipWith toCrystal (fr.map fun f => (t * f.1, f.2)) (rs.map (fasterResult t m)) = (List.zipWith toCrystal fr rs).map (fasterRes t m)
  | [], _ => rfl
  | _ :: _, [] => rfl
  | f :: fr, r :: rs => by
    simp only [List.map_cons, List.zipWith_cons_cons, toCrystal_faster, zipWith_faster m fr rs]

theorem zip_faster : ∀ (fr : List (ℝ × ℝ × ℝ)) (w : List ℝ),
    ((fr.map fun f => (t * f.1, f.2)).map Prod.fst).zip (w.map (t ^ 2 * ·)) = ((fr.map Prod.fst).zip w).map fun p => (t * p.1, t ^ 2 * p.2)
  | [], _ => rfl
  | _ :: _, [] => rfl
  | f :: fr, x :: w => by
    simp only [List.map_cons, List.zip_cons_cons, zip_faster fr w]

/-- C214 in the frame of the crystal.  If the cell of the sample is smaller as well, its edges divided by `t`, the indices stay the same: at the same indices
and `t ^ 2` times the energy transfers, `get_resolution` returns both matrices, in the frame of Q and in that of the crystal, on the larger axes, with the
prefactors that belong to them, or raises the same error. -/
theorem C214_crystal (ht : 0 < t) {s : Setup} (h : Valid s.lattice) (hE : Realises s.lattice E) (hF : Dual E F) (hi : Indep s.u s.v)
    (pts : List (Vec × ℝ)) : fresh (s.faster t) (queryOf (pts.map fun p => (p.1, t ^ 2 * p.2))) =
      (fresh s (queryOf pts)).map (List.map (fasterRes t s.settings.moncor)) := by
  rw [fresh_eq s (queryOf_len pts), fresh_eq (s.faster t) (queryOf_len _)]
  have e : hkls (queryOf (pts.map fun p => (p.1, t ^ 2 * p.2))).H (queryOf (pts.map fun p => (p.1, t ^ 2 * p.2))).K
      (queryOf (pts.map fun p => (p.1, t ^ 2 * p.2))).L = hkls (queryOf pts).H (queryOf pts).K (queryOf pts).L := by
    rw [hkls_queryOf, hkls_queryOf, List.map_map]
    rfl
  have ew : (queryOf (pts.map fun p => (p.1, t ^ 2 * p.2))).W = (queryOf pts).W.map (t ^ 2 * ·) := by
    simp [queryOf, Function.comp_def]
  unfold compute
  simp only [new, e, ew, mapM_frame_faster ht h hE hF hi]
  cases (hkls (queryOf pts).H (queryOf pts).K (queryOf pts).L).mapM (frame s) with
  | error _ => rfl
  | ok fr =>
    simp only [ok_bind]
    have hc (sh : Option Shape) := C214_faster { s.settings with sample.shape := sh } ht ((fr.map Prod.fst).zip (queryOf pts).W)
    simp only [← zip_faster] at hc
    have ht' := turnSample_faster (t := t) s.settings.sample.shape fr
    simp only [pure, Except.pure]
    rw [show (s.faster t).settings.sample.shape = s.settings.sample.shape from rfl, ht']
    cases turnSample s.settings.sample.shape fr with
    | error _ => rfl
    | ok sh =>
      dsimp only
      rw [show ({ (s.faster t).settings with sample.shape := sh } : Settings) = Settings.faster t { s.settings with sample.shape := sh } from rfl, hc sh]
      cases calcInQ { s.settings with sample.shape := sh } ((fr.map Prod.fst).zip (queryOf pts).W) with
      | error _ => rfl
      | ok rs => exact congrArg Except.ok (zipWith_faster _ fr rs)

/-- The hypotheses are met by a cubic crystal; a cell a third as large. -/
example (h k l w : ℝ) : fresh (demoSetup.faster 3) (queryOf [(![h, k, l], 3 ^ 2 * w)]) =
    (fresh demoSetup (queryOf [(![h, k, l], w)])).map (List.map (fasterRes 3 demoSetup.settings.moncor)) :=
  C214_crystal (by norm_num) demoSetup_valid.cell demoSetup_valid.real demoSetup_valid.dual demoSetup_valid.indep [(![h, k, l], w)]

end Verif.Resolution
