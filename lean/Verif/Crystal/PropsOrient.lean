import Verif.Crystal.PropsGeom
import Mathlib.Tactic.Module

/-!
# Properties C43 to C46 and C64: classification, orientation, and the geometry of the
resolution code
-/

namespace Verif.Crystal

open Real Matrix

variable {l : Lattice}

/-! ## C43 -/

/-- The conditions of a crystal system on the lattice constants, conventional setting. -/
def Conforms {α : Type} [Field α] [LinearOrder α] (a b c al be ga : α) : LatticeType → Prop
  | .triclinic => (a ≠ b ∧ b ≠ c ∧ a ≠ c) ∧ (al ≠ be ∧ be ≠ ga ∧ al ≠ ga)
  | .monoclinic => (a ≠ b ∧ b ≠ c ∧ a ≠ c) ∧ al = 90 ∧ ga = 90 ∧ be ≠ 90
  | .orthorhombic => (a ≠ b ∧ b ≠ c ∧ a ≠ c) ∧ al = 90 ∧ be = 90 ∧ ga = 90
  | .rhombohedral => (a = b ∧ b = c) ∧ (al = be ∧ be = ga) ∧ al ≠ 90 ∧ al < 120
  | .tetragonal => (a = b ∧ b ≠ c) ∧ al = 90 ∧ be = 90 ∧ ga = 90
  | .hexagonal => (a = b ∧ b ≠ c) ∧ al = 90 ∧ be = 90 ∧ ga = 120
  | .cubic => (a = b ∧ b = c) ∧ al = 90 ∧ be = 90 ∧ ga = 90

theorem nUnique_three {α : Type} [DecidableEq α] (x y z : α) :
    nUnique x y z = 3 ↔ x ≠ y ∧ y ≠ z ∧ x ≠ z := by
  unfold nUnique
  by_cases h1 : x = y <;> by_cases h2 : y = z <;> by_cases h3 : x = z <;>
    simp_all [List.dedup_cons_of_mem, List.dedup_cons_of_notMem]

theorem nUnique_one {α : Type} [DecidableEq α] (x y z : α) :
    nUnique x y z = 1 ↔ x = y ∧ y = z := by
  unfold nUnique
  by_cases h1 : x = y <;> by_cases h2 : y = z <;> by_cases h3 : x = z <;>
    simp_all [List.dedup_cons_of_mem, List.dedup_cons_of_notMem]

theorem nUnique_two {α : Type} [DecidableEq α] (x y z : α) (hxy : x = y) :
    nUnique x y z = 2 ↔ y ≠ z := by
  unfold nUnique
  by_cases h2 : y = z <;>
    simp_all [List.dedup_cons_of_mem, List.dedup_cons_of_notMem]

/-- The crystal systems exclude one another. -/
theorem C43_exclusive {α : Type} [Field α] [LinearOrder α] [IsStrictOrderedRing α]
    {a b c al be ga : α} {s t : LatticeType} (hs : Conforms a b c al be ga s)
    (ht : Conforms a b c al be ga t) : s = t := by
  have h : (90 : α) ≠ 120 := by norm_num
  cases s <;> cases t <;> simp_all [Conforms]

/-- **C43** (partial) a system is returned exactly for the constants conforming to it, and otherwise
an error is raised.  Missing: that every valid cell is classified; see `C43_unclassified`. -/
theorem C43_lattice_type_partial {α : Type} [Field α] [LinearOrder α] [IsStrictOrderedRing α]
    (a b c al be ga : α) :
    (∀ s, latticeType a b c al be ga = .ok s ↔ Conforms a b c al be ga s) ∧
    (latticeType a b c al be ga = .error .valueError ↔ ∀ s, ¬ Conforms a b c al be ga s) := by
  have hne : (90 : α) ≠ 120 := by norm_num
  have hlt : (90 : α) < 120 := by norm_num
  have key : (∃ s, latticeType a b c al be ga = .ok s ∧ Conforms a b c al be ga s) ∨
      (latticeType a b c al be ga = .error .valueError ∧ ∀ s, ¬ Conforms a b c al be ga s) := by
    unfold latticeType
    simp only [nUnique_three, nUnique_one]
    split_ifs with h1 h2 h3 h4 h5 h6 h7
    · exact .inl ⟨_, rfl, h1⟩
    · exact .inl ⟨_, rfl, h2.1, h2.2.2.1, h2.2.2.2, h2.2.1⟩
    · exact .inl ⟨_, rfl, h3⟩
    · exact .inl ⟨_, rfl, h4.1, h4.2.1, h4.2.2.2.1, h4.2.2.1.1⟩
    · exact .inl ⟨_, rfl, ⟨h5.2.1, (nUnique_two a b c h5.2.1).1 h5.1⟩, h5.2.2⟩
    · exact .inl ⟨_, rfl, ⟨h6.2.1, (nUnique_two a b c h6.2.1).1 h6.1⟩, h6.2.2.1.1, h6.2.2.1.2, h6.2.2.2⟩
    · exact .inl ⟨_, rfl, h7⟩
    · refine .inr ⟨rfl, fun s hs => ?_⟩
      cases s with
      | triclinic => exact h1 hs
      | monoclinic => exact h2 ⟨hs.1, hs.2.2.2, hs.2.1, hs.2.2.1⟩
      | orthorhombic => exact h3 hs
      | rhombohedral =>
        obtain ⟨e1, ⟨e2, e3⟩, e4, e5⟩ := hs
        subst e2; subst e3
        exact h4 ⟨e1, ⟨rfl, rfl⟩, ⟨e5, e5, e5⟩, e4, e4, e4⟩
      | tetragonal => exact h5 ⟨(nUnique_two a b c hs.1.1).2 hs.1.2, hs.1.1, hs.2⟩
      | hexagonal =>
        exact h6 ⟨(nUnique_two a b c hs.1.1).2 hs.1.2, hs.1.1, ⟨hs.2.1, hs.2.2.1⟩, hs.2.2.2⟩
      | cubic => exact h7 hs
  rcases key with ⟨s, h1, h2⟩ | ⟨h1, h2⟩
  · refine ⟨fun t => ⟨fun ht => ?_, fun ht => ?_⟩, fun h => ?_, fun h => ?_⟩
    · rw [h1] at ht; cases ht; exact h2
    · rw [h1, C43_exclusive h2 ht]
    · rw [h1] at h; cases h
    · exact absurd h2 (h s)
  · refine ⟨fun t => ⟨fun ht => ?_, fun ht => absurd ht (h2 t)⟩, fun _ => h2, fun _ => h1⟩
    rw [h1] at ht; cases ht

/-- Every system is returned for some cell. -/
example : latticeType (α := ℚ) 1 2 3 70 80 95 = .ok .triclinic ∧
    latticeType (α := ℚ) 1 2 3 90 100 90 = .ok .monoclinic ∧
    latticeType (α := ℚ) 1 2 3 90 90 90 = .ok .orthorhombic ∧
    latticeType (α := ℚ) 1 1 1 70 70 70 = .ok .rhombohedral ∧
    latticeType (α := ℚ) 1 1 2 90 90 90 = .ok .tetragonal ∧
    latticeType (α := ℚ) 1 1 2 90 90 120 = .ok .hexagonal ∧
    latticeType (α := ℚ) 1 1 1 90 90 90 = .ok .cubic := by decide +kernel

/-- **C43** a valid triclinic cell that happens to have two equal lengths is rejected. -/
theorem C43_unclassified : ∃ l : Lattice, Valid l ∧
    latticeType l.a l.b l.c l.alpha l.beta l.gamma = .error .valueError := by
  refine ⟨⟨5, 5, 7, 80, 95, 110⟩, by constructor <;> norm_num, ?_⟩
  rw [(C43_lattice_type_partial _ _ _ _ _ _).2]
  intro s hs
  cases s <;> norm_num [Conforms] at hs

/-! ## C44 -/

/-- Two vectors that do not lie on one line. -/
def Indep (u v : Vec) : Prop := ∀ s t : ℝ, s • u + t • v = 0 → s = 0 ∧ t = 0

theorem Indep.left {u v : Vec} (h : Indep u v) : 0 < u ⬝ᵥ u := by
  refine lt_of_le_of_ne (dot_self_nonneg u) fun h0 => ?_
  have hu := dotProduct_self_eq_zero.1 h0.symm
  have := (h 1 0 (by rw [hu]; simp)).1
  norm_num at this

theorem Indep.rest {u v : Vec} (h : Indep u v) (t : ℝ) : 0 < (v - t • u) ⬝ᵥ (v - t • u) := by
  refine lt_of_le_of_ne (dot_self_nonneg _) fun h0 => ?_
  have hu := dotProduct_self_eq_zero.1 h0.symm
  have := (h (-t) 1 (by rw [one_smul, neg_smul, neg_add_eq_sub]; exact hu)).2
  norm_num at this

theorem gramSchmidt_eq {u v : Vec} (h : Indep u v) : gramSchmidt u v =
    .ok ((len u)⁻¹ • u, (len (v - (v ⬝ᵥ u / (u ⬝ᵥ u)) • u))⁻¹ • (v - (v ⬝ᵥ u / (u ⬝ᵥ u)) • u)) := by
  have hu := h.left
  have hs : norm3 u ^ 2 = u ⬝ᵥ u := sq_sqrt hu.le
  have hw := h.rest (v ⬝ᵥ u / (u ⬝ᵥ u))
  unfold gramSchmidt
  rw [hs, npDiv_ok hu.ne', ok_bind]
  simp only
  rw [npDiv_ok (show norm3 u ≠ 0 from (sqrt_pos.2 hu).ne'), ok_bind,
    npDiv_ok (show norm3 (v - (v ⬝ᵥ u / (u ⬝ᵥ u)) • u) ≠ 0 from (sqrt_pos.2 hw).ne'), ok_bind,
    one_div, one_div]
  rfl

theorem unit_dot {p : Vec} (hp : 0 < p ⬝ᵥ p) : ((len p)⁻¹ • p) ⬝ᵥ ((len p)⁻¹ • p) = 1 := by
  have h1 : 0 < len p := sqrt_pos.2 hp
  have h2 : len p ^ 2 = p ⬝ᵥ p := sq_sqrt hp.le
  rw [smul_dotProduct, dotProduct_smul, smul_eq_mul, smul_eq_mul, ← h2]
  field_simp

/-- **C44** `U` is a rotation; its rows are the normalised first orientation vector, the normalised
part of the second orthogonal to it, and their vector product. -/
theorem C44_rotation {u v : Vec} (h : Indep u v) : ∃ U, umatrix u v = .ok U ∧
    U * Uᵀ = 1 ∧ U.det = 1 ∧ (∃ r : ℝ, 0 < r ∧ U 0 = r • u) ∧ (∃ r : ℝ, 0 < r ∧ ∃ t : ℝ, U 1 = r • (v - t • u)) ∧
    U 2 = crossProduct (U 0) (U 1) := by
  have hu := h.left
  have hw := h.rest (v ⬝ᵥ u / (u ⬝ᵥ u))
  have l1 : 0 < len u := sqrt_pos.2 hu
  have l2 : 0 < len (v - (v ⬝ᵥ u / (u ⬝ᵥ u)) • u) := sqrt_pos.2 hw
  have n1 := unit_dot hu
  have n2 := unit_dot hw
  have n3 : ((len u)⁻¹ • u) ⬝ᵥ ((len (v - (v ⬝ᵥ u / (u ⬝ᵥ u)) • u))⁻¹ •
      (v - (v ⬝ᵥ u / (u ⬝ᵥ u)) • u)) = 0 := by
    rw [smul_dotProduct, dotProduct_smul, dotProduct_sub, dotProduct_smul, smul_eq_mul, smul_eq_mul,
      smul_eq_mul, dotProduct_comm u v, div_mul_cancel₀ _ hu.ne', sub_self, mul_zero, mul_zero]
  have hU : umatrix u v = .ok (Matrix.of ![(len u)⁻¹ • u,
      (len (v - (v ⬝ᵥ u / (u ⬝ᵥ u)) • u))⁻¹ • (v - (v ⬝ᵥ u / (u ⬝ᵥ u)) • u),
      crossProduct ((len u)⁻¹ • u) ((len (v - (v ⬝ᵥ u / (u ⬝ᵥ u)) • u))⁻¹ •
        (v - (v ⬝ᵥ u / (u ⬝ᵥ u)) • u))]) := by
    unfold umatrix
    rw [gramSchmidt_eq h, ok_bind]
    rfl
  refine ⟨_, hU, ?_, ?_, ⟨_, inv_pos.2 l1, rfl⟩, ⟨_, inv_pos.2 l2, _, rfl⟩, rfl⟩
  all_goals
    generalize (len u)⁻¹ • u = e at *
    generalize (len (v - (v ⬝ᵥ u / (u ⬝ᵥ u)) • u))⁻¹ • (v - (v ⬝ᵥ u / (u ⬝ᵥ u)) • u) = f at *
  · have c1 : e ⬝ᵥ crossProduct e f = 0 := dot_self_cross e f
    have c2 : f ⬝ᵥ crossProduct e f = 0 := dot_cross_self e f
    have c3 : crossProduct e f ⬝ᵥ crossProduct e f = 1 := by
      rw [cross_dot_cross, n1, n2, n3, dotProduct_comm f e, n3]; ring
    have hij : ∀ i j, (Matrix.of ![e, f, crossProduct e f] * (Matrix.of ![e, f, crossProduct e f])ᵀ) i j =
        (![e, f, crossProduct e f] i) ⬝ᵥ (![e, f, crossProduct e f] j) := fun i j => rfl
    ext i j
    rw [hij]
    fin_cases i <;> fin_cases j <;>
      simp only [Fin.zero_eta, Fin.mk_one, Fin.reduceFinMk, Matrix.cons_val, n1, n2, n3, c1, c2, c3,
        dotProduct_comm f e, dotProduct_comm (crossProduct e f) e, dotProduct_comm (crossProduct e f) f] <;>
      simp
  · rw [Matrix.det_fin_three]
    simp only [Matrix.of_apply, Matrix.cons_val, cross_apply]
    simp only [dotProduct, Fin.sum_univ_three] at n1 n2 n3
    linear_combination (e 0 * e 0 + e 1 * e 1 + e 2 * e 2) * n2 + n1 -
      (e 0 * f 0 + e 1 * f 1 + e 2 * f 2) * n3

/-- **C44** dependent vectors give no orientation. -/
theorem C44_dependent {u v : Vec} (h : ¬ Indep u v) : ∃ e, umatrix u v = .error e := by
  unfold umatrix gramSchmidt
  by_cases hu : u = 0
  · refine ⟨.nan, ?_⟩
    have : npDiv (v ⬝ᵥ u) (norm3 u ^ 2) = .error .nan := by
      subst hu
      unfold npDiv norm3
      simp
    rw [this, error_bind]; rfl
  · have hpos : 0 < u ⬝ᵥ u :=
      lt_of_le_of_ne (dot_self_nonneg u) fun h0 => hu (dotProduct_self_eq_zero.1 h0.symm)
    have hv : ∃ k : ℝ, v = k • u := by
      unfold Indep at h
      push Not at h
      obtain ⟨s, t, h1, h2⟩ := h
      by_cases ht : t = 0
      · subst ht
        by_cases hs : s = 0
        · exact absurd rfl (h2 hs)
        · rw [zero_smul, add_zero] at h1
          exact absurd ((smul_eq_zero.1 h1).resolve_left hs) hu
      · refine ⟨-(s / t), ?_⟩
        have : t • v = (-s) • u := by
          rw [neg_smul]; exact eq_neg_of_add_eq_zero_right h1
        calc v = t⁻¹ • (t • v) := by rw [smul_smul, inv_mul_cancel₀ ht, one_smul]
          _ = _ := by rw [this, smul_smul]; congr 1; field_simp
    obtain ⟨k, rfl⟩ := hv
    have hs : norm3 u ^ 2 = u ⬝ᵥ u := sq_sqrt hpos.le
    refine ⟨.inf, ?_⟩
    rw [hs, npDiv_ok hpos.ne', ok_bind]
    simp only
    have hz : k • u - (k • u ⬝ᵥ u / (u ⬝ᵥ u)) • u = 0 := by
      rw [smul_dotProduct, smul_eq_mul, mul_div_cancel_right₀ _ hpos.ne', sub_self]
    rw [hz, npDiv_ok (show norm3 u ≠ 0 from (sqrt_pos.2 hpos).ne'), ok_bind]
    have : npDiv 1 (norm3 (0 : Vec)) = .error .inf := by
      unfold npDiv norm3; simp
    rw [this, error_bind]; rfl

example : Indep ![1, 1, 0] ![0, 1, 2] := by
  intro s t h
  have h0 := congrFun h 0
  have h2 := congrFun h 2
  simp at h0 h2
  exact ⟨h0, h2⟩

/-! ## C45 -/

/-- **C45** (partial) `UB` maps `u` onto the positive x axis exactly when `B` maps `u` to a positive
multiple of itself.  Missing: the claim for all cells; see `C45_tetragonal_false`.  The orientation
vectors enter `U` (crystal/sample.py 200) as they are, not as their images under `B`. -/
theorem C45_orientation_partial (h : Valid l) {u v : Vec} (hi : Indep u v) :
    ∃ UB B, ubmatrix l u v = .ok UB ∧ l.Bmatrix = .ok B ∧
      ((∃ r : ℝ, 0 < r ∧ UB *ᵥ u = ![r, 0, 0]) ↔ ∃ r : ℝ, 0 < r ∧ B *ᵥ u = r • u) ∧
      ((UB *ᵥ v) 2 = 0 ↔ crossProduct u v ⬝ᵥ (B *ᵥ v) = 0) := by
  obtain ⟨U, hU, horth, _, ⟨r, hr, h0⟩, ⟨r', hr', t, h1⟩, h2⟩ := C44_rotation hi
  obtain ⟨B, hB⟩ : ∃ B, l.Bmatrix = .ok B := by
    obtain ⟨_, _, _, _, _, _, _, _, _, _, hB⟩ := bmatrix_eq h (alphastar_eq h)
    exact ⟨_, hB⟩
  refine ⟨U * B, B, by unfold ubmatrix; rw [hU, hB]; rfl, hB, ?_, ?_⟩
  · have horth' : Uᵀ * U = 1 := mul_eq_one_comm.1 horth
    have hUu : U *ᵥ u = ![r⁻¹, 0, 0] := by
      have e0 : u = r⁻¹ • U 0 := by rw [h0, smul_smul, inv_mul_cancel₀ hr.ne', one_smul]
      have : ∀ i, (U *ᵥ u) i = r⁻¹ * (U * Uᵀ) i 0 := by
        intro i
        conv_lhs => rw [e0]
        simp only [Matrix.mulVec, Matrix.mul_apply, dotProduct, Fin.sum_univ_three, Pi.smul_apply,
          smul_eq_mul, Matrix.transpose_apply]
        ring
      funext i
      rw [this, horth]
      fin_cases i <;> simp [Matrix.one_apply]
    constructor
    · rintro ⟨s, hs, he⟩
      rw [← Matrix.mulVec_mulVec] at he
      refine ⟨s * r, by positivity, ?_⟩
      have he2 : U *ᵥ (B *ᵥ u) = U *ᵥ ((s * r) • u) := by
        rw [he, Matrix.mulVec_smul, hUu]
        funext i
        fin_cases i <;> simp
        field_simp
      have := congrArg (Uᵀ *ᵥ ·) he2
      simpa [Matrix.mulVec_mulVec, ← Matrix.mul_assoc, horth'] using this
    · rintro ⟨s, hs, he⟩
      refine ⟨s * r⁻¹, by positivity, ?_⟩
      rw [← Matrix.mulVec_mulVec, he, Matrix.mulVec_smul, hUu]
      funext i
      fin_cases i <;> simp
  · rw [← Matrix.mulVec_mulVec]
    have : (U *ᵥ (B *ᵥ v)) 2 = U 2 ⬝ᵥ (B *ᵥ v) := rfl
    rw [this, h2, h0, h1]
    have hc : crossProduct (r • u) (r' • (v - t • u)) = (r * r') • crossProduct u v := by
      simp only [map_smul, map_sub, LinearMap.smul_apply, cross_self, smul_zero, sub_zero, smul_smul]
      rw [mul_comm]
    rw [hc, smul_dotProduct, smul_eq_mul]
    constructor
    · intro h0
      exact (mul_eq_zero.1 h0).resolve_left (by positivity)
    · intro h0; rw [h0, mul_zero]

/-- **C45** (partial) the claim for cubic cells. -/
theorem C45_cubic_partial {a : ℝ} (ha : 0 < a) {u v : Vec} (hi : Indep u v) :
    ∃ UB, ubmatrix ⟨a, a, a, 90, 90, 90⟩ u v = .ok UB ∧ (∃ r : ℝ, 0 < r ∧ UB *ᵥ u = ![r, 0, 0]) ∧
      (UB *ᵥ v) 2 = 0 := by
  have h : Valid ⟨a, a, a, 90, 90, 90⟩ := by constructor <;> first | exact ha | norm_num
  have hp := pi_pos
  obtain ⟨UB, B, h1, h2, h3, h4⟩ := C45_orientation_partial h hi
  have hB : B = (2 * π / a) • (1 : Mat) := by
    have hal := alphastar_eq h
    generalize arccos _ = al at hal
    obtain ⟨as, bs, cs, be, ga, e1, e2, e3, e5, e6, hB⟩ := bmatrix_eq h hal
    rw [h2] at hB
    have hB := Except.ok.inj hB
    obtain ⟨cb, sb, _, _⟩ := cos_betastar h e5
    obtain ⟨cg, sg, _, _⟩ := cos_gammastar h e6
    obtain ⟨_, sal, _, _⟩ := cos_alphastar h hal
    have ca : cos (Lattice.alphaRad ⟨a, a, a, 90, 90, 90⟩) = 0 := cos90
    have cb' : cos (Lattice.betaRad ⟨a, a, a, 90, 90, 90⟩) = 0 := cos90
    have cg' : cos (Lattice.gammaRad ⟨a, a, a, 90, 90, 90⟩) = 0 := cos90
    have s1 : sin (deg2rad 90) = 1 := by
      rw [show deg2rad 90 = π / 2 by unfold deg2rad; ring, sin_pi_div_two]
    have sa : sin (Lattice.alphaRad ⟨a, a, a, 90, 90, 90⟩) = 1 := s1
    have sb' : sin (Lattice.betaRad ⟨a, a, a, 90, 90, 90⟩) = 1 := s1
    have sg' : sin (Lattice.gammaRad ⟨a, a, a, 90, 90, 90⟩) = 1 := s1
    have hd : disc ⟨a, a, a, 90, 90, 90⟩ = 1 := by unfold disc; rw [ca, cb', cg']; norm_num
    rw [astar_eq h, hd, sa] at e1
    rw [bstar_eq h, hd, sb'] at e2
    rw [cstar_eq h, hd, sg'] at e3
    rw [ca, cb', cg', sa, sg'] at cb
    rw [sa, sg', hd] at sb
    rw [ca, cb', cg', sa, sb'] at cg
    rw [sa, sb', hd] at sg
    rw [sb', sg', hd] at sal
    cases e1; cases e2; cases e3
    rw [hB, cb, sb, cg, sg, sal, ca]
    ext i j
    fin_cases i <;> fin_cases j <;> simp
  refine ⟨UB, h1, h3.2 ⟨2 * π / a, by positivity, ?_⟩, h4.2 ?_⟩
  · rw [hB, Matrix.smul_mulVec, Matrix.one_mulVec]
  · rw [hB, Matrix.smul_mulVec, Matrix.one_mulVec, dotProduct_smul, smul_eq_mul,
      dotProduct_comm, dot_cross_self, mul_zero]

/-- **C45** fails for a tetragonal cell with `u` along (1, 0, 1). -/
theorem C45_tetragonal_false : ∃ (l : Lattice) (u v : Vec), Valid l ∧ Indep u v ∧
    ∃ UB, ubmatrix l u v = .ok UB ∧ ¬ ∃ r : ℝ, 0 < r ∧ UB *ᵥ u = ![r, 0, 0] := by
  have h : Valid ⟨1, 1, 2, 90, 90, 90⟩ := by constructor <;> norm_num
  have hi : Indep ![1, 0, 1] ![0, 1, 0] := by
    intro s t h
    have h0 := congrFun h 0
    have h1 := congrFun h 1
    simp at h0 h1
    exact ⟨h0, h1⟩
  refine ⟨_, _, _, h, hi, ?_⟩
  obtain ⟨UB, B, h1, h2, h3, h4⟩ := C45_orientation_partial h hi
  refine ⟨UB, h1, fun hex => ?_⟩
  obtain ⟨r, hr, he⟩ := h3.1 hex
  have hal := alphastar_eq h
  generalize arccos _ = al at hal
  obtain ⟨as, bs, cs, be, ga, e1, e2, e3, e5, e6, hB⟩ := bmatrix_eq h hal
  rw [h2] at hB
  have hB := Except.ok.inj hB
  obtain ⟨cb, sb, _, _⟩ := cos_betastar h e5
  obtain ⟨_, sal, _, _⟩ := cos_alphastar h hal
  have ca : cos (Lattice.alphaRad ⟨1, 1, 2, 90, 90, 90⟩) = 0 := cos90
  have cb' : cos (Lattice.betaRad ⟨1, 1, 2, 90, 90, 90⟩) = 0 := cos90
  have cg' : cos (Lattice.gammaRad ⟨1, 1, 2, 90, 90, 90⟩) = 0 := cos90
  have s1 : sin (deg2rad 90) = 1 := by
    rw [show deg2rad 90 = π / 2 by unfold deg2rad; ring, sin_pi_div_two]
  have sa : sin (Lattice.alphaRad ⟨1, 1, 2, 90, 90, 90⟩) = 1 := s1
  have sb' : sin (Lattice.betaRad ⟨1, 1, 2, 90, 90, 90⟩) = 1 := s1
  have sg' : sin (Lattice.gammaRad ⟨1, 1, 2, 90, 90, 90⟩) = 1 := s1
  have hd : disc ⟨1, 1, 2, 90, 90, 90⟩ = 1 := by unfold disc; rw [ca, cb', cg']; norm_num
  rw [astar_eq h, hd, sa] at e1
  rw [cstar_eq h, hd, sg'] at e3
  rw [ca, cb', cg', sa, sg'] at cb
  rw [sa, sg', hd] at sb
  rw [sb', sg', hd] at sal
  cases e1; cases e3
  rw [hB] at he
  have x0 := congrFun he 0
  have x2 := congrFun he 2
  simp [Matrix.mulVec, dotProduct, Fin.sum_univ_three, cb, sb, sal] at x0 x2
  have hp := pi_pos
  linarith

/-! ## C46 -/

/-- **C46** the lattice helpers of the resolution code give the constants of the `Lattice` class. -/
theorem C46_star (h : Valid l) : ∃ V Vs as bs cs al be ga,
    star ⟨l.a, l.b, l.c, l.alphaRad, l.betaRad, l.gammaRad⟩ = .ok (V, Vs, ⟨as, bs, cs, al, be, ga⟩) ∧
    l.volume = .ok V ∧ l.reciprocalVolume = .ok Vs ∧ l.astar = .ok as ∧ l.bstar = .ok bs ∧
    l.cstar = .ok cs ∧ l.alphastarRad = .ok al ∧ l.betastarRad = .ok be ∧ l.gammastarRad = .ok ga := by
  have hp := pi_pos
  have hroot : 2 * l.a * l.b * l.c * √(sin ((l.alphaRad + l.betaRad + l.gammaRad) / 2) *
      sin ((-l.alphaRad + l.betaRad + l.gammaRad) / 2) *
      sin ((l.alphaRad - l.betaRad + l.gammaRad) / 2) *
      sin ((l.alphaRad + l.betaRad - l.gammaRad) / 2)) = volOf l := by
    unfold volOf disc
    rw [disc_eq, sqrt_mul (x := 4) (by norm_num), show √(4 : ℝ) = 2 by
      rw [show (4 : ℝ) = 2 ^ 2 by norm_num]; exact sqrt_sq (by norm_num)]
    ring
  have hV := volOf_pos h
  obtain ⟨v, w, h1, h2, h3⟩ := C38_reciprocal_volume h
  rw [volume_eq h] at h1
  cases h1
  have hw : w = (2 * π) ^ 3 / volOf l := by rw [eq_div_iff hV.ne', mul_comm]; exact h3
  have ea : l.astar = .ok (2 * π * l.b * l.c * sin l.alphaRad / volOf l) := by
    unfold Lattice.astar
    rw [volume_eq h, ok_bind, npDiv_ok hV.ne', ok_bind, pure_ok]
    congr 1; ring
  have eb : l.bstar = .ok (2 * π * l.a * l.c * sin l.betaRad / volOf l) := by
    unfold Lattice.bstar
    rw [volume_eq h, ok_bind, npDiv_ok hV.ne', ok_bind, pure_ok]
    congr 1; ring
  have ec : l.cstar = .ok (2 * π * l.b * l.a * sin l.gammaRad / volOf l) := by
    unfold Lattice.cstar
    rw [volume_eq h, ok_bind, npDiv_ok hV.ne', ok_bind, pure_ok]
    congr 1; ring
  obtain ⟨a1, a2, _⟩ := recip_angle (x := l.alphaRad) h.sb h.sg h.disc_pos
  obtain ⟨b1, b2, _⟩ := recip_angle (x := l.betaRad) h.sa h.sg h.disc_b
  obtain ⟨g1, g2, _⟩ := recip_angle (x := l.gammaRad) h.sa h.sb h.disc_g
  refine ⟨volOf l, _, _, _, _, _, _, _, ?_, volume_eq h, h2, ea, eb, ec, alphastar_eq h, betastar_eq h,
    gammastar_eq h⟩
  unfold star
  simp only
  rw [npSqrt_ok h.halfProd_pos.le, ok_bind]
  simp only [hroot]
  rw [npDiv_ok hV.ne', ok_bind, npDiv_ok hV.ne', ok_bind, npDiv_ok hV.ne', ok_bind, npDiv_ok hV.ne',
    ok_bind, npDiv_ok (mul_pos h.sb h.sg).ne', ok_bind, npArccos_ok ⟨a1.le, a2.le⟩, ok_bind,
    npDiv_ok (mul_pos h.sa h.sg).ne', ok_bind, npArccos_ok ⟨b1.le, b2.le⟩, ok_bind,
    npDiv_ok (mul_pos h.sa h.sb).ne', ok_bind, npArccos_ok ⟨g1.le, g2.le⟩, ok_bind, hw]
  rfl

/-- **C46** scalar products and moduli of the resolution code are those of the vectors in space. -/
theorem C46_scalar (h : Valid l) {E F : Mat} (hE : Realises l E) (hF : Dual E F) :
    ∃ lat rl, getLattice l = .ok (lat, rl) ∧
      (∀ p q, scalar p q rl = vecOf F p ⬝ᵥ vecOf F q) ∧
      (∀ p q, scalar p q lat = vecOf E p ⬝ᵥ vecOf E q) ∧
      (∀ p, modvec p rl = .ok (len (vecOf F p))) ∧ ∀ p, p ≠ 0 → l.getQ p = modvec p rl := by
  obtain ⟨V, Vs, as, bs, cs, al, be, ga, hstar, _, _, h1, h2, h3, h4, h5, h6⟩ := C46_star h
  obtain ⟨as', bs', cs', al', be', ga', gs, g1, g2, g3, g4, g5, g6, g7, _, _, _, _, _, _, _, _, _, hgs⟩ :=
    C39_reciprocal_constants h
  rw [h1] at g1; rw [h2] at g2; rw [h3] at g3; rw [h4] at g4; rw [h5] at g5; rw [h6] at g6
  rw [gstar_eq h] at g7
  cases g1; cases g2; cases g3; cases g4; cases g5; cases g6; cases g7
  have hsc : ∀ p q, scalar p q ⟨as, bs, cs, al, be, ga⟩ = vecOf F p ⬝ᵥ vecOf F q := by
    intro p q
    rw [vecOf_dot (dual_gram h hE hF), hgs]
    simp only [scalar, Matrix.mulVec, dotProduct, Fin.sum_univ_three, Matrix.of_apply, Matrix.cons_val]
    ring
  have hmod : ∀ p, modvec p ⟨as, bs, cs, al, be, ga⟩ = .ok (len (vecOf F p)) := by
    intro p
    unfold modvec
    rw [hsc, npSqrt_ok (dot_self_nonneg _)]; rfl
  refine ⟨_, _, by unfold getLattice; simp only; erw [hstar]; rfl, hsc, ?_, hmod, ?_⟩
  · intro p q
    rw [vecOf_dot (realises_gram hE)]
    simp only [scalar, Matrix.mulVec, dotProduct, Fin.sum_univ_three, Lattice.G, Matrix.of_apply,
      Matrix.cons_val, Lattice.alphaRad, Lattice.betaRad, Lattice.gammaRad]
    ring
  · intro p hp
    rw [hmod]
    exact (C41_spacing h hE hF hp).choose_spec.2.2.1

end Verif.Crystal
