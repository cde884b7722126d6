import Verif.Resolution.PropsMirror
import Verif.Resolution.PropsCell

/-! # Property theorems: the resolution at the opposite point (C202) -/

namespace Verif.Resolution

open Real Matrix
open Verif.Crystal (Fail Vec Mat npDiv Lattice getLattice standardSystem modvec scalar)

/-! ### Specification -/

/-- What is expected of the resolution `r'` at `-Q`, given `r` at `Q`: the same in the frame of the scattering vector, and in
the frame of the crystal the same up to the sign of the correlations of Q with the energy. -/
structure Opposite (r r' : Res) : Prop where
  prefactor : r'.r0 = r.r0
  frameQ : r'.rm = r.rm
  momentum : ∀ i j, i ≠ 3 → j ≠ 3 → r'.rms i j = r.rms i j
  energy : r'.rms 3 3 = r.rms 3 3
  mixed : ∀ i, i ≠ 3 → r'.rms i 3 = -r.rms i 3 ∧ r'.rms 3 i = -r.rms 3 i

/-- The points with all indices reversed, the energies kept. -/
def opposite (pts : List (Vec × ℝ)) : List (Vec × ℝ) := pts.map fun p => (-p.1, p.2)

/-! ### Lemmas -/

/-- A direction reversed. -/
def backFrame (f : ℝ × ℝ × ℝ) : ℝ × ℝ × ℝ := (f.1, -f.2.1, -f.2.2)

theorem scalar_back (x p : Vec) (r : Verif.Crystal.RadLattice) : scalar x (-p) r = -scalar x p r := by
  simp only [Verif.Crystal.scalar, Pi.neg_apply]
  ring

theorem modvec_back (p : Vec) (r : Verif.Crystal.RadLattice) : modvec (-p) r = modvec p r := by
  unfold modvec
  congr 1
  simp only [Verif.Crystal.scalar, Pi.neg_apply]
  ring

theorem frame_back (s : Setup) (p : Vec) : frame s (-p) = (frame s p).map backFrame := by
  unfold frame
  cases standardSystem s.lattice s.u s.v with
  | error e => rfl
  | ok a =>
    obtain ⟨x, y, z⟩ := a
    cases getLattice s.lattice with
    | error e => rfl
    | ok b =>
      obtain ⟨_, rl⟩ := b
      simp only [ok_bind, modvec_back]
      cases modvec p rl with
      | error e => rfl
      | ok Q =>
        simp only [ok_bind]
        by_cases h : Q = 0
        · simp only [h, if_true]; rfl
        · simp only [h, if_false, smul_neg, scalar_back]; rfl

theorem frames_back (s : Setup) (ps : List Vec) :
    (ps.map fun p => -p).mapM (frame s) = (ps.mapM (frame s)).map (List.map backFrame) := by
  induction ps with
  | nil => rfl
  | cons p ps ih =>
    simp only [List.map_cons, List.mapM_cons, frame_back, ih]
    cases frame s p with
    | error e => rfl
    | ok f =>
      cases ps.mapM (frame s) with
      | error e => rfl
      | ok fs => rfl

theorem turned_back {M : M3} (h : Flat M) (x y : ℝ) : rot3 (-x) (-y) * M * (rot3 (-x) (-y))ᵀ = rot3 x y * M * (rot3 x y)ᵀ := by
  obtain ⟨a, b, c, d⟩ := h
  ext i j
  fin_cases i <;> fin_cases j <;> simp [rot3, Matrix.mul_apply, Matrix.vecMul, dotProduct, Fin.sum_univ_three, a, b, c, d] <;> try ring

theorem turnSample_back {sh : Option Shape} (h : FlatShape sh) (fr : List (ℝ × ℝ × ℝ)) :
    turnSample sh (fr.map backFrame) = turnSample sh fr := by
  have turn (M : M3) (hM : Flat M) : ((fr.map backFrame).map fun f => rot3 f.2.1 f.2.2 * M * (rot3 f.2.1 f.2.2)ᵀ) =
      fr.map fun f => rot3 f.2.1 f.2.2 * M * (rot3 f.2.1 f.2.2)ᵀ := by
    rw [List.map_map]
    exact List.map_congr_left fun f _ => turned_back hM _ _
  unfold turnSample
  dsimp only
  split
  · rfl
  · rw [turn _ h]
  · rw [turn _ (h _ (by simp))]
  · simp only [List.map_eq_nil_iff]

theorem toCrystal_back {r : ℝ × M4} (h : Decoupled r.2) (f : ℝ × ℝ × ℝ) : Opposite (toCrystal f r) (toCrystal (backFrame f) r) := by
  have h0 := h 0 (by decide)
  have h1 := h 1 (by decide)
  have h3 := h 3 (by decide)
  refine ⟨rfl, rfl, fun i j hi hj => ?_, ?_, fun i hi => ⟨?_, ?_⟩⟩
  · fin_cases i <;> fin_cases j <;> first | exact absurd rfl hi | exact absurd rfl hj | skip
    all_goals simp [toCrystal, backFrame, tmat, Matrix.mul_apply, Fin.sum_univ_four, h0, h1, h3]
    all_goals ring
  · simp [toCrystal, backFrame, tmat, Matrix.mul_apply, Fin.sum_univ_four]
  · fin_cases i <;> first | exact absurd rfl hi | skip
    all_goals simp [toCrystal, backFrame, tmat, Matrix.mul_apply, Fin.sum_univ_four, h0, h1, h3]
    all_goals ring
  · fin_cases i <;> first | exact absurd rfl hi | skip
    all_goals simp [toCrystal, backFrame, tmat, Matrix.mul_apply, Fin.sum_univ_four, h0, h1, h3]
    all_goals ring

theorem zip_back (fr : List (ℝ × ℝ × ℝ)) (rs : List (ℝ × M4)) (h : ∀ r ∈ rs, Decoupled r.2) :
    List.Forall₂ Opposite (List.zipWith toCrystal fr rs) (List.zipWith toCrystal (fr.map backFrame) rs) := by
  induction fr generalizing rs with
  | nil => simp
  | cons f fr ih =>
    cases rs with
    | nil => simp
    | cons r rs =>
      simp only [List.map_cons, List.zipWith_cons_cons]
      exact .cons (toCrystal_back (h r (by simp)) f) (ih rs fun r hr => h r (by simp [hr]))

/-! ### C202 -/

/-- C202.  For a sample that looks the same from above and below the query for the opposite points raises the same error, or
returns for each point the same prefactor, the same matrix in the frame of Q, and in the frame of the crystal the matrix
with the correlations between momentum and energy reversed. -/
theorem C202_opposite {s : Setup} (h : FlatShape s.settings.sample.shape) (pts : List (Vec × ℝ)) :
    (∃ e, fresh s (queryOf pts) = .error e ∧ fresh s (queryOf (opposite pts)) = .error e) ∨
      ∃ rs rs', fresh s (queryOf pts) = .ok rs ∧ fresh s (queryOf (opposite pts)) = .ok rs' ∧ List.Forall₂ Opposite rs rs' := by
  rw [fresh_eq s (queryOf_len pts), fresh_eq s (queryOf_len _)]
  have ew : (queryOf (opposite pts)).W = (queryOf pts).W := by simp [queryOf, opposite]
  have ep : (opposite pts).map (·.1) = (pts.map (·.1)).map fun p => -p := by simp [opposite]
  unfold compute
  simp only [new, hkls_queryOf, ep, frames_back, ew]
  cases (pts.map (·.1)).mapM (frame s) with
  | error e => exact .inl ⟨e, rfl, rfl⟩
  | ok fr =>
    simp only [Except.map, turnSample_back h]
    cases e1 : turnSample s.settings.sample.shape fr with
    | error e => exact .inl ⟨e, rfl, rfl⟩
    | ok sh =>
      dsimp only
      have e2 : (fr.map backFrame).map Prod.fst = fr.map Prod.fst := by
        rw [List.map_map]; rfl
      rw [e2]
      cases e3 : calcInQ { s.settings with sample.shape := sh } ((fr.map Prod.fst).zip (queryOf pts).W) with
      | error e => exact .inl ⟨e, rfl, rfl⟩
      | ok rs => exact .inr ⟨_, _, rfl, rfl, zip_back fr rs (C133_Q (flat_turn h e1) e3)⟩

/-- The second alternative occurs. -/
example : ∃ r r', fresh demoSetup (one 1 0 0 0) = .ok [r] ∧ fresh demoSetup (one (-1) 0 0 0) = .ok [r'] ∧ Opposite r r' := by
  have e := demo_len 1 0 0
  norm_num at e
  obtain ⟨x, y, z, hs, -⟩ := axes demoSetup_valid
  obtain ⟨r, hr, -⟩ := fresh_point demoSetup_valid (demo_valid 1) hs (a := 1) (b := 0) (c := 0) (w := 0) (by simp)
    (by rw [e]; exact demo_reaches (by norm_num) (by norm_num) (by norm_num) (by norm_num))
  have q : queryOf [(![1, 0, 0], 0)] = one 1 0 0 0 := by simp [queryOf, one]
  have q' : queryOf (opposite [(![1, 0, 0], 0)]) = one (-1) 0 0 0 := by simp [queryOf, one, opposite]
  rcases C202_opposite (s := demoSetup) trivial [(![1, 0, 0], 0)] with ⟨e, h1, -⟩ | ⟨rs, rs', h1, h2, h3⟩
  · rw [q, hr] at h1
    exact nomatch h1
  · rw [q, hr] at h1
    rw [q'] at h2
    rw [← Except.ok.inj h1] at h3
    cases h3 with
    | cons h4 h5 =>
      cases h5
      exact ⟨r, _, hr, h2, h4⟩

end Verif.Resolution
