import Verif.Structure.Model
import Mathlib.Tactic.LinearCombination
import Mathlib.Algebra.BigOperators.Group.List.Basic

/-! # Helper lemmas for the structure factor -/

namespace Verif.Structure

open Real Matrix Verif.Crystal

/-- The phase of a position at a reflection. -/
noncomputable def phase (hkl p : Vec) : ℂ :=
  Complex.exp (Complex.I * 2 * π * (hkl 0 * p 0 + hkl 1 * p 1 + hkl 2 * p 2))

/-- The part of a term that does not depend on the reflection. -/
noncomputable def amp (l : Lattice) (w : ℝ) (a : Atom) : Except Fail ℂ := do
  let d ← dwIso l w a
  pure (a.occupancy * a.b * d * dwAniso a)

/-- Its value, where there is one. -/
noncomputable def ampOf (l : Lattice) (w : ℝ) (a : Atom) : ℂ :=
  match amp l w a with
  | .ok x => x
  | .error _ => 0

/-- Every term is a number. -/
def Defined (l : Lattice) (w : ℝ) (atoms : List Atom) : Prop := ∀ a ∈ atoms, ∃ x, amp l w a = .ok x

/-- The sum that defines the structure factor. -/
noncomputable def total (l : Lattice) (w : ℝ) (atoms : List Atom) (hkl : Vec) : ℂ :=
  (atoms.map fun a => ampOf l w a * phase hkl a.pos).sum

theorem contribution_eq (l : Lattice) (w : ℝ) (hkl : Vec) (a : Atom) :
    contribution l w hkl a = (do let x ← amp l w a; pure (x * phase hkl a.pos)) := by
  unfold contribution amp
  cases dwIso l w a with
  | error e => rfl
  | ok d =>
    simp only [ok_bind, pure_ok]
    congr 1
    unfold phase
    ring

theorem foldlM_ok {l : Lattice} {w : ℝ} {hkl : Vec} {atoms : List Atom} (h : Defined l w atoms) (s : ℂ) :
    atoms.foldlM (fun s a => do pure (s + (← contribution l w hkl a))) s = .ok (s + total l w atoms hkl) := by
  induction atoms generalizing s with
  | nil => simp [total, pure_ok]
  | cons a as ih =>
    obtain ⟨x, hx⟩ := h a (List.mem_cons_self ..)
    rw [List.foldlM_cons, contribution_eq, hx]
    refine (ih (fun b hb => h b (List.mem_cons_of_mem _ hb)) (s + x * phase hkl a.pos)).trans ?_
    simp only [total, List.map_cons, List.sum_cons, ampOf, hx]
    congr 1
    ring

theorem foldlM_defined {l : Lattice} {w : ℝ} {hkl : Vec} {atoms : List Atom} {s F : ℂ}
    (h : atoms.foldlM (fun s a => do pure (s + (← contribution l w hkl a))) s = .ok F) :
    Defined l w atoms := by
  induction atoms generalizing s with
  | nil => intro a ha; cases ha
  | cons a as ih =>
    rw [List.foldlM_cons, contribution_eq] at h
    cases hx : amp l w a with
    | error e => rw [hx] at h; cases h
    | ok x =>
      rw [hx] at h
      simp only [ok_bind, pure_ok] at h
      intro b hb
      rcases List.mem_cons.1 hb with rfl | hb
      · exact ⟨x, hx⟩
      · exact ih h b hb

theorem calc_ok {l : Lattice} {w : ℝ} {atoms : List Atom} (h : Defined l w atoms) (hkl : Vec) :
    calcNucStrFac l w atoms hkl = .ok (total l w atoms hkl) := by
  unfold calcNucStrFac
  rw [foldlM_ok h, zero_add]

theorem calc_eq_ok {l : Lattice} {w : ℝ} {atoms : List Atom} {hkl : Vec} {F : ℂ} :
    calcNucStrFac l w atoms hkl = .ok F ↔ Defined l w atoms ∧ F = total l w atoms hkl := by
  constructor
  · intro h
    have hd := foldlM_defined h
    rw [calc_ok hd] at h
    cases h
    exact ⟨hd, rfl⟩
  · rintro ⟨h, rfl⟩
    exact calc_ok h hkl

theorem defined_append {l : Lattice} {w : ℝ} {xs ys : List Atom} :
    Defined l w (xs ++ ys) ↔ Defined l w xs ∧ Defined l w ys := by
  simp only [Defined, List.mem_append]
  exact ⟨fun h => ⟨fun a ha => h a (.inl ha), fun a ha => h a (.inr ha)⟩,
    fun h a ha => ha.elim (h.1 a) (h.2 a)⟩

theorem phase_add (hkl p q : Vec) : phase hkl (p + q) = phase hkl p * phase hkl q := by
  unfold phase
  rw [← Complex.exp_add]
  congr 1
  simp only [Pi.add_apply]
  push_cast
  ring

theorem phase_norm (hkl p : Vec) : ‖phase hkl p‖ = 1 := by
  unfold phase
  rw [show Complex.I * 2 * π * (hkl 0 * p 0 + hkl 1 * p 1 + hkl 2 * p 2) =
    ((2 * π * (hkl 0 * p 0 + hkl 1 * p 1 + hkl 2 * p 2) : ℝ) : ℂ) * Complex.I by push_cast; ring]
  exact Complex.norm_exp_ofReal_mul_I _

theorem phase_int {hkl p : Vec} (h : ∃ z : ℤ, hkl 0 * p 0 + hkl 1 * p 1 + hkl 2 * p 2 = z) : phase hkl p = 1 := by
  obtain ⟨z, hz⟩ := h
  unfold phase
  rw [Complex.exp_eq_one_iff]
  refine ⟨z, ?_⟩
  have : (hkl 0 * p 0 + hkl 1 * p 1 + hkl 2 * p 2 : ℂ) = z := by exact_mod_cast congrArg (fun x : ℝ => (x : ℂ)) hz
  rw [this]
  ring

theorem phase_neg (hkl p : Vec) : phase (-hkl) p = (starRingEnd ℂ) (phase hkl p) := by
  unfold phase
  rw [← Complex.exp_conj]
  congr 1
  simp only [map_mul, map_add, Complex.conj_I, Complex.conj_ofReal, Pi.neg_apply, Complex.ofReal_neg]
  rw [Complex.conj_ofNat]
  ring

end Verif.Structure
