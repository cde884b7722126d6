import Verif.Structure.Cell
import Verif.Crystal.Lemmas

/-! # Property C168: the drawing of the unit cell -/

namespace Verif.Structure.Cell

open Real Matrix
open Verif.Crystal (Vec Mat Lattice Realises vecOf)

/-! ## Specification -/

/-- The cell spanned by the lattice vectors, the rows of `E`: the corner with the given choices. -/
def cellCorner (E : Mat) (p : Bool × Bool × Bool) : Vec := (if p.1 then E 0 else 0) + (if p.2.1 then E 1 else 0) + (if p.2.2 then E 2 else 0)

/-- Two corners joined by an edge: they differ in exactly one choice. -/
def Adjacent (p q : Bool × Bool × Bool) : Prop :=
  (p.1 ≠ q.1 ∧ p.2.1 = q.2.1 ∧ p.2.2 = q.2.2) ∨ (p.1 = q.1 ∧ p.2.1 ≠ q.2.1 ∧ p.2.2 = q.2.2) ∨ (p.1 = q.1 ∧ p.2.1 = q.2.1 ∧ p.2.2 ≠ q.2.2)

instance (p q : Bool × Bool × Bool) : Decidable (Adjacent p q) := by unfold Adjacent; infer_instance

/-- A line is an edge of the box with the sides `a`, `b`, `c`. -/
def IsEdge (a b c : ℝ) (s e : Vec) : Prop := ∃ p q, Adjacent p q ∧ s = ![if p.1 then a else 0, if p.2.1 then b else 0, if p.2.2 then c else 0] ∧
  e = ![if q.1 then a else 0, if q.2.1 then b else 0, if q.2.2 then c else 0]

/-- The square of the distance of two points. -/
def dist2 (x y : Vec) : ℝ := (x - y) ⬝ᵥ (x - y)

/-- No side is the sum of the two others. -/
def NoSum (l : Lattice) : Prop := l.a ≠ l.b + l.c ∧ l.b ≠ l.a + l.c ∧ l.c ≠ l.a + l.b

/-! ## Lemmas -/

theorem pairs_map {α β : Type} (f : α → β) : ∀ l : List α, pairs (l.map f) = (pairs l).map fun p => (f p.1, f p.2)
  | [] => rfl
  | x :: l => by simp [pairs, pairs_map f l, Function.comp_def]

theorem manhattan_corner {l : Lattice} (ha : 0 < l.a) (hb : 0 < l.b) (hc : 0 < l.c) (p q : Bool × Bool × Bool) :
    manhattan (corner l p) (corner l q) = (if p.1 = q.1 then 0 else l.a) + (if p.2.1 = q.2.1 then 0 else l.b) + (if p.2.2 = q.2.2 then 0 else l.c) := by
  obtain ⟨p1, p2, p3⟩ := p
  obtain ⟨q1, q2, q3⟩ := q
  unfold manhattan corner
  rw [Fin.sum_univ_three]
  have key (x : ℝ) (hx : 0 < x) (s t : Bool) : |(if s then x else 0) - (if t then x else 0)| = if s = t then 0 else x := by
    cases s <;> cases t <;> simp [abs_of_pos hx]
  simp only [cons_val_zero, cons_val_one, cons_val]
  rw [key _ ha, key _ hb, key _ hc]

theorem adjacent_iff {l : Lattice} (ha : 0 < l.a) (hb : 0 < l.b) (hc : 0 < l.c) (h : NoSum l) (p q : Bool × Bool × Bool) :
    (manhattan (corner l p) (corner l q) = l.a ∨ manhattan (corner l p) (corner l q) = l.b ∨ manhattan (corner l p) (corner l q) = l.c) ↔ Adjacent p q := by
  rw [manhattan_corner ha hb hc]
  obtain ⟨h1, h2, h3⟩ := h
  unfold Adjacent
  by_cases e1 : p.1 = q.1 <;> by_cases e2 : p.2.1 = q.2.1 <;> by_cases e3 : p.2.2 = q.2.2 <;>
    simp only [e1, e2, e3, if_true, if_false, ne_eq, not_true_eq_false, not_false_eq_true, and_true, true_and, and_false, false_and, or_false,
      false_or, iff_true, iff_false, not_or, zero_add, add_zero, or_true, true_or] <;>
    first
      | trivial
      | (refine ⟨?_, ?_, ?_⟩ <;> intro h <;> first
          | linarith
          | exact h1 (by linarith)
          | exact h2 (by linarith)
          | exact h3 (by linarith))

theorem mem_choices (p : Bool × Bool × Bool) : p ∈ choices := by
  revert p
  decide

theorem edges_eq {l : Lattice} (ha : 0 < l.a) (hb : 0 < l.b) (hc : 0 < l.c) (h : NoSum l) :
    edges l = ((pairs choices).filter fun p => Adjacent p.1 p.2).map fun p => (corner l p.1, corner l p.2) := by
  unfold edges
  rw [pairs_map, List.filter_map]
  congr 1
  apply List.filter_congr
  intro p _
  simp only [Function.comp_apply, decide_eq_decide]
  exact adjacent_iff ha hb hc h p.1 p.2

/-! ## Theorems -/

/-- C168 (partial).  If no side is the sum of the two others, exactly the twelve edges of a box with these sides are drawn, each once.  Missing:
other sides (`C168_diagonal_false`), cells that are no boxes (`C168_angles_false`). -/
theorem C168_edges_partial {l : Lattice} (ha : 0 < l.a) (hb : 0 < l.b) (hc : 0 < l.c) (h : NoSum l) {atoms : List (Vec × ℝ)}
    {lines : List (Vec × Vec)} {points : List (Vec × ℝ)} (hp : plotUnitCell l true atoms = .ok (lines, points)) :
    lines.length = 12 ∧ ∀ s e, ((s, e) ∈ lines ∨ (e, s) ∈ lines) ↔ IsEdge l.a l.b l.c s e := by
  have hl : lines = edges l := by
    unfold plotUnitCell at hp
    cases hs : scatter l true atoms with
    | error e => rw [hs] at hp; exact nomatch hp
    | ok p => rw [hs] at hp; cases hp; rfl
  rw [hl, edges_eq ha hb hc h]
  refine ⟨by rw [List.length_map]; decide, fun s e => ?_⟩
  have all : ∀ p q, Adjacent p q → (p, q) ∈ (pairs choices).filter (fun p => Adjacent p.1 p.2) ∨ (q, p) ∈ (pairs choices).filter (fun p => Adjacent p.1 p.2) := by
    decide
  have sym : ∀ p q, Adjacent p q → Adjacent q p := by decide
  constructor
  · rintro (h | h)
    · obtain ⟨⟨p, q⟩, hm, hpq⟩ := List.mem_map.1 h
      cases hpq
      exact ⟨p, q, by simpa using (List.mem_filter.1 hm).2, rfl, rfl⟩
    · obtain ⟨⟨p, q⟩, hm, hpq⟩ := List.mem_map.1 h
      cases hpq
      exact ⟨q, p, sym p q (by simpa using (List.mem_filter.1 hm).2), rfl, rfl⟩
  · rintro ⟨p, q, hpq, rfl, rfl⟩
    rcases all p q hpq with hm | hm
    · exact Or.inl (List.mem_map.2 ⟨(p, q), hm, rfl⟩)
    · exact Or.inr (List.mem_map.2 ⟨(q, p), hm, rfl⟩)

theorem scatter_ok (l : Lattice) : ∀ atoms : List (Vec × ℝ), scatter l true atoms = .ok (atoms.map fun t => (![t.1 0 * l.a, t.1 1 * l.b, t.1 2 * l.c], t.2))
  | [] => rfl
  | t :: ts => by
    have := scatter_ok l ts
    unfold scatter at this ⊢
    rw [List.mapM_cons, this]
    rfl

theorem plot_ok (l : Lattice) (atoms : List (Vec × ℝ)) :
    plotUnitCell l true atoms = .ok (edges l, atoms.map fun t => (![t.1 0 * l.a, t.1 1 * l.b, t.1 2 * l.c], t.2)) := by
  unfold plotUnitCell
  rw [scatter_ok]
  rfl

/-- C168 (partial).  In a cell with right angles, of a material with `massNorm`, every atom is drawn, with its mass as the size, and
any two atoms have the distance that they have in the crystal; so have atoms and corners.  Missing: other angles (`C168_angles_false`),
materials without `massNorm` (`C168_mass_false`). -/
theorem C168_atoms_partial {l : Lattice} {E : Mat} (hE : Realises l E) (h1 : l.alpha = 90) (h2 : l.beta = 90) (h3 : l.gamma = 90) (atoms : List (Vec × ℝ)) :
    ∃ lines points, plotUnitCell l true atoms = .ok (lines, points) ∧ points.length = atoms.length ∧
      (∀ (i : ℕ) (h : i < atoms.length) (h' : i < points.length), points[i].2 = atoms[i].2) ∧
      (∀ (i j : ℕ) (hi : i < atoms.length) (hj : j < atoms.length) (hi' : i < points.length) (hj' : j < points.length),
        dist2 points[i].1 points[j].1 = dist2 (vecOf E atoms[i].1) (vecOf E atoms[j].1)) ∧
      (∀ (i : ℕ) (hi : i < atoms.length) (hi' : i < points.length) (p : Bool × Bool × Bool),
        dist2 points[i].1 (corner l p) = dist2 (vecOf E atoms[i].1) (cellCorner E p)) := by
  have c90 : cos ((90 : ℝ) * π / 180) = 0 := by rw [show (90 : ℝ) * π / 180 = π / 2 by ring, cos_pi_div_two]
  have key (x y : Vec) : dist2 ![x 0 * l.a, x 1 * l.b, x 2 * l.c] ![y 0 * l.a, y 1 * l.b, y 2 * l.c] = dist2 (vecOf E x) (vecOf E y) := by
    have aa := hE.aa
    have bb := hE.bb
    have cc := hE.cc
    have bc := hE.bc
    have ac := hE.ac
    have ab := hE.ab
    rw [h1, c90] at bc
    rw [h2, c90] at ac
    rw [h3, c90] at ab
    unfold dist2 vecOf
    simp only [dotProduct, Fin.sum_univ_three, Pi.sub_apply, Pi.add_apply, Pi.smul_apply, smul_eq_mul, cons_val_zero, cons_val_one, cons_val] at *
    linear_combination (-(x 0 - y 0) ^ 2) * aa + (-(x 1 - y 1) ^ 2) * bb + (-(x 2 - y 2) ^ 2) * cc + (-2 * (x 1 - y 1) * (x 2 - y 2)) * bc +
      (-2 * (x 0 - y 0) * (x 2 - y 2)) * ac + (-2 * (x 0 - y 0) * (x 1 - y 1)) * ab
  refine ⟨edges l, _, plot_ok l atoms, by simp, ?_, ?_, ?_⟩
  · intro i h h'
    rw [List.getElem_map]
  · intro i j hi hj hi' hj'
    rw [List.getElem_map, List.getElem_map]
    exact key _ _
  · intro i hi hi' p
    rw [List.getElem_map]
    have e1 : corner l p = ![(![if p.1 then 1 else 0, if p.2.1 then 1 else 0, if p.2.2 then 1 else 0] : Vec) 0 * l.a,
        (![if p.1 then 1 else 0, if p.2.1 then 1 else 0, if p.2.2 then 1 else 0] : Vec) 1 * l.b,
        (![if p.1 then 1 else 0, if p.2.1 then 1 else 0, if p.2.2 then 1 else 0] : Vec) 2 * l.c] := by
      unfold corner
      simp
    have e2 : cellCorner E p = vecOf E ![if p.1 then 1 else 0, if p.2.1 then 1 else 0, if p.2.2 then 1 else 0] := by
      unfold cellCorner vecOf
      simp
    rw [e1, e2]
    exact key _ _

/-- C168 fails.  In a cell where one side is the sum of the others a diagonal is drawn. -/
theorem C168_diagonal_false {l : Lattice} (ha : 0 < l.a) (hb : 0 < l.b) (hc : 0 < l.c) (h : l.a = l.b + l.c) (atoms : List (Vec × ℝ)) :
    ∃ lines points, plotUnitCell l true atoms = .ok (lines, points) ∧ (![0, 0, 0], ![0, l.b, l.c]) ∈ lines ∧
      ¬ IsEdge l.a l.b l.c ![0, 0, 0] ![0, l.b, l.c] := by
  refine ⟨edges l, _, plot_ok l atoms, ?_, ?_⟩
  · unfold edges
    rw [pairs_map, List.mem_filter]
    constructor
    · exact List.mem_map.2 ⟨((false, false, false), (false, true, true)), by decide, by simp [corner]⟩
    · rw [decide_eq_true_eq]
      left
      have e := manhattan_corner ha hb hc (false, false, false) (false, true, true)
      simp only [corner] at e
      simp at e
      simp [manhattan, Fin.sum_univ_three] at e ⊢
      rw [abs_of_pos hb, abs_of_pos hc, h]
  · rintro ⟨⟨p1, p2, p3⟩, ⟨q1, q2, q3⟩, hpq, h1, h2⟩
    have a0 : (0 : ℝ) = if p2 then l.b else 0 := congrFun h1 1
    have a1 : (0 : ℝ) = if p3 then l.c else 0 := congrFun h1 2
    have b0 : l.b = if q2 then l.b else 0 := congrFun h2 1
    have b1 : l.c = if q3 then l.c else 0 := congrFun h2 2
    have r1 : p2 = false := by
      cases p2 with
      | false => rfl
      | true => exact absurd a0 hb.ne
    have r2 : p3 = false := by
      cases p3 with
      | false => rfl
      | true => exact absurd a1 hc.ne
    have r3 : q2 = true := by
      cases q2 with
      | false => exact absurd b0 hb.ne'
      | true => rfl
    have r4 : q3 = true := by
      cases q3 with
      | false => exact absurd b1 hc.ne'
      | true => rfl
    subst r1 r2 r3 r4
    unfold Adjacent at hpq
    simp at hpq

/-- C168 fails.  In a cell whose third angle is not 90°, atoms at two opposite corners of a face are not drawn at their distance. -/
theorem C168_angles_false {l : Lattice} {E : Mat} (hE : Realises l E) (ha : 0 < l.a) (hb : 0 < l.b) (hg : cos (l.gamma * π / 180) ≠ 0) (m m' : ℝ) :
    ∃ lines p q, plotUnitCell l true [(![0, 0, 0], m), (![1, 1, 0], m')] = .ok (lines, [(p, m), (q, m')]) ∧
      dist2 p q ≠ dist2 (vecOf E ![0, 0, 0]) (vecOf E ![1, 1, 0]) := by
  refine ⟨edges l, _, _, plot_ok l _, fun h => ?_⟩
  have aa := hE.aa
  have bb := hE.bb
  have ab := hE.ab
  unfold dist2 vecOf at h
  simp only [dotProduct, Fin.sum_univ_three, Pi.sub_apply, Pi.add_apply, Pi.smul_apply, smul_eq_mul, cons_val_zero, cons_val_one, cons_val, zero_mul,
    one_mul, zero_add, add_zero, zero_sub] at h aa bb ab
  have : l.a * l.b * cos (l.gamma * π / 180) = 0 := by linear_combination -aa / 2 - bb / 2 - ab - h / 2
  rcases mul_eq_zero.1 this with h | h
  · exact (mul_pos ha hb).ne' h
  · exact hg h

/-- C168 fails.  For a material without `massNorm` that has atoms there is an exception and no drawing. -/
theorem C168_mass_false (l : Lattice) (t : Vec × ℝ) (atoms : List (Vec × ℝ)) : plotUnitCell l false (t :: atoms) = .error .attributeError := by
  unfold plotUnitCell scatter
  rw [List.mapM_cons]
  rfl

/-! ## Concrete cases -/

/-- A cell with sides 4, 5, 6. -/
example (lines : List (Vec × Vec)) (points : List (Vec × ℝ)) (h : plotUnitCell ⟨4, 5, 6, 90, 90, 90⟩ true [(![0, 0, 0], 56)] = .ok (lines, points)) :
    lines.length = 12 ∧ ((![0, 0, 0], ![4, 0, 0]) ∈ lines ∨ (![4, 0, 0], ![0, 0, 0]) ∈ lines) := by
  obtain ⟨h1, h2⟩ := C168_edges_partial (l := ⟨4, 5, 6, 90, 90, 90⟩) (by norm_num) (by norm_num) (by norm_num) (by unfold NoSum; norm_num) h
  exact ⟨h1, (h2 _ _).2 ⟨(false, false, false), (true, false, false), by decide, by simp, by simp⟩⟩

/-- A cell with sides 5, 3, 2 has a diagonal. -/
example : ∃ lines points, plotUnitCell ⟨5, 3, 2, 90, 90, 90⟩ true [] = .ok (lines, points) ∧ (![0, 0, 0], ![0, 3, 2]) ∈ lines := by
  obtain ⟨lines, points, h1, h2, -⟩ := C168_diagonal_false (l := ⟨5, 3, 2, 90, 90, 90⟩) (by norm_num) (by norm_num) (by norm_num) (by norm_num) []
  exact ⟨lines, points, h1, h2⟩

end Verif.Structure.Cell
