import Verif.Structure.PropsMore
import Mathlib.Algebra.Field.GeomSum

/-!
# Property C197: the same crystal described with a larger cell

The cell `n 0 × n 1 × n 2` times as large holds the copies of all atoms.  Its structure
factor is that of the small cell times the number of cells, and zero at the additional
reflections.
-/

namespace Verif.Structure

open Real Matrix Verif.Crystal

/-! ## Specification -/

/-- The larger cell. -/
def superLattice (n : Fin 3 → ℕ) (l : Lattice) : Lattice :=
  { l with a := n 0 * l.a, b := n 1 * l.b, c := n 2 * l.c }

/-- The position in the larger cell of an atom in the small cell number `i`, `j`, `k`. -/
noncomputable def superPos (n : Fin 3 → ℕ) (p : Vec) (i j k : ℕ) : Vec :=
  ![(p 0 + i) / n 0, (p 1 + j) / n 1, (p 2 + k) / n 2]

/-- The copies of an entry of the composition. -/
noncomputable def cellCopies (n : Fin 3 → ℕ) (it : Item) : List Item :=
  (List.range (n 0)).flatMap fun i => (List.range (n 1)).flatMap fun j =>
    (List.range (n 2)).map fun k => { it with pos := superPos n it.pos i j k }

/-- The composition of the larger cell. -/
noncomputable def superComp (n : Fin 3 → ℕ) (comp : List Item) : List Item := comp.flatMap (cellCopies n)

/-- Number of small cells. -/
def cells (n : Fin 3 → ℕ) : ℕ := n 0 * n 1 * n 2

/-! ## Lemmas -/

private theorem sum_flatMap {α : Type*} (xs : List α) (f : α → List Item) (g : Item → ℂ) :
    ((xs.flatMap f).map g).sum = (xs.map fun x => ((f x).map g).sum).sum := by
  induction xs with
  | nil => rfl
  | cons x xs ih => simp [List.flatMap_cons, List.map_append, List.sum_append, ih]

private theorem sum_flatMapR {α : Type*} (xs : List α) (f : α → List Item) (g : Item → ℝ) :
    ((xs.flatMap f).map g).sum = (xs.map fun x => ((f x).map g).sum).sum := by
  induction xs with
  | nil => rfl
  | cons x xs ih => simp [List.flatMap_cons, List.map_append, List.sum_append, ih]

theorem sum_copies (n : Fin 3 → ℕ) (it : Item) (g : Item → ℂ) : ((cellCopies n it).map g).sum =
    ∑ i ∈ Finset.range (n 0), ∑ j ∈ Finset.range (n 1), ∑ k ∈ Finset.range (n 2),
      g { it with pos := superPos n it.pos i j k } := by
  unfold cellCopies
  simp only [sum_flatMap, List.map_map]
  rfl

theorem sum_copies_real (n : Fin 3 → ℕ) (it : Item) (g : Item → ℝ) : ((cellCopies n it).map g).sum =
    ∑ i ∈ Finset.range (n 0), ∑ j ∈ Finset.range (n 1), ∑ k ∈ Finset.range (n 2),
      g { it with pos := superPos n it.pos i j k } := by
  unfold cellCopies
  simp only [sum_flatMapR, List.map_map]
  rfl

/-- The sum of the phases of the cells along one axis. -/
theorem axis_sum {n : ℕ} (hn : 0 < n) (H : ℤ) :
    ∑ i ∈ Finset.range n, Complex.exp (Complex.I * 2 * π * (H * (i / n))) =
      if (n : ℤ) ∣ H then (n : ℂ) else 0 := by
  have hn0 : (n : ℂ) ≠ 0 := by exact_mod_cast hn.ne'
  have hpow : ∀ i : ℕ, Complex.exp (Complex.I * 2 * π * (H * (i / n))) =
      Complex.exp (Complex.I * 2 * π * (H / n)) ^ i := by
    intro i
    rw [← Complex.exp_nat_mul]
    congr 1
    ring
  simp only [hpow]
  split_ifs with h
  · obtain ⟨m, rfl⟩ := h
    have : Complex.exp (Complex.I * 2 * π * (((n * m : ℤ) : ℂ) / n)) = 1 := by
      rw [Complex.exp_eq_one_iff]
      refine ⟨m, ?_⟩
      push_cast
      field_simp
    rw [this]
    simp
  · have hne : Complex.exp (Complex.I * 2 * π * ((H : ℂ) / n)) ≠ 1 := by
      intro h1
      obtain ⟨m, hm⟩ := Complex.exp_eq_one_iff.1 h1
      apply h
      refine ⟨m, ?_⟩
      have hI : Complex.I * 2 * π ≠ 0 := by
        have := Real.pi_ne_zero
        simp [this]
      have e : Complex.I * 2 * π * ((H : ℂ) / n) = Complex.I * 2 * π * (m : ℂ) := by
        rw [hm]; ring
      have e2 := mul_left_cancel₀ hI e
      rw [div_eq_iff hn0] at e2
      have e3 : (H : ℂ) = ((n * m : ℤ) : ℂ) := by rw [e2]; push_cast; ring
      exact_mod_cast e3
    rw [geom_sum_eq hne, ← Complex.exp_nat_mul]
    have : Complex.exp ((n : ℂ) * (Complex.I * 2 * π * ((H : ℂ) / n))) = 1 := by
      rw [Complex.exp_eq_one_iff]
      refine ⟨H, ?_⟩
      field_simp
    rw [this, sub_self, zero_div]

/-- The sum of the phases of the copies of one atom. -/
theorem phase_copies {n : Fin 3 → ℕ} (hn : ∀ i, 0 < n i) (p : Vec) (H : Fin 3 → ℤ) :
    ∑ i ∈ Finset.range (n 0), ∑ j ∈ Finset.range (n 1), ∑ k ∈ Finset.range (n 2),
      phase (fun i => (H i : ℝ)) (superPos n p i j k) =
    phase (fun i => (H i : ℝ)) (fun i => p i / n i) *
      ((if (n 0 : ℤ) ∣ H 0 then (n 0 : ℂ) else 0) * (if (n 1 : ℤ) ∣ H 1 then (n 1 : ℂ) else 0) *
        (if (n 2 : ℤ) ∣ H 2 then (n 2 : ℂ) else 0)) := by
  have split : ∀ i j k : ℕ, phase (fun i => (H i : ℝ)) (superPos n p i j k) =
      phase (fun i => (H i : ℝ)) (fun i => p i / n i) *
        (Complex.exp (Complex.I * 2 * π * (H 0 * (i / n 0))) *
          Complex.exp (Complex.I * 2 * π * (H 1 * (j / n 1))) *
          Complex.exp (Complex.I * 2 * π * (H 2 * (k / n 2)))) := by
    intro i j k
    unfold phase superPos
    rw [← Complex.exp_add, ← Complex.exp_add, ← Complex.exp_add]
    congr 1
    simp only [cons_val_zero, cons_val_one, cons_val, Complex.ofReal_intCast]
    push_cast
    ring
  simp only [split, ← Finset.mul_sum, ← Finset.sum_mul]
  rw [axis_sum (hn 0), axis_sum (hn 1), axis_sum (hn 2)]

theorem superComp_muCell (n : Fin 3 → ℕ) (comp : List Item) :
    muCell (superComp n comp) = cells n * muCell comp := by
  unfold muCell superComp
  rw [sum_flatMapR, ← List.sum_map_mul_left]
  congr 1
  refine List.map_congr_left fun it _ => ?_
  rw [sum_copies_real]
  simp only [Finset.sum_const, Finset.card_range, nsmul_eq_mul, cells]
  push_cast
  ring

theorem mem_superComp {n : Fin 3 → ℕ} {comp : List Item} {it : Item} (h : it ∈ superComp n comp) :
    ∃ o ∈ comp, ∃ i j k, it = { o with pos := superPos n o.pos i j k } := by
  unfold superComp cellCopies at h
  simp only [List.mem_flatMap, List.mem_map] at h
  obtain ⟨o, ho, i, _, j, _, k, _, e⟩ := h
  exact ⟨o, ho, i, j, k, e.symm⟩

/-- Without displacement parameters. -/
def AtRest (comp : List Item) : Prop := ∀ it ∈ comp, it.uiso = none ∧ it.uaniso = none

theorem AtRest.super {comp : List Item} (h : AtRest comp) (n : Fin 3 → ℕ) : AtRest (superComp n comp) := by
  intro it hit
  obtain ⟨o, ho, i, j, k, rfl⟩ := mem_superComp hit
  exact h o ho

theorem calc_atRest {l : Lattice} {w : ℝ} {comp : List Item} (hr : AtRest comp) {fu : ℝ} {mn : Bool}
    {hkl : Vec} {F : ℂ} (h : calcNucStrFac l w (atomsPlain comp fu mn) hkl = .ok F) :
    F = (comp.map fun it => (it.occupancy : ℂ) *
      (if mn then it.b0 * it.occupancy * ((muCell comp * fu : ℝ) : ℂ) / (√it.mass : ℝ) else it.b0 / 10) *
        phase hkl it.pos).sum := by
  rw [calc_eq_ok] at h
  have hrig : ∀ a ∈ atomsPlain comp fu mn, Rigid a := by
    intro a ha
    obtain ⟨it, hit, rfl⟩ := List.mem_map.1 ha
    obtain ⟨h1, h2⟩ := hr it hit
    constructor <;> simp [mkAtom, h1, h2]
  rw [h.2, total_rigid hrig h.1]
  unfold atomsPlain
  rw [List.map_map]
  rfl

/-- The sum over the larger cell, with the amplitude of an atom that does not depend on its
position. -/
theorem super_sum {n : Fin 3 → ℕ} (hn : ∀ i, 0 < n i) (comp : List Item) (A : Item → ℂ)
    (hA : ∀ it p, A { it with pos := p } = A it) (H : Fin 3 → ℤ) :
    ((superComp n comp).map fun it => A it * phase (fun i => (H i : ℝ)) it.pos).sum =
      (comp.map fun it => A it * phase (fun i => (H i : ℝ)) (fun i => it.pos i / n i)).sum *
        ((if (n 0 : ℤ) ∣ H 0 then (n 0 : ℂ) else 0) * (if (n 1 : ℤ) ∣ H 1 then (n 1 : ℂ) else 0) *
        (if (n 2 : ℤ) ∣ H 2 then (n 2 : ℂ) else 0)) := by
  unfold superComp
  rw [sum_flatMap, ← List.sum_map_mul_right]
  congr 1
  refine List.map_congr_left fun it _ => ?_
  rw [sum_copies]
  simp only [hA, ← Finset.mul_sum]
  rw [phase_copies hn]
  ring

theorem super_old {n : Fin 3 → ℕ} (hn : ∀ i, 0 < n i) (hkl : Fin 3 → ℤ) (p : Vec) :
    phase (fun i => ((n i * hkl i : ℤ) : ℝ)) (fun i => p i / n i) = phase (fun i => (hkl i : ℝ)) p := by
  have h : ∀ i, (n i : ℂ) ≠ 0 := fun i => by exact_mod_cast (hn i).ne'
  unfold phase
  congr 1
  have h0 := h 0
  have h1 := h 1
  have h2 := h 2
  push_cast
  field_simp

/-! ## C197 -/

/-- **C197** without mass normalisation and displacement parameters, at the reflections of the
small cell the structure factor is multiplied by the number of cells (as long as both are
numbers). -/
theorem C197_scales_partial {l : Lattice} {w : ℝ} {n : Fin 3 → ℕ} (hn : ∀ i, 0 < n i) {comp : List Item}
    (hr : AtRest comp) {fu fu' : ℝ} (hkl : Fin 3 → ℤ) {F F' : ℂ}
    (h : calcNucStrFac l w (atomsPlain comp fu false) (fun i => (hkl i : ℝ)) = .ok F)
    (h' : calcNucStrFac (superLattice n l) w (atomsPlain (superComp n comp) fu' false)
      (fun i => ((n i * hkl i : ℤ) : ℝ)) = .ok F') :
    F' = cells n * F := by
  rw [calc_atRest hr h, calc_atRest (hr.super n) h']
  simp only [Bool.false_eq_true, if_false]
  rw [super_sum hn comp (fun it => (it.occupancy : ℂ) * (it.b0 / 10)) (fun _ _ => rfl)]
  simp only [super_old hn, dvd_mul_right, if_true, cells]
  push_cast
  ring

/-- **C197** at the additional reflections of the larger cell there is nothing, with and without
mass normalisation. -/
theorem C197_absent_partial {l : Lattice} {w : ℝ} {n : Fin 3 → ℕ} (hn : ∀ i, 0 < n i) {comp : List Item}
    (hr : AtRest comp) {fu : ℝ} {mn : Bool} (H : Fin 3 → ℤ) (hH : ∃ i, ¬(n i : ℤ) ∣ H i) {F' : ℂ}
    (h' : calcNucStrFac (superLattice n l) w (atomsPlain (superComp n comp) fu mn)
      (fun i => (H i : ℝ)) = .ok F') :
    F' = 0 := by
  rw [calc_atRest (hr.super n) h', super_sum hn comp (fun it => (it.occupancy : ℂ) *
    (if mn then it.b0 * it.occupancy * ((muCell (superComp n comp) * fu : ℝ) : ℂ) / (√it.mass : ℝ)
      else it.b0 / 10)) (fun _ _ => rfl)]
  obtain ⟨i, hi⟩ := hH
  fin_cases i
  · rw [if_neg (by simpa using hi)]; ring
  · rw [if_neg (c := (n 1 : ℤ) ∣ H 1) (by simpa using hi)]; ring
  · rw [if_neg (c := (n 2 : ℤ) ∣ H 2) (by simpa using hi)]; ring

/-- **C197** with mass normalisation the number of cells enters twice. -/
theorem C197_massnorm_square {l : Lattice} {w : ℝ} {n : Fin 3 → ℕ} (hn : ∀ i, 0 < n i) {comp : List Item}
    (hr : AtRest comp) {fu : ℝ} (hkl : Fin 3 → ℤ) {F F' : ℂ}
    (h : calcNucStrFac l w (atomsPlain comp fu true) (fun i => (hkl i : ℝ)) = .ok F)
    (h' : calcNucStrFac (superLattice n l) w (atomsPlain (superComp n comp) fu true)
      (fun i => ((n i * hkl i : ℤ) : ℝ)) = .ok F') :
    F' = (cells n : ℂ) ^ 2 * F := by
  rw [calc_atRest hr h, calc_atRest (hr.super n) h', superComp_muCell]
  simp only [if_true]
  rw [super_sum hn comp (fun it => (it.occupancy : ℂ) *
    (it.b0 * it.occupancy * ((cells n * muCell comp * fu : ℝ) : ℂ) / (√it.mass : ℝ))) (fun _ _ => rfl)]
  simp only [super_old hn, dvd_mul_right, if_true, cells]
  rw [mul_comm, ← List.sum_map_mul_left, ← List.sum_map_mul_left]
  congr 1
  refine List.map_congr_left fun it _ => ?_
  push_cast
  ring

theorem superLattice_valid {l : Lattice} (h : Valid l) {n : Fin 3 → ℕ} (hn : ∀ i, 0 < n i) :
    Valid (superLattice n l) := by
  have p : ∀ i, (0 : ℝ) < n i := fun i => by exact_mod_cast hn i
  exact ⟨mul_pos (p 0) h.a_pos, mul_pos (p 1) h.b_pos, mul_pos (p 2) h.c_pos, h.sum, h.tri_a, h.tri_b, h.tri_c⟩

/-- One entry at the origin. -/
def originItem (u : Option ℝ) : Item := ⟨10, 1, 0, 1, u, none, 0, 0, 0⟩

/-- Twice the cell along the first axis. -/
def twofold : Fin 3 → ℕ := ![2, 1, 1]

theorem superComp_origin (u : Option ℝ) : superComp twofold [originItem u] =
    [originItem u, { originItem u with pos := ![1 / 2, 0, 0] }] := by
  simp [superComp, cellCopies, twofold, List.range_succ, superPos, originItem]

/-- The wavelength `d` of a reflection at the position of the second atom: the angle is 30°. -/
theorem half_reachable {l : Lattice} (hl : Valid l) : ∃ w s : ℝ, 0 < w ∧ 0 < s ∧ ∀ a : Atom,
    a.pos = ![1 / 2, 0, 0] → dwIso (superLattice twofold l) w a = .ok (exp (-(8 * π ^ 2 * a.uiso * s / w ^ 2))) := by
  have hv := superLattice_valid hl (n := twofold) (by decide)
  have hne : (![1 / 2, 0, 0] : Vec) ≠ 0 := fun h => by simpa using congrFun h 0
  obtain ⟨E, F, hE, hF⟩ := valid_realised hv
  obtain ⟨d, h1, hdpos, _, _⟩ := C41_spacing hv hE hF hne
  obtain ⟨tt, htt, _, _, hb⟩ := C41_bragg hv hne h1 hdpos.le (by linarith)
  have hs : sin (deg2rad (tt / 2)) ≠ 0 := by
    intro h0
    unfold deg2rad at h0
    rw [h0, mul_zero] at hb
    exact hdpos.ne' hb
  refine ⟨d, sin (deg2rad (tt / 2)) ^ 2, hdpos, by positivity, fun a ha => ?_⟩
  unfold dwIso
  rw [ha, htt, ok_bind, npDiv_ok (pow_ne_zero 2 hdpos.ne'), ok_bind, pure_ok]
  congr 2
  ring

/-- Structure factors of the two descriptions of one atom per cell. -/
theorem origin_factors {l : Lattice} (hl : Valid l) (u : Option ℝ) (mn : Bool) : ∃ w s : ℝ, 0 < w ∧ 0 < s ∧
    calcNucStrFac l w (atomsPlain [originItem u] 1 mn) 0 = .ok (if mn then 10 else 1) ∧
    calcNucStrFac (superLattice twofold l) w (atomsPlain (superComp twofold [originItem u]) 1 mn) 0 =
      .ok ((if mn then 20 else 1) * (1 + (exp (-(8 * π ^ 2 * u.getD 0 * s / w ^ 2)) : ℝ))) := by
  obtain ⟨w, s, hw, hs, hdw⟩ := half_reachable hl
  have hv := superLattice_valid hl (n := twofold) (by decide)
  refine ⟨w, s, hw, hs, ?_, ?_⟩
  · have := C103_origin_ignored hl hw.ne' (a := mkAtom (originItem u) 0 (muCell [originItem u] * 1) mn
      (u.getD 0) 0) rfl 0
    refine Eq.trans ?_ (this.trans ?_)
    · simp [atomsPlain, originItem]
    · cases mn <;> simp [mkAtom, originItem, muCell]
  · have hmu : muCell (superComp twofold [originItem u]) = 2 := by
      rw [superComp_muCell]; simp [cells, twofold, muCell, originItem]
    have hatoms : atomsPlain (superComp twofold [originItem u]) 1 mn =
        [mkAtom (originItem u) 0 (2 * 1) mn (u.getD 0) 0] ++
          [mkAtom (originItem u) ![1 / 2, 0, 0] (2 * 1) mn (u.getD 0) 0] := by
      unfold atomsPlain
      rw [hmu, superComp_origin]
      rfl
    rw [hatoms, C50_additive]
    refine ⟨_, (if mn then 20 else 1) * (exp (-(8 * π ^ 2 * u.getD 0 * s / w ^ 2)) : ℝ),
      C103_origin_ignored hv hw.ne' rfl 0, ?_, ?_⟩
    · have hA : amp (superLattice twofold l) w (mkAtom (originItem u) ![1 / 2, 0, 0] (2 * 1) mn (u.getD 0) 0) =
          .ok ((if mn then 20 else 1) * (exp (-(8 * π ^ 2 * u.getD 0 * s / w ^ 2)) : ℝ)) := by
        unfold amp
        rw [hdw _ rfl, ok_bind, pure_ok]
        congr 1
        cases mn <;> simp [mkAtom, originItem, dwAniso] <;> norm_num
      rw [calc_eq_ok]
      constructor
      · intro a ha
        rw [List.mem_singleton] at ha
        subst ha
        exact ⟨_, hA⟩
      · simp only [total, List.map_cons, List.map_nil, List.sum_cons, List.sum_nil, add_zero, ampOf, hA]
        simp [phase]
    · cases mn <;> simp [mkAtom, originItem] <;> ring

/-- **C197** is false with mass normalisation: in every unit cell, the description with two cells
gives four times the structure factor instead of twice. -/
theorem C197_massnorm_false {l : Lattice} (hl : Valid l) : ∃ (w : ℝ) (comp : List Item) (F F' : ℂ), 0 < w ∧
    AtRest comp ∧ calcNucStrFac l w (atomsPlain comp 1 true) 0 = .ok F ∧
    calcNucStrFac (superLattice twofold l) w (atomsPlain (superComp twofold comp) 1 true) 0 = .ok F' ∧
    F' ≠ cells twofold * F := by
  obtain ⟨w, s, hw, _, h1, h2⟩ := origin_factors hl none true
  refine ⟨w, [originItem none], _, _, hw, ?_, h1, h2, ?_⟩
  · intro it hit
    rw [List.mem_singleton] at hit
    subst hit
    exact ⟨rfl, rfl⟩
  · simp [cells, twofold]
    norm_num

/-- **C197** is false for displaced atoms: in every unit cell, the copies of an atom at the origin
are attenuated differently. -/
theorem C197_displaced_false {l : Lattice} (hl : Valid l) : ∃ (w : ℝ) (comp : List Item) (F F' : ℂ), 0 < w ∧
    calcNucStrFac l w (atomsPlain comp 1 false) 0 = .ok F ∧
    calcNucStrFac (superLattice twofold l) w (atomsPlain (superComp twofold comp) 1 false) 0 = .ok F' ∧
    F' ≠ cells twofold * F := by
  obtain ⟨w, s, hw, hs, h1, h2⟩ := origin_factors hl (some 1) false
  refine ⟨w, [originItem (some 1)], _, _, hw, h1, h2, ?_⟩
  have hlt : exp (-(8 * π ^ 2 * (some (1 : ℝ)).getD 0 * s / w ^ 2)) < 1 := by
    rw [exp_lt_one_iff, neg_lt_zero]
    simp only [Option.getD_some]
    have := pi_pos
    positivity
  simp only [Bool.false_eq_true, if_false, one_mul, cells, twofold]
  generalize exp (-(8 * π ^ 2 * (some (1 : ℝ)).getD 0 * s / w ^ 2)) = e at hlt
  intro h
  have h' : 1 + e = 2 := by
    have h3 := congrArg Complex.re h
    simpa using h3
  linarith

/-- The hypotheses of the first theorems are met by one atom per cell, described with two cells. -/
example {l : Lattice} (hl : Valid l) : ∃ (w : ℝ) (F F' : ℂ),
    calcNucStrFac l w (atomsPlain [originItem none] 1 false) 0 = .ok F ∧
    calcNucStrFac (superLattice twofold l) w (atomsPlain (superComp twofold [originItem none]) 1 false) 0 =
      .ok F' ∧ F ≠ 0 := by
  obtain ⟨w, s, _, _, h1, h2⟩ := origin_factors hl none false
  exact ⟨w, _, _, h1, h2, by simp⟩

/-! ## C198: quantities of a sample -/

theorem superLattice_volume {l : Lattice} (hl : Valid l) {n : Fin 3 → ℕ} (hn : ∀ i, 0 < n i) {v : ℝ}
    (hv : l.volume = .ok v) : (superLattice n l).volume = .ok (cells n * v) := by
  obtain ⟨E, F, hE, hF⟩ := valid_realised hl
  obtain ⟨E', F', hE', hF'⟩ := valid_realised (superLattice_valid hl hn)
  obtain ⟨v1, h1, hp1, _, hs1⟩ := C38_volume hl hE
  obtain ⟨v2, h2, hp2, _, hs2⟩ := C38_volume (superLattice_valid hl hn) hE'
  rw [h1] at hv
  cases hv
  rw [h2]
  have p : (0 : ℝ) < cells n := by
    have : 0 < cells n := Nat.mul_pos (Nat.mul_pos (hn 0) (hn 1)) (hn 2)
    exact_mod_cast this
  congr 1
  have hsq : v2 ^ 2 = (cells n * v) ^ 2 := by
    rw [hs2, mul_pow, hs1]
    have e : ∀ A B C : ℝ, (n 0 * l.a) ^ 2 * (n 1 * l.b) ^ 2 * (n 2 * l.c) ^ 2 *
        (1 + 2 * A * B * C - A ^ 2 - B ^ 2 - C ^ 2) =
        ((n 0 * n 1 * n 2 : ℕ) : ℝ) ^ 2 * (l.a ^ 2 * l.b ^ 2 * l.c ^ 2 *
          (1 + 2 * A * B * C - A ^ 2 - B ^ 2 - C ^ 2)) := by
      intro A B C
      push_cast
      ring
    exact e (cos l.alphaRad) (cos l.betaRad) (cos l.gammaRad)
  exact (sq_eq_sq₀ hp2.le (mul_pos p hp1).le).1 hsq

/-- Sums over the atoms of the larger cell. -/
theorem super_xs (n : Fin 3 → ℕ) (comp : List Item) (fu fu' : ℝ) (mn mn' : Bool) (f : Atom → ℝ) (g : Item → ℝ)
    (hf : ∀ it p m b u v, f (mkAtom it p m b u v) = g it) (hg : ∀ it p, g { it with pos := p } = g it) :
    ((atomsPlain (superComp n comp) fu' mn').map f).sum = cells n * ((atomsPlain comp fu mn).map f).sum := by
  unfold atomsPlain
  rw [List.map_map, List.map_map, ← List.sum_map_mul_left]
  have e1 : (f ∘ fun it => mkAtom it it.pos (muCell (superComp n comp) * fu') mn' (it.uiso.getD 0) (it.uaniso.getD 0)) = g :=
    funext fun it => hf ..
  have e2 : (f ∘ fun it => mkAtom it it.pos (muCell comp * fu) mn (it.uiso.getD 0) (it.uaniso.getD 0)) = g :=
    funext fun it => hf ..
  rw [e1, e2]
  unfold superComp
  rw [sum_flatMapR]
  congr 1
  refine List.map_congr_left fun it _ => ?_
  rw [sum_copies_real]
  simp only [hg, Finset.sum_const, Finset.card_range, nsmul_eq_mul, cells]
  push_cast
  ring

/-- **C198** the optimal thickness does not depend on the choice of the cell. -/
theorem C198_thickness {l : Lattice} (hl : Valid l) {n : Fin 3 → ℕ} (hn : ∀ i, 0 < n i) (comp : List Item)
    (fu fu' energy transmission : ℝ) (mn mn' : Bool) :
    optimalThickness (superLattice n l) energy transmission (atomsPlain (superComp n comp) fu' mn') =
      optimalThickness l energy transmission (atomsPlain comp fu mn) := by
  obtain ⟨E, F, hE, hF⟩ := valid_realised hl
  obtain ⟨v, hv, hp, _, _⟩ := C38_volume hl hE
  unfold optimalThickness
  rw [superLattice_volume hl hn hv, hv, ok_bind, ok_bind]
  congr 1
  have p : (cells n : ℝ) ≠ 0 := by
    have : 0 < cells n := Nat.mul_pos (Nat.mul_pos (hn 0) (hn 1)) (hn 2)
    exact_mod_cast this.ne'
  unfold sigmaT
  rw [super_xs n comp fu fu' mn mn' (fun a => a.occupancy * a.cohXs) (fun it => it.occupancy * it.cohXs)
      (fun _ _ _ _ _ _ => rfl) (fun _ _ => rfl),
    super_xs n comp fu fu' mn mn' (fun a => a.occupancy * a.incXs) (fun it => it.occupancy * it.incXs)
      (fun _ _ _ _ _ _ => rfl) (fun _ _ => rfl),
    super_xs n comp fu fu' mn mn' (fun a => a.occupancy * a.absXs) (fun it => it.occupancy * it.absXs)
      (fun _ _ _ _ _ _ => rfl) (fun _ _ => rfl)]
  field_simp

theorem dwIso_rigid {l : Lattice} {w : ℝ} {a : Atom} (h : a.uiso = 0) {d : ℝ} (hd : dwIso l w a = .ok d) :
    d = 1 := by
  obtain ⟨s, _, _, _, he, _⟩ := dwIso_ok hd
  rw [he, h]
  simp

theorem incoh_fold_rigid {l : Lattice} {w : ℝ} {atoms : List Atom} (hr : ∀ a ∈ atoms, a.uiso = 0) {s x : ℝ}
    (h : atoms.foldlM (fun s a => do pure (s + a.incXs * (← dwIso l w a))) s = .ok x) :
    x = s + (atoms.map fun a => a.incXs).sum := by
  induction atoms generalizing s with
  | nil => cases h; simp
  | cons a as ih =>
    rw [List.foldlM_cons, bind_eq_ok] at h
    obtain ⟨t, ht, h⟩ := h
    rw [bind_eq_ok] at ht
    obtain ⟨d, hd, ht⟩ := ht
    cases ht
    rw [ih (fun b hb => hr b (List.mem_cons_of_mem _ hb)) h, dwIso_rigid (hr a (List.mem_cons_self ..)) hd]
    simp only [List.map_cons, List.sum_cons]
    ring

/-- **C198** without displacement parameters the incoherent cross section of a sample does not
depend on the choice of the cell (as long as both are numbers). -/
theorem C198_incoherent_partial {l : Lattice} {w : ℝ} {n : Fin 3 → ℕ} (hn : ∀ i, 0 < n i)
    {comp : List Item} (hr : AtRest comp) (hm : muCell comp ≠ 0) (avogadro mass fu fu' : ℝ) (mn mn' : Bool) {x x' : ℝ}
    (h : incohElasXs l w (some (nAtoms avogadro mass comp)) (atomsPlain comp fu mn) = .ok x)
    (h' : incohElasXs (superLattice n l) w (some (nAtoms avogadro mass (superComp n comp)))
      (atomsPlain (superComp n comp) fu' mn') = .ok x') : x' = x := by
  have rest : ∀ {c : List Item} (_ : AtRest c) (f : ℝ) (m : Bool), ∀ a ∈ atomsPlain c f m, a.uiso = 0 := by
    intro c hc f m a ha
    obtain ⟨it, hit, rfl⟩ := List.mem_map.1 ha
    simp [mkAtom, (hc it hit).1]
  unfold incohElasXs at h h'
  rw [bind_eq_ok] at h h'
  obtain ⟨s, hs, h⟩ := h
  obtain ⟨s', hs', h'⟩ := h'
  cases h
  cases h'
  rw [incoh_fold_rigid (rest hr fu mn) hs, incoh_fold_rigid (rest (hr.super n) fu' mn') hs',
    super_xs n comp fu fu' mn mn' (fun a => a.incXs) (fun it => it.incXs)
      (fun _ _ _ _ _ _ => rfl) (fun _ _ => rfl)]
  unfold nAtoms
  rw [superComp_muCell]
  have p : (cells n : ℝ) ≠ 0 := by
    have : 0 < cells n := Nat.mul_pos (Nat.mul_pos (hn 0) (hn 1)) (hn 2)
    exact_mod_cast this.ne'
  field_simp
  ring

/-- One incoherently scattering entry at the origin, with displacements. -/
def originIncoherent : Item := ⟨10, 1, 0, 1, some 1, none, 0, 1, 0⟩

/-- **C198** is false for the incoherent cross section of displaced atoms: in every unit cell the
copies of an atom at the origin are attenuated differently. -/
theorem C198_incoherent_false {l : Lattice} (hl : Valid l) {avogadro mass : ℝ} (ha : 0 < avogadro)
    (hm : 0 < mass) : ∃ (w : ℝ) (comp : List Item) (x x' : ℝ), 0 < w ∧
    incohElasXs l w (some (nAtoms avogadro mass comp)) (atomsPlain comp 1 false) = .ok x ∧
    incohElasXs (superLattice twofold l) w (some (nAtoms avogadro mass (superComp twofold comp)))
      (atomsPlain (superComp twofold comp) 1 false) = .ok x' ∧ x' < x := by
  obtain ⟨w, s, hw, hs, hdw⟩ := half_reachable hl
  have hv := superLattice_valid hl (n := twofold) (by decide)
  have hcomp : superComp twofold [originIncoherent] =
      [originIncoherent, { originIncoherent with pos := ![1 / 2, 0, 0] }] := by
    simp [superComp, cellCopies, twofold, List.range_succ, superPos, originIncoherent]
  have hmu : muCell [originIncoherent] = 1 := by simp [muCell, originIncoherent]
  have hmu' : muCell (superComp twofold [originIncoherent]) = 2 := by
    rw [superComp_muCell, hmu]; simp [cells, twofold]
  refine ⟨w, [originIncoherent], avogadro * mass / 1 / (4 * π) * (0 + 1 * 1), avogadro * mass / 2 / (4 * π) *
    (0 + 1 * 1 + 1 * exp (-(8 * π ^ 2 * 1 * s / w ^ 2))), hw, ?_, ?_, ?_⟩
  · unfold incohElasXs atomsPlain nAtoms
    rw [hmu]
    simp only [List.map_cons, List.map_nil, List.foldlM_cons, List.foldlM_nil]
    rw [dwIso_origin hl hw.ne' rfl]
    rfl
  · unfold incohElasXs atomsPlain nAtoms
    rw [hmu', hcomp]
    simp only [List.map_cons, List.map_nil, List.foldlM_cons, List.foldlM_nil]
    rw [dwIso_origin hv hw.ne' rfl, hdw _ rfl]
    rfl
  · have hlt : exp (-(8 * π ^ 2 * 1 * s / w ^ 2)) < 1 := by
      rw [exp_lt_one_iff, neg_lt_zero]
      have := pi_pos
      positivity
    have hpi := pi_pos
    have hk : 0 < avogadro * mass / (4 * π) := by positivity
    have e1 : avogadro * mass / 1 / (4 * π) * (0 + 1 * 1) = avogadro * mass / (4 * π) := by ring
    have e2 : ∀ e : ℝ, avogadro * mass / 2 / (4 * π) * (0 + 1 * 1 + 1 * e) =
        avogadro * mass / (4 * π) * ((1 + e) / 2) := by intro e; ring
    rw [e1, e2]
    nlinarith

end Verif.Structure
