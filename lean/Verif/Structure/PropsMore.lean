import Verif.Structure.Props
import Verif.Structure.PropsXs
import Mathlib.Tactic.Positivity
import Mathlib.Tactic.FieldSimp

/-! # Properties C103 to C106 and additions to C50 and C89: displacement parameters, cross sections,
number of atoms -/

namespace Verif.Structure

open Real Matrix Verif.Crystal

variable {l : Lattice} {w : ℝ}

/-! ## C103: displacement parameters -/

theorem dwIso_ok {a : Atom} {d : ℝ} (h : dwIso l w a = .ok d) :
    ∃ s : ℝ, 0 ≤ s ∧ s ≤ 1 ∧ w ≠ 0 ∧ d = exp (-(8 * π ^ 2 * a.uiso * s / w ^ 2)) ∧
      ∀ b : Atom, b.pos = a.pos → dwIso l w b = .ok (exp (-(8 * π ^ 2 * b.uiso * s / w ^ 2))) := by
  unfold dwIso at h
  rw [bind_eq_ok] at h
  obtain ⟨tt, htt, h⟩ := h
  rw [bind_eq_ok] at h
  obtain ⟨q, hq, h⟩ := h
  have hw : w ^ 2 ≠ 0 := by
    intro h0
    unfold npDiv at hq
    rw [h0] at hq
    split_ifs at hq <;> simp_all
  rw [npDiv_ok hw] at hq
  cases hq
  cases h
  refine ⟨sin (deg2rad (tt / 2)) ^ 2, sq_nonneg _, sin_sq_le_one _, fun h => hw (by rw [h]; simp), ?_, ?_⟩
  · congr 1; ring
  · intro b hb
    unfold dwIso
    rw [hb, htt, ok_bind, npDiv_ok hw, ok_bind, pure_ok]
    congr 2
    ring

/-- The isotropic displacement is not negative and the anisotropic tensor is positive semidefinite. -/
def Physical (a : Atom) : Prop := 0 ≤ a.uiso ∧ ∀ v : Vec, 0 ≤ (v ᵥ* a.uaniso) ⬝ᵥ v

/-- **C103** displacement parameters never raise the structure factor above the bound for atoms at
rest. -/
theorem C103_damped {atoms : List Atom} (hp : ∀ a ∈ atoms, Physical a) {hkl : Vec} {F : ℂ}
    (h : calcNucStrFac l w atoms hkl = .ok F) : ‖F‖ ≤ (atoms.map fun a => |a.occupancy| * ‖a.b‖).sum := by
  have hdef := (calc_eq_ok.1 h).1
  let d : Atom → ℝ := fun a => match dwIso l w a with | .ok x => x | .error _ => 0
  have hd : ∀ a ∈ atoms, dwIso l w a = .ok (d a) := by
    intro a ha
    obtain ⟨x, hx⟩ := hdef a ha
    unfold amp at hx
    rw [bind_eq_ok] at hx
    obtain ⟨y, hy, _⟩ := hx
    simp only [d, hy]
  refine (C51_bound h d hd).trans (List.sum_le_sum fun a ha => ?_)
  obtain ⟨s, h0, _, _, hs, _⟩ := dwIso_ok (hd a ha)
  have h1 : d a ≤ 1 := by
    rw [hs, exp_le_one_iff]
    have := (hp a ha).1
    exact neg_nonpos.2 (by positivity)
  have h2 : dwAniso a ≤ 1 := exp_le_one_iff.2 (neg_nonpos.2 ((hp a ha).2 _))
  have h3 : 0 ≤ d a := by rw [hs]; exact (exp_pos _).le
  have h4 : 0 ≤ dwAniso a := (exp_pos _).le
  calc |a.occupancy| * ‖a.b‖ * d a * dwAniso a ≤ |a.occupancy| * ‖a.b‖ * 1 * 1 := by gcongr
    _ = _ := by ring

/-- **C103** raising the displacement of the only atom of a cell lowers the structure factor. -/
theorem C103_monotone {a : Atom} {u : ℝ} (hu : a.uiso ≤ u) {hkl : Vec} {F : ℂ}
    (h : calcNucStrFac l w [a] hkl = .ok F) :
    ∃ F', calcNucStrFac l w [{ a with uiso := u }] hkl = .ok F' ∧ ‖F'‖ ≤ ‖F‖ := by
  rw [calc_eq_ok] at h
  obtain ⟨hd, rfl⟩ := h
  obtain ⟨x, hx⟩ := hd a (List.mem_singleton.2 rfl)
  have hx' := hx
  unfold amp at hx
  rw [bind_eq_ok] at hx
  obtain ⟨d, hdw, hx⟩ := hx
  obtain ⟨s, h0, _, hw, hs, hb⟩ := dwIso_ok hdw
  have hb' := hb { a with uiso := u } rfl
  have hA : amp l w { a with uiso := u } =
      .ok (a.occupancy * a.b * (exp (-(8 * π ^ 2 * u * s / w ^ 2)) : ℝ) * dwAniso a) := by
    unfold amp
    rw [hb']
    rfl
  refine ⟨_, calc_ok (fun b hb => ?_) hkl, ?_⟩
  · rw [List.mem_singleton] at hb
    subst hb
    exact ⟨_, hA⟩
  · simp only [total, List.map_cons, List.map_nil, List.sum_cons, List.sum_nil, add_zero, ampOf, hA, hx']
    cases hx
    simp only [norm_mul, phase_norm, Complex.norm_real, Real.norm_eq_abs, mul_one]
    rw [hs, abs_of_pos (exp_pos _), abs_of_pos (exp_pos _)]
    have : exp (-(8 * π ^ 2 * u * s / w ^ 2)) ≤ exp (-(8 * π ^ 2 * a.uiso * s / w ^ 2)) := by
      rw [exp_le_exp]
      gcongr
    gcongr

/-- **C103** is false as stated: the attenuation does not depend on the reflection at all. -/
theorem C103_not_by_reflection {a : Atom} {hkl hkl' : Vec} {F F' : ℂ}
    (h : calcNucStrFac l w [a] hkl = .ok F) (h' : calcNucStrFac l w [a] hkl' = .ok F') : ‖F'‖ = ‖F‖ := by
  rw [calc_eq_ok] at h h'
  rw [h.2, h'.2]
  simp only [total, List.map_cons, List.map_nil, List.sum_cons, List.sum_nil, add_zero, norm_mul, phase_norm]

/-- **C103** an atom at the origin is not attenuated, however large its displacements. -/
theorem C103_origin_ignored (hl : Valid l) (hw : w ≠ 0) {a : Atom} (ha : a.pos = 0) (hkl : Vec) :
    calcNucStrFac l w [a] hkl = .ok (a.occupancy * a.b) := by
  have hA : amp l w a = .ok (a.occupancy * a.b) := by
    unfold amp
    rw [dwIso_origin hl hw ha, ok_bind, pure_ok]
    simp [dwAniso, ha]
  rw [calc_eq_ok]
  constructor
  · intro b hb
    rw [List.mem_singleton] at hb
    subst hb
    exact ⟨_, hA⟩
  · simp [total, ampOf, hA, phase, ha]

/-- The textbook attenuation at a reflection with the Bragg angle `θ`. -/
noncomputable def debyeWaller (u w θ : ℝ) : ℝ := exp (-(8 * π ^ 2 * u * sin θ ^ 2 / w ^ 2))

/-- **C103** is false as stated: at every reachable reflection of every unit cell there is a single
atom with a displacement whose structure factor is not the one at rest times the textbook
attenuation. -/
theorem C103_false (hl : Valid l) (hw : 0 < w) {hkl : Vec} (hne : hkl ≠ 0) {d : ℝ}
    (hd : l.getDSpacing hkl = .ok d) (hle : w ≤ 2 * d) : ∃ (a : Atom) (tt : ℝ) (F : ℂ), Physical a ∧
    l.getTwoTheta hkl w = .ok tt ∧ calcNucStrFac l w [a] hkl = .ok F ∧
    ‖F‖ ≠ |a.occupancy| * ‖a.b‖ * debyeWaller a.uiso w (deg2rad (tt / 2)) := by
  obtain ⟨tt, htt, _, _, hb⟩ := C41_bragg hl hne hd hw.le hle
  refine ⟨⟨0, 1, 1, 1, 0, 0, 0, 0⟩, tt, _, ⟨zero_le_one, fun v => by simp⟩, htt,
    C103_origin_ignored hl hw.ne' rfl hkl, ?_⟩
  have hs : sin (deg2rad (tt / 2)) ≠ 0 := by
    intro h0
    unfold deg2rad at h0
    rw [h0, mul_zero] at hb
    exact hw.ne' hb
  have h1 : debyeWaller 1 w (deg2rad (tt / 2)) < 1 := by
    unfold debyeWaller
    rw [exp_lt_one_iff]
    exact neg_neg_of_pos (by positivity)
  simp only [Complex.ofReal_one, one_mul, norm_one, abs_one]
  exact h1.ne'

/-- A reachable reflection for `C103_false`. -/
example : ∃ (w d : ℝ), 0 < w ∧ Lattice.getDSpacing ⟨4, 4, 4, 90, 90, 90⟩ ![1, 0, 0] = .ok d ∧ w ≤ 2 * d := by
  have hv : Valid ⟨4, 4, 4, 90, 90, 90⟩ := by constructor <;> norm_num
  have hne : (![1, 0, 0] : Vec) ≠ 0 := fun h => by simpa using congrFun h 0
  obtain ⟨E, F, hE, hF⟩ := valid_realised hv
  obtain ⟨d, h1, hdpos, _, _⟩ := C41_spacing hv hE hF hne
  exact ⟨d, d, hdpos, h1, by linarith⟩

/-- An atom with displacements for `C103_damped` and `C103_monotone`. -/
example : Physical ⟨![0.1, 0.2, 0.3], 1, 0.9, 0.01, 1, 11, 0.4, 2.6⟩ :=
  ⟨by norm_num, fun v => by
    simp only [Matrix.vecMul_one]
    exact Finset.sum_nonneg fun i _ => mul_self_nonneg _⟩

/-! ## C50: units -/

/-- **C50** without mass normalisation the scattering amplitudes are the tabulated lengths in units of
10 fm, times the occupancy. -/
theorem C50_lengths {comp : List Item} {fu : ℝ} (hr : ∀ it ∈ comp, it.uiso = none ∧ it.uaniso = none)
    {hkl : Vec} {F : ℂ} (h : calcNucStrFac l w (atomsPlain comp fu false) hkl = .ok F) :
    F = (comp.map fun it => (it.occupancy : ℂ) * (it.b0 / 10) *
      Complex.exp (2 * π * Complex.I * (hkl 0 * it.pos 0 + hkl 1 * it.pos 1 + hkl 2 * it.pos 2))).sum := by
  rw [calc_eq_ok] at h
  have hrig : ∀ a ∈ atomsPlain comp fu false, Rigid a := by
    intro a ha
    obtain ⟨it, hit, rfl⟩ := List.mem_map.1 ha
    obtain ⟨h1, h2⟩ := hr it hit
    simp [Rigid, mkAtom, h1, h2]
  rw [h.2, total_rigid hrig h.1, atomsPlain, List.map_map]
  congr 1
  refine List.map_congr_left fun it _ => ?_
  simp only [Function.comp, mkAtom, phase, Bool.false_eq_true, if_false]
  congr 2
  ring

/-! ## C104: the total cross section -/

/-- **C104** (partial: full occupancy) the total scattering cross section is the sum that
`calc_optimal_thickness` uses, at an energy where absorption is left out. -/
theorem C104_total_partial {atoms : List Atom} (h : ∀ a ∈ atoms, a.occupancy = 1) :
    totalXs atoms = (atoms.map fun a => a.occupancy * (a.cohXs + a.incXs)).sum := by
  unfold totalXs
  congr 1
  refine List.map_congr_left fun a ha => ?_
  rw [h a ha, one_mul]

/-- **C104** what is returned does not depend on the occupancies. -/
theorem C104_occupancy_ignored (atoms : List Atom) (f : Atom → ℝ) :
    totalXs (atoms.map fun a => { a with occupancy := f a }) = totalXs atoms := by
  unfold totalXs
  rw [List.map_map]
  rfl

/-- **C104** is false as stated: half occupied, an atom counts in full. -/
theorem C104_false : ∃ (atoms : List Atom), (∀ a ∈ atoms, 0 ≤ a.occupancy ∧ a.occupancy ≤ 1) ∧
    totalXs atoms ≠ (atoms.map fun a => a.occupancy * (a.cohXs + a.incXs)).sum := by
  refine ⟨[⟨0, 1 / 2, 0.9, 0, 0, 11, 1, 2⟩], ?_, ?_⟩
  · intro a ha
    rw [List.mem_singleton] at ha
    subst ha
    norm_num
  · norm_num [totalXs]

/-! ## C105: the number of atoms -/

/-- **C105** (partial) if a sample contains `k` times the composition, and weighs `mass` grams, then
`N_atoms` is `k`, the number of formula units. -/
theorem C105_units_partial {avogadro mass k : ℝ} {comp : List Item} (hne : muCell comp ≠ 0)
    (h : (comp.map fun it => (k * it.occupancy) * it.mass).sum = avogadro * mass) :
    nAtoms avogadro mass comp = k := by
  have e : (comp.map fun it => (k * it.occupancy) * it.mass).sum = k * muCell comp := by
    unfold muCell
    rw [← List.sum_map_mul_left]
    congr 1
    exact List.map_congr_left fun it _ => by ring
  unfold nAtoms
  rw [← h, e, mul_div_assoc, div_self hne, mul_one]

/-- **C105** the number of atoms that the sample contains is `N_atoms` times the atoms of a formula
unit. -/
theorem C105_atoms {avogadro mass k : ℝ} {comp : List Item} (hne : muCell comp ≠ 0)
    (h : (comp.map fun it => (k * it.occupancy) * it.mass).sum = avogadro * mass) :
    (comp.map fun it => k * it.occupancy).sum =
      nAtoms avogadro mass comp * (comp.map fun it => it.occupancy).sum := by
  rw [C105_units_partial hne h, List.sum_map_mul_left]

/-- **C105** is false as stated: two grams of hydrogen-like atoms in pairs are counted once per
pair. -/
theorem C105_false : ∃ (avogadro mass k : ℝ) (comp : List Item), muCell comp ≠ 0 ∧
    (comp.map fun it => (k * it.occupancy) * it.mass).sum = avogadro * mass ∧
    nAtoms avogadro mass comp ≠ (comp.map fun it => k * it.occupancy).sum := by
  refine ⟨6, 2, 6, [⟨1, 1, 0, 1, none, none, 0, 0, 0⟩, ⟨1, 1, 0, 1, none, none, 0, 0, 0⟩], ?_, ?_, ?_⟩ <;>
    norm_num [muCell, nAtoms]

/-! ## C106: the incoherent cross section -/

theorem incoh_fold {atoms : List Atom} {d : Atom → ℝ} (hd : ∀ a ∈ atoms, dwIso l w a = .ok (d a)) (s : ℝ) :
    atoms.foldlM (fun s a => do pure (s + a.incXs * (← dwIso l w a))) s =
      .ok (s + (atoms.map fun a => a.incXs * d a).sum) := by
  induction atoms generalizing s with
  | nil => simp [pure_ok]
  | cons a as ih =>
    rw [List.foldlM_cons, hd a (List.mem_cons_self ..)]
    refine (ih (fun b hb => hd b (List.mem_cons_of_mem _ hb)) _).trans ?_
    simp only [List.map_cons, List.sum_cons]
    congr 1
    ring

theorem incoh_defined {atoms : List Atom} {s x : ℝ}
    (h : atoms.foldlM (fun s a => do pure (s + a.incXs * (← dwIso l w a))) s = .ok x) :
    ∀ a ∈ atoms, ∃ d, dwIso l w a = .ok d := by
  induction atoms generalizing s with
  | nil => intro a ha; cases ha
  | cons a as ih =>
    rw [List.foldlM_cons] at h
    cases hx : dwIso l w a with
    | error e => rw [hx] at h; cases h
    | ok y =>
      rw [hx] at h
      intro b hb
      rcases List.mem_cons.1 hb with rfl | hb
      · exact ⟨y, hx⟩
      · exact ih h b hb

/-- **C106** the cross section of a sample of a given mass is the one without mass times the number
returned by `N_atoms`. -/
theorem C106_mass {n x : ℝ} {atoms : List Atom} :
    incohElasXs l w none atoms = .ok x → incohElasXs l w (some n) atoms = .ok (n * x) := by
  unfold incohElasXs
  intro h
  rw [bind_eq_ok] at h ⊢
  obtain ⟨s, hs, h⟩ := h
  cases h
  exact ⟨s, hs, by simp only [pure_ok]; congr 1; ring⟩

/-- **C106** for atoms at rest it is the sum of the tabulated cross sections per solid angle, and with
displacements no more than that. -/
theorem C106_bound {x : ℝ} {atoms : List Atom} (h : incohElasXs l w none atoms = .ok x)
    (hp : ∀ a ∈ atoms, 0 ≤ a.incXs ∧ 0 ≤ a.uiso) :
    0 ≤ x ∧ x ≤ (atoms.map fun a => a.incXs).sum / (4 * π) ∧
    ((∀ a ∈ atoms, a.uiso = 0) → x = (atoms.map fun a => a.incXs).sum / (4 * π)) := by
  unfold incohElasXs at h
  rw [bind_eq_ok] at h
  obtain ⟨s, hs, h⟩ := h
  have hdef := incoh_defined hs
  let d : Atom → ℝ := fun a => match dwIso l w a with | .ok x => x | .error _ => 0
  have hd : ∀ a ∈ atoms, dwIso l w a = .ok (d a) := by
    intro a ha
    obtain ⟨y, hy⟩ := hdef a ha
    simp only [d, hy]
  rw [incoh_fold hd, zero_add] at hs
  cases hs
  cases h
  have hd1 : ∀ a ∈ atoms, 0 ≤ d a ∧ d a ≤ 1 ∧ (a.uiso = 0 → d a = 1) := by
    intro a ha
    obtain ⟨s, h0, _, _, hs, _⟩ := dwIso_ok (hd a ha)
    have := (hp a ha).2
    refine ⟨by rw [hs]; positivity, ?_, fun h0 => by rw [hs, h0]; simp⟩
    rw [hs, exp_le_one_iff]
    exact neg_nonpos.2 (by positivity)
  refine ⟨div_nonneg (List.sum_nonneg ?_) (by positivity), ?_, ?_⟩
  · intro y hy
    obtain ⟨a, ha, rfl⟩ := List.mem_map.1 hy
    exact mul_nonneg (hp a ha).1 (hd1 a ha).1
  · refine div_le_div_of_nonneg_right (List.sum_le_sum fun a ha => ?_) (by positivity)
    exact mul_le_of_le_one_right (hp a ha).1 (hd1 a ha).2.1
  · intro h0
    congr 2
    refine List.map_congr_left fun a ha => ?_
    rw [(hd1 a ha).2.2 (h0 a ha), mul_one]

/-- **C106** the occupancies have no influence. -/
theorem C106_occupancy_ignored (n : Option ℝ) (atoms : List Atom) (f : Atom → ℝ) :
    incohElasXs l w n (atoms.map fun a => { a with occupancy := f a }) = incohElasXs l w n atoms := by
  unfold incohElasXs
  rw [List.foldlM_map]
  rfl

/-- **C106** is false as stated: an atom with half the occupancy does not contribute half. -/
theorem C106_false : ∃ (l : Lattice) (a : Atom) (x : ℝ), Valid l ∧ a.occupancy = 1 / 2 ∧ a.uiso = 0 ∧
    incohElasXs l 2 none [a] = .ok x ∧ x ≠ a.occupancy * a.incXs / (4 * π) := by
  have hv : Valid ⟨4, 4, 4, 90, 90, 90⟩ := by constructor <;> norm_num
  let a : Atom := ⟨0, 1 / 2, 0.9, 0, 0, 11, 1, 2⟩
  have h : incohElasXs ⟨4, 4, 4, 90, 90, 90⟩ 2 none [a] = .ok (1 / (4 * π)) := by
    unfold incohElasXs
    have := incoh_fold (l := ⟨4, 4, 4, 90, 90, 90⟩) (w := 2) (atoms := [a]) (d := fun _ => 1)
      (fun b hb => by
        rw [List.mem_singleton] at hb
        subst hb
        exact dwIso_origin hv (by norm_num) rfl) 0
    rw [this, ok_bind]
    simp [pure_ok, a]
  refine ⟨_, a, _, hv, rfl, rfl, h, ?_⟩
  simp only [a]
  rw [Ne, div_left_inj' (by positivity)]
  norm_num

/-! ## C89: every order from its own table -/

/-- **C89** the averages of order zero, two and four are those of their own tables, written out with
`s = q/4π`. -/
theorem C89_orders (j0 j2 j4 : Coeffs) (g : Option ℝ) (q s : ℝ) (hs : q = 4 * π * s) :
    (magFormFac j0 j2 j4 g q).2 =
      (j0.c0 * exp (-(j0.c1 * s ^ 2)) + j0.c2 * exp (-(j0.c3 * s ^ 2)) + j0.c4 * exp (-(j0.c5 * s ^ 2)) + j0.c6,
       s ^ 2 * (j2.c0 * exp (-(j2.c1 * s ^ 2)) + j2.c2 * exp (-(j2.c3 * s ^ 2)) + j2.c4 * exp (-(j2.c5 * s ^ 2)) + j2.c6),
       s ^ 2 * (j4.c0 * exp (-(j4.c1 * s ^ 2)) + j4.c2 * exp (-(j4.c3 * s ^ 2)) + j4.c4 * exp (-(j4.c5 * s ^ 2)) + j4.c6)) := by
  have : q / 4 / π = s := by rw [hs]; field_simp
  simp only [magFormFac, gauss3, this, neg_mul]

end Verif.Structure
