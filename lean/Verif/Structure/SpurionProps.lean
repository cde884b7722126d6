import Verif.Structure.Spurion
import Verif.Structure.PropsGroup
import Verif.Crystal.PropsGeom

/-! # Property C162: the aluminum rings -/

namespace Verif.Structure.Spurion

open Real Matrix Verif.Crystal Verif.Symmetry

/-! ## Specification -/

/-- The edge of the cubic cell of aluminum in Å. -/
noncomputable def edge : ℝ := 4.0495

/-- The spacing of the planes of a cubic lattice. -/
noncomputable def spacing (hkl : Fin 3 → ℤ) : ℝ := edge / √((hkl 0) ^ 2 + (hkl 1) ^ 2 + (hkl 2) ^ 2)

/-- A neutron of wavelength `l` is scattered by the planes through `t` degrees. -/
def Bragg (hkl : Fin 3 → ℤ) (l t : ℝ) : Prop :=
  0 < t ∧ t ≤ 180 ∧ l = 2 * spacing hkl * sin (t / 2 * π / 180)

/-- The four atoms of the face-centred cell. -/
noncomputable def cell : List Vec := [0, ![1 / 2, 1 / 2, 0], ![1 / 2, 0, 1 / 2], ![0, 1 / 2, 1 / 2]]

/-- The structure factor of the cell for scattering length `b`, without thermal motion. -/
noncomputable def strFac (b : ℂ) (hkl : Fin 3 → ℤ) : ℂ :=
  (cell.map fun p => b * Complex.exp (2 * π * Complex.I * (hkl 0 * p 0 + hkl 1 * p 1 + hkl 2 * p 2 : ℝ))).sum

/-- The wavelength in Å of a neutron with an energy in meV. -/
noncomputable def wavelength (c : Verif.Energy.Consts) (energy : ℝ) : ℝ :=
  c.h / √(2 * c.m * (energy / c.J)) * 10 ^ 10

/-- The reflections and the orders that are listed. -/
def listed : List ((Fin 3 → ℤ) × ℤ) :=
  [![1, 1, 1], ![2, 0, 0], ![2, 2, 0], ![3, 1, 1]].product [1, 2, 3]

/-! ## The lattice -/

theorem lattice_valid : Valid lattice := by constructor <;> norm_num [lattice]

theorem lattice_G : lattice.G = (edge ^ 2) • (1 : Mat) := by
  ext i j
  fin_cases i <;> fin_cases j <;>
    simp [Lattice.G, lattice, edge, Lattice.alphaRad, Lattice.betaRad, Lattice.gammaRad, cos90]

theorem edge_pos : 0 < edge := by norm_num [edge]

theorem lattice_Gstar : lattice.Gstar = .ok ((4 * π ^ 2 / edge ^ 2) • (1 : Mat)) := by
  have he := edge_pos
  unfold Lattice.Gstar
  have hdet : lattice.G.det ≠ 0 := by
    rw [lattice_G, Matrix.det_smul, Matrix.det_one]; simp; exact he.ne'
  rw [if_neg hdet, lattice_G]
  congr 1
  have : ((edge ^ 2) • (1 : Mat))⁻¹ = (edge ^ 2)⁻¹ • (1 : Mat) := by
    apply Matrix.inv_eq_right_inv
    rw [Matrix.smul_mul, Matrix.one_mul, smul_smul, mul_inv_cancel₀ (by positivity), one_smul]
  rw [this, smul_smul]
  rfl

theorem dSpacing_vec (v : Vec) (hv : 0 < v ⬝ᵥ v) : lattice.getDSpacing v = .ok (edge / √(v ⬝ᵥ v)) := by
  have he := edge_pos
  have hp := pi_pos
  unfold Lattice.getDSpacing
  rw [lattice_Gstar, ok_bind, smul_smul, Matrix.vecMul_smul, Matrix.vecMul_one, smul_dotProduct]
  have e : (1 / 4 / π ^ 2 * (4 * π ^ 2 / edge ^ 2)) • (v ⬝ᵥ v) = (v ⬝ᵥ v) / edge ^ 2 := by
    rw [smul_eq_mul]; field_simp
  rw [e, npSqrt_ok (by positivity), ok_bind, sqrt_div hv.le, sqrt_sq he.le, npDiv_ok, one_div_div]
  have := Real.sqrt_pos.2 hv
  positivity

theorem dSpacing_ok {hkl : Fin 3 → ℤ} (h : hkl ≠ 0) : lattice.getDSpacing (fun i => hkl i) = .ok (spacing hkl) := by
  have e : (fun i => (hkl i : ℝ)) ⬝ᵥ (fun i => (hkl i : ℝ)) = (hkl 0) ^ 2 + (hkl 1) ^ 2 + (hkl 2) ^ 2 := by
    simp [dotProduct, Fin.sum_univ_three]; ring
  rw [dSpacing_vec, e, spacing]
  have : (fun i => (hkl i : ℝ)) ≠ 0 := fun h0 => h (by funext i; simpa using congrFun h0 i)
  exact lt_of_le_of_ne (dot_self_nonneg _) (fun h0 => this (dotProduct_self_eq_zero.1 h0.symm))

theorem spacing_pos {hkl : Fin 3 → ℤ} (h : hkl ≠ 0) : 0 < spacing hkl := by
  have := dSpacing_ok h
  obtain ⟨E, F, hE, hF⟩ := valid_realised lattice_valid
  have hne : (fun i => (hkl i : ℝ)) ≠ 0 := fun h0 => h (by funext i; simpa using congrFun h0 i)
  obtain ⟨d, h1, h2, _⟩ := C41_spacing lattice_valid hE hF hne
  rw [this] at h1
  cases h1
  exact h2

/-- The scattering angle. -/
theorem twoTheta_bragg {hkl : Fin 3 → ℤ} (h : hkl ≠ 0) {l : ℝ} (hl : 0 < l) :
    (l ≤ 2 * spacing hkl → ∃ t, lattice.getTwoTheta (fun i => hkl i) l = .ok t ∧ Bragg hkl l t) ∧
    (2 * spacing hkl < l → lattice.getTwoTheta (fun i => hkl i) l = .error .nan) := by
  have hne : (fun i => (hkl i : ℝ)) ≠ 0 := fun h0 => h (by funext i; simpa using congrFun h0 i)
  refine ⟨fun hle => ?_, fun hlt => C41_unreachable lattice_valid hne (dSpacing_ok h) hlt⟩
  obtain ⟨t, h1, h2, h3, h4⟩ := C41_bragg lattice_valid hne (dSpacing_ok h) hl.le hle
  refine ⟨t, h1, lt_of_le_of_ne h2 ?_, h3, h4⟩
  rintro rfl
  simp at h4
  exact hl.ne' h4

/-! ## The atoms -/

/-- What the operations of `Fm-3m` have in common: translations of the face-centred lattice. -/
structure Centring (o : Op) : Prop where
  odd : ∀ j, Odd (∑ i, o.rot i j)
  half : ∃ n : Fin 3 → ℤ, (∀ i, o.trans i = n i / 2) ∧ Even (∑ i, n i)

theorem Centring.comp {a b : Op} (ha : Centring a) (hb : Centring b) : Centring (comp a b) := by
  obtain ⟨n, hn, hne⟩ := ha.half
  obtain ⟨m, hm, hme⟩ := hb.half
  have swap : ∀ x : Fin 3 → ℤ, ∑ i, ∑ k, a.rot i k * x k = ∑ k, (∑ i, a.rot i k) * x k := by
    intro x
    rw [Finset.sum_comm]
    exact Finset.sum_congr rfl fun k _ => (Finset.sum_mul ..).symm
  have par : ∀ x : Fin 3 → ℤ, Even (∑ i, ∑ k, a.rot i k * x k) ↔ Even (∑ k, x k) := by
    intro x
    rw [swap, Fin.sum_univ_three (f := fun k => _ * x k), Fin.sum_univ_three (f := x)]
    have h0 := ha.odd 0
    have h1 := ha.odd 1
    have h2 := ha.odd 2
    generalize ∑ i, a.rot i 0 = p at *
    generalize ∑ i, a.rot i 1 = q at *
    generalize ∑ i, a.rot i 2 = r at *
    rw [← Int.not_even_iff_odd] at h0 h1 h2
    simp [Int.even_add, Int.even_mul, h0, h1, h2]
  constructor
  · intro j
    rw [← Int.not_even_iff_odd]
    have := par fun k => b.rot k j
    show ¬ Even (∑ i, ∑ k, a.rot i k * b.rot k j)
    rw [this, Int.not_even_iff_odd]
    exact hb.odd j
  · refine ⟨fun i => (∑ k, a.rot i k * m k) + n i - 2 * ⌊(∑ k, (a.rot i k : ℚ) * b.trans k) + a.trans i⌋, ?_, ?_⟩
    · intro i
      show Int.fract _ = _
      rw [Int.fract]
      push_cast
      simp only [hm, hn]
      simp only [Fin.sum_univ_three]
      ring
    · simp only [Finset.sum_sub_distrib, Finset.sum_add_distrib, ← Finset.mul_sum]
      rw [Int.even_sub, Int.even_add, par]
      simp [hme, hne]

/-- The check of the generators. -/
def centringCheck (o : Op) : Bool :=
  decide (∀ j, (∑ i, o.rot i j) % 2 = 1) && decide (∀ i, ((o.trans i * 2).num : ℚ) = o.trans i * 2) &&
    decide ((∑ i, (o.trans i * 2).num) % 2 = 0)

theorem centring_of_check {o : Op} (h : centringCheck o = true) : Centring o := by
  simp only [centringCheck, Bool.and_eq_true, decide_eq_true_eq] at h
  obtain ⟨⟨h1, h2⟩, h3⟩ := h
  refine ⟨fun j => Int.odd_iff.2 (h1 j), fun i => (o.trans i * 2).num, fun i => ?_, Int.even_iff.2 h3⟩
  rw [h2]
  ring

theorem lookup_mem {db : List Entry} {s : List Char} {e : Entry} (h : lookup db (.str s) = .ok e) : e ∈ db := by
  unfold lookup at h
  simp only at h
  split at h
  · rename_i x hx
    cases h
    exact List.mem_of_find?_eq_some hx
  · split at h
    · rename_i x hx
      cases h
      exact (List.mem_filter.1 (List.mem_of_getLast? hx)).1
    · cases h

/-- The group of aluminum: 192 operations with translations of the face-centred lattice. -/
theorem fm3m : ∃ e gens ops, spaceGroup database (.str cs!"Fm-3m") = .ok (e, gens, ops) ∧ ops.length = 192 ∧
    ∀ o ∈ ops, Centring o ∧ ∀ i, 0 ≤ o.trans i ∧ o.trans i < 1 := by
  have hc : (match lookup database (.str cs!"Fm-3m") with
      | .error _ => false
      | .ok e => decide (e.total = 192) && (match getGeneratorFromStr e.generators with
        | .error _ => false
        | .ok gens => gens.all centringCheck)) = true := by decide +kernel
  split at hc
  · cases hc
  rename_i e he
  simp only [Bool.and_eq_true, decide_eq_true_eq] at hc
  obtain ⟨ht, hg⟩ := hc
  have hmem := lookup_mem he
  obtain ⟨gens, ops, b, h1, h2, h3, h4, h5⟩ := C47_database e hmem
  rw [h1] at hg
  refine ⟨e, gens, ops, ?_, by rw [h4, ht], fun o ho => ⟨?_, (database_reduced hmem h1 h2).2 o ho⟩⟩
  · simp only [spaceGroup, he, h1, h2, ok_bind, pure_ok]
  · have := (h5 o).1 ho
    induction this with
    | base hb => exact centring_of_check (List.all_eq_true.1 hg _ hb)
    | comp ha hb iha ihb => exact Centring.comp (iha ((h5 _).2 ha)) (ihb ((h5 _).2 hb))

theorem atoms_of {it : Item} {r : Except Symmetry.Err (Entry × List Op × List Op)} {e : Entry} {gens ops : List Op}
    {as : List Atom} (hr : r = .ok (e, gens, ops)) (h : atomsGroup ops [it] 1 false = .ok as) :
    atomsIn r it = .ok as := by
  unfold atomsIn
  rw [hr]
  simp only [h]

/-- The scattering length used. -/
theorem atoms_ok (b0 : ℂ) (mass coh inc abs : ℝ) : ∃ as, atoms (item b0 mass coh inc abs) = .ok as ∧
    as.length = 192 ∧ ∀ a ∈ as, a.occupancy = 1 ∧ a.b = b0 / 10 ∧ a.uiso = 0 ∧ a.uaniso = 0 ∧
      ∃ n : Fin 3 → ℤ, (∀ i, a.pos i = n i / 2) ∧ Even (∑ i, n i) ∧ ∀ i, 0 ≤ n i ∧ n i < 2 := by
  obtain ⟨e, gens, ops, h, hlen, hops⟩ := fm3m
  refine ⟨(symmetrizePosition ops (0 : Vec)).map fun p => mkAtom (item b0 mass coh inc abs) p
    (muCell [item b0 mass coh inc abs] * 1) false 0 0, ?_, ?_, ?_⟩
  · refine atoms_of h ?_
    simp only [atomsGroup, List.zipIdx_cons, List.zipIdx_nil, List.mapM_cons, List.mapM_nil, uanisoUsed,
      List.length_cons, List.length_nil, beq_self_eq_true, if_true, ok_bind, pure_ok,
      List.flatten_cons, List.flatten_nil, List.append_nil]
    rfl
  · simp [symmetrizePosition, hlen]
  · intro a ha
    obtain ⟨p, hp, rfl⟩ := List.mem_map.1 ha
    obtain ⟨o, ho, rfl⟩ := List.mem_map.1 hp
    refine ⟨rfl, by simp [mkAtom, item], rfl, rfl, ?_⟩
    obtain ⟨⟨_, n, hn, hne⟩, hr⟩ := hops o ho
    have hpos : ∀ i, (act o (0 : Vec)) i = n i / 2 := by
      intro i
      simp [act, hn]
    refine ⟨n, hpos, hne, fun i => ?_⟩
    have := hr i
    rw [hn i] at this
    constructor
    · have h0 : (0 : ℚ) ≤ n i := by linarith [this.1]
      exact_mod_cast h0
    · have h0 : (n i : ℚ) < 2 := by linarith [this.2]
      exact_mod_cast h0

/-- Reflections of the face-centred lattice: indices all even or all odd. -/
def Unmixed (hkl : Fin 3 → ℤ) : Prop := hkl 0 % 2 = hkl 1 % 2 ∧ hkl 1 % 2 = hkl 2 % 2

theorem phase_one {hkl : Fin 3 → ℤ} (hu : Unmixed hkl) {p : Vec} {n : Fin 3 → ℤ} (hp : ∀ i, p i = n i / 2)
    (hn : Even (∑ i, n i)) : ∃ z : ℤ, (hkl 0 : ℝ) * p 0 + hkl 1 * p 1 + hkl 2 * p 2 = z := by
  obtain ⟨k, hk⟩ := hn
  obtain ⟨h1, h2⟩ := hu
  rw [Fin.sum_univ_three] at hk
  have hx : ∃ x, hkl 0 = hkl 2 + 2 * x := ⟨(hkl 0 - hkl 2) / 2, by omega⟩
  have hy : ∃ y, hkl 1 = hkl 2 + 2 * y := ⟨(hkl 1 - hkl 2) / 2, by omega⟩
  obtain ⟨x, hx⟩ := hx
  obtain ⟨y, hy⟩ := hy
  refine ⟨hkl 2 * k + x * n 0 + y * n 1, ?_⟩
  have hk' : (n 0 : ℝ) + n 1 + n 2 = k + k := by exact_mod_cast hk
  rw [hp, hp, hp, hx, hy]
  push_cast
  linear_combination (hkl 2 : ℝ) / 2 * hk'

theorem pos_norm {p : Vec} {n : Fin 3 → ℤ} (hp : ∀ i, p i = n i / 2) (hn : Even (∑ i, n i))
    (h : ∀ i, 0 ≤ n i ∧ n i < 2) : p = 0 ∨ p ⬝ᵥ p = 1 / 2 := by
  rw [Fin.sum_univ_three, Int.even_iff] at hn
  have h0 := h 0
  have h1 := h 1
  have h2 := h 2
  have e : p ⬝ᵥ p = ((n 0 : ℝ) ^ 2 + n 1 ^ 2 + n 2 ^ 2) / 4 := by
    simp [dotProduct, Fin.sum_univ_three, hp]; ring
  have c : (n 0 = 0 ∧ n 1 = 0 ∧ n 2 = 0) ∨ (n 0 = 0 ∧ n 1 = 1 ∧ n 2 = 1) ∨ (n 0 = 1 ∧ n 1 = 0 ∧ n 2 = 1) ∨
      (n 0 = 1 ∧ n 1 = 1 ∧ n 2 = 0) := by omega
  rcases c with ⟨a, b, c⟩ | ⟨a, b, c⟩ | ⟨a, b, c⟩ | ⟨a, b, c⟩
  · left
    funext i
    fin_cases i <;> simp [hp, a, b, c]
  all_goals
    right
    rw [e, a, b, c]
    norm_num

theorem amp_ok {w : ℝ} (hw : 0 < w) {a : Atom} {b0 : ℂ} (h1 : a.occupancy = 1) (h2 : a.b = b0 / 10) (h3 : a.uiso = 0)
    (h4 : a.uaniso = 0) (h5 : a.pos = 0 ∨ a.pos ⬝ᵥ a.pos = 1 / 2) (hle : w ≤ 2 * √2 * edge) :
    amp lattice w a = .ok (b0 / 10) := by
  have he := edge_pos
  have htt : ∃ t, lattice.getTwoTheta a.pos w = .ok t := by
    rcases h5 with h5 | h5
    · rw [h5]; exact ⟨_, twoTheta_origin lattice_valid w⟩
    · have hd := dSpacing_vec a.pos (by rw [h5]; norm_num)
      have hne : a.pos ≠ 0 := by rintro h0; rw [h0] at h5; simp at h5
      have hs : √(1 / 2 : ℝ) = 1 / √2 := by rw [sqrt_div zero_le_one, sqrt_one]
      obtain ⟨t, ht, _⟩ := C41_bragg lattice_valid hne hd hw.le (by
        rw [h5, hs, div_div_eq_mul_div, div_one]; linarith)
      exact ⟨t, ht⟩
  obtain ⟨t, ht⟩ := htt
  unfold amp dwIso
  rw [ht, ok_bind, h3, npDiv_ok (by positivity)]
  simp [ok_bind, pure_ok, dwAniso, h1, h2, h4]

theorem total_const {l : Lattice} {w : ℝ} {b : ℂ} {hkl : Vec} : ∀ {as : List Atom},
    (∀ a ∈ as, amp l w a = .ok b ∧ phase hkl a.pos = 1) → total l w as hkl = as.length * b
  | [], _ => by simp [total]
  | a :: as, h => by
    have ih := total_const (as := as) fun x hx => h x (List.mem_cons_of_mem _ hx)
    obtain ⟨h1, h2⟩ := h a (List.mem_cons_self ..)
    unfold total at ih ⊢
    rw [List.map_cons, List.sum_cons, ih, ampOf, h1, h2]
    push_cast [List.length_cons]
    ring

/-- The structure factor of the code. -/
theorem strFac_code {w : ℝ} (hw : 0 < w) (hle : w ≤ 2 * √2 * edge) {b0 : ℂ} {as : List Atom} (hlen : as.length = 192)
    (h : ∀ a ∈ as, a.occupancy = 1 ∧ a.b = b0 / 10 ∧ a.uiso = 0 ∧ a.uaniso = 0 ∧
      ∃ n : Fin 3 → ℤ, (∀ i, a.pos i = n i / 2) ∧ Even (∑ i, n i) ∧ ∀ i, 0 ≤ n i ∧ n i < 2)
    {hkl : Fin 3 → ℤ} (hu : Unmixed hkl) :
    calcNucStrFac lattice w as (fun i => hkl i) = .ok (192 * (b0 / 10)) := by
  have hall : ∀ a ∈ as, amp lattice w a = .ok (b0 / 10) ∧ phase (fun i => hkl i) a.pos = 1 := by
    intro a ha
    obtain ⟨h1, h2, h3, h4, n, h5, h6, h7⟩ := h a ha
    refine ⟨amp_ok hw h1 h2 h3 h4 (pos_norm h5 h6 h7) hle, ?_⟩
    obtain ⟨z, hz⟩ := phase_one hu h5 h6
    unfold phase
    rw [← Complex.exp_int_mul_two_pi_mul_I z]
    congr 1
    have hz' : ((hkl 0 : ℝ) : ℂ) * a.pos 0 + (hkl 1 : ℝ) * a.pos 1 + (hkl 2 : ℝ) * a.pos 2 = z := by exact_mod_cast hz
    rw [hz']
    ring
  rw [calc_ok fun a ha => ⟨_, (hall a ha).1⟩, total_const hall, hlen]
  norm_num

/-- The structure factor of the cell. -/
theorem strFac_cell (b : ℂ) {hkl : Fin 3 → ℤ} (hu : Unmixed hkl) : strFac b hkl = 4 * b := by
  have one : ∀ p ∈ cell, Complex.exp (2 * π * Complex.I * (hkl 0 * p 0 + hkl 1 * p 1 + hkl 2 * p 2 : ℝ)) = 1 := by
    have key : ∀ (p : Vec) (n : Fin 3 → ℤ), (∀ i, p i = n i / 2) → Even (∑ i, n i) →
        Complex.exp (2 * π * Complex.I * (hkl 0 * p 0 + hkl 1 * p 1 + hkl 2 * p 2 : ℝ)) = 1 := by
      intro p n h1 h2
      obtain ⟨z, hz⟩ := phase_one hu h1 h2
      rw [hz, ← Complex.exp_int_mul_two_pi_mul_I z]
      congr 1
      push_cast
      ring
    intro p hp
    simp only [cell, List.mem_cons, List.not_mem_nil, or_false] at hp
    rcases hp with rfl | rfl | rfl | rfl
    · exact key _ 0 (by intro i; simp) (by simp)
    · exact key _ ![1, 1, 0] (by intro i; fin_cases i <;> simp) (by simp [Fin.sum_univ_three])
    · exact key _ ![1, 0, 1] (by intro i; fin_cases i <;> simp) (by simp [Fin.sum_univ_three])
    · exact key _ ![0, 1, 1] (by intro i; fin_cases i <;> simp) (by simp [Fin.sum_univ_three])
  unfold strFac
  rw [List.map_congr_left fun p hp => by rw [one p hp, mul_one]]
  simp [cell]
  ring

/-! ## The list -/

theorem before_total (x y : Ring) : before x y ∨ before y x := by
  unfold before
  cases x.twoTheta <;> cases y.twoTheta <;> simp [le_total]

theorem before_trans (x y z : Ring) : before x y → before y z → before x z := by
  unfold before
  cases x.twoTheta <;> cases y.twoTheta <;> cases z.twoTheta <;> simp
  intro h1 h2
  exact h1.trans h2

open Classical in
theorem printed_perm (as : List Atom) (w : ℝ) : (printed as w).Perm (rows as w) := List.perm_insertionSort _ _

open Classical in
theorem printed_sorted (as : List Atom) (w : ℝ) : (printed as w).Pairwise before := by
  have : Std.Total before := ⟨before_total⟩
  have : IsTrans Ring before := ⟨before_trans⟩
  exact List.pairwise_insertionSort _ _

theorem rows_eq (as : List Atom) {w : ℝ} (hw : 0 < w) :
    (rows as w).map (fun r => (r.hkl, r.order)) =
      [3, 2, 1].flatMap fun n => reflections.map fun h => (h, n) := by
  have h3 : w / (w / 3) = 3 := by field_simp
  have h2 : w / (w / 2) = 2 := by field_simp
  have h1 : w / w = 1 := by field_simp
  simp [rows, reflections, row, h3, h2, h1]

theorem listed_perm : ([3, 2, 1].flatMap fun n : ℤ => reflections.map fun h => (h, n)).Perm listed := by
  decide +kernel

theorem listed_ok {x : (Fin 3 → ℤ) × ℤ} (h : x ∈ listed) : Unmixed x.1 ∧ x.1 ≠ 0 ∧ 1 ≤ x.2 ∧ x.2 ≤ 3 := by
  have : listed.all (fun x => decide (x.1 0 % 2 = x.1 1 % 2 ∧ x.1 1 % 2 = x.1 2 % 2) && decide (x.1 0 ≠ 0) &&
      decide (1 ≤ x.2 ∧ x.2 ≤ 3)) = true := by decide +kernel
  have := List.all_eq_true.1 this x h
  simp only [Bool.and_eq_true, decide_eq_true_eq] at this
  exact ⟨this.1.1, fun h0 => this.1.2 (by rw [h0]; rfl), this.2⟩

theorem row_of_mem {as : List Atom} {w : ℝ} (hw : 0 < w) {r : Ring} (h : r ∈ rows as w) :
    ∃ x ∈ listed, r.hkl = x.1 ∧ r.order = x.2 ∧ r = row as w (w / x.2) x.1 := by
  have hmem : (r.hkl, r.order) ∈ listed := by
    rw [← listed_perm.mem_iff, ← rows_eq as hw]
    exact List.mem_map_of_mem (f := fun r : Ring => (r.hkl, r.order)) h
  refine ⟨_, hmem, rfl, rfl, ?_⟩
  unfold rows at h
  rw [List.mem_flatten] at h
  obtain ⟨l, hl, hr⟩ := h
  obtain ⟨v, hv, rfl⟩ := List.mem_map.1 hl
  obtain ⟨k, _, rfl⟩ := List.mem_map.1 hr
  have hv' : w / v ∈ ({3, 2, 1} : Set ℝ) ∧ v = w / (w / v) := by
    simp only [List.mem_cons, List.not_mem_nil, or_false] at hv
    rcases hv with rfl | rfl | rfl
    · exact ⟨Or.inl (by field_simp), by field_simp⟩
    · exact ⟨Or.inr (Or.inl (by field_simp)), by field_simp⟩
    · exact ⟨Or.inr (Or.inr (by rw [Set.mem_singleton_iff]; field_simp)), by field_simp⟩
  have hround : ((round (w / v) : ℤ) : ℝ) = w / v := by
    have r3 : round (3 : ℝ) = 3 := by exact_mod_cast round_natCast (α := ℝ) 3
    have r2 : round (2 : ℝ) = 2 := by exact_mod_cast round_natCast (α := ℝ) 2
    have r1 : round (1 : ℝ) = 1 := round_one
    rcases hv'.1 with h | h | h
    · rw [h, r3]; norm_num
    · rw [h, r2]; norm_num
    · rw [Set.mem_singleton_iff.1 h, r1]; norm_num
  show row as w v k = row as w (w / ((round (w / v) : ℤ) : ℝ)) k
  rw [hround, ← hv'.2]

theorem wavelength_pos (c : Verif.Energy.Consts) {E : ℝ} (hE : 0 < E) : 0 < wavelength c E := by
  have h1 := c.h_pos
  have h2 := c.m_pos
  have h3 := c.J_pos
  unfold wavelength
  positivity

theorem aluminum_ok (c : Verif.Energy.Consts) (it : Item) {as : List Atom} (h : atoms it = .ok as) {E : ℝ} (hE : 0 < E) :
    aluminum c it E = .ok (some (printed as (wavelength c E))) := by
  have h1 := c.h_pos
  have h2 := c.m_pos
  have h3 := c.J_pos
  have e : (Verif.Energy.derive c E).wavelen = .num (wavelength c E) := by
    simp only [Verif.Energy.derive, if_neg hE.ne', Verif.Energy.wavelenOf, Verif.Energy.npSqrt, wavelength]
    rw [if_pos (by positivity), Verif.Energy.Num.scale, sqrt_div (by positivity), sqrt_sq h1.le, mul_div_assoc]
  have e' : printFor c E as = some (printed as (wavelength c E)) := by
    unfold printFor
    rw [e]
  rw [← e']
  exact congrArg (Except.map (printFor c E)) h

/-- **C162** for every energy the rings are listed once each for the wavelength, its half and its third, with the
angles of Bragg's law; the rings in reach come first, in the order of their angles. -/
theorem C162_rings_partial (c : Verif.Energy.Consts) (b0 : ℂ) (mass coh inc abs : ℝ) {E : ℝ} (hE : 0 < E) :
    ∃ out, aluminum c (item b0 mass coh inc abs) E = .ok (some out) ∧
      (out.map fun r => (r.hkl, r.order)).Perm listed ∧
      (∀ r ∈ out, (wavelength c E / r.order ≤ 2 * spacing r.hkl →
          ∃ t, r.twoTheta = .ok t ∧ Bragg r.hkl (wavelength c E / r.order) t) ∧
        (2 * spacing r.hkl < wavelength c E / r.order → r.twoTheta = .error .nan)) ∧
      out.Pairwise fun x y => ∀ b, y.twoTheta = .ok b → ∃ a, x.twoTheta = .ok a ∧ a ≤ b := by
  obtain ⟨as, h1, _⟩ := atoms_ok b0 mass coh inc abs
  have hw := wavelength_pos c hE
  refine ⟨_, aluminum_ok c _ h1 hE, ?_, ?_, ?_⟩
  · exact ((printed_perm _ _).map _).trans ((rows_eq as hw) ▸ listed_perm)
  · intro r hr
    obtain ⟨x, hx, e1, e2, e3⟩ := row_of_mem hw ((printed_perm _ _).mem_iff.1 hr)
    obtain ⟨_, hne, hn, _⟩ := listed_ok hx
    have hn' : (0 : ℝ) < x.2 := by exact_mod_cast hn
    rw [e1, e2, e3]
    exact twoTheta_bragg hne (by positivity)
  · refine (printed_sorted _ _).imp ?_
    intro x y h b hb
    unfold before at h
    rw [hb] at h
    cases hx : x.twoTheta with
    | ok a => rw [hx] at h; exact ⟨a, rfl, h⟩
    | error e => rw [hx] at h; exact h.elim

/-- **C162** the intensities: at the usual wavelengths 2304 times that of the cell, the same factor for every ring. -/
theorem C162_intensity_partial (c : Verif.Energy.Consts) (b0 : ℂ) (mass coh inc abs : ℝ) {E : ℝ} (hE : 0 < E)
    (hw : wavelength c E ≤ 2 * √2 * edge) {out : List Ring}
    (h : aluminum c (item b0 mass coh inc abs) E = .ok (some out)) {r : Ring} (hr : r ∈ out) :
    r.f2 = .ok (48 ^ 2 * ‖strFac (b0 / 10) r.hkl‖ ^ 2) := by
  obtain ⟨as, h1, h2, h3⟩ := atoms_ok b0 mass coh inc abs
  rw [aluminum_ok c _ h1 hE] at h
  cases h
  obtain ⟨x, hx, e1, e2, e3⟩ := row_of_mem (wavelength_pos c hE) ((printed_perm _ _).mem_iff.1 hr)
  rw [e1, e3, row, strFac_code (wavelength_pos c hE) hw h2 h3 (listed_ok hx).1, strFac_cell _ (listed_ok hx).1]
  simp only [Except.map, norm_mul]
  congr 1
  norm_num
  ring

/-- **C162** is false: no `|F|^2` in the list is that of the cell. -/
theorem C162_intensity_false (c : Verif.Energy.Consts) {b0 : ℂ} (hb : b0 ≠ 0) (mass coh inc abs : ℝ) {E : ℝ} (hE : 0 < E)
    (hw : wavelength c E ≤ 2 * √2 * edge) {out : List Ring}
    (h : aluminum c (item b0 mass coh inc abs) E = .ok (some out)) {r : Ring} (hr : r ∈ out) :
    r.f2 ≠ .ok (‖strFac (b0 / 10) r.hkl‖ ^ 2) := by
  rw [C162_intensity_partial c b0 mass coh inc abs hE hw h hr]
  obtain ⟨as, h1, h2, h3⟩ := atoms_ok b0 mass coh inc abs
  rw [aluminum_ok c _ h1 hE] at h
  cases h
  obtain ⟨x, hx, e1, e2, e3⟩ := row_of_mem (wavelength_pos c hE) ((printed_perm _ _).mem_iff.1 hr)
  intro h0
  have h4 := Except.ok.inj h0
  rw [e1, strFac_cell _ (listed_ok hx).1, norm_mul, mul_pow] at h4
  have : 0 < ‖b0 / 10‖ := by simp [hb]
  have h5 : 0 < ‖b0 / 10‖ ^ 2 := by positivity
  norm_num at h4 h5
  nlinarith

/-- A case: CODATA-like constants and the default energy of 14.7 meV. -/
noncomputable def units : Verif.Energy.Consts where
  h := 6.626e-34
  k := 1.38e-23
  m := 1.675e-27
  J := 6.2415e21
  h_pos := by norm_num
  k_pos := by norm_num
  m_pos := by norm_num
  J_pos := by norm_num

example : (0 : ℝ) < 14.7 ∧ wavelength units 14.7 ≤ 2 * √2 * edge := by
  refine ⟨by norm_num, ?_⟩
  have h1 : (2 : ℝ) * 1 * edge ≤ 2 * √2 * edge := by
    have : (1 : ℝ) ≤ √2 := by rw [Real.one_le_sqrt]; norm_num
    have := edge_pos
    nlinarith
  refine le_trans ?_ h1
  unfold wavelength
  have h2 : (1e-24 : ℝ) ≤ √(2 * units.m * (14.7 / units.J)) := by
    apply Real.le_sqrt_of_sq_le
    norm_num [units]
  rw [div_mul_eq_mul_div, div_le_iff₀ (by linarith)]
  have : 2 * 1 * edge * 1e-24 ≤ 2 * 1 * edge * √(2 * units.m * (14.7 / units.J)) :=
    mul_le_mul_of_nonneg_left h2 (by norm_num [edge])
  refine le_trans ?_ this
  norm_num [units, edge]

end Verif.Structure.Spurion
