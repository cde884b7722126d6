import Verif.Structure.Lemmas
import Verif.Crystal.PropsGeom

/-! # Properties C50, C51 and C52: the nuclear structure factor -/

namespace Verif.Structure

open Real Matrix Verif.Crystal

variable {l : Lattice} {w : ℝ}

/-- **C50** no atoms, no scattering. -/
theorem C50_empty (hkl : Vec) : calcNucStrFac l w [] hkl = .ok 0 := rfl

/-- **C50** the structure factor of a concatenation is the sum of the structure factors, and it is a
number exactly when both are. -/
theorem C50_additive (xs ys : List Atom) (hkl : Vec) (F : ℂ) :
    calcNucStrFac l w (xs ++ ys) hkl = .ok F ↔
      ∃ A B, calcNucStrFac l w xs hkl = .ok A ∧ calcNucStrFac l w ys hkl = .ok B ∧ F = A + B := by
  simp only [calc_eq_ok, defined_append]
  have : total l w (xs ++ ys) hkl = total l w xs hkl + total l w ys hkl := by simp [total]
  constructor
  · rintro ⟨⟨h1, h2⟩, rfl⟩
    exact ⟨_, _, ⟨h1, rfl⟩, ⟨h2, rfl⟩, this⟩
  · rintro ⟨A, B, ⟨h1, rfl⟩, ⟨h2, rfl⟩, rfl⟩
    exact ⟨⟨h1, h2⟩, this.symm⟩

/-- **C50** the order of the atoms does not matter. -/
theorem C50_order {xs ys : List Atom} (h : xs.Perm ys) (hkl : Vec) (F : ℂ) :
    calcNucStrFac l w xs hkl = .ok F ↔ calcNucStrFac l w ys hkl = .ok F := by
  simp only [calc_eq_ok]
  have h1 : Defined l w xs ↔ Defined l w ys := by
    simp only [Defined, h.mem_iff]
  have h2 : total l w xs hkl = total l w ys hkl := (h.map _).sum_eq
  rw [h1, h2]

/-- The composition with all occupancies multiplied by `c`. -/
def scaleOcc (c : ℝ) (it : Item) : Item := { it with occupancy := c * it.occupancy }

theorem dwIso_congr {a b : Atom} (h1 : a.pos = b.pos) (h2 : a.uiso = b.uiso) : dwIso l w a = dwIso l w b := by
  unfold dwIso; rw [h1, h2]

theorem amp_scale {a b : Atom} {c : ℂ} (h1 : a.pos = b.pos) (h2 : a.uiso = b.uiso) (h3 : a.uaniso = b.uaniso)
    (h4 : (a.occupancy : ℂ) * a.b = c * (b.occupancy * b.b)) :
    (∀ x, amp l w b = .ok x → amp l w a = .ok (c * x)) ∧ ((∃ x, amp l w a = .ok x) ↔ ∃ x, amp l w b = .ok x) := by
  unfold amp
  rw [dwIso_congr h1 h2, h4, show dwAniso a = dwAniso b by unfold dwAniso; rw [h1, h3]]
  cases dwIso l w b with
  | error e => exact ⟨fun x h => (by cases h), ⟨fun ⟨x, h⟩ => (by cases h), fun ⟨x, h⟩ => (by cases h)⟩⟩
  | ok d =>
    simp only [ok_bind, pure_ok, Except.ok.injEq, exists_eq', iff_self, and_true]
    rintro x rfl
    ring

theorem calc_scale {ι : Type} (is : List ι) (f g : ι → Atom) {c : ℂ}
    (h1 : ∀ i ∈ is, (f i).pos = (g i).pos) (h2 : ∀ i ∈ is, (f i).uiso = (g i).uiso)
    (h3 : ∀ i ∈ is, (f i).uaniso = (g i).uaniso)
    (h4 : ∀ i ∈ is, ((f i).occupancy : ℂ) * (f i).b = c * ((g i).occupancy * (g i).b)) {hkl : Vec} {F : ℂ}
    (h : calcNucStrFac l w (is.map g) hkl = .ok F) : calcNucStrFac l w (is.map f) hkl = .ok (c * F) := by
  rw [calc_eq_ok] at h ⊢
  obtain ⟨hd, rfl⟩ := h
  constructor
  · intro a ha
    obtain ⟨i, hi, rfl⟩ := List.mem_map.1 ha
    exact ((amp_scale (h1 i hi) (h2 i hi) (h3 i hi) (h4 i hi)).2).2 (hd _ (List.mem_map_of_mem hi))
  · unfold total
    rw [← List.sum_map_mul_left, List.map_map, List.map_map]
    congr 1
    refine List.map_congr_left fun i hi => ?_
    obtain ⟨x, hx⟩ := hd _ (List.mem_map_of_mem hi)
    simp only [Function.comp, ampOf, hx, (amp_scale (h1 i hi) (h2 i hi) (h3 i hi) (h4 i hi)).1 x hx, h1 i hi]
    ring

/-- **C50** without mass normalisation the structure factor of a material is proportional to the
occupancies. -/
theorem C50_occupancy_partial (comp : List Item) (fu c : ℝ) {hkl : Vec} {F : ℂ}
    (h : calcNucStrFac l w (atomsPlain comp fu false) hkl = .ok F) :
    calcNucStrFac l w (atomsPlain (comp.map (scaleOcc c)) fu false) hkl = .ok (c * F) := by
  unfold atomsPlain at *
  rw [List.map_map]
  refine calc_scale comp _ _ ?_ ?_ ?_ ?_ h
  · intros; rfl
  · intros; rfl
  · intros; rfl
  · intro i _
    simp only [Function.comp, mkAtom, scaleOcc, Bool.false_eq_true, if_false]
    push_cast
    ring

theorem muCell_scale (comp : List Item) (c : ℝ) : muCell (comp.map (scaleOcc c)) = c * muCell comp := by
  unfold muCell
  rw [← List.sum_map_mul_left, List.map_map]
  congr 1
  refine List.map_congr_left fun i _ => ?_
  simp only [Function.comp, scaleOcc]
  ring

/-- **C50** with mass normalisation the occupancies enter three times. -/
theorem C50_massnorm_cubic (comp : List Item) (fu c : ℝ) {hkl : Vec} {F : ℂ}
    (h : calcNucStrFac l w (atomsPlain comp fu true) hkl = .ok F) :
    calcNucStrFac l w (atomsPlain (comp.map (scaleOcc c)) fu true) hkl = .ok (c ^ 3 * F) := by
  unfold atomsPlain at *
  rw [List.map_map]
  refine calc_scale comp _ _ ?_ ?_ ?_ ?_ h
  · intros; rfl
  · intros; rfl
  · intros; rfl
  · intro i _
    simp only [Function.comp, mkAtom, scaleOcc, if_true, muCell_scale]
    push_cast
    ring

theorem twoTheta_origin (h : Valid l) (w : ℝ) : l.getTwoTheta 0 w = .ok (2 * rad2deg (arcsin 0)) := by
  unfold Lattice.getTwoTheta
  rw [(C41_origin h).2]

theorem dwIso_origin (h : Valid l) (hw : w ≠ 0) {a : Atom} (ha : a.pos = 0) : dwIso l w a = .ok 1 := by
  unfold dwIso
  rw [ha, twoTheta_origin h, ok_bind, npDiv_ok (pow_ne_zero 2 hw), ok_bind, pure_ok]
  congr 1
  simp [rad2deg, deg2rad]

/-- **C50** the proportionality is false with mass normalisation. -/
theorem C50_massnorm_false : ∃ (l : Lattice) (comp : List Item) (F F' : ℂ), Valid l ∧
    calcNucStrFac l 2 (atomsPlain comp 1 true) 0 = .ok F ∧
    calcNucStrFac l 2 (atomsPlain (comp.map (scaleOcc 2)) 1 true) 0 = .ok F' ∧ F' ≠ 2 * F := by
  let it : Item := ⟨1, 1, 0, 1, none, none, 0, 0, 0⟩
  have hv : Valid ⟨4, 4, 4, 90, 90, 90⟩ := by constructor <;> norm_num
  have hdw : dwAniso (mkAtom it it.pos (muCell [it] * 1) true 0 0) = 1 := by
    simp [dwAniso, mkAtom, it]
  have hA : amp ⟨4, 4, 4, 90, 90, 90⟩ 2 (mkAtom it it.pos (muCell [it] * 1) true 0 0) = .ok 1 := by
    unfold amp
    rw [dwIso_origin hv (by norm_num) (a := mkAtom it it.pos (muCell [it] * 1) true 0 0) rfl, hdw]
    rw [ok_bind, pure_ok]
    simp [mkAtom, it, muCell]
  have h : calcNucStrFac ⟨4, 4, 4, 90, 90, 90⟩ 2 (atomsPlain [it] 1 true) 0 = .ok 1 := by
    rw [calc_eq_ok]
    constructor
    · intro a ha
      simp only [atomsPlain, List.map_cons, List.map_nil, List.mem_singleton] at ha
      subst ha
      exact ⟨1, hA⟩
    · have : ampOf ⟨4, 4, 4, 90, 90, 90⟩ 2 (mkAtom it it.pos (muCell [it] * 1) true 0 0) = 1 := by
        unfold ampOf; rw [hA]
      have e : atomsPlain [it] 1 true = [mkAtom it it.pos (muCell [it] * 1) true 0 0] := rfl
      rw [e, total, List.map_cons, List.map_nil, List.sum_cons, List.sum_nil, this]
      simp [phase]
  refine ⟨_, [it], 1, _, hv, h, C50_massnorm_cubic [it] 1 2 h, ?_⟩
  norm_num

/-! ## C51 -/

theorem amp_conj {a : Atom} (h : a.b.im = 0) {x : ℂ} (hx : amp l w a = .ok x) : (starRingEnd ℂ) x = x := by
  unfold amp at hx
  rw [bind_eq_ok] at hx
  obtain ⟨d, _, hd⟩ := hx
  cases hd
  have : (starRingEnd ℂ) a.b = a.b := Complex.conj_eq_iff_im.2 h
  simp only [map_mul, Complex.conj_ofReal, this]

/-- **C51** Friedel's law: for real scattering lengths the structure factor at the opposite
reflection is the complex conjugate. -/
theorem C51_friedel {atoms : List Atom} (hb : ∀ a ∈ atoms, a.b.im = 0) {hkl : Vec} {F : ℂ}
    (h : calcNucStrFac l w atoms hkl = .ok F) :
    calcNucStrFac l w atoms (-hkl) = .ok ((starRingEnd ℂ) F) ∧ ‖(starRingEnd ℂ) F‖ ^ 2 = ‖F‖ ^ 2 := by
  refine ⟨?_, by rw [Complex.norm_conj]⟩
  rw [calc_eq_ok] at h ⊢
  obtain ⟨hd, rfl⟩ := h
  refine ⟨hd, ?_⟩
  unfold total
  rw [map_list_sum, List.map_map]
  congr 1
  refine List.map_congr_left fun a ha => ?_
  obtain ⟨x, hx⟩ := hd a ha
  simp only [Function.comp, map_mul, phase_neg, ampOf, hx, amp_conj (hb a ha) hx]

/-- **C51** the bound by the sum of the moduli of the terms. -/
theorem C51_bound {atoms : List Atom} {hkl : Vec} {F : ℂ} (h : calcNucStrFac l w atoms hkl = .ok F)
    (d : Atom → ℝ) (hd : ∀ a ∈ atoms, dwIso l w a = .ok (d a)) :
    ‖F‖ ≤ (atoms.map fun a => |a.occupancy| * ‖a.b‖ * d a * dwAniso a).sum := by
  rw [calc_eq_ok] at h
  rw [h.2]
  clear h
  unfold total
  induction atoms with
  | nil => simp
  | cons a as ih =>
    simp only [List.map_cons, List.sum_cons]
    refine (norm_add_le _ _).trans (add_le_add ?_ (ih fun b hb => hd b (List.mem_cons_of_mem _ hb)))
    have ha := hd a (List.mem_cons_self ..)
    have hpos : 0 < d a := by
      unfold dwIso at ha
      rw [bind_eq_ok] at ha
      obtain ⟨_, _, ha⟩ := ha
      rw [bind_eq_ok] at ha
      obtain ⟨_, _, ha⟩ := ha
      rw [← Except.ok.inj ha]
      exact exp_pos _
    have hx : ampOf l w a = a.occupancy * a.b * d a * dwAniso a := by
      unfold ampOf amp; rw [ha]; rfl
    rw [hx, norm_mul, phase_norm, mul_one]
    simp only [norm_mul, Complex.norm_real, Real.norm_eq_abs]
    rw [abs_of_pos hpos, abs_of_pos (show 0 < dwAniso a from exp_pos _)]

/-- **C51** the bound is attained in the forward direction for positive scattering lengths. -/
theorem C51_forward {atoms : List Atom} {hkl : Vec} {F0 F : ℂ}
    (hb : ∀ a ∈ atoms, ∃ r : ℝ, 0 ≤ r ∧ a.b = r) (ho : ∀ a ∈ atoms, 0 ≤ a.occupancy)
    (h0 : calcNucStrFac l w atoms 0 = .ok F0) (h : calcNucStrFac l w atoms hkl = .ok F) : ‖F‖ ≤ ‖F0‖ := by
  have hdef := (calc_eq_ok.1 h0).1
  let d : Atom → ℝ := fun a => match dwIso l w a with | .ok x => x | .error _ => 0
  have hd : ∀ a ∈ atoms, dwIso l w a = .ok (d a) := by
    intro a ha
    obtain ⟨x, hx⟩ := hdef a ha
    unfold amp at hx
    rw [bind_eq_ok] at hx
    obtain ⟨y, hy, _⟩ := hx
    simp only [d, hy]
  refine (C51_bound h d hd).trans (le_of_eq ?_)
  have hF0 : F0 = ((atoms.map fun a => |a.occupancy| * ‖a.b‖ * d a * dwAniso a).sum : ℝ) := by
    rw [(calc_eq_ok.1 h0).2, total]
    clear h0 h hdef
    induction atoms with
    | nil => simp
    | cons a as ih =>
      simp only [List.map_cons, List.sum_cons]
      rw [ih (fun b h => hb b (List.mem_cons_of_mem _ h)) (fun b h => ho b (List.mem_cons_of_mem _ h))
        (fun b h => hd b (List.mem_cons_of_mem _ h))]
      rw [Complex.ofReal_add]
      congr 1
      obtain ⟨r, hr, hbr⟩ := hb a (List.mem_cons_self ..)
      have hx : ampOf l w a = a.occupancy * a.b * d a * dwAniso a := by
        unfold ampOf amp; rw [hd a (List.mem_cons_self ..)]; rfl
      rw [hx, hbr, Complex.norm_real, Real.norm_eq_abs, abs_of_nonneg hr,
        abs_of_nonneg (ho a (List.mem_cons_self ..))]
      simp [phase]
  have hnn : 0 ≤ (atoms.map fun a => |a.occupancy| * ‖a.b‖ * d a * dwAniso a).sum :=
    (norm_nonneg F).trans (C51_bound h d hd)
  rw [hF0, Complex.norm_real, Real.norm_eq_abs, abs_of_nonneg hnn]

/-! ## C52 -/

/-- No displacement parameters. -/
def Rigid (a : Atom) : Prop := a.uiso = 0 ∧ a.uaniso = 0

theorem amp_rigid {a : Atom} (h : Rigid a) {x : ℂ} (hx : amp l w a = .ok x) : x = a.occupancy * a.b := by
  unfold amp dwIso at hx
  rw [bind_eq_ok] at hx
  obtain ⟨d, hd, hx⟩ := hx
  rw [bind_eq_ok] at hd
  obtain ⟨tt, _, hd⟩ := hd
  rw [bind_eq_ok] at hd
  obtain ⟨q, hq, hd⟩ := hd
  cases hd
  cases hx
  have hq0 : q = 0 := by
    unfold npDiv at hq
    rw [h.1] at hq
    split_ifs at hq with h1 h2
    cases hq
    simp
  have hdw : dwAniso a = 1 := by simp [dwAniso, h.2]
  rw [hq0, hdw]
  simp

theorem total_rigid {atoms : List Atom} (hr : ∀ a ∈ atoms, Rigid a) (hd : Defined l w atoms) (hkl : Vec) :
    total l w atoms hkl = (atoms.map fun a => (a.occupancy : ℂ) * a.b * phase hkl a.pos).sum := by
  unfold total
  congr 1
  refine List.map_congr_left fun a ha => ?_
  obtain ⟨x, hx⟩ := hd a ha
  simp only [ampOf, hx, amp_rigid (hr a ha) hx]

/-- An atom moved by a vector. -/
def shift (t : Vec) (a : Atom) : Atom := { a with pos := a.pos + t }

/-- **C52** moving all atoms by a common vector multiplies the structure factor by a phase, as long
as both are numbers. -/
theorem C52_common_partial {atoms : List Atom} (hr : ∀ a ∈ atoms, Rigid a) (t : Vec) {hkl : Vec} {F F' : ℂ}
    (h : calcNucStrFac l w atoms hkl = .ok F)
    (h' : calcNucStrFac l w (atoms.map (shift t)) hkl = .ok F') :
    F' = Complex.exp (Complex.I * 2 * π * (hkl 0 * t 0 + hkl 1 * t 1 + hkl 2 * t 2)) * F ∧ ‖F'‖ = ‖F‖ := by
  rw [calc_eq_ok] at h h'
  have hr' : ∀ a ∈ atoms.map (shift t), Rigid a := by
    intro a ha
    obtain ⟨b, hb, rfl⟩ := List.mem_map.1 ha
    exact hr b hb
  rw [total_rigid hr h.1] at h
  rw [total_rigid hr' h'.1] at h'
  have key : F' = phase hkl t * F := by
    rw [h'.2, h.2, ← List.sum_map_mul_left, List.map_map]
    congr 1
    refine List.map_congr_left fun a _ => ?_
    simp only [Function.comp, shift, phase_add]
    ring
  exact ⟨key, by rw [key, norm_mul, phase_norm, one_mul]⟩

/-- **C52** moving the atoms by lattice vectors, each by its own, does not change the structure
factor at integer reflections, as long as both are numbers. -/
theorem C52_lattice_partial {atoms : List Atom} (hr : ∀ a ∈ atoms, Rigid a) (n : Atom → Fin 3 → ℤ)
    {hkl : Vec} (hz : ∃ z : Fin 3 → ℤ, ∀ i, hkl i = z i) {F F' : ℂ}
    (h : calcNucStrFac l w atoms hkl = .ok F)
    (h' : calcNucStrFac l w (atoms.map fun a => shift (fun i => n a i) a) hkl = .ok F') : F' = F := by
  rw [calc_eq_ok] at h h'
  have hr' : ∀ a ∈ atoms.map fun a => shift (fun i => n a i) a, Rigid a := by
    intro a ha
    obtain ⟨b, hb, rfl⟩ := List.mem_map.1 ha
    exact hr b hb
  rw [total_rigid hr h.1] at h
  rw [total_rigid hr' h'.1] at h'
  obtain ⟨z, hz⟩ := hz
  rw [h'.2, h.2, List.map_map]
  congr 1
  refine List.map_congr_left fun a _ => ?_
  simp only [Function.comp, shift, phase_add]
  rw [phase_int (p := fun i => (n a i : ℝ)), mul_one]
  refine ⟨z 0 * n a 0 + z 1 * n a 1 + z 2 * n a 2, ?_⟩
  rw [hz 0, hz 1, hz 2]
  push_cast
  ring

/-- **C52** is false as stated: in every unit cell and for every wavelength some lattice
translation of an atom turns the structure factor into `nan`, because the code evaluates a
scattering angle at the position of the atom. -/
theorem C52_nan (h : Valid l) (hw : 0 < w) (a : Atom) (ha : a.pos = 0) (hkl : Vec) :
    (∃ F, calcNucStrFac l w [a] hkl = .ok F) ∧
    ∃ n : Fin 3 → ℤ, calcNucStrFac l w [shift (fun i => n i) a] hkl = .error .nan := by
  constructor
  · refine ⟨_, calc_ok ?_ hkl⟩
    intro b hb
    rw [List.mem_singleton] at hb
    subst hb
    exact ⟨_, by unfold amp; rw [dwIso_origin h hw.ne' ha]; rfl⟩
  · have hne : (![1, 0, 0] : Vec) ≠ 0 := fun h => by simpa using congrFun h 0
    obtain ⟨d, hd, _⟩ := C41_scaling h hne (one_ne_zero (α := ℝ))
    obtain ⟨n, hn⟩ := exists_nat_gt (2 * d / w)
    obtain ⟨E, F, hE, hF⟩ := valid_realised h
    obtain ⟨d', h1, hdpos, _, _⟩ := C41_spacing h hE hF hne
    rw [hd] at h1
    cases h1
    have hn0 : (0 : ℝ) < n := lt_trans (by positivity) hn
    obtain ⟨d', hd', hd2⟩ := C41_scaling h hne hn0.ne'
    rw [hd] at hd'
    cases hd'
    refine ⟨![n, 0, 0], ?_⟩
    have hpos : (shift (fun i => ((![(n : ℤ), 0, 0] : Fin 3 → ℤ) i : ℝ)) a).pos = (n : ℝ) • (![1, 0, 0] : Vec) := by
      simp only [shift, ha, zero_add]
      funext i
      fin_cases i <;> simp
    have htt : l.getTwoTheta ((n : ℝ) • (![1, 0, 0] : Vec)) w = .error .nan := by
      refine C41_unreachable h (smul_ne_zero hn0.ne' hne) hd2 ?_
      rw [abs_of_pos hn0]
      rw [div_lt_iff₀ hw] at hn
      rw [← mul_div_assoc, div_lt_iff₀ hn0]
      linarith
    have hdw : dwIso l w (shift (fun i => ((![(n : ℤ), 0, 0] : Fin 3 → ℤ) i : ℝ)) a) = .error .nan := by
      unfold dwIso
      rw [hpos, htt]
      rfl
    unfold calcNucStrFac
    rw [List.foldlM_cons]
    unfold contribution
    rw [hdw]
    rfl

/-- A concrete case for the hypotheses of `C52_common_partial`: an atom at the origin of a cubic cell. -/
example : ∃ F, calcNucStrFac ⟨4, 4, 4, 90, 90, 90⟩ 2.359 [⟨0, 1, 0.9, 0, 0, 1, 1, 1⟩] ![1, 1, 0] = .ok F :=
  (C52_nan (by constructor <;> norm_num) (by norm_num) _ rfl _).1

end Verif.Structure
