import Verif.Structure.SupercellProps

/-!
# Property C223: the choice of the origin and of the cell in which an atom is listed
-/

namespace Verif.Structure

open Real Matrix Verif.Crystal

/-! ## Specification -/

/-- The same material with another origin: every atom is moved by `t`. -/
def shiftComp (t : Vec) (comp : List Item) : List Item := comp.map fun it => { it with pos := it.pos + t }

/-- The same entry, listed in another cell. -/
def OtherCell (it it' : Item) : Prop := ∃ n : Fin 3 → ℤ, it' = { it with pos := fun i => it.pos i + n i }

/-! ## Lemmas -/

theorem phase_shift (hkl p t : Vec) : phase hkl (p + t) = phase hkl t * phase hkl p := by
  unfold phase
  rw [← Complex.exp_add]
  congr 1
  simp only [Pi.add_apply]
  push_cast
  ring

theorem phase_wholeCells (H n : Fin 3 → ℤ) (p : Vec) :
    phase (fun i => (H i : ℝ)) (fun i => p i + n i) = phase (fun i => (H i : ℝ)) p := by
  have e : (fun i => p i + n i) = p + fun i => (n i : ℝ) := rfl
  rw [e, phase_shift]
  have : phase (fun i => (H i : ℝ)) (fun i => (n i : ℝ)) = 1 := by
    unfold phase
    rw [Complex.exp_eq_one_iff]
    refine ⟨H 0 * n 0 + H 1 * n 1 + H 2 * n 2, ?_⟩
    push_cast
    ring
  rw [this, one_mul]

theorem phase_modulus (hkl p : Vec) : ‖phase hkl p‖ = 1 := by
  have e : phase hkl p = Complex.exp (((2 * π * (hkl 0 * p 0 + hkl 1 * p 1 + hkl 2 * p 2) : ℝ) : ℂ) * Complex.I) := by
    unfold phase
    congr 1
    push_cast
    ring
  rw [e, Complex.norm_exp_ofReal_mul_I]

theorem shift_muCell (t : Vec) (comp : List Item) : muCell (shiftComp t comp) = muCell comp := by
  unfold muCell shiftComp
  rw [List.map_map]
  rfl

theorem AtRest.shift {comp : List Item} (h : AtRest comp) (t : Vec) : AtRest (shiftComp t comp) := by
  intro it hit
  obtain ⟨o, ho, rfl⟩ := List.mem_map.1 hit
  exact h o ho

theorem otherCell_muCell {comp comp' : List Item} (hc : List.Forall₂ OtherCell comp comp') : muCell comp' = muCell comp := by
  unfold muCell
  induction hc with
  | nil => rfl
  | cons h _ ih =>
    obtain ⟨n, rfl⟩ := h
    simp [ih]

theorem AtRest.otherCell {comp comp' : List Item} (hr : AtRest comp) (hc : List.Forall₂ OtherCell comp comp') : AtRest comp' := by
  induction hc with
  | nil => exact hr
  | cons h _ ih =>
    obtain ⟨n, rfl⟩ := h
    have h1 := hr _ List.mem_cons_self
    have h2 := ih fun it hit => hr it (List.mem_cons_of_mem _ hit)
    intro it hit
    rcases List.mem_cons.1 hit with rfl | hit
    · exact h1
    · exact h2 it hit

/-! ## C223 -/

/-- **C223** (partial) another origin changes the structure factor by a phase that is common to all atoms and leaves the
intensity, with and without mass normalisation.  Missing: displacement parameters, and both have to be numbers. -/
theorem C223_origin_partial {l : Lattice} {w : ℝ} {comp : List Item} (hr : AtRest comp) {fu : ℝ} {mn : Bool} (t : Vec) {hkl : Vec}
    {F F' : ℂ} (h : calcNucStrFac l w (atomsPlain comp fu mn) hkl = .ok F)
    (h' : calcNucStrFac l w (atomsPlain (shiftComp t comp) fu mn) hkl = .ok F') :
    F' = Complex.exp (2 * π * Complex.I * (hkl 0 * t 0 + hkl 1 * t 1 + hkl 2 * t 2)) * F ∧ ‖F'‖ ^ 2 = ‖F‖ ^ 2 := by
  have e : F' = phase hkl t * F := by
    rw [calc_atRest hr h, calc_atRest (hr.shift t) h', shift_muCell, ← List.sum_map_mul_left]
    unfold shiftComp
    rw [List.map_map]
    congr 1
    refine List.map_congr_left fun it _ => ?_
    simp only [Function.comp, phase_shift]
    ring
  refine ⟨?_, by rw [e, norm_mul, phase_modulus, one_mul]⟩
  rw [e]
  unfold phase
  congr 2
  ring

/-- **C223** (partial) listing atoms in other cells does not change the structure factor of a reflection, with and without mass
normalisation.  Missing: displacement parameters, and both have to be numbers. -/
theorem C223_cells_partial {l : Lattice} {w : ℝ} {comp comp' : List Item} (hr : AtRest comp)
    (hc : List.Forall₂ OtherCell comp comp') {fu : ℝ} {mn : Bool} (H : Fin 3 → ℤ) {F F' : ℂ}
    (h : calcNucStrFac l w (atomsPlain comp fu mn) (fun i => (H i : ℝ)) = .ok F)
    (h' : calcNucStrFac l w (atomsPlain comp' fu mn) (fun i => (H i : ℝ)) = .ok F') : F' = F := by
  rw [calc_atRest hr h, calc_atRest (hr.otherCell hc) h', otherCell_muCell hc]
  generalize muCell comp = mu
  clear h h' hr
  congr 1
  induction hc with
  | nil => rfl
  | cons ho _ ih =>
    obtain ⟨n, rfl⟩ := ho
    rw [List.map_cons, List.map_cons, ih, phase_wholeCells]

/-- An entry at rest at a given position. -/
def placedItem (p : Vec) : Item := ⟨10, 1, p, 1, none, none, 0, 0, 0⟩

/-- **C223** is false for displaced atoms: in every unit cell the intensity of an atom with a displacement changes when the
origin is moved by half of the first edge. -/
theorem C223_displaced_false {l : Lattice} (hl : Valid l) (hkl : Vec) : ∃ (w : ℝ) (comp : List Item) (t : Vec) (F F' : ℂ), 0 < w ∧
    calcNucStrFac l w (atomsPlain comp 1 false) hkl = .ok F ∧
    calcNucStrFac l w (atomsPlain (shiftComp t comp) 1 false) hkl = .ok F' ∧ ‖F'‖ ^ 2 ≠ ‖F‖ ^ 2 := by
  have hne : (![1 / 2, 0, 0] : Vec) ≠ 0 := fun h => by simpa using congrFun h 0
  obtain ⟨E, G, hE, hG⟩ := valid_realised hl
  obtain ⟨d, h1, hdpos, _, _⟩ := C41_spacing hl hE hG hne
  obtain ⟨tt, htt, _, _, hb⟩ := C41_bragg hl hne h1 hdpos.le (by linarith)
  have hs : sin (deg2rad (tt / 2)) ≠ 0 := by
    intro h0
    unfold deg2rad at h0
    rw [h0, mul_zero] at hb
    exact hdpos.ne' hb
  set x : ℝ := -8 * π ^ 2 * 1 * sin (deg2rad (tt / 2)) ^ 2 / d ^ 2 with hx
  have hxneg : x < 0 := by
    have hp := pi_pos
    rw [hx]
    refine div_neg_of_neg_of_pos ?_ (by positivity)
    have : 0 < π ^ 2 * sin (deg2rad (tt / 2)) ^ 2 := by positivity
    linarith
  have hA : amp l d (mkAtom (originItem (some 1)) ![1 / 2, 0, 0] (muCell [originItem (some 1)] * 1) false 1 0) = .ok (exp x : ℝ) := by
    unfold amp dwIso
    change (do
      let d ← (do
        let tt ← l.getTwoTheta ![1 / 2, 0, 0] d
        let q ← npDiv (-8 * π ^ 2 * 1 * sin (deg2rad (tt / 2)) ^ 2) (d ^ 2)
        pure (exp q))
      pure _) = _
    rw [htt, ok_bind, npDiv_ok (pow_ne_zero 2 hdpos.ne'), ok_bind, pure_ok, ok_bind, pure_ok]
    congr 1
    rw [← hx]
    simp [mkAtom, originItem, dwAniso]
  have h0 := C103_origin_ignored hl hdpos.ne' (a := mkAtom (originItem (some 1)) 0 (muCell [originItem (some 1)] * 1) false 1 0) rfl hkl
  have hF : ((mkAtom (originItem (some 1)) 0 (muCell [originItem (some 1)] * 1) false 1 0).occupancy : ℂ) *
      (mkAtom (originItem (some 1)) 0 (muCell [originItem (some 1)] * 1) false 1 0).b = 1 := by
    simp [mkAtom, originItem]
  rw [hF] at h0
  refine ⟨d, [originItem (some 1)], ![1 / 2, 0, 0], 1, (exp x : ℝ) * phase hkl ![1 / 2, 0, 0], hdpos, h0, ?_, ?_⟩
  · have hat : atomsPlain (shiftComp ![1 / 2, 0, 0] [originItem (some 1)]) 1 false =
        [mkAtom (originItem (some 1)) ![1 / 2, 0, 0] (muCell [originItem (some 1)] * 1) false 1 0] := by
      unfold atomsPlain
      rw [shift_muCell]
      simp [shiftComp, originItem, mkAtom]
    rw [hat, calc_eq_ok]
    constructor
    · intro a ha
      rw [List.mem_singleton] at ha
      subst ha
      exact ⟨_, hA⟩
    · simp only [total, List.map_cons, List.map_nil, List.sum_cons, List.sum_nil, add_zero, ampOf, hA]
      rfl
  · rw [norm_mul, phase_modulus, mul_one, Complex.norm_real, norm_of_nonneg (exp_pos x).le, norm_one]
    have h2 := exp_lt_one_iff.2 hxneg
    have h3 := exp_pos x
    nlinarith

/-- **C223** is false even for atoms at rest: whatever the unit cell, wavelength and reflection, an atom that is listed far enough
from the origin has no structure factor (`nan`). -/
theorem C223_far_false {l : Lattice} (hl : Valid l) {w : ℝ} (hw : 0 < w) (hkl : Vec) : ∃ comp comp' : List Item, AtRest comp ∧
    List.Forall₂ OtherCell comp comp' ∧ calcNucStrFac l w (atomsPlain comp 1 false) hkl = .ok 1 ∧
    calcNucStrFac l w (atomsPlain comp' 1 false) hkl = .error .nan := by
  have hne : (![1, 0, 0] : Vec) ≠ 0 := fun h => by simpa using congrFun h 0
  obtain ⟨E, G, hE, hG⟩ := valid_realised hl
  obtain ⟨d, h1, hdpos, _, _⟩ := C41_spacing hl hE hG hne
  obtain ⟨N, hN⟩ := exists_nat_gt (2 * d / w)
  have hNp : (0 : ℝ) < N := lt_trans (by positivity) hN
  obtain ⟨d', h2, h3⟩ := C41_scaling hl hne hNp.ne'
  rw [h1] at h2
  cases h2
  have hun : l.getTwoTheta ((N : ℝ) • ![1, 0, 0]) w = .error .nan := by
    refine C41_unreachable hl (smul_ne_zero hNp.ne' hne) h3 ?_
    rw [abs_of_pos hNp, ← mul_div_assoc, div_lt_iff₀ hNp]
    rw [div_lt_iff₀ hw] at hN
    linarith
  have h0 := C103_origin_ignored hl hw.ne' (a := mkAtom (originItem none) 0 (muCell [originItem none] * 1) false 0 0) rfl hkl
  have hF : ((mkAtom (originItem none) 0 (muCell [originItem none] * 1) false 0 0).occupancy : ℂ) *
      (mkAtom (originItem none) 0 (muCell [originItem none] * 1) false 0 0).b = 1 := by
    simp [mkAtom, originItem]
  rw [hF] at h0
  refine ⟨[originItem none], [placedItem ((N : ℝ) • ![1, 0, 0])], ?_, ?_, h0, ?_⟩
  · intro it hit
    rw [List.mem_singleton] at hit
    subst hit
    exact ⟨rfl, rfl⟩
  · refine .cons ⟨![(N : ℤ), 0, 0], ?_⟩ .nil
    unfold originItem placedItem
    congr 1
    funext i
    fin_cases i <;> simp
  · have hc : contribution l w hkl (mkAtom (placedItem ((N : ℝ) • ![1, 0, 0])) ((N : ℝ) • ![1, 0, 0])
        (muCell [placedItem ((N : ℝ) • ![1, 0, 0])] * 1) false 0 0) = .error .nan := by
      unfold contribution dwIso
      change (do
        let d ← (do
          let tt ← l.getTwoTheta ((N : ℝ) • ![1, 0, 0]) w
          let q ← npDiv _ (w ^ 2)
          pure (exp q))
        pure _) = _
      rw [hun]
      rfl
    have hat : atomsPlain [placedItem ((N : ℝ) • ![1, 0, 0])] 1 false = [mkAtom (placedItem ((N : ℝ) • ![1, 0, 0])) ((N : ℝ) • ![1, 0, 0])
        (muCell [placedItem ((N : ℝ) • ![1, 0, 0])] * 1) false 0 0] := rfl
    rw [hat]
    unfold calcNucStrFac
    rw [List.foldlM_cons, hc]
    rfl

/-- Two atoms at rest and the same with the second in another cell. -/
example : ∃ comp comp' : List Item, comp.length = 2 ∧ AtRest comp ∧ List.Forall₂ OtherCell comp comp' ∧ comp ≠ comp' := by
  refine ⟨[originItem none, placedItem ![1 / 2, 0, 0]],
    [originItem none, placedItem ![-1 / 2, 0, 0]], rfl, ?_, ?_, ?_⟩
  · intro it hit
    simp only [List.mem_cons, List.not_mem_nil, or_false] at hit
    rcases hit with rfl | rfl <;> exact ⟨rfl, rfl⟩
  · refine .cons ⟨0, ?_⟩ (.cons ⟨![-1, 0, 0], ?_⟩ .nil)
    · simp [originItem]
      rfl
    · unfold placedItem
      congr 1
      funext i
      fin_cases i <;> norm_num
  · intro h
    have := congrArg (fun l : List Item => (l.map fun it => it.pos 0)) h
    simp [originItem, placedItem] at this
    norm_num at this

end Verif.Structure
