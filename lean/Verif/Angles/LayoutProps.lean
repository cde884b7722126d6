import Verif.Angles.Layout
import Verif.Angles.PropsSpurion

/-! # Property C166: the drawing of the spectrometer -/

namespace Verif.Angles.Layout

open Real
open Verif.Crystal (Vec deg2rad vecOf Mat len)
open Verif.Resolution (Setup demoSetup demoSetup_valid demo)
open Verif.Energy (Consts)
open Verif.Angles

/-! ## Specification -/

/-- A vector in the horizontal plane turned by an angle in degrees, anticlockwise. -/
noncomputable def turned (deg : ℝ) (e : ℝ × ℝ) : ℝ × ℝ :=
  (cos (deg * π / 180) * e.1 - sin (deg * π / 180) * e.2, sin (deg * π / 180) * e.1 + cos (deg * π / 180) * e.2)

/-- From one place the beam goes the distance `l` in the direction `e` to another. -/
def Goes (p : ℝ × ℝ) (l : ℝ) (e q : ℝ × ℝ) : Prop := q = (p.1 + l * e.1, p.2 + l * e.2)

/-- An outline is a rectangle about a place, with vertical edges of length `h` and the others along the horizontal vector `d`. -/
def Rectangle (o : List Point) (p d : ℝ × ℝ) (h : ℝ) : Prop :=
  o = [(p.1 - d.1 / 2, p.2 - d.2 / 2, h / 2), (p.1 - d.1 / 2, p.2 - d.2 / 2, -h / 2), (p.1 + d.1 / 2, p.2 + d.2 / 2, -h / 2),
    (p.1 + d.1 / 2, p.2 + d.2 / 2, h / 2), (p.1 - d.1 / 2, p.2 - d.2 / 2, h / 2)]

/-- The horizontal edges have the length `w`. -/
def Wide (d : ℝ × ℝ) (w : ℝ) : Prop := d.1 ^ 2 + d.2 ^ 2 = w ^ 2

/-- A mirror along `d` sends a beam in the direction `e` into the direction `e'`: it is along the bisector of the two. -/
def Mirror (d e e' : ℝ × ℝ) : Prop := d.1 * (e.2 + e'.2) = d.2 * (e.1 + e'.1)

/-- Two vectors are at right angles. -/
def Across (d e : ℝ × ℝ) : Prop := d.1 * e.1 + d.2 * e.2 = 0

/-- The place of a component. -/
def Ray.place (r : Ray) : ℝ × ℝ := (r.x, r.y)

/-! ## Lemmas -/

/-- The direction of a ray. -/
noncomputable def Ray.heading (r : Ray) : ℝ × ℝ := (sin r.dir, cos r.dir)

theorem heading_advance (r : Ray) (a l : ℝ) : (advance r (-deg2rad a) l).heading = turned a r.heading := by
  have e : deg2rad a = a * π / 180 := by unfold deg2rad; ring
  unfold Ray.heading advance turned
  dsimp only
  rw [e, ← sub_eq_add_neg, sin_sub, cos_sub]
  ext <;> dsimp only <;> ring

theorem place_advance (r : Ray) (a l : ℝ) : Goes r.place l (advance r a l).heading (advance r a l).place := rfl

theorem outline_rect (r : Ray) (w h f g : ℝ) : Rectangle (outline r w h f g) r.place (w * f, w * f * g) h := by
  unfold Rectangle outline Ray.place
  simp only [List.zip_cons_cons, List.zip_nil_right, List.map_cons, List.map_nil, List.cons.injEq, Prod.mk.injEq, and_true, List.zip_nil_left]
  refine ⟨⟨?_, ?_⟩, ⟨?_, ?_⟩, ⟨?_, ?_⟩, ⟨?_, ?_⟩, ?_, ?_⟩ <;> ring

theorem Rectangle.edge {o : List Point} {p d d' : ℝ × ℝ} {h h' : ℝ} (a : Rectangle o p d h) (b : Rectangle o p d' h') : d = d' := by
  unfold Rectangle at a b
  rw [a] at b
  simp only [List.cons.injEq, Prod.mk.injEq] at b
  obtain ⟨⟨b1, b2, -⟩, -⟩ := b
  ext <;> linarith

/-! ## Theorems -/

/-- C166 (partial).  The beam is drawn from the source to the detector through monochromator, sample and analyzer: in straight
lines of the lengths of the arms (10 if there are none), turned at the three crystals by the angles A2, A4 and A6.  Missing: objects
not made by `Instrument` (`C166_class_false`), fewer than four arms (`C166_arms_false`). -/
theorem C166_beam_partial (c : Consts) {s : Setup} {l0 l1 l2 l3 : ℝ} {ls : List ℝ}
    (ha : s.settings.arms.getD [10, 10, 10, 10] = l0 :: l1 :: l2 :: l3 :: ls) {hkl : Vec} {w a2 a4 a6 : ℝ} (h2 : (anglesAndQ c s hkl w).a2 = some a2)
    (h4 : (anglesAndQ c s hkl w).a4 = some a4) (h6 : (anglesAndQ c s hkl w).a6 = some a6) : ∃ f sa an de,
      plotInstrument c true s hkl w = .ok f ∧ f.sample = some sa ∧ f.ana = some an ∧ f.detector = some de ∧ f.source.place = (0, 0) ∧
      Goes f.source.place l0 (0, 1) f.mono.place ∧ Goes f.mono.place l1 (turned a2 (0, 1)) sa.place ∧
      Goes sa.place l2 (turned a4 (turned a2 (0, 1))) an.place ∧ Goes an.place l3 (turned a6 (turned a4 (turned a2 (0, 1)))) de.place := by
  have hd : distances s.settings.arms = .ok (l0, l1, l2, l3) := by unfold distances; rw [ha]
  unfold plotInstrument
  rw [if_neg (by simp), hd]
  dsimp only
  rw [h2, h4, h6]
  refine ⟨_, _, _, _, rfl, rfl, rfl, rfl, ?_, ?_, ?_, ?_, ?_⟩
  · simp [Ray.place, advance]
  · have h := place_advance (advance ⟨0, 0, 0⟩ 0 0) 0 l0
    have e : (advance (advance ⟨0, 0, 0⟩ 0 0) 0 l0).heading = (0, 1) := by simp [Ray.heading, advance]
    rw [e] at h
    exact h
  all_goals
    have e : (advance (advance ⟨0, 0, 0⟩ 0 0) 0 l0).heading = (0, 1) := by simp [Ray.heading, advance]
    rw [← e]
    try rw [← heading_advance _ a2 l1]
    try rw [← heading_advance _ a4 l2]
    try rw [← heading_advance _ a6 l3]
    exact place_advance ..

/-- C166 (partial).  The components are drawn about their places on the beam with their heights (1 if not given), source and
detector with their widths.  Missing: the widths and the planes of the crystals (`C166_width_false`, `C166_plane_false`) and the
direction of the detector (`C166_detector_false`). -/
theorem C166_outlines_partial (c : Consts) {s : Setup} {l0 l1 l2 l3 : ℝ} {ls : List ℝ}
    (ha : s.settings.arms.getD [10, 10, 10, 10] = l0 :: l1 :: l2 :: l3 :: ls) {hkl : Vec} {w a1 a2 a3 a4 a5 a6 : ℝ}
    (h1 : (anglesAndQ c s hkl w).a1 = some a1) (h2 : (anglesAndQ c s hkl w).a2 = some a2) (h3 : (anglesAndQ c s hkl w).a3 = some a3)
    (h4 : (anglesAndQ c s hkl w).a4 = some a4) (h5 : (anglesAndQ c s hkl w).a5 = some a5) (h6 : (anglesAndQ c s hkl w).a6 = some a6) :
    ∃ f sa an de om os os' oa od dm ds ds' da,
      plotInstrument c true s hkl w = .ok f ∧ f.sample = some sa ∧ f.ana = some an ∧ f.detector = some de ∧
      f.monoOutline = some om ∧ f.sampleOutline = some (os, os') ∧ f.anaOutline = some oa ∧ f.detectorOutline = some od ∧
      Rectangle f.sourceOutline f.source.place (s.settings.guide.width.getD 1, 0) (s.settings.guide.height.getD 1) ∧
      Rectangle om f.mono.place dm (s.settings.mono.height.getD 1) ∧ Rectangle os sa.place ds (s.settings.sample.height.getD 1) ∧
      Rectangle os' sa.place ds' (s.settings.sample.height.getD 1) ∧ Rectangle oa an.place da (s.settings.ana.height.getD 1) ∧
      Rectangle od de.place (s.settings.detector.width.getD 1, 0) (s.settings.detector.height.getD 1) := by
  have hd : distances s.settings.arms = .ok (l0, l1, l2, l3) := by unfold distances; rw [ha]
  unfold plotInstrument
  rw [if_neg (by simp), hd]
  dsimp only
  rw [h1, h2, h3, h4, h5, h6]
  have w10 (r : Ray) (w h : ℝ) : Rectangle (outline r w h 1 0) r.place (w, 0) h := by
    have := outline_rect r w h 1 0
    rwa [mul_one, mul_zero] at this
  exact ⟨_, _, _, _, _, _, _, _, _, _, _, _, _, rfl, rfl, rfl, rfl, rfl, rfl, rfl, rfl, w10 .., outline_rect .., outline_rect ..,
    outline_rect .., outline_rect .., w10 ..⟩

theorem not_wide {a w : ℝ} (hw : w ≠ 0) (hc : cos a ≠ 0) : ¬ Wide (w * sin a, w * sin a * cos a) w := by
  intro h
  unfold Wide at h
  dsimp only at h
  have e := sin_sq_add_cos_sq a
  have : w ^ 2 * (cos a ^ 2) ^ 2 = 0 := by
    have : sin a ^ 2 = 1 - cos a ^ 2 := by linarith
    linear_combination -h + w ^ 2 * (1 + cos a ^ 2) * this
  rcases mul_eq_zero.1 this with h | h
  · exact hw (pow_eq_zero_iff two_ne_zero |>.1 h)
  · exact hc (pow_eq_zero_iff two_ne_zero |>.1 (pow_eq_zero_iff two_ne_zero |>.1 h))

theorem cos_deg_pos {a : ℝ} (h0 : |a| < 90) : 0 < cos (-deg2rad a) := by
  obtain ⟨h1, h2⟩ := abs_lt.1 h0
  have := pi_pos
  apply cos_pos_of_mem_Ioo
  unfold deg2rad
  constructor <;> nlinarith

/-- C166 fails.  Monochromator and analyzer are never drawn with their widths, whatever the angles below 90°. -/
theorem C166_width_false (c : Consts) {s : Setup} {hkl : Vec} {w a1 a5 : ℝ}
    (h1 : (anglesAndQ c s hkl w).a1 = some a1) (h5 : (anglesAndQ c s hkl w).a5 = some a5) (k1 : |a1| < 90) (k5 : |a5| < 90)
    (hm : s.settings.mono.width.getD 1 ≠ 0) (hn : s.settings.ana.width.getD 1 ≠ 0) {f : Layout} (hf : plotInstrument c true s hkl w = .ok f) :
    (∀ o d h, f.monoOutline = some o → Rectangle o f.mono.place d h → ¬ Wide d (s.settings.mono.width.getD 1)) ∧
    (∀ r o d h, f.ana = some r → f.anaOutline = some o → Rectangle o r.place d h → ¬ Wide d (s.settings.ana.width.getD 1)) := by
  unfold plotInstrument at hf
  rw [if_neg (by simp)] at hf
  split at hf
  · exact nomatch hf
  · dsimp only at hf
    cases hf
    constructor
    · intro o d h ho hr
      dsimp only at ho
      rw [h1] at ho
      cases ho
      cases (outline_rect ..).edge hr
      exact not_wide hm (cos_deg_pos k1).ne'
    · intro r o d h hr ho hd
      dsimp only at ho hr
      rw [hr, h5] at ho
      cases ho
      cases (outline_rect ..).edge hd
      exact not_wide hn (cos_deg_pos k5).ne'

/-- C166 fails.  The monochromator is never drawn in the plane that reflects the beam to the sample, whatever its angle between
0° and 90°, to either side. -/
theorem C166_plane_false (c : Consts) {s : Setup} {hkl : Vec} {w a1 a2 : ℝ}
    (h1 : (anglesAndQ c s hkl w).a1 = some a1) (h2 : (anglesAndQ c s hkl w).a2 = some a2) (k0 : a1 ≠ 0) (k1 : |a1| < 90)
    (hm : s.settings.mono.width.getD 1 ≠ 0) {f : Layout} (hf : plotInstrument c true s hkl w = .ok f) :
    ∀ o d h, f.monoOutline = some o → Rectangle o f.mono.place d h → ¬ Mirror d (0, 1) (turned a2 (0, 1)) := by
  have e2 : a2 = 2 * a1 := by
    unfold anglesAndQ at h1 h2
    dsimp only at h1 h2
    cases e : (wavevectors c s w).1.bind (braggAngle s.settings.mono.dir s.settings.mono.tau) with
    | none => rw [e] at h1; exact nomatch h1
    | some x =>
      rw [e] at h1 h2
      cases h1
      cases h2
      unfold Verif.Crystal.rad2deg
      ring
  unfold plotInstrument at hf
  rw [if_neg (by simp)] at hf
  split at hf
  · exact nomatch hf
  · dsimp only at hf
    cases hf
    intro o d h ho hr
    dsimp only at ho
    rw [h1] at ho
    cases ho
    cases (outline_rect ..).edge hr
    intro hmir
    unfold Mirror turned at hmir
    dsimp only at hmir
    have ea : a2 * π / 180 = 2 * deg2rad a1 := by rw [e2]; unfold deg2rad; ring
    have hc := cos_deg_pos k1
    rw [ea, sin_two_mul, cos_two_mul] at hmir
    rw [cos_neg] at hc
    rw [sin_neg, cos_neg] at hmir
    obtain ⟨b1, b2⟩ := abs_lt.1 k1
    have hp := pi_pos
    have hs : sin (deg2rad a1) ≠ 0 := by
      intro h0
      have := (sin_eq_zero_iff_of_lt_of_lt (x := deg2rad a1) (by unfold deg2rad; nlinarith) (by unfold deg2rad; nlinarith)).1 h0
      unfold deg2rad at this
      apply k0
      have : a1 * (π / 180) = 0 := by linarith
      rcases mul_eq_zero.1 this with h | h
      · exact h
      · exact absurd h (by positivity)
    obtain ⟨S, hS⟩ : ∃ S, S = sin (deg2rad a1) := ⟨_, rfl⟩
    obtain ⟨C, hC⟩ : ∃ C, C = cos (deg2rad a1) := ⟨_, rfl⟩
    have hS1 := neg_one_le_sin (deg2rad a1)
    have hsc := sin_sq_add_cos_sq (deg2rad a1)
    rw [← hS] at hmir hs hS1 hsc
    rw [← hC] at hmir hc hsc
    have : s.settings.mono.width.getD 1 * (S * (C ^ 2 * (1 + S))) = 0 := by
      simp only [size] at hmir
      linear_combination -hmir / 2
    rcases mul_eq_zero.1 this with h | h
    · exact hm h
    rcases mul_eq_zero.1 h with h | h
    · exact hs h
    rcases mul_eq_zero.1 h with h | h
    · exact hc.ne' (pow_eq_zero_iff two_ne_zero |>.1 h)
    · have : S = -1 := by linarith
      rw [this] at hsc
      have : C ^ 2 = 0 := by linarith
      exact hc.ne' (pow_eq_zero_iff two_ne_zero |>.1 this)

/-- C166 fails.  The detector is drawn across the beam only if the beam has turned by a multiple of 180° in all. -/
theorem C166_detector_false (c : Consts) {s : Setup} {hkl : Vec} {w a2 a4 a6 : ℝ} (h2 : (anglesAndQ c s hkl w).a2 = some a2)
    (h4 : (anglesAndQ c s hkl w).a4 = some a4) (h6 : (anglesAndQ c s hkl w).a6 = some a6) (hn : s.settings.detector.width.getD 1 ≠ 0)
    (ht : ∀ k : ℤ, a2 + a4 + a6 ≠ k * 180) {f : Layout} (hf : plotInstrument c true s hkl w = .ok f) :
    ∀ r o d h, f.detector = some r → f.detectorOutline = some o → Rectangle o r.place d h →
      ¬ Across d (turned a6 (turned a4 (turned a2 (0, 1)))) := by
  unfold plotInstrument at hf
  rw [if_neg (by simp)] at hf
  split at hf
  · exact nomatch hf
  · rename_i l0 l1 l2 l3 _
    dsimp only at hf
    cases hf
    intro r o d h hr ho hd
    dsimp only at ho hr
    rw [hr] at ho
    cases ho
    cases (outline_rect ..).edge hd
    have e : (advance (advance ⟨0, 0, 0⟩ 0 0) 0 l0).heading = (0, 1) := by simp [Ray.heading, advance]
    rw [← e, ← heading_advance _ a2 l1, ← heading_advance _ a4 l2, ← heading_advance _ a6 l3]
    unfold Across Ray.heading
    simp only [advance, mul_one, mul_zero, zero_mul, add_zero, zero_add, size]
    intro h0
    rcases mul_eq_zero.1 h0 with h0 | h0
    · exact hn h0
    · obtain ⟨k, hk⟩ := sin_eq_zero_iff.1 h0
      apply ht (-k)
      have hp := pi_pos.ne'
      unfold deg2rad at hk
      field_simp at hk
      push_cast
      linarith

/-- C166 fails.  An object made as a `TripleAxisInstrument`, not as an `Instrument`, is not drawn. -/
theorem C166_class_false (c : Consts) (s : Setup) (hkl : Vec) (w : ℝ) : plotInstrument c false s hkl w = .error .attributeError := rfl

/-- C166 fails.  Nor is an instrument with fewer than four arms, though one arm is all that a Cooper-Nathans calculation
with monitor correction reads. -/
theorem C166_arms_false (c : Consts) {s : Setup} {l : List ℝ} (ha : s.settings.arms = some l) (hl : l.length < 4) (hkl : Vec) (w : ℝ) :
    plotInstrument c true s hkl w = .error .indexError := by
  unfold plotInstrument distances
  rw [if_neg (by simp), ha]
  match l, hl with
  | [], _ => rfl
  | [_], _ => rfl
  | [_, _], _ => rfl
  | [_, _, _], _ => rfl

/-! ## A concrete case -/

theorem demo_fast {k : ℝ} (hw : Waves si demoSetup 0 k k) : 1 < k := by
  have h2 := hw.fixed
  rw [ite_self] at h2
  have t := transfer_const si_physical
  have e : energyOfWave si k = (si.hbar * 1e10) ^ 2 / (2 * si.m) * si.J * k ^ 2 := by
    unfold energyOfWave
    ring
  rw [e] at h2
  obtain ⟨t1, t2⟩ := abs_le.1 t
  obtain ⟨A, eA⟩ : ∃ A, A = (si.hbar * 1e10) ^ 2 / (2 * si.m) * si.J := ⟨_, rfl⟩
  rw [← eA] at h2 t1 t2
  have h2' : A * k ^ 2 = 14.7 := h2
  by_contra hlt
  push Not at hlt
  have : k ^ 2 ≤ 1 := by nlinarith [hw.ki_pos]
  have : A ≤ 2.1 := by norm_num at t2 ⊢; linarith
  nlinarith [sq_nonneg k]

theorem angle_inside {k tau t : ℝ} (h : Bragg k tau t) (h0 : 0 < tau) (h1 : tau < 2 * k) : t ≠ 0 ∧ t < 90 := by
  obtain ⟨b1, b2, b3⟩ := h
  refine ⟨fun h => ?_, lt_of_le_of_ne b2 fun h => ?_⟩
  · rw [h] at b3
    norm_num at b3
    linarith
  · rw [h, show (90 : ℝ) * π / 180 = π / 2 by ring, sin_pi_div_two] at b3
    linarith

/-- The default instrument at (1, 1/2, 0): all angles exist. -/
theorem demo_all : ∃ a1 a2 a3 a4 a5 a6, (anglesAndQ si demoSetup ![1, 1 / 2, 0] 0).a1 = some a1 ∧
    (anglesAndQ si demoSetup ![1, 1 / 2, 0] 0).a2 = some a2 ∧ (anglesAndQ si demoSetup ![1, 1 / 2, 0] 0).a3 = some a3 ∧
    (anglesAndQ si demoSetup ![1, 1 / 2, 0] 0).a4 = some a4 ∧ (anglesAndQ si demoSetup ![1, 1 / 2, 0] 0).a5 = some a5 ∧
    (anglesAndQ si demoSetup ![1, 1 / 2, 0] 0).a6 = some a6 ∧ a1 ≠ 0 ∧ |a1| < 90 ∧ a5 ≠ 0 ∧ |a5| < 90 := by
  obtain ⟨k, k0, hw, hk⟩ := demo_wave
  obtain ⟨tm, ta, h1, h2, b, h5, h6, d⟩ := C128_bragg_partial si demo_fixed (by norm_num [demoSetup, demo]) hw
    (by norm_num [demoSetup, demo]) (by norm_num [demoSetup, demo]) hk hk ![1, 1 / 2, 0]
  have hl : len (vecOf (1 : Mat) ![1, 1 / 2, 0]) = √(5 / 4) := by
    rw [vecOf_one]
    unfold len
    congr 1
    simp [dotProduct, Fin.sum_univ_three]
    norm_num
  obtain ⟨a3, a4, h3, h4, -⟩ := C129_condition_partial si demo_fixed (by norm_num [demoSetup, demo]) hw demo_ortho (p := 1) (r := 0) (t := 1)
    one_ne_zero one_ne_zero rfl rfl rfl demoSetup_valid.real demoSetup_valid.dual demo_axes (hkl := ![1, 1 / 2, 0]) rfl
    (by rw [hl]; positivity) (by rw [hl, sub_self, abs_zero]; positivity) (by
      rw [hl]
      have : √(5 / 4 : ℝ) ≤ 1.2 := by
        rw [sqrt_le_left (by norm_num)]
        norm_num
      linarith)
  have hf := demo_fast hw
  obtain ⟨b1, b2⟩ := angle_inside b (by norm_num [demoSetup, demo]) (by norm_num [demoSetup, demo]; linarith)
  obtain ⟨d1, d2⟩ := angle_inside d (by norm_num [demoSetup, demo]) (by norm_num [demoSetup, demo]; linarith)
  have e1 : demoSetup.settings.mono.dir = -1 := rfl
  have e2 : demoSetup.settings.ana.dir = -1 := rfl
  rw [e1] at h1 h2
  rw [e2] at h5 h6
  refine ⟨_, _, _, _, _, _, h1, h2, h3, h4, h5, h6, by simpa using b1, ?_, by simpa using d1, ?_⟩
  · rw [neg_one_mul, abs_neg, abs_of_nonneg b.1]; exact b2
  · rw [neg_one_mul, abs_neg, abs_of_nonneg d.1]; exact d2

/-- Its monochromator stands at 10 from the source, and is not drawn as a mirror. -/
example : ∃ f o d h, plotInstrument si true demoSetup ![1, 1 / 2, 0] 0 = .ok f ∧ f.mono.place = (0, 10) ∧ f.monoOutline = some o ∧
    Rectangle o f.mono.place d h ∧ ¬ Wide d 1 := by
  obtain ⟨a1, a2, a3, a4, a5, a6, h1, h2, h3, h4, h5, h6, k1, k2, k3, k4⟩ := demo_all
  have ha : demoSetup.settings.arms.getD [10, 10, 10, 10] = 10 :: 10 :: 10 :: 10 :: [] := rfl
  obtain ⟨f, sa, an, de, om, os, os', oa, od, dm, ds, ds', da, g1, -, -, -, g2, -, -, -, -, g3, -⟩ := C166_outlines_partial si ha h1 h2 h3 h4 h5 h6
  obtain ⟨f', _, _, _, g4, -, -, -, g5, g6, -⟩ := C166_beam_partial si ha h2 h4 h6
  cases g1.symm.trans g4
  refine ⟨f, om, dm, _, g1, ?_, g2, g3, (C166_width_false si h1 h5 k2 k4 (by norm_num [demoSetup, demo]) (by norm_num [demoSetup, demo]) g1).1 om dm _ g2 g3⟩
  rw [g6, g5]
  norm_num

end Verif.Angles.Layout
