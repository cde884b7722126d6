import Verif.Resolution.ReverseSides

/-! # Property C201: an instrument passed through in the opposite direction -/

namespace Verif.Resolution

open Real Matrix
open Verif.Crystal (Fail npSqrt npArcsin npDiv)
open Verif.Tools (arctan2 SPD Closes)

/-- The distances along the beam, read from the other end; a distance to the monitor stays as it is. -/
def backArms : List ℝ → List ℝ
  | l0 :: l1 :: l2 :: l3 :: rest => l3 :: l2 :: l1 :: l0 :: rest
  | L => L

/-- The instrument with the beam passing through it in the opposite direction, seen in a mirror: monochromator and analyzer, guide
and detector, the collimators and the distances change places, the other energy is the fixed one, and the shape of the sample is
mirrored.  The scattering senses go with the crystals. -/
noncomputable def Settings.reversed (s : Settings) : Settings :=
  { s with
    infin := some (if 0 < s.infin.getD (-1) then -1 else 1)
    hcol := fun i => s.hcol i.rev
    vcol := fun i => s.vcol i.rev
    arms := s.arms.map backArms
    mono := s.ana
    ana := s.mono
    guide := s.detector
    detector := s.guide
    sample := { s.sample with shape := s.sample.shape.map Shape.image } }

/-- A quadratic form in the components of `Q` and the energy with the second component of `Q` and the energy reversed. -/
def backward (M : M4) : M4 := Matrix.of fun i j => if (i = 1 ∨ i = 3) ↔ (j = 1 ∨ j = 3) then M i j else -M i j

theorem backward_n4 (M : M4) : backward M = flipBy n4 M := by
  ext i j
  rw [flipBy_apply, backward, of_apply]
  fin_cases i <;> fin_cases j <;> simp [n4]

theorem npSqrt_sq {x y : ℝ} (h : npSqrt x = .ok y) : y ^ 2 = x := by
  unfold npSqrt at h
  split_ifs at h with hx
  obtain rfl := Except.ok.inj h
  exact sq_sqrt (by linarith)

/-- What the two directions have in common before the loop. -/
structure ConfBack (c c' : Conf) : Prop extends ConfRev c c' where
  efixed : c'.efixed = c.efixed
  infin : 0 < c'.infin ↔ ¬ 0 < c.infin
  taum : c'.taum = c.taua
  taua : c'.taua = c.taum
  sm : c'.sm = c.sa
  ss : c'.ss = c.ss
  sa : c'.sa = c.sm

theorem phi_rev {ki kf q t : ℝ} (law : q ^ 2 = ki ^ 2 + kf ^ 2 - 2 * ki * kf * cos t) (hq : q ≠ 0) :
    cos (arctan2 (-ki * sin t) (kf - ki * cos t)) = -cos (arctan2 (-kf * sin t) (ki - kf * cos t) - t) ∧
    sin (arctan2 (-ki * sin t) (kf - ki * cos t)) = sin (arctan2 (-kf * sin t) (ki - kf * cos t) - t) := by
  obtain ⟨h1, h2⟩ := Verif.Angles.arctan2_polar (-kf * sin t) (ki - kf * cos t)
  obtain ⟨h3, h4⟩ := Verif.Angles.arctan2_polar (-ki * sin t) (kf - ki * cos t)
  have st := sin_sq_add_cos_sq t
  have e1 : (ki - kf * cos t) ^ 2 + (-kf * sin t) ^ 2 = q ^ 2 := by rw [law]; linear_combination kf ^ 2 * st
  have e2 : (kf - ki * cos t) ^ 2 + (-ki * sin t) ^ 2 = q ^ 2 := by rw [law]; linear_combination ki ^ 2 * st
  rw [e1] at h1 h2
  rw [e2] at h3 h4
  have hR : √(q ^ 2) ≠ 0 := by rw [sqrt_sq_eq_abs]; exact abs_ne_zero.2 hq
  generalize √(q ^ 2) = R at *
  rw [cos_sub, sin_sub]
  constructor
  · refine mul_left_cancel₀ hR ?_
    linear_combination h3 + cos t * h1 + sin t * h2 - kf * st
  · refine mul_left_cancel₀ hR ?_
    linear_combination h4 - cos t * h2 + sin t * h1

theorem kinematics_rev {c c' : Conf} (hc : ConfBack c c') {q w : ℝ} {k k' : Kin} (hk : k.Good q) (e : kinematics c q w = .ok k)
    (e' : kinematics c' q (-w) = .ok k') : KinRev k k' ∧ k.ki ^ 2 = (if 0 < c.infin then c.efixed else c.efixed + w) / convert2 ∧
      k.kf ^ 2 = (if 0 < c.infin then c.efixed - w else c.efixed) / convert2 := by
  unfold kinematics at e e'
  have a1 : (if 0 < c'.infin then c'.efixed else c'.efixed + -w) = (if 0 < c.infin then c.efixed - w else c.efixed) := by
    simp only [hc.infin, hc.efixed]
    by_cases h : 0 < c.infin
    · rw [if_neg (not_not.2 h), if_pos h]; ring
    · rw [if_pos h, if_neg h]
  have a2 : (if 0 < c'.infin then c'.efixed - -w else c'.efixed) = (if 0 < c.infin then c.efixed else c.efixed + w) := by
    simp only [hc.infin, hc.efixed]
    by_cases h : 0 < c.infin
    · rw [if_neg (not_not.2 h), if_pos h]
    · rw [if_pos h, if_neg h]; ring
  simp only [a1, a2, hc.taum, hc.taua, hc.sm, hc.sa, hc.ss] at e'
  obtain ⟨ki, e1, e⟩ := bind_ok e
  obtain ⟨kf, e2, e⟩ := bind_ok e
  obtain ⟨x1, e3, e⟩ := bind_ok e
  obtain ⟨y1, e4, e⟩ := bind_ok e
  obtain ⟨x2, e5, e⟩ := bind_ok e
  obtain ⟨y2, e6, e⟩ := bind_ok e
  obtain ⟨x3, e7, e⟩ := bind_ok e
  obtain ⟨t, e8, e⟩ := bind_ok e
  have b1 : kf ^ 2 + ki ^ 2 - q ^ 2 = ki ^ 2 + kf ^ 2 - q ^ 2 := by ring
  have b2 : 2 * kf * ki = 2 * ki * kf := by ring
  simp only [e1, e2, e3, e4, e5, e6, ok_bind, b1, b2, e7, e8] at e'
  obtain rfl := Except.ok.inj e
  obtain rfl := Except.ok.inj e'
  have hp := phi_rev hk.law hk.q
  exact ⟨⟨rfl, rfl, rfl, rfl, rfl, hp.1, hp.2⟩, npSqrt_sq e1, npSqrt_sq e2⟩

theorem arms_rev {s : Settings} {a b m d e : ℝ} (h : decodeArms s = .ok (a, b, m, d, e)) :
    ∃ m', decodeArms s.reversed = .ok (e, d, m', b, a) := by
  have hm : s.reversed.theMethod = s.theMethod := rfl
  have ha : s.reversed.arms = s.arms.map backArms := rfl
  unfold decodeArms at h ⊢
  rw [hm, ha]
  generalize decide (s.theMethod = Method.number 1) = dm at h ⊢
  generalize s.arms = L at h ⊢
  cases dm with
  | false =>
    have h' : (1, 1, 1, 1, 1) = (a, b, m, d, e) := by
      rcases L with _ | (_ | ⟨_, _ | ⟨_, _ | ⟨_, _ | ⟨_, _⟩⟩⟩⟩) <;> exact Except.ok.inj h
    obtain ⟨rfl, rfl, rfl, rfl, rfl⟩ := by simpa only [Prod.mk.injEq] using h'
    refine ⟨1, ?_⟩
    rcases L with _ | (_ | ⟨_, _ | ⟨_, _ | ⟨_, _ | ⟨_, _⟩⟩⟩⟩) <;> rfl
  | true =>
    rcases L with _ | (_ | ⟨_, _ | ⟨_, _ | ⟨_, _ | ⟨_, _⟩⟩⟩⟩) <;> simp_all [backArms]
    obtain ⟨rfl, rfl, rfl, rfl, rfl⟩ := h
    simp

/-- The vertical mosaics of the crystals enter the calculation in the same way: with the method `1`, or if they do not
differ from the horizontal ones. -/
def Settings.Even (s : Settings) : Prop := s.vmosaicUsed = true ∨
  (∀ v, s.mono.vmosaic = some v → v = s.mono.mosaic) ∧ ∀ v, s.ana.vmosaic = some v → v = s.ana.mosaic

theorem decode_rev {s : Settings} (hv : s.Even) (hf : s.horifoc.getD (-1) ≤ 0) {c c' : Conf} (e : decode s = .ok c)
    (e' : decode s.reversed = .ok c') : ConfBack c c' ∧ c.moncor = s.moncor.getD 1 ∧
      (s.ana.thickness = none → c.refl = none) ∧ (s.mono.thickness = none → c'.refl = none) := by
  unfold decode at e e'
  obtain ⟨⟨a, b, m, d, f⟩, h1, e⟩ := bind_ok e
  obtain ⟨m', h1'⟩ := arms_rev h1
  rw [h1'] at e'
  obtain rfl := Except.ok.inj e
  obtain rfl := Except.ok.inj e'
  have hu : s.reversed.vmosaicUsed = s.vmosaicUsed := rfl
  have hd : ∀ {x : Option ℝ} {y : ℝ}, (∀ v, x = some v → v = y) → x.getD y = y := by
    intro x y h
    cases x with
    | none => rfl
    | some v => exact h v rfl
  refine ⟨⟨⟨rfl, not_lt.2 hf, not_lt.2 hf, rfl, rfl, ?_, rfl, ?_, rfl, rfl, rfl, rfl, rfl, rfl, rfl, rfl, rfl⟩, rfl, ?_, rfl, rfl, rfl, rfl, rfl⟩,
    rfl, fun h => ?_, fun h => ?_⟩
  · simp only [hu]
    rcases hv with hv | hv
    · rw [if_pos hv]; rfl
    · split_ifs
      · rfl
      · exact congrArg (· * convert1) (hd hv.2).symm
  · change s.mono.vmosaic.getD s.mono.mosaic * convert1 =
      (if s.vmosaicUsed = true then s.mono.vmosaic.getD s.mono.mosaic else s.mono.mosaic) * convert1
    rcases hv with hv | hv
    · rw [if_pos hv]
    · split_ifs
      · rfl
      · exact congrArg (· * convert1) (hd hv.1)
  · simp only [Settings.reversed, Option.getD_some]
    by_cases h : 0 < s.infin.getD (-1)
    · simp [h]
    · simp [h]
  · simp only [h]
  · have : s.reversed.ana.thickness = none := h
    simp only [this]

theorem start_rev {s : Settings} (hf : s.horifoc.getD (-1) ≤ 0) : LoopRev (Loop.start s) (Loop.start s.reversed) := by
  have h1 : s.horifoc ≠ some 1 := by
    intro h
    rw [h] at hf
    norm_num at hf
  have h1' : s.reversed.horifoc ≠ some 1 := h1
  refine ⟨fun i => ?_, fun i => rfl, rfl, rfl, rfl, rfl⟩
  simp only [Loop.start, h1, h1', false_and, if_false]
  rfl

/-- The angular widths of the collimators are those of collimators, not of guides. -/
structure Loop.Plain (l : Loop) : Prop where
  alpha : ∀ i, 0 < l.alpha i
  beta : ∀ i, 0 < l.beta i

theorem start_plain {s : Settings} (hh : ∀ i, 0 < s.hcol i) (hv : ∀ i, 0 < s.vcol i) : (Loop.start s).Plain := by
  have c1 := convert1_pos
  have hl : 0 < log 2 := log_pos (by norm_num)
  refine ⟨fun i => mul_pos (mul_pos (hh i) c1) ?_, fun i => mul_pos (hv i) c1⟩
  split_ifs <;> positivity

theorem guide_plain {a ki : ℝ} (h : 0 < a) : guideDivergence a ki = a := by
  unfold guideDivergence
  rw [if_neg (by linarith)]

theorem Loop.Plain.advance {l : Loop} (h : l.Plain) (c : Conf) (ki : ℝ) : (l.advance c ki).Plain :=
  ⟨fun i => by simp only [Loop.advance, guide_plain (h.alpha i)]; exact h.alpha i,
    fun i => by simp only [Loop.advance, guide_plain (h.beta i)]; exact h.beta i⟩

theorem LoopRev.advance {c c' : Conf} (hc : ConfBack c c') {l l' : Loop} (h : LoopRev l l') (hp : l.Plain) (x y : ℝ) :
    LoopRev (l.advance c x) (l'.advance c' y) := by
  refine ⟨fun i => ?_, fun i => ?_, ?_, ?_, ?_, ?_⟩
  · simp only [Loop.advance, h.alpha, guide_plain (hp.alpha _)]
  · simp only [Loop.advance, h.beta, guide_plain (hp.beta _)]
  · simp only [Loop.advance, h.monorh, hc.sm]
  · simp only [Loop.advance, h.monorv, hc.sm]
  · simp only [Loop.advance, h.anarh, hc.sa]
  · simp only [Loop.advance, h.anarv, hc.sa]

theorem runLoop_rev {s : Settings} {c c' : Conf} (hc : ConfBack c c') (he : c.efixed = s.efixed) (hi : c.infin = s.infin.getD (-1))
    (hm : c.taum = s.mono.tau) (ha : c.taua = s.ana.tau) (sm : c.sm = 1 ∨ c.sm = -1) (ss : c.ss = 1 ∨ c.ss = -1)
    (sa : c.sa = 1 ∨ c.sa = -1) (tm : 0 < s.mono.tau) (ta : 0 < s.ana.tau) :
    ∀ (pts : List (ℝ × ℝ)) (ind : ℕ) (l l' : Loop), LoopRev l l' → l.Plain → (∀ p ∈ pts, Reaches s p.1 p.2) → ∀ rs rs',
      runLoop c s.sample ind l pts = .ok rs → runLoop c' s.reversed.sample ind l' (pts.map fun p => (p.1, -p.2)) = .ok rs' →
      ∀ (n : ℕ) (p : ℝ × ℝ) (r r' : ℝ × M4), pts[n]? = some p → rs[n]? = some r → rs'[n]? = some r' →
        r'.2 = flipBy n4 r.2 ∧ (c.moncor ≠ 1 → c.refl = none → c'.refl = none → r'.1 * final s p.2 = r.1 * incident s p.2)
  | [], _, _, _, _, _, _, _, _, _, _, _, _, _, _, hp, _, _ => by simp at hp
  | (q, w) :: rest, ind, l, l', hl, hp, hr, rs, rs', e, e', n, p, r, r', h1, h2, h3 => by
    have hshape : sshapeAt s.reversed.sample ind = (sshapeAt s.sample ind).map (flipBy m3) := by
      have := shape_image s ind
      exact this
    simp only [List.map_cons, runLoop] at e e'
    obtain ⟨X, x1, e⟩ := bind_ok e
    obtain ⟨k, x2, e⟩ := bind_ok e
    obtain ⟨o, x3, e⟩ := bind_ok e
    obtain ⟨os, x4, e⟩ := bind_ok e
    obtain rfl := Except.ok.inj e
    rw [hshape, x1] at e'
    obtain ⟨X', y1, e'⟩ := bind_ok e'
    obtain rfl := Except.ok.inj y1
    obtain ⟨k', y2, e'⟩ := bind_ok e'
    obtain ⟨o', y3, e'⟩ := bind_ok e'
    obtain ⟨os', y4, e'⟩ := bind_ok e'
    obtain rfl := Except.ok.inj e'
    obtain ⟨k0, z1, gk, _⟩ := kinematics_ok he hi hm ha sm ss sa tm ta (hr (q, w) (by simp))
    change kinematics c q w = _ at z1
    obtain rfl := Except.ok.inj (z1.symm.trans x2)
    obtain ⟨hk, ki2, kf2⟩ := kinematics_rev hc gk x2 y2
    have hl1 := hl.advance hc hp k0.ki k'.ki
    cases n with
    | zero =>
      simp only [List.getElem?_cons_zero, Option.some.injEq] at h1 h2 h3
      subst h1 h2 h3
      obtain ⟨g1, g2⟩ := point_rev hc.toConfRev hk hl1 gk.ki.ne' gk.kf.ne' (reflected_flip m3 X) x3 y3
      refine ⟨g1, fun a1 a2 a3 => ?_⟩
      have g := g2 a1 a2 a3
      have e1 : (if 0 < c.infin then c.efixed else c.efixed + w) = incident s w := by rw [hi, he]; rfl
      have e2 : (if 0 < c.infin then c.efixed - w else c.efixed) = final s w := by rw [hi, he]; rfl
      rw [ki2, kf2, e1, e2] at g
      have c2 : convert2 ≠ 0 := by norm_num [convert2]
      field_simp at g
      exact g
    | succ n =>
      simp only [List.getElem?_cons_succ] at h1 h2 h3
      exact runLoop_rev hc he hi hm ha sm ss sa tm ta rest (ind + 1) _ _ hl1 (hp.advance c _)
        (fun p hp' => hr p (List.mem_cons_of_mem _ hp')) os os' x4 y4 n p r r' h1 h2 h3

theorem SPD_leftRight {M : M3} (h : SPD M) : SPD (leftRight M) := by
  rw [← posDef_iff_spd] at h ⊢
  have hj (v : Fin 3 → ℝ) (hv : v ᵥ* diagonal m3 = 0) : v = 0 := by
    have := congrArg (· ᵥ* diagonal m3) hv
    simpa only [vecMul_vecMul, signs_m3.sq, vecMul_one, zero_vecMul] using this
  have := congr_posDef h (diagonal m3) hj
  rwa [diagonal_transpose, ← flipBy, ← leftRight_m3] at this

theorem Settings.Valid.reversed {s : Settings} {n : ℕ} (h : s.Valid n) : s.reversed.Valid n := by
  refine ⟨h.ana, h.mono, h.detector, h.monitor, h.guide, ⟨h.sample.width, h.sample.depth, h.sample.height, ?_, ?_, h.sample.dir⟩,
    fun i => h.hcol _, fun i => h.vcol _, ?_⟩
  · intro M hM
    simp only [Settings.reversed, Option.map_eq_some_iff] at hM
    obtain ⟨S, h1, h2⟩ := hM
    cases S with
    | stack l => exact nomatch h2
    | one N =>
      cases h2
      exact SPD_leftRight (h.sample.one N h1)
  · intro L hL
    simp only [Settings.reversed, Option.map_eq_some_iff] at hL
    obtain ⟨S, h1, h2⟩ := hL
    cases S with
    | one l => exact nomatch h2
    | stack l =>
      cases h2
      obtain ⟨g1, g2⟩ := h.sample.stack l h1
      refine ⟨by rw [List.length_map]; exact g1, fun M hM => ?_⟩
      obtain ⟨N, h3, rfl⟩ := List.mem_map.1 hM
      exact SPD_leftRight (g2 N h3)
  · intro L hL
    simp only [Settings.reversed, Option.map_eq_some_iff] at hL
    obtain ⟨K, h1, rfl⟩ := hL
    obtain ⟨g1, g2⟩ := h.arms K h1
    match K, g1, g2 with
    | l0 :: l1 :: l2 :: l3 :: rest, g1, g2 =>
      refine ⟨by simp [backArms], fun x hx => g2 x ?_⟩
      simp only [backArms, List.mem_cons] at hx ⊢
      tauto

theorem energies_rev (s : Settings) (w : ℝ) : incident s.reversed (-w) = final s w ∧ final s.reversed (-w) = incident s w := by
  unfold incident final
  simp only [Settings.reversed, Option.getD_some]
  by_cases h : 0 < s.infin.getD (-1)
  · norm_num [h, sub_eq_add_neg]
  · simp [h]

theorem Reaches.reversed {s : Settings} {q w : ℝ} (h : Reaches s q w) : Reaches s.reversed q (-w) := by
  obtain ⟨e1, e2⟩ := energies_rev s w
  refine ⟨e1 ▸ h.ef, e2 ▸ h.ei, by rw [e1]; exact h.ana, by rw [e2]; exact h.mono, ?_, h.q⟩
  rw [e1, e2]
  obtain ⟨u, v, hu, hv, huv⟩ := h.closes
  exact ⟨v, u, hv, hu, by rw [← neg_sub, norm_neg, huv]⟩

/-- C201 (partial).  A valid instrument with a flat analyzer and without guides, and the same instrument passed through in the
opposite direction, have the same resolution: for every list of reachable points both calculations succeed, and the matrix of the
instrument at `(q, w)` is that of the reversed one at `(q, -w)` with the second component of `Q` and the energy reversed.  Without
monitor and without a thick crystal the prefactors are in the ratio of the incident and the final energy.  Missing: vertical mosaics
that differ from the horizontal ones with a method other than `1`, guides. -/
theorem C201_reversed_partial (s : Settings) (pts : List (ℝ × ℝ)) (h : s.Valid pts.length) (hr : ∀ p ∈ pts, Reaches s p.1 p.2)
    (hf : s.horifoc.getD (-1) ≤ 0) (hh : ∀ i, 0 < s.hcol i) (hvc : ∀ i, 0 < s.vcol i) (hv : s.Even) :
    ∃ rs rs', calcInQ s pts = .ok rs ∧ calcInQ s.reversed (pts.map fun p => (p.1, -p.2)) = .ok rs' ∧ rs.length = pts.length ∧
      rs'.length = pts.length ∧ ∀ (n : ℕ) (p : ℝ × ℝ) (r r' : ℝ × M4), pts[n]? = some p → rs[n]? = some r → rs'[n]? = some r' →
        r'.2 = backward r.2 ∧ (s.moncor.getD 1 ≠ 1 → s.mono.thickness = none → s.ana.thickness = none →
          r'.1 * final s p.2 = r.1 * incident s p.2) := by
  have hlen : (pts.map fun p => (p.1, -p.2)).length = pts.length := List.length_map _
  obtain ⟨rs, e1, l1, -⟩ := C61_spd s pts h hr
  obtain ⟨rs', e2, l2, -⟩ := C61_spd s.reversed (pts.map fun p => (p.1, -p.2)) (by rw [hlen]; exact h.reversed) (by
    intro p hp
    obtain ⟨p', hp', rfl⟩ := List.mem_map.1 hp
    exact (hr p' hp').reversed)
  refine ⟨rs, rs', e1, e2, l1, l2.trans hlen, fun n p r r' g1 g2 g3 => ?_⟩
  obtain ⟨c, hd, hc, hea, he, hi, hm, ha, sm, ss, sa⟩ := decode_ok h
  obtain ⟨c', hd', -⟩ := decode_ok h.reversed
  obtain ⟨hb, b1, b2, b3⟩ := decode_rev hv hf hd hd'
  unfold calcInQ at e1 e2
  rw [hd] at e1
  rw [hd'] at e2
  obtain ⟨k1, k2⟩ := runLoop_rev hb he hi hm ha (sm ▸ h.mono.dir) (ss ▸ h.sample.dir) (sa ▸ h.ana.dir) h.mono.tau h.ana.tau pts 0 _ _
    (start_rev hf) (start_plain hh hvc) hr rs rs' e1 e2 n p r r' g1 g2 g3
  exact ⟨by rw [k1, backward_n4], fun a1 a2 a3 => k2 (b1 ▸ a1) (b2 a3) (b3 a2)⟩

/-- The default instrument without monitor, at two points. -/
example : ∃ r1 r2 r1' r2', calcInQ { demo with moncor := some 0 } [(1, 1 / 2), (1 / 2, 0)] = .ok [r1, r2] ∧
    calcInQ ({ demo with moncor := some 0 } : Settings).reversed [(1, -(1 / 2)), (1 / 2, -0)] = .ok [r1', r2'] ∧
    r1'.2 = backward r1.2 ∧ r1'.1 * 14.7 = r1.1 * 15.2 := by
  have h := demo_valid 2
  have hr1 : Reaches demo 1 (1 / 2) := demo_reaches (by norm_num) (by norm_num) (by norm_num) (by norm_num)
  have hr2 : Reaches demo (1 / 2) 0 := demo_reaches (by norm_num) (by norm_num) (by norm_num) (by norm_num)
  obtain ⟨rs, rs', e1, e2, l1, l2, H⟩ := C201_reversed_partial { demo with moncor := some 0 } [(1, 1 / 2), (1 / 2, 0)]
    ⟨h.mono, h.ana, h.guide, h.monitor, h.detector, h.sample, h.hcol, h.vcol, h.arms⟩ (by
      intro p hp
      rcases List.mem_pair.1 hp with rfl | rfl
      · exact ⟨hr1.ei, hr1.ef, hr1.mono, hr1.ana, hr1.closes, hr1.q⟩
      · exact ⟨hr2.ei, hr2.ef, hr2.mono, hr2.ana, hr2.closes, hr2.q⟩)
    (by norm_num [demo]) (fun i => by norm_num [demo]) (fun i => by norm_num [demo])
    (Or.inr ⟨fun v hv => by simp [demo] at hv, fun v hv => by simp [demo] at hv⟩)
  obtain ⟨r1, r2, rfl⟩ := List.length_eq_two.1 l1
  obtain ⟨r1', r2', rfl⟩ := List.length_eq_two.1 l2
  obtain ⟨g1, g2⟩ := H 0 _ r1 r1' rfl rfl rfl
  refine ⟨r1, r2, r1', r2', e1, e2, g1, ?_⟩
  have := g2 (by norm_num) rfl rfl
  norm_num [final, incident, demo] at this ⊢
  exact this

end Verif.Resolution
