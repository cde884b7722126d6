import Verif.Resolution.Props

/-! # Property theorems: several points in one call (C62) -/

namespace Verif.Resolution

open Real Matrix
open Verif.Crystal (Fail npSqrt npArcsin npDiv)
open Verif.Tools (arctan2 quad SPD Closes)

/-! ## C62 -/

/-- Loop variables that give the same result: equal divergences and, where they are used, equal curvatures. -/
structure Loop.Same (c : Conf) (l l' : Loop) : Prop where
  alpha : l.alpha = l'.alpha
  beta : l.beta = l'.beta
  curv : c.popovici = true → l = l'

theorem Loop.Same.refl (c : Conf) (l : Loop) : l.Same c l := ⟨rfl, rfl, fun _ => rfl⟩

theorem Loop.Same.trans {c : Conf} {l l' l'' : Loop} (h : l.Same c l') (h' : l'.Same c l'') : l.Same c l'' :=
  ⟨h.alpha.trans h'.alpha, h.beta.trans h'.beta, fun hp => (h.curv hp).trans (h'.curv hp)⟩

theorem Loop.Same.advance {c : Conf} {l l' : Loop} (h : l.Same c l') (ki : ℝ) :
    (l.advance c ki).Same c (l'.advance c ki) := by
  refine ⟨?_, ?_, fun hp => by rw [h.curv hp]⟩
  · simp only [Loop.advance, h.alpha]
  · simp only [Loop.advance, h.beta]

theorem pointAt_same {c : Conf} {l l' : Loop} (h : l.Same c l') (X : M3) (k : Kin) (q : ℝ) :
    pointAt c l X k q = pointAt c l' X k q := by
  cases hp : c.popovici with
  | true => rw [h.curv hp]
  | false =>
    have g : matG l = matG l' := by simp only [matG, h.alpha, h.beta]
    have cn : cooperNathansN c l k = cooperNathansN c l' k := by
      simp only [cooperNathansN, g, focusBlock, h.alpha]
    have core : coreMatrix c l k = coreMatrix c l' k := by
      funext S
      simp only [coreMatrix, hp, cn, Bool.false_eq_true, if_false]
    have mon : monitorFlux c l k = monitorFlux c l' k := by
      simp only [monitorFlux, monitorDen, hp, mong, g, Bool.false_eq_true, if_false]
    have pre : prefactor c l k = prefactor c l' k := by
      funext d RM
      simp only [prefactor, mon]
    have hwr : withReflectivity c l k = withReflectivity c l' k := by
      funext r
      simp only [withReflectivity, reflectivity, h.alpha]
    simp only [pointAt, core, pre, hwr, h.alpha, h.beta]

/-- The loop body applied to one point with the variables as they are before the loop. -/
noncomputable def single (c : Conf) (a : SampleAttrs) (l : Loop) (p : ℝ × ℝ) : Except Fail (ℝ × M4) := do
  let X ← sshapeAt a 0
  let k ← kinematics c p.1 p.2
  pointAt c (l.advance c k.ki) X k p.1

theorem runLoop_single (c : Conf) (a : SampleAttrs) (l : Loop) (p : ℝ × ℝ) :
    runLoop c a 0 l [p] = (single c a l p).map fun r => [r] := by
  obtain ⟨q, w⟩ := p
  simp only [runLoop, single]
  cases sshapeAt a 0 with
  | error e => rfl
  | ok X =>
    simp only [ok_bind]
    cases kinematics c q w with
    | error e => rfl
    | ok k =>
      simp only [ok_bind]
      cases pointAt c (l.advance c k.ki) X k q with
      | error e => rfl
      | ok r => rfl

/-- The variables after one point act like those before the loop. -/
def Stable (c : Conf) (l : Loop) : Prop := ∀ q w k q' w' k', kinematics c q w = .ok k → kinematics c q' w' = .ok k' →
  ((l.advance c k.ki).advance c k'.ki).Same c (l.advance c k'.ki)

theorem runLoop_map {c : Conf} {a : SampleAttrs} {l0 : Loop} (hst : Stable c l0)
    (ha : ∀ i, sshapeAt a i = sshapeAt a 0) : ∀ (pts : List (ℝ × ℝ)) (ind : ℕ) (l : Loop),
      (∀ q w k, kinematics c q w = .ok k → (l.advance c k.ki).Same c (l0.advance c k.ki)) →
      ∀ rs, runLoop c a ind l pts = .ok rs ↔ List.Forall₂ (fun p r => single c a l0 p = .ok r) pts rs
  | [], _, _, _, rs => by
    simp only [runLoop, List.forall₂_nil_left_iff]
    exact ⟨fun h => (Except.ok.inj h).symm, fun h => by rw [h]⟩
  | (q, w) :: rest, ind, l, hl, rs => by
    simp only [runLoop, ha ind]
    cases hX : sshapeAt a 0 with
    | error e =>
      refine ⟨fun h => (nomatch h), fun h => ?_⟩
      cases h with
      | cons h _ => simp [single, hX, Bind.bind, Except.bind] at h
    | ok X =>
      simp only [ok_bind]
      cases hk : kinematics c q w with
      | error e =>
        refine ⟨fun h => (nomatch h), fun h => ?_⟩
        cases h with
        | cons h _ => simp [single, hX, hk, Bind.bind, Except.bind] at h
      | ok k =>
        simp only [ok_bind]
        have hs : single c a l0 (q, w) = pointAt c (l.advance c k.ki) X k q := by
          simp only [single, hX, hk, ok_bind]
          exact (pointAt_same (hl q w k hk) X k q).symm
        have ih := runLoop_map hst ha rest (ind + 1) (l.advance c k.ki) (fun q' w' k' hk' =>
          ((hl q w k hk).advance k'.ki).trans (hst q w k q' w' k' hk hk'))
        cases hr : pointAt c (l.advance c k.ki) X k q with
        | error e =>
          refine ⟨fun h => (nomatch h), fun h => ?_⟩
          cases h with
          | cons h _ => rw [hs, hr] at h; exact nomatch h
        | ok r =>
          simp only [ok_bind]
          cases hrs : runLoop c a (ind + 1) (l.advance c k.ki) rest with
          | error e =>
            refine ⟨fun h => (nomatch h), fun h => ?_⟩
            cases h with
            | cons _ h2 => rw [(ih _).2 h2] at hrs; exact nomatch hrs
          | ok rs' =>
            simp only [ok_bind]
            constructor
            · intro h
              rw [← Except.ok.inj h]
              exact List.Forall₂.cons (by rw [hs, hr]) ((ih _).1 hrs)
            · intro h
              cases h with
              | cons h1 h2 =>
                rw [hs, hr] at h1
                rw [(ih _).2 h2] at hrs
                rw [← Except.ok.inj h1, ← Except.ok.inj hrs]
                rfl

theorem guideDivergence_nonneg {a : ℝ} (h : 0 ≤ a) (ki : ℝ) : guideDivergence a ki = a := by
  unfold guideDivergence
  rw [if_neg (not_lt.2 h)]

theorem guideDivergence_idem (a : ℝ) {ki : ℝ} (h : 0 ≤ ki) :
    guideDivergence (guideDivergence a ki) ki = guideDivergence a ki := by
  by_cases ha : a < 0
  · refine guideDivergence_nonneg ?_ ki
    unfold guideDivergence
    rw [if_pos ha]
    have : 0 < -a := by linarith
    positivity
  · rw [guideDivergence_nonneg (not_lt.1 ha), guideDivergence_nonneg (not_lt.1 ha)]

theorem kinematics_ki {c : Conf} {q w : ℝ} {k : Kin} (h : kinematics c q w = .ok k) :
    k.ki = √((if 0 < c.infin then c.efixed else c.efixed + w) / convert2) := by
  unfold kinematics at h
  unfold npSqrt at h
  dsimp only at h
  by_cases h1 : 0 ≤ (if 0 < c.infin then c.efixed else c.efixed + w) / convert2
  · rw [if_pos h1, ok_bind] at h
    by_cases h2 : 0 ≤ (if 0 < c.infin then c.efixed - w else c.efixed) / convert2
    · rw [if_pos h2, ok_bind] at h
      revert h
      generalize √((if 0 < c.infin then c.efixed else c.efixed + w) / convert2) = ki
      generalize √((if 0 < c.infin then c.efixed - w else c.efixed) / convert2) = kf
      intro h
      cases h3 : npDiv c.taum (2 * ki) with
      | error e => rw [h3] at h; exact nomatch h
      | ok x =>
        rw [h3, ok_bind] at h
        cases h4 : npArcsin x with
        | error e => rw [h4] at h; exact nomatch h
        | ok x' =>
          rw [h4, ok_bind] at h
          cases h5 : npDiv c.taua (2 * kf) with
          | error e => rw [h5] at h; exact nomatch h
          | ok y =>
            rw [h5, ok_bind] at h
            cases h6 : npArcsin y with
            | error e => rw [h6] at h; exact nomatch h
            | ok y' =>
              rw [h6, ok_bind] at h
              cases h7 : npDiv (ki ^ 2 + kf ^ 2 - q ^ 2) (2 * ki * kf) with
              | error e => rw [h7] at h; exact nomatch h
              | ok z =>
                rw [h7, ok_bind] at h
                cases h8 : scatteringAngle z c.ss with
                | error e => rw [h8] at h; exact nomatch h
                | ok z' =>
                  rw [h8, ok_bind] at h
                  rw [← Except.ok.inj h]
    · rw [if_neg h2] at h
      exact nomatch h
  · rw [if_neg h1] at h
    exact nomatch h

theorem decode_fields {s : Settings} {c : Conf} (h : decode s = .ok c) : c.popovici = s.popovici ∧
    c.sm = s.mono.dir ∧ c.sa = s.ana.dir ∧ c.infin = s.infin.getD (-1) ∧ c.horifoc = s.horifoc.getD (-1) ∧
    c.etas = s.sample.mosaic.map (fun m => (m * convert1, s.sample.vmosaic.getD m * convert1)) ∧
    c.efixed = s.efixed := by
  unfold decode at h
  cases ha : decodeArms s with
  | error e => rw [ha] at h; exact nomatch h
  | ok t =>
    rw [ha, ok_bind] at h
    rw [← Except.ok.inj h]
    exact ⟨rfl, rfl, rfl, rfl, rfl, rfl, rfl⟩

theorem start_stable {s : Settings} {c : Conf} (hd : decode s = .ok c)
    (hcol : (∀ i, 0 ≤ s.hcol i ∧ 0 ≤ s.vcol i) ∨ 0 < s.infin.getD (-1))
    (hdir : s.popovici = true → s.mono.dir = 1 ∧ s.ana.dir = 1) : Stable c (Loop.start s) := by
  obtain ⟨hp, hsm, hsa, hin, _, _, _⟩ := decode_fields hd
  intro q w k q' w' k' hk hk'
  have col : ∀ a : ℝ, (0 ≤ a ∨ k.ki = k'.ki) → guideDivergence (guideDivergence a k.ki) k'.ki = guideDivergence a k'.ki := by
    intro a h
    rcases h with h | h
    · rw [guideDivergence_nonneg h k.ki]
    · rw [h]
      exact guideDivergence_idem a (by rw [kinematics_ki hk']; exact Real.sqrt_nonneg _)
  have hsame : 0 < s.infin.getD (-1) → k.ki = k'.ki := by
    intro h
    rw [kinematics_ki hk, kinematics_ki hk', hin, if_pos h, if_pos h]
  have c1 := convert1_pos.le
  have f : ∀ i : Fin 4, (0 : ℝ) ≤ if s.horifoc = some 1 ∧ i = 2 then √(8 * log 2 / 12) else 1 := by
    intro i
    split_ifs
    · exact Real.sqrt_nonneg _
    · norm_num
  have ha : (((Loop.start s).advance c k.ki).advance c k'.ki).alpha = ((Loop.start s).advance c k'.ki).alpha := by
    funext i
    refine col _ ?_
    rcases hcol with h | h
    · exact Or.inl (mul_nonneg (mul_nonneg (h i).1 c1) (f i))
    · exact Or.inr (hsame h)
  have hb : (((Loop.start s).advance c k.ki).advance c k'.ki).beta = ((Loop.start s).advance c k'.ki).beta := by
    funext i
    refine col _ ?_
    rcases hcol with h | h
    · exact Or.inl (mul_nonneg (h i).2 c1)
    · exact Or.inr (hsame h)
  refine ⟨ha, hb, fun hpop => ?_⟩
  obtain ⟨d1, d2⟩ := hdir (hp ▸ hpop)
  have s1 : c.sm = 1 := hsm.trans d1
  have s2 : c.sa = 1 := hsa.trans d2
  have e (l : Loop) (x : ℝ) : l.advance c x = ⟨(l.advance c x).alpha, (l.advance c x).beta, l.monorh, l.monorv, l.anarh, l.anarv⟩ := by
    simp only [Loop.advance, s1, s2, mul_one]
  rw [e ((Loop.start s).advance c k.ki) k'.ki, ha, hb, e (Loop.start s) k'.ki]
  simp only [Loop.advance, s1, s2, mul_one]

/-- The sample shape is not a stack of matrices. -/
def PlainShape (a : SampleAttrs) : Prop := ∀ l, a.shape ≠ some (.stack l)

theorem sshapeAt_plain {a : SampleAttrs} (h : PlainShape a) (i : ℕ) : sshapeAt a i = sshapeAt a 0 := by
  obtain ⟨m, vm, w, d, hh, st, sh, dir⟩ := a
  simp only [PlainShape] at h
  unfold sshapeAt
  cases w <;> cases d <;> cases hh <;> cases sh with
  | none => rfl
  | some x => cases x with
    | one M => rfl
    | stack l => first | rfl | exact absurd rfl (h l)

/-- C62 (partial).  The resolution for a list of points is, point by point, the resolution for each point
alone, when no beam divergence is limited by a guide or the incident energy is fixed, and, for the Popovici
method, the monochromator and analyzer scatter to the side counted as `+1`.  Missing: guides with fixed final
energy (`C62_guide_leaks`) and curved crystals with sense `-1` (`C62_curvature_alternates`). -/
theorem C62_batch_partial (s : Settings) (pts : List (ℝ × ℝ)) (hne : pts ≠ [])
    (hcol : (∀ i, 0 ≤ s.hcol i ∧ 0 ≤ s.vcol i) ∨ 0 < s.infin.getD (-1))
    (hdir : s.popovici = true → s.mono.dir = 1 ∧ s.ana.dir = 1) (hsh : PlainShape s.sample) (rs : List (ℝ × M4)) :
    calcInQ s pts = .ok rs ↔ List.Forall₂ (fun p r => calcInQ s [p] = .ok [r]) pts rs := by
  unfold calcInQ
  cases hd : decode s with
  | error e =>
    refine ⟨fun h => (nomatch h), fun h => ?_⟩
    cases h with
    | nil => exact absurd rfl hne
    | cons h _ => exact nomatch h
  | ok c =>
    simp only [ok_bind]
    rw [runLoop_map (start_stable hd hcol hdir) (sshapeAt_plain hsh) pts 0 _ (fun _ _ _ _ => Loop.Same.refl _ _)]
    have e : ∀ p r, (runLoop c s.sample 0 (Loop.start s) [p] = .ok [r]) ↔ single c s.sample (Loop.start s) p = .ok r := by
      intro p r
      rw [runLoop_single]
      cases single c s.sample (Loop.start s) p with
      | error e => exact ⟨fun h => (nomatch h), fun h => (nomatch h)⟩
      | ok x =>
        refine ⟨fun h => ?_, fun h => ?_⟩
        · have := Except.ok.inj h
          rw [(List.cons.inj this).1]
        · rw [Except.ok.inj h]
          rfl
    constructor
    · exact fun h => h.imp fun p r hpr => (e p r).2 hpr
    · exact fun h => h.imp fun p r hpr => (e p r).1 hpr

/-- The hypotheses hold for the default instrument. -/
example (rs : List (ℝ × M4)) : calcInQ demo [(1, 0), (1 / 2, 1)] = .ok rs ↔
    List.Forall₂ (fun p r => calcInQ demo [p] = .ok [r]) [(1, 0), (1 / 2, 1)] rs :=
  C62_batch_partial demo _ (by simp) (Or.inl fun i => by norm_num [demo])
    (fun h => absurd h (by decide)) (fun _ h => nomatch h) rs

end Verif.Resolution
