import Verif.Resolution.LemmasLeak

/-! # Property theorems: what one point of a list leaves behind for the next (C62) -/

namespace Verif.Resolution

open Real Matrix
open Verif.Crystal (Fail npSqrt npArcsin npDiv)
open Verif.Tools (arctan2 quad SPD Closes)

theorem guideDivergence_neg {a : ℝ} (h : a < 0) (ki : ℝ) : guideDivergence a ki = -a * (1 / 10) * 60 * (2 * π / ki) / (427 / 1000) / √3 := by
  unfold guideDivergence
  rw [if_pos h]

theorem guideDivergence_sq_ne {a ki ki' : ℝ} (h : a < 0) (h1 : 0 < ki) (h2 : 0 < ki') (hne : ki ≠ ki') :
    (guideDivergence (guideDivergence a ki) ki') ^ 2 ≠ (guideDivergence a ki') ^ 2 := by
  have pos (x : ℝ) (hx : 0 < x) : 0 < guideDivergence a x := by
    rw [guideDivergence_neg h]
    have : 0 < -a := by linarith
    positivity
  rw [guideDivergence_nonneg (pos ki h1).le]
  intro he
  have he := (sq_eq_sq₀ (pos ki h1).le (pos ki' h2).le).1 he
  rw [guideDivergence_neg h, guideDivergence_neg h] at he
  have h3 : (√3 : ℝ) ≠ 0 := by positivity
  have ha : a ≠ 0 := h.ne
  have e : -a * (1 / 10) * 60 * (2 * π) * (1 / ki - 1 / ki') = 0 := by
    have := (div_left_inj' (by norm_num : (427 / 1000 : ℝ) ≠ 0)).1 ((div_left_inj' h3).1 he)
    linear_combination this
  rcases mul_eq_zero.1 e with h' | h'
  · have : -a * (1 / 10) * 60 * (2 * π) ≠ 0 := by
      have : 0 < -a := by linarith
      positivity
    exact this h'
  · have := sub_eq_zero.1 h'
    rw [one_div, one_div] at this
    exact hne (inv_injective this)

/-- C62, the failing side.  With a guide before the sample (a negative vertical collimation), fixed final
energy and the Cooper-Nathans method, the divergence of the guide is computed for the incident energy of the
first point of a list and kept for the others: whenever two reachable points have different energy transfers,
the matrix of the second in the list of both differs from the matrix of that point alone. -/
theorem C62_guide_leaks (s : Settings) (hs : s.Valid 2) (hp : s.popovici = false) (hf : s.horifoc.getD (-1) ≤ 0)
    (hm : s.sample.mosaic = none) (hin : s.infin.getD (-1) ≤ 0) (h1 : s.vcol 1 < 0) (ho : ∀ i, i ≠ 1 → 0 < s.vcol i)
    (hh : ∀ i, 0 < s.hcol i) (hsh : PlainShape s.sample) (p p' : ℝ × ℝ) (r1 : Reaches s p.1 p.2)
    (r2 : Reaches s p'.1 p'.2) (hne : p.2 ≠ p'.2) :
    ∃ r r' x, calcInQ s [p, p'] = .ok [r, r'] ∧ calcInQ s [p'] = .ok [x] ∧ r'.2 ≠ x.2 := by
  obtain ⟨q, w⟩ := p
  obtain ⟨q', w'⟩ := p'
  obtain ⟨c, hd, hc, hea, he, hfn, htm, hta, sm, ss, sa⟩ := decode_ok hs
  obtain ⟨d1, -, -, -, d2, d3, -⟩ := decode_fields hd
  obtain ⟨k, hk, gk, gt⟩ := kinematics_ok he hfn htm hta (sm ▸ hs.mono.dir) (ss ▸ hs.sample.dir) (sa ▸ hs.ana.dir)
    hs.mono.tau hs.ana.tau r1
  obtain ⟨k', hk', gk', gt'⟩ := kinematics_ok he hfn htm hta (sm ▸ hs.mono.dir) (ss ▸ hs.sample.dir) (sa ▸ hs.ana.dir)
    hs.mono.tau hs.ana.tau r2
  obtain ⟨X, hX, pX⟩ := sshapeAt_ok hs.sample (i := 0) (by omega)
  have hX1 : sshapeAt s.sample 1 = .ok X := by rw [sshapeAt_plain hsh, hX]
  have g0 := start_good hs
  have v0 := start_curved hs
  have md : c.sm = 1 ∨ c.sm = -1 := sm ▸ hs.mono.dir
  have ad : c.sa = 1 ∨ c.sa = -1 := sa ▸ hs.ana.dir
  have g1 := advance_good g0 c gk.ki
  have v1 := advance_curved v0 md ad k.ki
  have g2 := advance_good g1 c gk'.ki
  have v2 := advance_curved v1 md ad k'.ki
  have g3 := advance_good g0 c gk'.ki
  have v3 := advance_curved v0 md ad k'.ki
  obtain ⟨a1, b1, e1, -, -⟩ := pointAt_ok hc g1 (fun _ => v1) gk gt hea pX
  obtain ⟨a2, b2, e2, -, -⟩ := pointAt_ok hc g2 (fun _ => v2) gk' gt' hea pX
  obtain ⟨a3, b3, e3, -, -⟩ := pointAt_ok hc g3 (fun _ => v3) gk' gt' hea pX
  refine ⟨(a1, b1), (a2, b2), (a3, b3), ?_, ?_, ?_⟩
  · simp only [calcInQ, hd, runLoop, hX, hX1, hk, hk', e1, e2, ok_bind, Nat.zero_add]
    rfl
  · simp only [calcInQ, hd, runLoop, hX, hk', e3, ok_bind]
    rfl
  · have hpc : c.popovici = false := d1.trans hp
    have hfc : ¬ 0 < c.horifoc := by rw [d2]; exact not_lt.2 hf
    have hec : c.etas = none := by rw [d3, hm]; rfl
    have m2 := pointAt_cn hc.mosaics g2 hpc hfc hec e2
    have m3 := pointAt_cn hc.mosaics g3 hpc hfc hec e3
    rw [m2, m3]
    have c1 := convert1_pos
    have f : ∀ i : Fin 4, (0 : ℝ) ≤ if s.horifoc = some 1 ∧ i = 2 then √(8 * log 2 / 12) else 1 := by
      intro i
      split_ifs
      · exact Real.sqrt_nonneg _
      · norm_num
    have hki : k.ki ≠ k'.ki := by
      rw [kinematics_ki hk, kinematics_ki hk', hfn, if_neg (not_lt.2 hin), if_neg (not_lt.2 hin)]
      intro e
      have i1 := r1.ei
      have i2 := r2.ei
      unfold incident at i1 i2
      rw [if_neg (not_lt.2 hin)] at i1 i2
      rw [he] at e
      have c2 : (0 : ℝ) < convert2 := by norm_num [convert2]
      have e' := (Real.sqrt_inj (div_nonneg i1.le c2.le) (div_nonneg i2.le c2.le)).1 e
      have e'' := (div_left_inj' c2.ne').1 e'
      exact hne (by linarith)
    refine cn_differ hc.mosaics g2 g3 gk' ?_ ?_ ?_
    · funext i
      have h0 : 0 ≤ (Loop.start s).alpha i := mul_nonneg (mul_nonneg (hh i).le c1.le) (f i)
      simp only [Loop.advance, guideDivergence_nonneg h0]
    · intro i hi
      have h0 : 0 ≤ (Loop.start s).beta i := mul_nonneg (ho i hi).le c1.le
      simp only [Loop.advance, guideDivergence_nonneg h0]
    · exact guideDivergence_sq_ne (mul_neg_of_neg_of_pos h1 c1) gk.ki gk'.ki hki

/-- The default instrument behind a guide with `m = 1`. -/
noncomputable def guided : Settings := { demo with vcol := ![120, -1, 120, 120] }

/-- An elastic point and one with 1 meV transfer meet the hypotheses of `C62_guide_leaks`. -/
example : ∃ r r' x, calcInQ guided [(1, 0), (1, 1)] = .ok [r, r'] ∧ calcInQ guided [(1, 1)] = .ok [x] ∧ r'.2 ≠ x.2 := by
  have v := demo_valid 2
  have rch (w : ℝ) (h0 : 0 ≤ w) (h1 : w ≤ 1) : Reaches guided 1 w := by
    have h := demo_reaches (q := 1) (w := w) (by norm_num) (by norm_num) h0 h1
    exact ⟨h.ei, h.ef, h.mono, h.ana, h.closes, h.q⟩
  refine C62_guide_leaks guided ?_ ?_ ?_ rfl ?_ ?_ ?_ ?_ (fun _ h => nomatch h) (1, 0) (1, 1)
    (rch 0 (by norm_num) (by norm_num)) (rch 1 (by norm_num) (by norm_num)) (by norm_num)
  · exact ⟨v.mono, v.ana, v.guide, v.monitor, v.detector, v.sample, v.hcol,
      fun i => by fin_cases i <;> norm_num [guided], v.arms⟩
  · decide
  · norm_num [guided, demo]
  · norm_num [guided, demo]
  · norm_num [guided]
  · intro i hi
    fin_cases i <;> simp_all [guided]
  · intro i
    norm_num [guided, demo]

/-- The loop variables at the `n`-th point of a list, `kis` being the incident wavevectors of the points before
it and its own. -/
noncomputable def loopAt (c : Conf) (l : Loop) (kis : List ℝ) : Loop := kis.foldl (fun l ki => l.advance c ki) l

/-- C62, curved crystals.  At the `n`-th point of a list the radii of curvature have been multiplied by the
scattering sense `n` times, not once: with sense `-1` (the default) a crystal that is focusing at one point is
defocusing at the next. -/
theorem C62_curvature_alternates (c : Conf) : ∀ (kis : List ℝ) (l : Loop),
    (loopAt c l kis).monorh = l.monorh * c.sm ^ kis.length ∧ (loopAt c l kis).monorv = l.monorv * c.sm ^ kis.length ∧
    (loopAt c l kis).anarh = l.anarh * c.sa ^ kis.length ∧ (loopAt c l kis).anarv = l.anarv * c.sa ^ kis.length
  | [], l => by simp [loopAt]
  | ki :: kis, l => by
    obtain ⟨h1, h2, h3, h4⟩ := C62_curvature_alternates c kis (l.advance c ki)
    have e : loopAt c l (ki :: kis) = loopAt c (l.advance c ki) kis := rfl
    rw [e, h1, h2, h3, h4]
    simp only [Loop.advance, List.length_cons, pow_succ]
    refine ⟨?_, ?_, ?_, ?_⟩ <;> ring

/-- `loopAt` are the variables the loop works with: a list splits at any point into the points before it and
a loop that starts from `loopAt`. -/
theorem runLoop_append (c : Conf) (a : SampleAttrs) : ∀ (p1 p2 : List (ℝ × ℝ)) (ks : List Kin) (ind : ℕ) (l : Loop)
    (rs : List (ℝ × M4)), List.Forall₂ (fun p k => kinematics c p.1 p.2 = .ok k) p1 ks →
    runLoop c a ind l (p1 ++ p2) = .ok rs → ∃ rs1 rs2, rs = rs1 ++ rs2 ∧ rs1.length = p1.length ∧
      runLoop c a (ind + p1.length) (loopAt c l (ks.map Kin.ki)) p2 = .ok rs2
  | [], p2, _, ind, l, rs, .nil, h => ⟨[], rs, rfl, rfl, by simpa [loopAt] using h⟩
  | (q, w) :: p1, p2, _, ind, l, rs, .cons (b := k) (l₂ := ks) hk hks, h => by
    simp only [List.cons_append, runLoop] at h
    cases hX : sshapeAt a ind with
    | error e => rw [hX] at h; exact nomatch h
    | ok X =>
      rw [hX, ok_bind, hk, ok_bind] at h
      cases hr : pointAt c (l.advance c k.ki) X k q with
      | error e => rw [hr] at h; exact nomatch h
      | ok r =>
        rw [hr, ok_bind] at h
        cases hrs : runLoop c a (ind + 1) (l.advance c k.ki) (p1 ++ p2) with
        | error e => rw [hrs] at h; exact nomatch h
        | ok rs' =>
          rw [hrs, ok_bind] at h
          obtain ⟨rs1, rs2, e1, e2, e3⟩ := runLoop_append c a p1 p2 ks (ind + 1) (l.advance c k.ki) rs' hks hrs
          refine ⟨r :: rs1, rs2, ?_, by simp [e2], ?_⟩
          · rw [← Except.ok.inj h, e1]
            rfl
          · rw [← e3]
            simp only [List.length_cons, List.map_cons]
            rw [show ind + (p1.length + 1) = ind + 1 + p1.length by omega]
            rfl

end Verif.Resolution
