import Verif.Resolution.PropsFrame

/-! # Property theorems: stale results and side effects (C60, C63) -/

namespace Verif.Resolution

open Real Matrix
open Verif.Crystal (Fail Vec Mat npDiv npSqrt Lattice getLattice standardSystem modvec scalar Realises Dual vecOf len Indep)
open Verif.Tools (quad SPD)

/-! ## C60: a change that must be seen -/

theorem pointAt_parts {c : Conf} {l : Loop} {X : M3} {k : Kin} {q : ℝ} {r : ℝ × M4} (h : pointAt c l X k q = .ok r) :
    ∃ S Minv d RM r0 r1, npInv (matSinv c (turnShape k X)) = .ok S ∧ coreMatrix c l k S = .ok (Minv, d) ∧ npInv Minv = .ok RM ∧
      prefactor c l k d RM = .ok r0 ∧ withMosaic c q r0 RM Minv = .ok r1 ∧ r.2 = r1.2 := by
  unfold pointAt at h
  split_ifs at h
  cases hS : npInv (matSinv c (turnShape k X)) with
  | error e => rw [hS] at h; exact nomatch h
  | ok S =>
    rw [hS, ok_bind] at h
    cases hM : coreMatrix c l k S with
    | error e => rw [hM] at h; exact nomatch h
    | ok Md =>
      obtain ⟨Minv, d⟩ := Md
      rw [hM, ok_bind] at h
      dsimp only at h
      cases hR : npInv Minv with
      | error e => rw [hR] at h; exact nomatch h
      | ok RM =>
        rw [hR, ok_bind] at h
        cases hr : prefactor c l k d RM with
        | error e => rw [hr] at h; exact nomatch h
        | ok r0 =>
          rw [hr, ok_bind] at h
          cases hw : withMosaic c q r0 RM Minv with
          | error e => rw [hw] at h; exact nomatch h
          | ok r1 =>
            rw [hw, ok_bind] at h
            obtain ⟨a, b⟩ := r1
            dsimp only at h
            cases hf : withReflectivity c l k a with
            | error e => rw [hf] at h; exact nomatch h
            | ok r2 =>
              rw [hf, ok_bind] at h
              refine ⟨S, Minv, d, RM, r0, (a, b), rfl, hM, hR, hr, hw, ?_⟩
              rw [← Except.ok.inj h]

theorem npInv_eq {n : ℕ} {M N : Matrix (Fin n) (Fin n) ℝ} (h : npInv M = .ok N) : M.det ≠ 0 ∧ N = M⁻¹ := by
  unfold npInv at h
  split_ifs at h with hd
  exact ⟨hd, (Except.ok.inj h).symm⟩

theorem pointAt_mosaic {c : Conf} (hc : c.etas = none) {l : Loop} {X : M3} {k : Kin} {q m mv : ℝ} (hm : (q * m) ^ 2 ≠ 0)
    {r r' : ℝ × M4} (h : pointAt c l X k q = .ok r) (h' : pointAt { c with etas := some (m, mv) } l X k q = .ok r') :
    r.2 ≠ r'.2 := by
  obtain ⟨S, Minv, d, RM, r0, r1, h1, h2, h3, h4, h5, h6⟩ := pointAt_parts h
  obtain ⟨S', Minv', d', RM', r0', r1', g1, g2, g3, g4, g5, g6⟩ := pointAt_parts h'
  have e1 : S = S' := Except.ok.inj (h1.symm.trans g1)
  subst e1
  have e2 : (Minv, d) = (Minv', d') := Except.ok.inj (h2.symm.trans g2)
  cases e2
  have e3 : RM = RM' := Except.ok.inj (h3.symm.trans g3)
  subst e3
  rw [h6, g6]
  unfold withMosaic at h5 g5
  rw [hc] at h5
  cases h5
  simp only at g5
  unfold sampleMosaic at g5
  obtain ⟨hd, rfl⟩ := npInv_eq h3
  cases ha : npSqrt ((1 + (q * m) ^ 2 * Minv⁻¹ 2 2) * (1 + (q * mv) ^ 2 * Minv⁻¹ 1 1)) with
  | error e => rw [ha] at g5; exact nomatch g5
  | ok den =>
    rw [ha, ok_bind] at g5
    cases hb : npDiv r0' den with
    | error e => rw [hb] at g5; exact nomatch g5
    | ok r2 =>
      rw [hb, ok_bind] at g5
      cases hi : npInv (Minv + diagonal ![0, q ^ 2 * m ^ 2, q ^ 2 * mv ^ 2, 0]) with
      | error e => rw [hi] at g5; exact nomatch g5
      | ok N =>
        rw [hi, ok_bind] at g5
        rw [← Except.ok.inj g5]
        obtain ⟨hd', rfl⟩ := npInv_eq hi
        intro he
        have e := congrArg (·⁻¹) he
        simp only at e
        rw [nonsing_inv_nonsing_inv _ hd.isUnit, nonsing_inv_nonsing_inv _ hd'.isUnit] at e
        have e11 := congrFun (congrFun e 1) 1
        simp at e11
        apply hm
        rcases e11 with h | h <;> simp [h]

theorem decode_mosaic {s : Settings} {c : Conf} (m : ℝ) (h : decode s = .ok c) (hv : s.sample.vmosaic = none) :
    decode { s with sample.mosaic := some m } = .ok { c with etas := some (m * convert1, m * convert1) } := by
  unfold decode at *
  have e : decodeArms { s with sample.mosaic := some m } = decodeArms s := rfl
  rw [e]
  cases ha : decodeArms s with
  | error e => rw [ha] at h; exact nomatch h
  | ok t =>
    rw [ha, ok_bind] at h
    rw [ok_bind]
    obtain ⟨l0, l1, l1mon, l2, l3⟩ := t
    rw [← Except.ok.inj h]
    simp only [hv]
    rfl

theorem calcInQ_one {s : Settings} {c : Conf} (hd : decode s = .ok c) {q w : ℝ} {r : ℝ × M4} (h : calcInQ s [(q, w)] = .ok [r]) :
    ∃ X k, sshapeAt s.sample 0 = .ok X ∧ kinematics c q w = .ok k ∧ pointAt c ((Loop.start s).advance c k.ki) X k q = .ok r := by
  unfold calcInQ at h
  rw [hd, ok_bind, runLoop_single] at h
  unfold single at h
  cases hX : sshapeAt s.sample 0 with
  | error e => rw [hX] at h; exact nomatch h
  | ok X =>
    rw [hX, ok_bind] at h
    cases hk : kinematics c q w with
    | error e => simp only [hk] at h; exact nomatch h
    | ok k =>
      simp only [hk, ok_bind] at h
      cases hp : pointAt c ((Loop.start s).advance c k.ki) X k q with
      | error e => rw [hp] at h; exact nomatch h
      | ok r' =>
        rw [hp] at h
        have := Except.ok.inj h
        exact ⟨X, k, rfl, rfl, by rw [hp, (List.cons.inj this).1]⟩

/-- C60, the failing side.  Give the sample a mosaic after a query: the same query at any point in the
scattering plane returns the resolution without mosaic, although a new instrument with these settings returns a
different matrix. -/
theorem C60_mosaic_false {s : Setup} {E F : Mat} (h : s.Valid E F) (hS : s.settings.Valid 1) {a b c w : ℝ}
    (hne : ![a, b, c] ≠ (0 : Vec)) (hr : Reaches s.settings (len (vecOf F ![a, b, c])) w) (hp : InPlane s ![a, b, c])
    (hm : s.settings.sample.mosaic = none) (hv : s.settings.sample.vmosaic = none) (m : ℝ) (hmz : m ≠ 0) :
    ∃ r r', fresh s (one a b c w) = .ok [r] ∧ fresh { s with settings.sample.mosaic := some m } (one a b c w) = .ok [r'] ∧
      (ask { (ask (new s) (one a b c w)).1 with setup := { s with settings.sample.mosaic := some m } } (one a b c w)).2 = .ok [r] ∧
      r.rms ≠ r'.rms := by
  obtain ⟨x, y, z, hs, hfr, hu, hv'⟩ := axes h
  set s' : Setup := { s with settings.sample.mosaic := some m } with hs'
  have h' : s'.Valid E F := ⟨h.cell, h.real, h.dual, h.indep, h.noShape⟩
  have hS' : s'.settings.Valid 1 := ⟨hS.mono, hS.ana, hS.guide, hS.monitor, hS.detector, ⟨hS.sample.width, hS.sample.depth,
    hS.sample.height, hS.sample.one, hS.sample.stack, hS.sample.dir⟩, hS.hcol, hS.vcol, hS.arms⟩
  have hr' : Reaches s'.settings (len (vecOf F ![a, b, c])) w := ⟨hr.ei, hr.ef, hr.mono, hr.ana, hr.closes, hr.q⟩
  obtain ⟨r, r1, -, -, r2⟩ := fresh_point h hS hs hne hr
  obtain ⟨r', r1', -, -, r2'⟩ := fresh_point (s := s') h' hS' hs hne hr'
  refine ⟨r, r', r1, r1', C60_stale s s' 1 _ (one_len a b c w) [r] r1, ?_⟩
  have hn := direction_unit h.cell h.real h.dual hne
  rw [hfr.norm, (inPlane_iff h hfr hu hv' hne).1 hp] at hn
  rw [r2, r2']
  have hdet := det_tmat (vecOf F x ⬝ᵥ direction F ![a, b, c]) (vecOf F y ⬝ᵥ direction F ![a, b, c])
  generalize tmat (vecOf F x ⬝ᵥ direction F ![a, b, c]) (vecOf F y ⬝ᵥ direction F ![a, b, c]) = T at *
  have hT : IsUnit T.det := by rw [hdet]; exact IsUnit.mk0 _ (by rw [show _ + _ = (1 : ℝ) by linear_combination hn]; norm_num)
  have hT' : IsUnit Tᵀ.det := by rwa [det_transpose]
  have cancel : ∀ A B : M4, Tᵀ * A * T = Tᵀ * B * T → A = B := by
    intro A B e
    have e1 := congrArg (· * T⁻¹) e
    simp only [Matrix.mul_nonsing_inv_cancel_right _ _ hT] at e1
    have e2 := congrArg (Tᵀ⁻¹ * ·) e1
    simpa only [Matrix.nonsing_inv_mul_cancel_left _ _ hT'] using e2
  intro he
  have he := cancel _ _ he
  have hf := frame_ok h.cell h.real h.dual hs hne
  have hf' : frame s' ![a, b, c] = _ := hf
  rw [fresh_one h.noShape hf] at r1
  rw [fresh_one h'.noShape hf'] at r1'
  obtain ⟨conf, hd, -⟩ := decode_ok hS
  have hd' : decode s'.settings = _ := decode_mosaic m hd hv
  have get : ∀ (t : Settings) (f : ℝ × ℝ × ℝ) (r : Res) (w : ℝ), (calcInQ t [(f.1, w)]).map (List.zipWith toCrystal [f]) = .ok [r] →
      t.Valid 1 → Reaches t f.1 w → ∃ p, calcInQ t [(f.1, w)] = .ok [p] ∧ p.2 = r.rm := by
    intro t f r w ht hv hr
    obtain ⟨rs, h1, h2, -⟩ := C61_spd t [(f.1, w)] hv (by
      intro p hp
      rw [List.mem_singleton.1 hp]
      exact hr)
    obtain ⟨p, rfl⟩ := List.length_eq_one_iff.1 h2
    rw [h1] at ht
    have := (List.cons.inj (Except.ok.inj ht)).1
    exact ⟨p, h1, by rw [← this]; rfl⟩
  obtain ⟨p, p1, p2⟩ := get _ _ _ _ r1 hS hr
  obtain ⟨p', p1', p2'⟩ := get _ _ _ _ r1' hS' hr'
  obtain ⟨X, k, hX, hk, hpt⟩ := calcInQ_one hd p1
  obtain ⟨X', k', hX', hk', hpt'⟩ := calcInQ_one hd' p1'
  have eX : X = X' := Except.ok.inj (hX.symm.trans (show sshapeAt s.settings.sample 0 = .ok X' from hX'))
  have ek : k = k' := Except.ok.inj (hk.symm.trans (show kinematics conf _ w = .ok k' from hk'))
  subst eX ek
  have hc : conf.etas = none := by
    obtain ⟨-, -, -, -, -, d, -⟩ := decode_fields hd
    rw [d, hm]
    rfl
  have hq := hr.q
  have c1 := convert1_pos
  refine pointAt_mosaic hc (m := m * convert1) (mv := m * convert1) ?_ hpt hpt' (by rw [p2, p2', he])
  have : len (vecOf F ![a, b, c]) * (m * convert1) ≠ 0 := mul_ne_zero hq.ne' (mul_ne_zero hmz c1.ne')
  positivity

/-- The hypotheses of `C60_mosaic_false` are met. -/
example : ∃ r r', fresh demoSetup (one 1 0 0 0) = .ok [r] ∧
    fresh { demoSetup with settings.sample.mosaic := some 60 } (one 1 0 0 0) = .ok [r'] ∧
    (ask { (ask (new demoSetup) (one 1 0 0 0)).1 with setup := { demoSetup with settings.sample.mosaic := some 60 } }
      (one 1 0 0 0)).2 = .ok [r] ∧ r.rms ≠ r'.rms := by
  have e : len (vecOf 1 ![1, 0, 0]) = 1 := by
    rw [demo_len]
    norm_num
  refine C60_mosaic_false (w := 0) demoSetup_valid (demo_valid 1) (fun h => by have := congrFun h 0; simp at this)
    (by rw [e]; exact demo_reaches (by norm_num) (by norm_num) (by norm_num) (by norm_num)) ⟨1, 0, ?_⟩ rfl rfl 60 (by norm_num)
  funext i
  fin_cases i <;> simp [demoSetup]

/-! ## C96: points that cannot be reached -/

/-- The energies are positive and both crystals can reflect. -/
structure Reflects (s : Settings) (w : ℝ) : Prop where
  ei : 0 < incident s w
  ef : 0 < final s w
  mono : s.mono.tau < 2 * wavevector (incident s w)
  ana : s.ana.tau < 2 * wavevector (final s w)

/-- The cosine that a scattering angle would have. -/
noncomputable def cosine (s : Settings) (q w : ℝ) : ℝ :=
  (wavevector (incident s w) ^ 2 + wavevector (final s w) ^ 2 - q ^ 2) / (2 * wavevector (incident s w) * wavevector (final s w))

theorem npArcsin_ok {y : ℝ} (h0 : 0 ≤ y) (h1 : y ≤ 1) : Verif.Crystal.npArcsin y = .ok (arcsin y) := by
  unfold Verif.Crystal.npArcsin
  rw [if_pos ⟨by linarith, h1⟩]

theorem kinematics_open {s : Settings} {n : ℕ} (hs : s.Valid n) {c : Conf} (hd : decode s = .ok c) {q w : ℝ} (h : Reflects s w)
    (ho : 1 < |cosine s q w|) (hl : 1 / 10 ^ 12 < log (|cosine s q w| + √(cosine s q w ^ 2 - 1))) :
    kinematics c q w = .error .scatteringTriangleError := by
  obtain ⟨c', hd', -, -, he, hf, hm, ha, -, ss, -⟩ := decode_ok hs
  cases Except.ok.inj (hd.symm.trans hd')
  have e1 : (if 0 < c.infin then c.efixed else c.efixed + w) = incident s w := by rw [hf, he]; rfl
  have e2 : (if 0 < c.infin then c.efixed - w else c.efixed) = final s w := by rw [hf, he]; rfl
  have c2 : convert2 = 2.072 := by norm_num [convert2]
  have pi : 0 < incident s w / 2.072 := div_pos h.ei (by norm_num)
  have pf : 0 < final s w / 2.072 := div_pos h.ef (by norm_num)
  have hki : 0 < wavevector (incident s w) := Real.sqrt_pos.2 pi
  have hkf : 0 < wavevector (final s w) := Real.sqrt_pos.2 pf
  have w1 : √(incident s w / 2.072) = wavevector (incident s w) := rfl
  have w2 : √(final s w / 2.072) = wavevector (final s w) := rfl
  have tm := hs.mono.tau
  have ta := hs.ana.tau
  unfold kinematics
  simp only [e1, e2, c2, npSqrt_ok pi.le, npSqrt_ok pf.le, ok_bind, hm, ha, w1, w2]
  rw [npDiv_ok (by positivity), ok_bind, npArcsin_ok (by positivity) (by rw [div_le_one (by positivity)]; exact h.mono.le), ok_bind,
    npDiv_ok (by positivity), ok_bind, npArcsin_ok (by positivity) (by rw [div_le_one (by positivity)]; exact h.ana.le), ok_bind,
    npDiv_ok (by positivity), ok_bind]
  have ex : scatteringAngle (cosine s q w) c.ss = .error .scatteringTriangleError := by
    unfold scatteringAngle
    rw [if_pos]
    refine ⟨ho, ?_⟩
    have h1 : |c.ss| = 1 := by
      rw [ss]
      rcases hs.sample.dir with h | h <;> rw [h] <;> norm_num
    rw [abs_mul, h1, mul_one]
    exact lt_of_lt_of_le hl (le_abs_self _)
  unfold cosine at ex
  rw [ex]
  rfl

/-- C96 (partial).  If the energies are positive, both crystals can reflect and the scattering triangle does
not close (by more than rounding), the calculation raises `ScatteringTriangleError`, wherever in the list the point
is, provided the points before it are reachable.  Missing: points at which a crystal cannot reflect or an energy
is negative; they give `nan` without an error (`C96_no_reflection`). -/
theorem C96_open_triangle_partial {s : Settings} (pts : List (ℝ × ℝ)) (q w : ℝ) (rest : List (ℝ × ℝ))
    (hs : s.Valid (pts.length + 1)) (hp : ∀ p ∈ pts, Reaches s p.1 p.2) (h : Reflects s w)
    (ho : 1 < |cosine s q w|) (hl : 1 / 10 ^ 12 < log (|cosine s q w| + √(cosine s q w ^ 2 - 1))) :
    calcInQ s (pts ++ (q, w) :: rest) = .error .scatteringTriangleError := by
  obtain ⟨c, hd, hc, hea, he, hf, hm, ha, sm, ss, sa⟩ := decode_ok hs
  unfold calcInQ
  rw [hd, ok_bind]
  suffices H : ∀ (pts : List (ℝ × ℝ)) (ind n : ℕ) (l : Loop), s.Valid n → ind + pts.length + 1 ≤ n → l.Good → l.Curved →
      (∀ p ∈ pts, Reaches s p.1 p.2) →
      runLoop c s.sample ind l (pts ++ (q, w) :: rest) = .error .scatteringTriangleError from
    H pts 0 _ _ hs (by omega) (start_good hs) (start_curved hs) hp
  intro pts
  induction pts with
  | nil =>
    intro ind n l hs hn _ _ _
    obtain ⟨X, hX, -⟩ := sshapeAt_ok hs.sample (i := ind) (by simp only [List.length_nil] at hn; omega)
    simp only [List.nil_append, runLoop, hX, ok_bind, kinematics_open hs hd h ho hl]
    rfl
  | cons p pts ih =>
    intro ind n l hs hn hl' hr hp
    obtain ⟨q', w'⟩ := p
    simp only [List.length_cons] at hn
    obtain ⟨X, hX, pX⟩ := sshapeAt_ok hs.sample (i := ind) (by omega)
    obtain ⟨k, hk, gk, gt⟩ := kinematics_ok he hf hm ha (sm ▸ hs.mono.dir) (ss ▸ hs.sample.dir) (sa ▸ hs.ana.dir)
      hs.mono.tau hs.ana.tau (hp (q', w') (by simp))
    have hl'' := advance_good hl' c gk.ki
    have hr' := advance_curved hr (sm ▸ hs.mono.dir) (sa ▸ hs.ana.dir) k.ki
    obtain ⟨r, RM, hpt, rp, hR⟩ := pointAt_ok hc hl'' (fun _ => hr') gk gt hea pX
    have := ih (ind + 1) n _ hs (by omega) hl'' hr' (fun p hp' => hp p (List.mem_cons_of_mem _ hp'))
    simp only [List.cons_append, runLoop, hX, hk, hpt, this, ok_bind]
    rfl

/-- A scattering vector of 9 Å⁻¹ is out of reach of the default instrument. -/
theorem demo_far : calcInQ demo [(9, 0)] = .error .scatteringTriangleError := by
  have ei : incident demo 0 = 14.7 := by
    unfold incident
    rw [if_neg (by norm_num [demo])]
    norm_num [demo]
  have ef : final demo 0 = 14.7 := by
    unfold final
    rw [if_neg (by norm_num [demo])]
    rfl
  have hr := demo_reaches (q := 1) (w := 0) (by norm_num) (by norm_num) (by norm_num) (by norm_num)
  have sq : wavevector 14.7 ^ 2 = 14.7 / 2.072 := Real.sq_sqrt (by norm_num)
  have hx : cosine demo 9 0 ≤ -2 := by
    unfold cosine
    rw [ei, ef, mul_assoc, ← pow_two, sq]
    norm_num
  have habs : 2 ≤ |cosine demo 9 0| := by rw [abs_of_neg (by linarith)]; linarith
  refine C96_open_triangle_partial [] 9 0 [] (demo_valid 1) (by simp) ⟨hr.ei, hr.ef, hr.mono, hr.ana⟩ (by linarith) ?_
  have h1 : log 2 ≤ log (|cosine demo 9 0| + √(cosine demo 9 0 ^ 2 - 1)) :=
    Real.log_le_log (by norm_num) (by have := Real.sqrt_nonneg (cosine demo 9 0 ^ 2 - 1); linarith)
  have h2 : (0.5 : ℝ) < log 2 := by
    have := Real.log_two_gt_d9
    norm_num at this ⊢
    linarith
  have h3 : (1 / 10 ^ 12 : ℝ) < 0.5 := by norm_num
  linarith

/-- C96, the failing side.  If the monochromator cannot reflect the incident energy, the first point yields
not a number instead of an error. -/
theorem C96_no_reflection {s : Settings} {n : ℕ} (hs : s.Valid (n + 1)) (q w : ℝ) (rest : List (ℝ × ℝ))
    (h1 : 0 < incident s w) (h2 : 0 < final s w) (h3 : 2 * wavevector (incident s w) < s.mono.tau) :
    calcInQ s ((q, w) :: rest) = .error .nan := by
  obtain ⟨c, hd, hc, hea, he, hf, hm, ha, sm, ss, sa⟩ := decode_ok hs
  obtain ⟨X, hX, -⟩ := sshapeAt_ok hs.sample (i := 0) (by omega)
  have e1 : (if 0 < c.infin then c.efixed else c.efixed + w) = incident s w := by rw [hf, he]; rfl
  have e2 : (if 0 < c.infin then c.efixed - w else c.efixed) = final s w := by rw [hf, he]; rfl
  have c2 : convert2 = 2.072 := by norm_num [convert2]
  have pi : 0 < incident s w / 2.072 := div_pos h1 (by norm_num)
  have pf : 0 < final s w / 2.072 := div_pos h2 (by norm_num)
  have hki : 0 < wavevector (incident s w) := Real.sqrt_pos.2 pi
  have w1 : √(incident s w / 2.072) = wavevector (incident s w) := rfl
  have hk : kinematics c q w = .error .nan := by
    unfold kinematics
    simp only [e1, e2, c2, npSqrt_ok pi.le, npSqrt_ok pf.le, ok_bind, hm, w1]
    rw [npDiv_ok (by positivity), ok_bind]
    have : Verif.Crystal.npArcsin (s.mono.tau / (2 * wavevector (incident s w))) = .error .nan := by
      unfold Verif.Crystal.npArcsin
      rw [if_neg]
      rintro ⟨-, h⟩
      rw [div_le_one (by positivity)] at h
      linarith
    rw [this]
    rfl
  simp only [calcInQ, hd, runLoop, hX, hk, ok_bind]
  rfl

end Verif.Resolution
