import Verif.Resolution.LemmasPoint
import Verif.Tools.PropsKin

/-! # Property theorems: the resolution matrix (C61) -/

namespace Verif.Resolution

open Real Matrix
open Verif.Crystal (Fail npSqrt npArcsin npDiv)
open Verif.Tools (arctan2 quad SPD Closes)

/-! ## C61 -/

/-- The incident energy at energy transfer `w`. -/
noncomputable def incident (s : Settings) (w : ℝ) : ℝ := if 0 < s.infin.getD (-1) then s.efixed else s.efixed + w

/-- The final energy at energy transfer `w`. -/
noncomputable def final (s : Settings) (w : ℝ) : ℝ := if 0 < s.infin.getD (-1) then s.efixed - w else s.efixed

/-- The wavevector of a neutron of energy `e` (meV), with the value of `ħ²/2m` the code uses. -/
noncomputable def wavevector (e : ℝ) : ℝ := √(e / 2.072)

/-- The instrument can reach momentum transfer `q` at energy transfer `w`: the energies are positive, both
crystals can reflect, the triangle closes and `q` is not zero. -/
structure Reaches (s : Settings) (q w : ℝ) : Prop where
  ei : 0 < incident s w
  ef : 0 < final s w
  mono : s.mono.tau < 2 * wavevector (incident s w)
  ana : s.ana.tau < 2 * wavevector (final s w)
  closes : Closes (wavevector (incident s w)) (wavevector (final s w)) q
  q : 0 < q

/-- An attribute, if present, is positive. -/
def Pos (x : Option ℝ) : Prop := ∀ v, x = some v → 0 < v

structure Blade.Valid (b : Blade) : Prop where
  tau : 0 < b.tau
  mosaic : 0 < b.mosaic
  vmosaic : Pos b.vmosaic
  width : Pos b.width
  height : Pos b.height
  depth : Pos b.depth
  rv : ∀ r, b.rv = some r → r ≠ 0
  rh : ∀ r, b.rh = some r → r ≠ 0
  dir : b.dir = 1 ∨ b.dir = -1
  thickness : Pos b.thickness
  reflQ : Pos b.reflQ

structure Window.Valid (w : Window) : Prop where
  width : Pos w.width
  height : Pos w.height

structure SampleAttrs.Valid (a : SampleAttrs) (n : ℕ) : Prop where
  width : Pos a.width
  depth : Pos a.depth
  height : Pos a.height
  one : ∀ M, a.shape = some (.one M) → SPD M
  stack : ∀ l, a.shape = some (.stack l) → n ≤ l.length ∧ ∀ M ∈ l, SPD M
  dir : a.dir = 1 ∨ a.dir = -1

/-- A valid instrument: positive mosaics, sizes and distances, collimations that are positive or (for a
guide) negative but not zero, scattering senses `±1`.  `n` is the number of points asked for, which matters
only when the sample shape is a stack of matrices. -/
structure Settings.Valid (s : Settings) (n : ℕ) : Prop where
  mono : s.mono.Valid
  ana : s.ana.Valid
  guide : s.guide.Valid
  monitor : s.monitor.Valid
  detector : s.detector.Valid
  sample : s.sample.Valid n
  hcol : ∀ i, s.hcol i ≠ 0
  vcol : ∀ i, s.vcol i ≠ 0
  arms : ∀ L, s.arms = some L → 4 ≤ L.length ∧ ∀ x ∈ L, 0 < x

theorem convert1_pos : 0 < convert1 := by
  unfold convert1
  have : 0 < log 2 := log_pos (by norm_num)
  positivity

theorem extent_pos {x : Option ℝ} (h : Pos x) : 0 < extent x := by
  cases x with
  | none => exact one_pos
  | some v =>
    have := h v rfl
    simp only [extent]
    positivity

theorem getD_pos {x : Option ℝ} (h : Pos x) {d : ℝ} (hd : 0 < d) : 0 < x.getD d := by
  cases x with
  | none => exact hd
  | some v => exact h v rfl

theorem decodeArms_ok {s : Settings} (h : ∀ L, s.arms = some L → 4 ≤ L.length ∧ ∀ x ∈ L, 0 < x) :
    ∃ a b c d e : ℝ, decodeArms s = .ok (a, b, c, d, e) ∧ 0 < a ∧ 0 < b ∧ 0 < c ∧ 0 < d ∧ 0 < e := by
  unfold decodeArms
  split
  · next l0 l1 l2 l3 rest hL _ =>
    have hx := (h _ hL).2
    refine ⟨_, _, _, _, _, rfl, hx _ (by simp), hx _ (by simp), ?_, hx _ (by simp), hx _ (by simp)⟩
    cases rest with
    | nil => exact hx _ (by simp)
    | cons m r => exact hx _ (by simp)
  · next L hne hL _ =>
    have hl := (h _ hL).1
    match L, hl, hne with
    | l0 :: l1 :: l2 :: l3 :: rest, _, hne => exact (hne l0 l1 l2 l3 rest rfl).elim
  · exact ⟨_, _, _, _, _, rfl, one_pos, one_pos, one_pos, one_pos, one_pos⟩

theorem decode_ok {s : Settings} {n : ℕ} (h : s.Valid n) : ∃ c, decode s = .ok c ∧ c.Good ∧ 0 < c.etaa ∧
    c.efixed = s.efixed ∧ c.infin = s.infin.getD (-1) ∧ c.taum = s.mono.tau ∧ c.taua = s.ana.tau ∧
    c.sm = s.mono.dir ∧ c.ss = s.sample.dir ∧ c.sa = s.ana.dir := by
  obtain ⟨a, b, c, d, e, ha, p1, p2, p3, p4, p5⟩ := decodeArms_ok h.arms
  have c1 := convert1_pos
  have em := mul_pos h.mono.mosaic c1
  have ea := mul_pos h.ana.mosaic c1
  unfold decode
  simp only [ha, ok_bind]
  refine ⟨_, rfl, ⟨⟨em.ne', ?_, ea.ne', ?_⟩, fun _ => ⟨p1.ne', p2.ne', p4.ne', p5.ne', p3.ne'⟩, ?_, ?_, ?_, ?_, ?_, ?_, ?_⟩,
    ea, rfl, rfl, rfl, rfl, rfl, rfl, rfl⟩
  · refine (mul_pos ?_ c1).ne'
    split_ifs
    · exact getD_pos h.mono.vmosaic h.mono.mosaic
    · exact h.mono.mosaic
  · exact (mul_pos (getD_pos h.ana.vmosaic h.ana.mosaic) c1).ne'
  · intro i
    fin_cases i
    exacts [extent_pos h.guide.width, extent_pos h.guide.height]
  · intro i
    fin_cases i
    exacts [extent_pos h.mono.depth, extent_pos h.mono.width, extent_pos h.mono.height]
  · intro i
    fin_cases i
    exacts [extent_pos h.ana.depth, extent_pos h.ana.width, extent_pos h.ana.height]
  · intro i
    fin_cases i
    exacts [extent_pos h.detector.width, extent_pos h.detector.height]
  · intro i
    fin_cases i
    · exact extent_pos h.monitor.width
    · show 0 < (match s.monitor.height with | some h => h ^ 2 / 12 | none => extent s.monitor.width)
      split
      · next v hv =>
        have := h.monitor.height v hv
        positivity
      · exact extent_pos h.monitor.width
  · exact h.ana.tau
  · intro t q hq
    simp only at hq
    split at hq
    · next t' q' h1 h2 =>
      cases hq
      exact mul_pos (h.ana.thickness _ h1) (h.ana.reflQ _ h2)
    · exact nomatch hq

theorem sshapeAt_ok {a : SampleAttrs} {n : ℕ} (h : a.Valid n) {i : ℕ} (hi : i < n) :
    ∃ X, sshapeAt a i = .ok X ∧ X.PosDef := by
  have hf : (0 : ℝ) < if a.shapeType = some ['c', 'y', 'l', 'i', 'n', 'd', 'r', 'i', 'c', 'a', 'l'] then 16 else 12 := by
    split_ifs <;> norm_num
  unfold sshapeAt
  simp only
  generalize (if a.shapeType = some ['c', 'y', 'l', 'i', 'n', 'd', 'r', 'i', 'c', 'a', 'l'] then (16 : ℝ) else 12) = f at hf ⊢
  split
  · next w d h' h1 h2 h3 =>
    refine ⟨_, rfl, diagonal_posDef fun i => ?_⟩
    have a1 := h.width _ h1
    have a2 := h.depth _ h2
    have a3 := h.height _ h3
    fin_cases i <;> simp <;> positivity
  · next M _ =>
    exact ⟨_, rfl, ((posDef_iff_spd _).2 (h.one _ (by assumption))).smul (inv_pos.2 hf)⟩
  · next l _ =>
    obtain ⟨hn, hl⟩ := h.stack _ (by assumption)
    rw [List.getElem?_eq_getElem (lt_of_lt_of_le hi hn)]
    exact ⟨_, rfl, ((posDef_iff_spd _).2 (hl _ (List.getElem_mem _))).smul (inv_pos.2 hf)⟩
  · exact ⟨_, rfl, PosDef.one⟩

/-- Reflection at either sense. -/
theorem bragg_pos {y d : ℝ} (h0 : 0 < y) (h1 : y < 1) (hd : d = 1 ∨ d = -1) :
    0 < tan (arcsin y * d) * sin (arcsin y * d) := by
  have hs : sin (arcsin y) = y := sin_arcsin (by linarith) h1.le
  have ht : 0 < tan (arcsin y) :=
    tan_pos_of_pos_of_lt_pi_div_two (arcsin_pos.2 h0) (by
      have := (arcsin_lt_pi_div_two).2 h1
      exact this)
  rcases hd with rfl | rfl
  · rw [mul_one, hs]; positivity
  · rw [mul_neg_one, tan_neg, sin_neg, hs]; nlinarith

theorem kinematics_ok {s : Settings} {c : Conf} {q w : ℝ} (he : c.efixed = s.efixed) (hf : c.infin = s.infin.getD (-1))
    (hm : c.taum = s.mono.tau) (ha : c.taua = s.ana.tau) (sm : c.sm = 1 ∨ c.sm = -1) (ss : c.ss = 1 ∨ c.ss = -1)
    (sa : c.sa = 1 ∨ c.sa = -1) (tm : 0 < s.mono.tau) (ta : 0 < s.ana.tau) (h : Reaches s q w) :
    ∃ k, kinematics c q w = .ok k ∧ k.Good q ∧ c.taua < 2 * k.kf := by
  have e1 : (if 0 < c.infin then c.efixed else c.efixed + w) = incident s w := by rw [hf, he]; rfl
  have e2 : (if 0 < c.infin then c.efixed - w else c.efixed) = final s w := by rw [hf, he]; rfl
  have c2 : convert2 = 2.072 := by norm_num [convert2]
  have pi : 0 < incident s w / 2.072 := div_pos h.ei (by norm_num)
  have pf : 0 < final s w / 2.072 := div_pos h.ef (by norm_num)
  unfold kinematics
  simp only [e1, e2, c2, npSqrt_ok pi.le, npSqrt_ok pf.le, ok_bind]
  have hki : 0 < √(incident s w / 2.072) := Real.sqrt_pos.2 pi
  have hkf : 0 < √(final s w / 2.072) := Real.sqrt_pos.2 pf
  have hcl : Closes √(incident s w / 2.072) √(final s w / 2.072) q := h.closes
  have hmo : s.mono.tau < 2 * √(incident s w / 2.072) := h.mono
  have han : s.ana.tau < 2 * √(final s w / 2.072) := h.ana
  set ki := √(incident s w / 2.072)
  set kf := √(final s w / 2.072)
  have x1 : 0 < c.taum / (2 * ki) := by rw [hm]; positivity
  have x2 : c.taum / (2 * ki) < 1 := by rw [hm, div_lt_one (by positivity)]; exact hmo
  have y1 : 0 < c.taua / (2 * kf) := by rw [ha]; positivity
  have y2 : c.taua / (2 * kf) < 1 := by rw [ha, div_lt_one (by positivity)]; exact han
  have asin : ∀ {x : ℝ}, 0 < x → x < 1 → npArcsin x = .ok (arcsin x) := by
    intro x h1 h2
    unfold npArcsin
    rw [if_pos ⟨by linarith, h2.le⟩]
  have hq := h.q
  have tri : -(2 * ki * kf) ≤ ki ^ 2 + kf ^ 2 - q ^ 2 ∧ ki ^ 2 + kf ^ 2 - q ^ 2 ≤ 2 * ki * kf := by
    obtain ⟨u, v, hu, hv, huv⟩ := hcl
    have h1 := norm_sub_le u v
    have h2 := abs_norm_sub_norm_le u v
    rw [hu, hv, huv] at h1 h2
    rw [abs_le] at h2
    constructor
    · nlinarith
    · nlinarith [sq_nonneg (q - (ki - kf)), sq_nonneg (q + (ki - kf))]
  have z1 : -1 ≤ (ki ^ 2 + kf ^ 2 - q ^ 2) / (2 * ki * kf) := by
    rw [le_div_iff₀ (by positivity)]; linarith [tri.1]
  have z2 : (ki ^ 2 + kf ^ 2 - q ^ 2) / (2 * ki * kf) ≤ 1 := by
    rw [div_le_iff₀ (by positivity)]; linarith [tri.2]
  have hden : (2 * ki * kf) ≠ 0 := by positivity
  simp only [npDiv_ok (by positivity : 2 * ki ≠ 0), npDiv_ok (by positivity : 2 * kf ≠ 0), ok_bind, asin x1 x2,
    asin y1 y2, npDiv_ok hden]
  have hsc : scatteringAngle ((ki ^ 2 + kf ^ 2 - q ^ 2) / (2 * ki * kf)) c.ss =
      .ok (arccos ((ki ^ 2 + kf ^ 2 - q ^ 2) / (2 * ki * kf)) * c.ss) := by
    unfold scatteringAngle
    rw [if_neg]
    rintro ⟨hgt, _⟩
    exact absurd (abs_le.2 ⟨z1, z2⟩) (not_le.2 hgt)
  simp only [hsc, ok_bind]
  refine ⟨_, rfl, ⟨hki, hkf, bragg_pos x1 x2 sm, bragg_pos y1 y2 sa, ?_, hq.ne'⟩, by rw [ha]; exact han⟩
  have hcos : cos (arccos ((ki ^ 2 + kf ^ 2 - q ^ 2) / (2 * ki * kf)) * c.ss) =
      (ki ^ 2 + kf ^ 2 - q ^ 2) / (2 * ki * kf) := by
    rcases ss with h | h <;> rw [h]
    · rw [mul_one, cos_arccos z1 z2]
    · rw [mul_neg_one, cos_neg, cos_arccos z1 z2]
  simp only [hcos]
  field_simp
  ring

theorem guideDivergence_ne {a ki : ℝ} (ha : a ≠ 0) (hk : 0 < ki) : guideDivergence a ki ≠ 0 := by
  unfold guideDivergence
  split_ifs with h
  · have : 0 < -a := by linarith
    positivity
  · exact ha

theorem advance_good {l : Loop} (hl : l.Good) (c : Conf) {ki : ℝ} (hk : 0 < ki) : (l.advance c ki).Good :=
  ⟨fun i => guideDivergence_ne (hl.alpha i) hk, fun i => guideDivergence_ne (hl.beta i) hk⟩

theorem advance_curved {l : Loop} (hl : l.Curved) {c : Conf} (sm : c.sm = 1 ∨ c.sm = -1) (sa : c.sa = 1 ∨ c.sa = -1)
    (ki : ℝ) : (l.advance c ki).Curved := by
  have h1 : c.sm ≠ 0 := by rcases sm with h | h <;> rw [h] <;> norm_num
  have h2 : c.sa ≠ 0 := by rcases sa with h | h <;> rw [h] <;> norm_num
  exact ⟨mul_ne_zero hl.monorh h1, mul_ne_zero hl.monorv h1, mul_ne_zero hl.anarh h2, mul_ne_zero hl.anarv h2⟩

theorem start_good {s : Settings} {n : ℕ} (h : s.Valid n) : (Loop.start s).Good := by
  have hl : 0 < log 2 := log_pos (by norm_num)
  have c1 := convert1_pos.ne'
  refine ⟨fun i => mul_ne_zero (mul_ne_zero (h.hcol i) c1) ?_, fun i => mul_ne_zero (h.vcol i) c1⟩
  split_ifs
  · positivity
  · norm_num

theorem getD_ne {x : Option ℝ} (h : ∀ r, x = some r → r ≠ 0) : x.getD (10 ^ 6) ≠ 0 := by
  cases x with
  | none => norm_num
  | some v => exact h v rfl

theorem start_curved {s : Settings} {n : ℕ} (h : s.Valid n) : (Loop.start s).Curved :=
  ⟨getD_ne h.mono.rh, getD_ne h.mono.rv, getD_ne h.ana.rh, getD_ne h.ana.rv⟩

theorem runLoop_ok {s : Settings} {n : ℕ} (h : s.Valid n) {c : Conf} (hc : c.Good) (hea : 0 < c.etaa)
    (he : c.efixed = s.efixed) (hf : c.infin = s.infin.getD (-1))
    (hm : c.taum = s.mono.tau) (ha : c.taua = s.ana.tau) (sm : c.sm = s.mono.dir) (ss : c.ss = s.sample.dir)
    (sa : c.sa = s.ana.dir) :
    ∀ (pts : List (ℝ × ℝ)) (ind : ℕ) (l : Loop), ind + pts.length ≤ n → l.Good → l.Curved →
      (∀ p ∈ pts, Reaches s p.1 p.2) →
      ∃ rs, runLoop c s.sample ind l pts = .ok rs ∧ rs.length = pts.length ∧ ∀ r ∈ rs, SPD r.2 ∧ 0 < r.1
  | [], _, _, _, _, _, _ => ⟨[], rfl, rfl, fun _ h => nomatch h⟩
  | (q, w) :: rest, ind, l, hn, hl, hr, hp => by
    simp only [List.length_cons] at hn
    obtain ⟨X, hX, pX⟩ := sshapeAt_ok h.sample (i := ind) (by omega)
    obtain ⟨k, hk, gk, gt⟩ := kinematics_ok he hf hm ha (sm ▸ h.mono.dir) (ss ▸ h.sample.dir) (sa ▸ h.ana.dir)
      h.mono.tau h.ana.tau (hp (q, w) (by simp))
    have hl' := advance_good hl c gk.ki
    have hr' := advance_curved hr (sm ▸ h.mono.dir) (sa ▸ h.ana.dir) k.ki
    obtain ⟨r, RM, hpt, rp, hR⟩ := pointAt_ok hc hl' (fun _ => hr') gk gt hea pX
    obtain ⟨rs, hrs, hlen, hall⟩ := runLoop_ok h hc hea he hf hm ha sm ss sa rest (ind + 1) _ (by omega) hl' hr'
      (fun p hp' => hp p (List.mem_cons_of_mem _ hp'))
    refine ⟨(r, RM) :: rs, ?_, by simp [hlen], ?_⟩
    · simp only [runLoop, hX, hk, hpt, hrs, ok_bind]
      rfl
    · intro x hx
      rcases List.mem_cons.1 hx with rfl | hx
      · exact ⟨(posDef_iff_spd _).1 hR, rp⟩
      · exact hall x hx

/-- C61.  For every valid instrument — Cooper-Nathans or Popovici, flat or horizontally focusing analyzer,
either normalisation, with or without sample mosaic and reflectivity correction — and every list of points it
can reach, the calculation succeeds and every resolution matrix is symmetric and positive definite; the
prefactor is positive. -/
theorem C61_spd (s : Settings) (pts : List (ℝ × ℝ)) (h : s.Valid pts.length)
    (hp : ∀ p ∈ pts, Reaches s p.1 p.2) :
    ∃ rs, calcInQ s pts = .ok rs ∧ rs.length = pts.length ∧ ∀ r ∈ rs, SPD r.2 ∧ 0 < r.1 := by
  obtain ⟨c, hd, hc, hea, he, hf, hm, ha, sm, ss, sa⟩ := decode_ok h
  unfold calcInQ
  simp only [hd, ok_bind]
  exact runLoop_ok h hc hea he hf hm ha sm ss sa pts 0 _ (by omega) (start_good h) (start_curved h) hp

/-- The instrument `TripleAxisInstrument()` with its default arguments (PG(002), 25' mosaics, 14.7 meV,
collimations 40' and 120'). -/
noncomputable def demo : Settings where
  efixed := 14.7
  infin := none
  method := none
  moncor := none
  horifoc := none
  hcol _ := 40
  vcol _ := 120
  arms := none
  mono := ⟨1.87325, 25, none, none, none, none, none, none, -1, none, none⟩
  ana := ⟨1.87325, 25, none, none, none, none, none, none, -1, none, none⟩
  sample := ⟨none, none, none, none, none, some ['r'], none, 1⟩
  guide := ⟨none, none⟩
  monitor := ⟨none, none⟩
  detector := ⟨none, none⟩

theorem Pos.none : Pos none := fun _ h => nomatch h

theorem demo_valid (n : ℕ) : demo.Valid n where
  mono := ⟨by norm_num [demo], by norm_num [demo], .none, .none, .none, .none, fun _ h => (nomatch h),
    fun _ h => (nomatch h), Or.inr rfl, .none, .none⟩
  ana := ⟨by norm_num [demo], by norm_num [demo], .none, .none, .none, .none, fun _ h => (nomatch h),
    fun _ h => (nomatch h), Or.inr rfl, .none, .none⟩
  guide := ⟨.none, .none⟩
  monitor := ⟨.none, .none⟩
  detector := ⟨.none, .none⟩
  sample := ⟨.none, .none, .none, fun _ h => (nomatch h), fun _ h => (nomatch h), Or.inl rfl⟩
  hcol _ := by norm_num [demo]
  vcol _ := by norm_num [demo]
  arms _ h := nomatch h

theorem demo_reaches {q w : ℝ} (hq0 : 1 / 2 ≤ q) (hq : q ≤ 1) (hw0 : 0 ≤ w) (hw : w ≤ 1) : Reaches demo q w := by
  have ei : incident demo w = 14.7 + w := by
    unfold incident
    rw [if_neg (by norm_num [demo])]
    rfl
  have ef : final demo w = 14.7 := by
    unfold final
    rw [if_neg (by norm_num [demo])]
    rfl
  have hki : 2 ≤ wavevector (14.7 + w) := Real.le_sqrt_of_sq_le (by rw [le_div_iff₀ (by norm_num)]; norm_num; linarith)
  have hkf : 2 ≤ wavevector 14.7 := Real.le_sqrt_of_sq_le (by norm_num)
  have si : wavevector (14.7 + w) ^ 2 = (14.7 + w) / 2.072 := Real.sq_sqrt (by positivity)
  have sf : wavevector 14.7 ^ 2 = 14.7 / 2.072 := Real.sq_sqrt (by norm_num)
  refine ⟨by rw [ei]; linarith, by rw [ef]; norm_num, ?_, ?_, ?_, by linarith⟩
  · rw [ei]; norm_num [demo]; linarith
  · rw [ef]; norm_num [demo]; linarith
  · rw [ei, ef, Verif.Tools.closes_iff (by linarith) (by linarith) (by linarith), si, sf]
    have e : (14.7 + w) / 2.072 - 14.7 / 2.072 + q ^ 2 = w / 2.072 + q ^ 2 := by ring
    have hd : 0 < 2 * wavevector (14.7 + w) * q := by nlinarith
    rw [e, abs_of_nonneg (by positivity), div_le_one hd]
    have : w / 2.072 ≤ 1 / 2 := by rw [div_le_iff₀ (by norm_num)]; norm_num; linarith
    nlinarith

/-- A list of points with an inelastic one. -/
example : ∃ rs, calcInQ demo [(1, 0), (1 / 2, 1)] = .ok rs ∧ rs.length = 2 ∧ ∀ r ∈ rs, SPD r.2 ∧ 0 < r.1 := by
  refine C61_spd demo _ (demo_valid _) fun p hp => ?_
  rcases List.mem_pair.1 hp with rfl | rfl <;> exact demo_reaches (by norm_num) (by norm_num) (by norm_num) (by norm_num)

end Verif.Resolution
