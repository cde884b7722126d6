import Verif.Resolution.PropsCylinder
import Verif.Resolution.LemmasRefl

/-! # Property theorems: settings that are left out (C190) -/

namespace Verif.Resolution

open Real Matrix
open Verif.Crystal (Fail npSqrt npArcsin npDiv)
open Verif.Tools (arctan2 quad SPD Closes)

/-! ## Lemmas -/

theorem runLoop_conf {c c' : Conf} (hk : ∀ q w, kinematics c q w = kinematics c' q w)
    (ha : ∀ (l : Loop) ki, l.advance c ki = l.advance c' ki)
    (hp : ∀ l X k q, pointAt c l X k q = pointAt c' l X k q) (a : SampleAttrs) :
    ∀ (pts : List (ℝ × ℝ)) (ind : ℕ) (l : Loop), runLoop c a ind l pts = runLoop c' a ind l pts
  | [], _, _ => rfl
  | (q, w) :: rest, ind, l => by
    unfold runLoop
    simp only [hk, ha, hp, runLoop_conf hk ha hp a rest]

theorem npInv_ok_eq {n : ℕ} {M N : Matrix (Fin n) (Fin n) ℝ} (h : npInv M = .ok N) : N = M⁻¹ := by
  unfold npInv at h
  split at h
  · exact absurd h (by simp)
  · exact (Except.ok.inj h).symm

theorem sampleMosaic_zero (q r0 : ℝ) {RM Minv : M4} (h : npInv Minv = .ok RM) :
    sampleMosaic q 0 0 r0 RM Minv = .ok (r0, RM) := by
  have e : (diagonal ![0, q ^ 2 * (0 : ℝ) ^ 2, q ^ 2 * (0 : ℝ) ^ 2, 0] : M4) = 0 := by
    rw [← diagonal_zero]
    congr 1
    funext i
    fin_cases i <;> simp
  unfold sampleMosaic
  have e1 : (1 + (q * 0) ^ 2 * RM 2 2) * (1 + (q * 0) ^ 2 * RM 1 1) = 1 := by ring
  rw [e1, npSqrt_ok zero_le_one, Real.sqrt_one, e, add_zero, h]
  simp only [ok_bind, npDiv_ok one_ne_zero, div_one]
  rfl

theorem pointAt_mosaic_zero {c : Conf} (h : c.etas = none) (l : Loop) (X : M3) (k : Kin) (q : ℝ) :
    pointAt { c with etas := some (0, 0) } l X k q = pointAt c l X k q := by
  have hm : ∀ r0 {RM Minv : M4}, npInv Minv = .ok RM →
      withMosaic { c with etas := some (0, 0) } q r0 RM Minv = withMosaic c q r0 RM Minv := fun r0 RM Minv hI => by
    simp only [withMosaic, h]
    exact sampleMosaic_zero q r0 hI
  unfold pointAt
  split_ifs
  · rfl
  · change (npInv (matSinv c (turnShape k X)) >>= fun S => coreMatrix c l k S >>= fun x => npInv x.1 >>= fun RM =>
      prefactor c l k x.2 RM >>= fun r0 => withMosaic { c with etas := some (0, 0) } q r0 RM x.1 >>= fun y =>
      withReflectivity c l k y.1 >>= fun r => pure (r, y.2)) =
      (npInv (matSinv c (turnShape k X)) >>= fun S => coreMatrix c l k S >>= fun x => npInv x.1 >>= fun RM =>
      prefactor c l k x.2 RM >>= fun r0 => withMosaic c q r0 RM x.1 >>= fun y =>
      withReflectivity c l k y.1 >>= fun r => pure (r, y.2))
    cases npInv (matSinv c (turnShape k X)) with
    | error e => rfl
    | ok S =>
      simp only [ok_bind]
      cases coreMatrix c l k S with
      | error e => rfl
      | ok x =>
        simp only [ok_bind]
        cases hI : npInv x.1 with
        | error e => rfl
        | ok RM => simp only [ok_bind, hm _ hI]

theorem reflectivity_neg (c : Conf) (l : Loop) (k : Kin) (t kq : ℝ) :
    reflectivity c l k (-t) (-kq) = reflectivity c l k t kq := by
  have e : ∀ x : ℝ, -t * (-kq * x) = t * (kq * x) := fun x => by ring
  unfold reflectivity
  simp only [e]

/-- A thin analyzer: the correction lies strictly between 0 and 1 if the product of thickness and `Q` is positive, and is
negative if it is negative. -/
theorem reflectivity_thin {c : Conf} (l : Loop) {k : Kin} (ha : c.taua < 2 * k.kf) (ht : 0 < c.taua) (he : 0 < c.etaa) :
    ∃ ε > 0, ∀ t kq : ℝ, (0 < t * kq → t * kq < ε → ∃ r, reflectivity c l k t kq = .ok r ∧ 0 < r ∧ r < 1) ∧
      (t * kq < 0 → -ε < t * kq → ∃ r, reflectivity c l k t kq = .ok r ∧ r < 0) := by
  have hs : 0 < k.kf ^ 2 - (c.taua / 2) ^ 2 := by nlinarith
  have htoa : 0 < c.taua / 2 / √(k.kf ^ 2 - (c.taua / 2) ^ 2) := div_pos (by linarith) (Real.sqrt_pos.2 hs)
  unfold reflectivity
  simp only [npSqrt_ok hs.le, ok_bind, npDiv_ok (Real.sqrt_pos.2 hs).ne']
  set toa := c.taua / 2 / √(k.kf ^ 2 - (c.taua / 2) ^ 2)
  set w : ℕ → ℝ := fun n => exp (-((n + 1 : ℝ) / 200 * √(2 * log 2) * if l.alpha 2 < l.alpha 3 then l.alpha 2 else l.alpha 3) ^ 2 / 2 / c.etaa ^ 2) with hw
  have w0 : ∀ n, 0 < w n := fun n => exp_pos _
  have w1 : ∀ n, w n ≤ 1 := fun n => by
    rw [hw]
    simp only [exp_le_one_iff]
    rw [neg_div, neg_div]
    exact neg_nonpos.2 (by positivity)
  have wpos : 0 < ∑ n ∈ Finset.range 200, w n := Finset.sum_pos (fun n _ => w0 n) ⟨0, by simp⟩
  have hK : 0 < toa / c.etaa / √(2 * π) := by positivity
  set K := toa / c.etaa / √(2 * π)
  have es : ∀ (t kq : ℝ) n, t * (kq * toa) * w n / c.etaa / √(2 * π) = t * kq * K * w n := fun t kq n => by
    simp only [K]; ring
  have fr : ∀ s : ℝ, s ≠ 0 → 1 + s ≠ 0 → 1 / (1 + 1 / s) = s / (1 + s) := fun s h0 h1 => by
    have : 1 + 1 / s ≠ 0 := by
      rw [show 1 + 1 / s = (1 + s) / s by field_simp; ring]
      exact div_ne_zero h1 h0
    rw [div_eq_div_iff this h1]
    field_simp
    ring
  refine ⟨1 / K, by positivity, fun t kq => ⟨fun hp hlt => ?_, fun hn hgt => ?_⟩⟩
  · have x0 : 0 < t * kq * K := by positivity
    have x1 : t * kq * K < 1 := (lt_div_iff₀ hK).1 hlt
    have s0 : ∀ n, 0 < t * (kq * toa) * w n / c.etaa / √(2 * π) := fun n => by
      rw [es]
      exact mul_pos x0 (w0 n)
    have s1 : ∀ n, t * (kq * toa) * w n / c.etaa / √(2 * π) ≤ w n := fun n => by
      rw [es]
      nlinarith [w0 n]
    have b : ∀ n, 1 / (1 + 1 / (t * (kq * toa) * w n / c.etaa / √(2 * π))) < w n := fun n => by
      have h0 := s0 n
      rw [fr _ h0.ne' (by linarith), div_lt_iff₀ (by linarith)]
      nlinarith [s1 n, mul_pos (w0 n) h0]
    rw [if_neg (by
      rintro ⟨n, _, hn⟩
      have := s0 n
      linarith), npDiv_ok wpos.ne']
    refine ⟨_, rfl, div_pos (Finset.sum_pos (fun n _ => ?_) ⟨0, by simp⟩) wpos, (div_lt_one wpos).2
      (Finset.sum_lt_sum_of_nonempty ⟨0, by simp⟩ fun n _ => ?_)⟩
    · have := s0 n
      rw [if_neg this.ne']
      positivity
    · have := s0 n
      rw [if_neg this.ne']
      exact b n
  · have x0 : t * kq * K < 0 := mul_neg_of_neg_of_pos hn hK
    have x1 : -1 < t * kq * K := by
      have : -(1 / K) * K < t * kq * K := mul_lt_mul_of_pos_right hgt hK
      rwa [neg_mul, one_div, inv_mul_cancel₀ hK.ne'] at this
    have s0 : ∀ n, t * (kq * toa) * w n / c.etaa / √(2 * π) < 0 := fun n => by
      rw [es]
      exact mul_neg_of_neg_of_pos x0 (w0 n)
    have s1 : ∀ n, -1 < t * (kq * toa) * w n / c.etaa / √(2 * π) := fun n => by
      rw [es]
      nlinarith [w0 n, w1 n]
    have b : ∀ n, 1 / (1 + 1 / (t * (kq * toa) * w n / c.etaa / √(2 * π))) < 0 := fun n => by
      have h0 := s0 n
      have h1 := s1 n
      rw [fr _ h0.ne (by linarith)]
      exact div_neg_of_neg_of_pos h0 (by linarith)
    rw [if_neg (by
      rintro ⟨n, _, hn⟩
      have := s1 n
      linarith), npDiv_ok wpos.ne']
    refine ⟨_, rfl, div_neg_of_neg_of_pos (Finset.sum_neg (fun n _ => ?_) ⟨0, by simp⟩) wpos⟩
    have := s0 n
    rw [if_neg this.ne]
    exact b n

/-! ## The theorems -/

/-- C190, what holds: for every instrument and every list of points, leaving out the method, the monitor correction, the
fixed energy, the focusing or a vertical mosaic is the same as setting it to its documented value, and leaving out one of
thickness and `Q` is the same as leaving out both. -/
theorem C190_defaults_partial (s : Settings) (pts : List (ℝ × ℝ)) :
    calcInQ { s with method := none } pts = calcInQ { s with method := some (.number 0) } pts ∧
    calcInQ { s with moncor := none } pts = calcInQ { s with moncor := some 1 } pts ∧
    calcInQ { s with infin := none } pts = calcInQ { s with infin := some (-1) } pts ∧
    calcInQ { s with horifoc := none } pts = calcInQ { s with horifoc := some (-1) } pts ∧
    calcInQ { s with mono := { s.mono with vmosaic := none } } pts =
      calcInQ { s with mono := { s.mono with vmosaic := some s.mono.mosaic } } pts ∧
    calcInQ { s with ana := { s.ana with vmosaic := none } } pts =
      calcInQ { s with ana := { s.ana with vmosaic := some s.ana.mosaic } } pts ∧
    (∀ m, calcInQ { s with sample := { s.sample with mosaic := some m, vmosaic := none } } pts =
      calcInQ { s with sample := { s.sample with mosaic := some m, vmosaic := some m } } pts) ∧
    (∀ t kq, calcInQ { s with ana := { s.ana with thickness := some t, reflQ := none } } pts =
        calcInQ { s with ana := { s.ana with thickness := none, reflQ := none } } pts ∧
      calcInQ { s with ana := { s.ana with thickness := none, reflQ := some kq } } pts =
        calcInQ { s with ana := { s.ana with thickness := none, reflQ := none } } pts) := by
  refine ⟨rfl, rfl, rfl, ?_, ?_, rfl, fun m => ?_, fun t kq => ⟨rfl, rfl⟩⟩
  · have hl : Loop.start { s with horifoc := none } = Loop.start { s with horifoc := some (-1) } := by
      have h1 : ¬(none : Option ℝ) = some 1 := by simp
      have h2 : ¬(some (-1) : Option ℝ) = some 1 := by norm_num
      simp only [Loop.start, h1, h2]
    unfold calcInQ
    rw [hl]
    rfl
  · have hd : decode { s with mono := { s.mono with vmosaic := none } } =
        decode { s with mono := { s.mono with vmosaic := some s.mono.mosaic } } := rfl
    unfold calcInQ
    rw [hd]
    rfl
  · have hs : ∀ i, sshapeAt { s.sample with mosaic := some m, vmosaic := none } i =
        sshapeAt { s.sample with mosaic := some m, vmosaic := some m } i := fun i => rfl
    have hd : decode { s with sample := { s.sample with mosaic := some m, vmosaic := none } } =
        decode { s with sample := { s.sample with mosaic := some m, vmosaic := some m } } := rfl
    have hl : Loop.start { s with sample := { s.sample with mosaic := some m, vmosaic := none } } =
        Loop.start { s with sample := { s.sample with mosaic := some m, vmosaic := some m } } := rfl
    unfold calcInQ
    rw [hd, hl]
    simp only [runLoop_congr _ hs]

/-- C190, the sample mosaic: a sample without mosaic is answered as one whose mosaic is zero. -/
theorem C190_mosaic (s : Settings) (pts : List (ℝ × ℝ)) :
    calcInQ { s with sample := { s.sample with mosaic := none } } pts =
      calcInQ { s with sample := { s.sample with mosaic := some 0, vmosaic := none } } pts := by
  have hs : ∀ i, sshapeAt { s.sample with mosaic := none } i = sshapeAt { s.sample with mosaic := some 0, vmosaic := none } i :=
    fun i => rfl
  have hl : Loop.start { s with sample := { s.sample with mosaic := some 0, vmosaic := none } } =
      Loop.start { s with sample := { s.sample with mosaic := none } } := rfl
  have hd : decode { s with sample := { s.sample with mosaic := some 0, vmosaic := none } } =
      (decode { s with sample := { s.sample with mosaic := none } }).map fun c => { c with etas := some (0, 0) } := by
    have ha : decodeArms { s with sample := { s.sample with mosaic := some 0, vmosaic := none } } =
        decodeArms { s with sample := { s.sample with mosaic := none } } := rfl
    unfold decode
    rw [ha]
    cases decodeArms { s with sample := { s.sample with mosaic := none } } with
    | error e => rfl
    | ok x =>
      simp only [ok_bind, Option.map_some, Option.map_none, Option.getD_none, zero_mul]
      rfl
  unfold calcInQ
  rw [hl, hd]
  cases hc : decode { s with sample := { s.sample with mosaic := none } } with
  | error e => rfl
  | ok c =>
    have he : c.etas = none := by
      unfold decode at hc
      cases ha : decodeArms { s with sample := { s.sample with mosaic := none } } with
      | error e => rw [ha] at hc; exact absurd hc (by simp [bind, Except.bind])
      | ok x =>
        rw [ha] at hc
        simp only [ok_bind] at hc
        rw [← Except.ok.inj hc]
        rfl
    simp only [Except.map, ok_bind]
    rw [runLoop_congr c hs]
    exact (runLoop_conf (c := { c with etas := some (0, 0) }) (c' := c) (fun _ _ => rfl) (fun _ _ => rfl)
      (fun l X k q => pointAt_mosaic_zero he l X k q) _ _ _ _).symm

/-- The same settings with thickness and `Q` assigned (instrument/tas_instrument.py:911-913). -/
def Settings.reflecting (s : Settings) (t kq : ℝ) : Settings :=
  { s with ana := { s.ana with thickness := some t, reflQ := some kq } }

/-- The same settings with neither thickness nor `Q`, for which instrument/tas_instrument.py:911 makes no correction. -/
def Settings.unreflecting (s : Settings) : Settings :=
  { s with ana := { s.ana with thickness := none, reflQ := none } }

theorem decode_reflecting (s : Settings) (t kq : ℝ) :
    decode (s.reflecting t kq) = (decode s.unreflecting).map fun c => { c with refl := some (t, kq) } := by
  have ha : decodeArms (s.reflecting t kq) = decodeArms s.unreflecting := rfl
  unfold decode
  rw [ha]
  cases decodeArms s.unreflecting with
  | error e => rfl
  | ok x => rfl

/-- C190, both values made negative: every instrument answers every list of points exactly as with the positive values; the
correction that should be left out is made in full. -/
theorem C190_both_negative_false (s : Settings) (pts : List (ℝ × ℝ)) (t kq : ℝ) :
    calcInQ (s.reflecting (-t) (-kq)) pts = calcInQ (s.reflecting t kq) pts := by
  have hl : Loop.start (s.reflecting (-t) (-kq)) = Loop.start (s.reflecting t kq) := rfl
  have hs : (s.reflecting (-t) (-kq)).sample = (s.reflecting t kq).sample := rfl
  unfold calcInQ
  rw [hl, hs, decode_reflecting, decode_reflecting]
  cases decode s.unreflecting with
  | error e => rfl
  | ok c =>
    refine runLoop_conf (c := { c with refl := some (-t, -kq) }) (c' := { c with refl := some (t, kq) }) (fun _ _ => rfl)
      (fun _ _ => rfl) (fun l X k q => ?_) _ _ _ _
    rw [pointAt_refl, pointAt_refl]
    simp only [reflectivity_neg]

theorem unreflecting_valid {s : Settings} {n : ℕ} (h : s.Valid n) : s.unreflecting.Valid n :=
  { h with ana := { h.ana with thickness := .none, reflQ := .none } }

/-- C190, negative values: for every valid instrument and every point in its reach the prefactor is positive without the
correction; a thin analyzer with negative thickness and negative `Q` has a smaller one, and if one of the two is negative
the prefactor is negative.  The matrix is the same. -/
theorem C190_negative_false (s : Settings) (q w : ℝ) (h : s.Valid 1) (hp : Reaches s q w) :
    ∃ r M, ∃ ε > 0, calcInQ s.unreflecting [(q, w)] = .ok [(r, M)] ∧ 0 < r ∧
      (∀ t kq, t < 0 → kq < 0 → t * kq < ε → ∃ r', calcInQ (s.reflecting t kq) [(q, w)] = .ok [(r', M)] ∧ r' < r) ∧
      (∀ t kq, (t < 0 ∧ 0 < kq ∨ 0 < t ∧ kq < 0) → -ε < t * kq →
        ∃ r', calcInQ (s.reflecting t kq) [(q, w)] = .ok [(r', M)] ∧ r' < 0) := by
  have hu := unreflecting_valid h
  have hpu : Reaches s.unreflecting q w := ⟨hp.1, hp.2, hp.3, hp.4, hp.5, hp.6⟩
  obtain ⟨c, hd, hc, hea, he, hf, hm, ha, sm, ss, sa⟩ := decode_ok hu
  obtain ⟨X, hX, pX⟩ := sshapeAt_ok hu.sample (i := 0) (by omega)
  obtain ⟨k, hk, gk, gt⟩ := kinematics_ok he hf hm ha (sm ▸ hu.mono.dir) (ss ▸ hu.sample.dir) (sa ▸ hu.ana.dir)
    hu.mono.tau hu.ana.tau hpu
  have hl' := advance_good (start_good hu) c gk.ki
  have hr' := advance_curved (start_curved hu) (sm ▸ hu.mono.dir) (sa ▸ hu.ana.dir) k.ki
  obtain ⟨r, RM, hpt, rp, hR⟩ := pointAt_ok hc hl' (fun _ => hr') gk gt hea pX
  obtain ⟨ε, hε, thin⟩ := reflectivity_thin (c := c) ((Loop.start s.unreflecting).advance c k.ki) gt hc.taua hea
  have hn : c = { c with refl := none } := by
    have : c.refl = none := by
      unfold decode at hd
      cases ha : decodeArms s.unreflecting with
      | error e => rw [ha] at hd; exact absurd hd (by simp [bind, Except.bind])
      | ok x =>
        rw [ha] at hd
        simp only [ok_bind] at hd
        rw [← Except.ok.inj hd]
        rfl
    rw [← this]
  have go : ∀ t kq x, reflectivity c ((Loop.start s.unreflecting).advance c k.ki) k t kq = .ok x →
      calcInQ (s.reflecting t kq) [(q, w)] = .ok [(r * x, RM)] := fun t kq x hx => by
    have hX' : sshapeAt (s.reflecting t kq).sample 0 = .ok X := hX
    have hk' : kinematics { c with refl := some (t, kq) } q w = .ok k := hk
    have hp' : pointAt { c with refl := some (t, kq) }
        ((Loop.start (s.reflecting t kq)).advance { c with refl := some (t, kq) } k.ki) X k q = .ok (r * x, RM) := by
      have e := pointAt_refl c ((Loop.start s.unreflecting).advance c k.ki) X k q t kq
      rw [← hn, hpt, ok_bind, hx, ok_bind] at e
      exact e
    unfold calcInQ
    rw [decode_reflecting, hd]
    simp only [Except.map, runLoop, ok_bind, hX', hk', hp']
    rfl
  refine ⟨r, RM, ε, hε, ?_, rp, fun t kq h1 h2 hlt => ?_, fun t kq h1 hlt => ?_⟩
  · unfold calcInQ
    rw [hd]
    simp only [runLoop, ok_bind, hX, hk, hpt]
    rfl
  · obtain ⟨x, hx, _, x1⟩ := (thin t kq).1 (mul_pos_of_neg_of_neg h1 h2) hlt
    exact ⟨_, go t kq x hx, by nlinarith⟩
  · have hneg : t * kq < 0 := by
      rcases h1 with ⟨a, b⟩ | ⟨a, b⟩
      · exact mul_neg_of_neg_of_pos a b
      · exact mul_neg_of_pos_of_neg a b
    obtain ⟨x, hx, x1⟩ := (thin t kq).2 hneg hlt
    exact ⟨_, go t kq x hx, mul_neg_of_pos_of_neg rp x1⟩

/-- The same settings with the sizes of the sample that are given, and no explicit shape. -/
def Settings.sized (s : Settings) (d w h : Option ℝ) : Settings :=
  { s with sample := { s.sample with depth := d, width := w, height := h, shape := none,
                                      shapeType := some ['r', 'e', 'c', 't', 'a', 'n', 'g', 'u', 'l', 'a', 'r'] } }

/-- Specification: the covariance of a box whose missing edges have the documented 1 cm. -/
noncomputable def documentedCovariance (d w h : Option ℝ) : M3 :=
  diagonal ![variance (some (d.getD 1)), variance (some (w.getD 1)), variance (some (h.getD 1))]

theorem sized_missing (s : Settings) {d w h : Option ℝ} (hm : d = none ∨ w = none ∨ h = none) (i : ℕ) :
    sshapeAt (s.sized d w h).sample i = .ok 1 := by
  rcases hm with rfl | rfl | rfl
  · cases w <;> cases h <;> rfl
  · cases d <;> cases h <;> rfl
  · cases d <;> cases w <;> rfl

/-- C190, the size of the sample: if one of its three sizes is left out, the sample is a cube of `√12` cm in every answer,
not a box with 1 cm for what is missing, whatever the other two sizes are; so the sizes that are given have no effect. -/
theorem C190_size_false (s : Settings) {d w h : Option ℝ} (hm : d = none ∨ w = none ∨ h = none) :
    (∀ pts, calcInQ (s.sized d w h) pts = calcInQ (s.sized (some √12) (some √12) (some √12)) pts) ∧
    (∀ pts, calcInQ (s.sized d w h) pts = calcInQ (s.sized none none none) pts) ∧
    (∀ i X, sshapeAt (s.sized d w h).sample i = .ok X → X ≠ documentedCovariance d w h) := by
  have hb : ∀ i, sshapeAt (s.sized (some √12) (some √12) (some √12)).sample i = .ok 1 := fun i => by
    have e : √12 ^ 2 / 12 = (1 : ℝ) := by rw [Real.sq_sqrt (by norm_num)]; norm_num
    have : (diagonal ![1, 1, 1] : M3) = 1 := by
      rw [← diagonal_one]
      congr 1
      funext i
      fin_cases i <;> rfl
    simp [sshapeAt, Settings.sized, this]
  have go : ∀ d' w' h', (∀ i, sshapeAt (s.sized d' w' h').sample i = .ok 1) →
      ∀ pts, calcInQ (s.sized d w h) pts = calcInQ (s.sized d' w' h') pts := fun d' w' h' hs pts => by
    have hd : decode (s.sized d w h) = decode (s.sized d' w' h') := rfl
    have hl : Loop.start (s.sized d w h) = Loop.start (s.sized d' w' h') := rfl
    have he : ∀ i, sshapeAt (s.sized d w h).sample i = sshapeAt (s.sized d' w' h').sample i := fun i => by
      rw [hs, sized_missing s hm]
    unfold calcInQ
    rw [hd, hl]
    simp only [runLoop_congr _ he]
  refine ⟨go _ _ _ hb, go _ _ _ fun i => sized_missing s (Or.inl rfl) i, fun i X hX hE => ?_⟩
  rw [sized_missing s hm] at hX
  have e1 := Except.ok.inj hX
  have v1 : variance (some 1) = 1 / 12 := by rw [variance_some one_pos]; norm_num
  rw [hE] at e1
  rcases hm with rfl | rfl | rfl
  · have := congrFun (congrFun e1 0) 0
    simp [documentedCovariance, v1] at this
  · have := congrFun (congrFun e1 1) 1
    simp [documentedCovariance, v1] at this
  · have := congrFun (congrFun e1 2) 2
    simp [documentedCovariance, v1] at this

/-- The default instrument at an inelastic point: a negative thickness with the `Q` of graphite makes the prefactor
negative. -/
example : ∃ t r' M, t < 0 ∧ calcInQ (demo.reflecting t 0.1287) [(1, 1)] = .ok [(r', M)] ∧ r' < 0 := by
  obtain ⟨r, M, ε, hε, -, -, -, h⟩ := C190_negative_false demo 1 1 (demo_valid _)
    (demo_reaches (by norm_num) (by norm_num) (by norm_num) (by norm_num))
  obtain ⟨r', h1, h2⟩ := h (-ε) 0.1287 (Or.inl ⟨by linarith, by norm_num⟩) (by norm_num; linarith)
  exact ⟨-ε, r', M, by linarith, h1, h2⟩

/-- A sample of 2 cm height with nothing else given. -/
example : calcInQ (demo.sized none none (some 2)) [(1, 0)] = calcInQ (demo.sized (some √12) (some √12) (some √12)) [(1, 0)] :=
  (C190_size_false demo (Or.inl rfl)).1 _

end Verif.Resolution
