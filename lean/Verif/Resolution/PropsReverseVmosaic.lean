import Verif.Resolution.PropsReverse
import Verif.Resolution.PropsVmosaic

/-! # Property C201: where the direction matters -/

namespace Verif.Resolution

open Real Matrix
open Verif.Crystal (Fail npSqrt npArcsin npDiv)
open Verif.Tools (quad arctan2)

/-- With the Cooper-Nathans method the resolution matrix is another one when the vertical mosaic of the monochromator is used. -/
theorem vmosaic_matters {s : Settings} (h : s.Valid 1) (hp : s.theMethod = .number 0) (hf : s.horifoc.getD (-1) ≤ 0)
    {v : ℝ} (hv : s.mono.vmosaic = some v) (hne : v ≠ s.mono.mosaic) (hmos : s.sample.mosaic = none) {q w : ℝ} (hr : Reaches s q w) :
    ∃ r r', calcInQ s [(q, w)] = .ok [r] ∧ calcInQ s.named [(q, w)] = .ok [r'] ∧ r.2 ≠ r'.2 := by
  have hpop : s.popovici = false := by simp [Settings.popovici, hp]
  have hused : s.vmosaicUsed = false := by simp [Settings.vmosaicUsed, hp]
  have hpop' : s.named.popovici = false := by simp [Settings.popovici, Settings.theMethod, Settings.named]
  have hused' : s.named.vmosaicUsed = true := by simp [Settings.vmosaicUsed, Settings.theMethod, Settings.named]
  obtain ⟨ki, kf, tm, ta, tt, hn⟩ := nominal_exists h hr
  obtain ⟨c, k, r, RM, hd, ek, gk, hc, hl, hcalc, hM, hRM⟩ := calc_cn h hpop hf hr hn
  have h' : s.named.Valid 1 := ⟨h.mono, h.ana, h.guide, h.monitor, h.detector, h.sample, h.hcol, h.vcol, h.arms⟩
  have hr' : Reaches s.named q w := ⟨hr.ei, hr.ef, hr.mono, hr.ana, hr.closes, hr.q⟩
  have hn' : IsNominal s.named q w ki kf tm ta tt := ⟨hn.waveIn, hn.waveOut, hn.braggIn, hn.braggOut, hn.triangle⟩
  obtain ⟨c', k', r', RM', hd', ek', gk', hc', hl', hcalc', hM', hRM'⟩ := calc_cn h' hpop' hf hr' hn'
  refine ⟨(r, RM), (r', RM'), hcalc, hcalc', fun heq => ?_⟩
  have hmos' : s.named.sample.mosaic = none := hmos
  rw [hmos] at hRM
  rw [hmos'] at hRM'
  simp only [add_zero] at hRM hRM' heq
  rw [hRM, hRM'] at heq
  have hinv := congrArg (fun X : M4 => X⁻¹) heq
  rw [nonsing_inv_nonsing_inv _ hM.det_pos.ne'.isUnit, nonsing_inv_nonsing_inv _ hM'.det_pos.ne'.isUnit] at hinv
  obtain rfl : k = k' := ek.trans ek'.symm
  have hmo := mosaics_eq hd
  have hmo' := mosaics_eq hd'
  have eG : matG ((Loop.start s.named).advance c' ki) = matG ((Loop.start s).advance c ki) := rfl
  rw [eG] at hinv
  rw [← cnMinv_mul, ← cnMinv_mul] at hinv
  simp only [mosaics, Settings.asRead, hused, hused'] at hmo hmo'
  have f0 := congrFun hmo 0
  have f1 := congrFun hmo 1
  have f2 := congrFun hmo 2
  have f3 := congrFun hmo 3
  have f0' := congrFun hmo' 0
  have f1' := congrFun hmo' 1
  have f2' := congrFun hmo' 2
  have f3' := congrFun hmo' 3
  simp [Settings.named, hv] at f0 f1 f2 f3 f0' f1' f2' f3'
  have ha : 0 < arcmin := by rw [arcmin_eq]; exact convert1_pos
  refine vmosaic_differ hc hc' hl gk (f0.symm.trans f0') (f2.symm.trans f2') (f3.symm.trans f3') ?_ hinv
  rw [← f1, ← f1']
  intro hsq
  have hm := h.mono.mosaic
  have hvp : 0 < v := h.mono.vmosaic v hv
  exact hne ((mul_right_cancel₀ ha.ne' ((sq_eq_sq₀ (by positivity) (by positivity)).1 hsq)).symm)

/-- Passed through in the opposite direction the vertical mosaic is that of the analyzer, which is always used. -/
theorem named_reversed {s : Settings} (hp : s.theMethod = .number 0) (ha : s.ana.vmosaic = none) (pts : List (ℝ × ℝ)) :
    calcInQ s.named.reversed pts = calcInQ s.reversed pts := by
  have hd : decode s.named.reversed = decode s.reversed := by
    have a1 : decodeArms s.named.reversed = .ok (1, 1, 1, 1, 1) := by
      have e : decide (s.named.reversed.theMethod = .number 1) = false := by simp [Settings.theMethod, Settings.named, Settings.reversed]
      unfold decodeArms
      rw [e]
      rcases s.named.reversed.arms with _ | (_ | ⟨_, _ | ⟨_, _ | ⟨_, _ | ⟨_, _⟩⟩⟩⟩) <;> rfl
    have a2 : decodeArms s.reversed = .ok (1, 1, 1, 1, 1) := by
      have e : decide (s.reversed.theMethod = .number 1) = false := by
        have : s.reversed.theMethod = s.theMethod := rfl
        rw [this, hp]
        rfl
      unfold decodeArms
      rw [e]
      rcases s.reversed.arms with _ | (_ | ⟨_, _ | ⟨_, _ | ⟨_, _ | ⟨_, _⟩⟩⟩⟩) <;> rfl
    have p1 : s.named.reversed.popovici = s.reversed.popovici := by
      have : s.reversed.popovici = false := by
        have e : s.reversed.theMethod = .number 0 := hp
        simp [Settings.popovici, e]
      rw [this]
      simp [Settings.popovici, Settings.theMethod, Settings.named, Settings.reversed]
    have hm : s.reversed.mono.vmosaic = none := ha
    have hm' : s.named.reversed.mono.vmosaic = none := ha
    unfold decode
    rw [a1, a2]
    simp only [ok_bind, hm, hm', Option.getD_none, ite_self, p1]
    rfl
  unfold calcInQ
  rw [hd]
  rfl

/-- C201 is false with the Cooper-Nathans method for every monochromator with a vertical mosaic of its own: at no point the matrix of
such an instrument is that of the instrument passed through in the opposite direction, for the vertical mosaic of the monochromator is
ignored and that of the analyzer is not. -/
theorem C201_vmosaic_false {s : Settings} (h : s.Valid 1) (hp : s.theMethod = .number 0) (hf : s.horifoc.getD (-1) ≤ 0)
    (hh : ∀ i, 0 < s.hcol i) (hvc : ∀ i, 0 < s.vcol i) {v : ℝ} (hv : s.mono.vmosaic = some v) (hne : v ≠ s.mono.mosaic)
    (ha : s.ana.vmosaic = none) (hmos : s.sample.mosaic = none) {q w : ℝ} (hr : Reaches s q w) :
    ∃ r r', calcInQ s [(q, w)] = .ok [r] ∧ calcInQ s.reversed [(q, -w)] = .ok [r'] ∧ r'.2 ≠ backward r.2 := by
  obtain ⟨r, ρ, e1, e2, hn⟩ := vmosaic_matters h hp hf hv hne hmos hr
  have h' : s.named.Valid 1 := ⟨h.mono, h.ana, h.guide, h.monitor, h.detector, h.sample, h.hcol, h.vcol, h.arms⟩
  have hr' : Reaches s.named q w := ⟨hr.ei, hr.ef, hr.mono, hr.ana, hr.closes, hr.q⟩
  have hused' : s.named.vmosaicUsed = true := by simp [Settings.vmosaicUsed, Settings.theMethod, Settings.named]
  obtain ⟨rs, rs', g1, g2, l1, l2, H⟩ := C201_reversed_partial s.named [(q, w)] h' (by simpa using hr') hf hh hvc (Or.inl hused')
  obtain rfl : [ρ] = rs := Except.ok.inj (e2.symm.trans g1)
  obtain ⟨r', rfl⟩ := List.length_eq_one_iff.1 l2
  rw [named_reversed hp ha] at g2
  refine ⟨r, r', e1, g2, fun hc => hn ?_⟩
  have hb := (H 0 _ _ _ rfl rfl rfl).1
  rw [hc, backward_n4, backward_n4] at hb
  have hflip (M : M4) : flipBy n4 (flipBy n4 M) = M := by
    unfold flipBy
    calc diagonal n4 * (diagonal n4 * M * diagonal n4) * diagonal n4 = (diagonal n4 * diagonal n4) * M * (diagonal n4 * diagonal n4) := by
          simp only [Matrix.mul_assoc]
      _ = M := by rw [signs_n4.sq, Matrix.one_mul, Matrix.mul_one]
  rw [← hflip r.2, hb, hflip]

/-- The default instrument with a monochromator that is mosaic in the plane only. -/
example : ∃ r r', calcInQ { demo with mono.vmosaic := some 1 } [(1, 1 / 2)] = .ok [r] ∧
    calcInQ ({ demo with mono.vmosaic := some 1 } : Settings).reversed [(1, -(1 / 2))] = .ok [r'] ∧ r'.2 ≠ backward r.2 := by
  have hr : Reaches demo 1 (1 / 2) := demo_reaches (by norm_num) (by norm_num) (by norm_num) (by norm_num)
  have h := demo_valid 1
  have h' : ({ demo with mono.vmosaic := some 1 } : Settings).Valid 1 :=
    ⟨{ h.mono with vmosaic := fun v hv => by obtain rfl := Option.some.inj hv; exact one_pos }, h.ana, h.guide, h.monitor,
      h.detector, h.sample, h.hcol, h.vcol, h.arms⟩
  exact C201_vmosaic_false h' rfl (by norm_num [demo]) (fun i => by norm_num [demo]) (fun i => by norm_num [demo])
    (v := 1) rfl (by norm_num [demo]) rfl rfl ⟨hr.ei, hr.ef, hr.mono, hr.ana, hr.closes, hr.q⟩

end Verif.Resolution
