import Verif.Resolution.PropsReverse
import Verif.Resolution.PropsGuide

/-! # Property C201: guides in front of the monochromator -/

namespace Verif.Resolution

open Real Matrix
open Verif.Crystal (Fail)

/-- C201 is false for an instrument with a neutron guide as its first collimator at every point with an energy transfer that makes
the wavelengths differ by more than two percent: the divergence of the guide, which is behind the analyzer in the
opposite direction, is computed with the wavelength in front of the sample in both directions. -/
theorem C201_guide_false {s : Settings} (h : s.Valid 1) {q w : ℝ} (hr : Reaches s q w) (hf : s.horifoc.getD (-1) ≤ 0) {m : ℝ} (hm : 0 < m)
    (h0 : s.hcol 0 = -m) (hh : ∀ i, i ≠ 0 → 0 < s.hcol i) (hvc : ∀ i, 0 < s.vcol i) (hv : s.Even) (hc : s.moncor.getD 1 ≠ 1)
    (ht : s.mono.thickness = none) (ht' : s.ana.thickness = none)
    (hw : 1.02 * wavelengthIn s w ≤ wavelengthOut s w ∨ 1.02 * wavelengthOut s w ≤ wavelengthIn s w) :
    ∃ r r', calcInQ s [(q, w)] = .ok [r] ∧ calcInQ s.reversed [(q, -w)] = .ok [r'] ∧
      ¬ (r'.2 = backward r.2 ∧ r'.1 * final s w = r.1 * incident s w) := by
  obtain ⟨e1, e2⟩ := energies_rev s w
  have w1 : wavelengthIn s.reversed (-w) = wavelengthOut s w := by unfold wavelengthIn wavelengthOut; rw [e1]
  have w2 : wavelengthOut s.reversed (-w) = wavelengthIn s w := by unfold wavelengthIn wavelengthOut; rw [e2]
  have g0 : 0 < m * wavelengthIn s w := mul_pos hm (wavelengthIn_pos hr.ei)
  set x := guideCode m (wavelengthIn s w) with hx
  have x0 : 0 < x := guideCode_pos g0
  have hs : StandsFor (6 * (m * wavelengthIn s w) * (2 * √(2 * log 2)) / √3) m (wavelengthOut s.reversed (-w)) := by rw [w2]; exact (standsFor_iff g0).2 rfl
  obtain ⟨n1, n2⟩ := guideCode_near (by rw [w2]; exact g0) hs
  rw [w2, ← hx] at n1 n2
  have hp := hs.pos
  have near : |x - 6 * (m * wavelengthIn s w) * (2 * √(2 * log 2)) / √3| ≤ 0.01 * (6 * (m * wavelengthIn s w) * (2 * √(2 * log 2)) / √3) := by
    rw [abs_le]
    constructor <;> norm_num at n1 n2 ⊢ <;> linarith
  obtain ⟨a, b, h1, h2, hab⟩ := (C155_after_false h.reversed (i := 3) (by decide) hm hr.reversed (by rw [w1, w2]; exact hw.symm) hs near).2 h0
    (Or.inl ht)
  -- the guide replaced by a collimator
  have hh' : ∀ i, 0 < (s.setH 0 x).hcol i := by
    intro i
    by_cases hi : i = 0
    · subst hi; simp [Settings.setH, x0]
    · simp only [Settings.setH, Function.update_of_ne hi]; exact hh i hi
  have hV : (s.setH 0 x).Valid 1 := ⟨h.mono, h.ana, h.guide, h.monitor, h.detector, h.sample, fun i => (hh' i).ne', h.vcol, h.arms⟩
  obtain ⟨rs, rs', g1, g2, l1, l2, H⟩ := C201_reversed_partial (s.setH 0 x) [(q, w)] hV
    (by intro p hp; obtain rfl := List.mem_singleton.1 hp; exact ⟨hr.ei, hr.ef, hr.mono, hr.ana, hr.closes, hr.q⟩) hf hh' hvc hv
  obtain ⟨r, rfl⟩ := List.length_eq_one_iff.1 l1
  obtain ⟨r', rfl⟩ := List.length_eq_one_iff.1 l2
  have hrev : (s.setH 0 x).reversed = s.reversed.setH 3 x := by
    have : (fun i : Fin 4 => Function.update s.hcol 0 x i.rev) = Function.update (fun i : Fin 4 => s.hcol i.rev) 3 x := by
      funext i
      fin_cases i <;> rfl
    unfold Settings.reversed Settings.setH
    simp only [this]
  rw [hrev] at g2
  obtain rfl : b = r' := (List.cons.inj (Except.ok.inj (h2.symm.trans g2))).1
  obtain ⟨k1, k2⟩ := H 0 _ _ _ rfl rfl rfl
  refine ⟨r, a, (calc_setH hm h0 hr.ei).trans g1, h1, fun ⟨c1, c2⟩ => hab ?_⟩
  have k3 : b.1 * final s w = r.1 * incident s w := k2 hc ht ht'
  exact Prod.ext (mul_right_cancel₀ hr.ef.ne' (c2.trans k3.symm)) (c1.trans k1.symm)

/-- The default instrument without monitor, with a guide of `m = 1` in front of the monochromator, at an energy transfer of 1 meV. -/
example : ∃ r r', calcInQ { demo.setH 0 (-1) with moncor := some 0 } [(1, 1)] = .ok [r] ∧
    calcInQ ({ demo.setH 0 (-1) with moncor := some 0 } : Settings).reversed [(1, -1)] = .ok [r'] ∧
    ¬ (r'.2 = backward r.2 ∧ r'.1 * 14.7 = r.1 * 15.7) := by
  have hd := demo_reaches (q := 1) (w := 1) (by norm_num) (by norm_num) zero_le_one le_rfl
  have hp1 : ∀ i, i ≠ 0 → 0 < (demo.setH 0 (-1)).hcol i := fun i hi => by
    simp only [Settings.setH, Function.update_of_ne hi]; norm_num [demo]
  let s : Settings := { demo.setH 0 (-1) with moncor := some 0 }
  have hr : Reaches s 1 1 := ⟨hd.ei, hd.ef, hd.mono, hd.ana, hd.closes, hd.q⟩
  have hv : s.Valid 1 :=
    ⟨(demo_valid 1).mono, (demo_valid 1).ana, (demo_valid 1).guide, (demo_valid 1).monitor, (demo_valid 1).detector,
      (demo_valid 1).sample, fun i => by
        by_cases hi : i = 0
        · subst hi; simp [s, Settings.setH]
        · exact (hp1 i hi).ne',
      (demo_valid 1).vcol, (demo_valid 1).arms⟩
  have ei : incident s 1 = 15.7 := by
    unfold incident
    rw [if_neg (by norm_num [s, Settings.setH, demo])]
    norm_num [s, Settings.setH, demo]
  have ef : final s 1 = 14.7 := by
    unfold final
    rw [if_neg (by norm_num [s, Settings.setH, demo])]
    rfl
  have := C201_guide_false hv hr (by norm_num [s, Settings.setH, demo]) one_pos (by simp [s, Settings.setH]) hp1
    (fun i => by norm_num [s, Settings.setH, demo])
    (Or.inr ⟨fun v hv => by simp [s, Settings.setH, demo] at hv, fun v hv => by simp [s, Settings.setH, demo] at hv⟩) (by norm_num [s]) rfl rfl (by
      left
      unfold wavelengthIn wavelengthOut
      rw [ei, ef]
      have k1 : 0 < wavevector 15.7 := Real.sqrt_pos.2 (by norm_num)
      have k2 : 0 < wavevector 14.7 := Real.sqrt_pos.2 (by norm_num)
      have hk : 1.02 * wavevector 14.7 ≤ wavevector 15.7 := by
        refine abs_le_of_sq_le_sq' ?_ k1.le |>.2
        rw [mul_pow, wavevector, wavevector, Real.sq_sqrt (by norm_num), Real.sq_sqrt (by norm_num)]
        norm_num
      have hp := pi_pos
      rw [← mul_div_assoc, div_le_div_iff₀ k1 k2]
      nlinarith)
  rwa [ei, ef] at this

end Verif.Resolution
