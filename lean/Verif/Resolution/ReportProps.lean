import Verif.Resolution.Report
import Verif.Resolution.FigureProps
import Verif.Convolution.PropsMore
import Verif.Tools.PropsWidths

/-! # Property C165: the text about the last resolution calculation -/

namespace Verif.Resolution.Report

open Real Matrix MeasureTheory
open Verif.Crystal (Fail Vec Mat vecOf len npSqrt npDiv)
open Verif.Tools (Arg quad SPD IsFWHM getBraggWidths C91_double)
open Verif.Energy (Consts)
open Verif.Resolution.Figure (Good demo_good)

/-! ## Specification -/

/-- The name of the method belongs to the calculation that was done. -/
def NameTrue (s : Settings) (n : Name) : Prop := n = .popovici ↔ s.popovici = true

/-- The number after `FX` says which energy is fixed: 1 for the incident one, 2 for the final one. -/
def FixedTrue (s : Settings) (n : ℕ) : Prop :=
  (n = 1 ∧ ∀ w, incident s w = s.efixed) ∨ (n = 2 ∧ ∀ w, final s w = s.efixed)

/-- The full width at half maximum of the resolution function along an axis. -/
def AxisWidth (A : M4) (k : Fin 4) (x : ℝ) : Prop := IsFWHM (fun t => exp (-quad A (Pi.single k t) / 2)) x

/-- The full width at half maximum in energy of the resolution function integrated over momentum. -/
def VanadiumWidth (A : M4) (x : ℝ) : Prop :=
  IsFWHM (fun e => ∫ q2 : ℝ, ∫ q1 : ℝ, ∫ q0 : ℝ, exp (-quad A ![q0, q1, q2, e] / 2)) x

/-- The volume of the resolution function: its integral over momentum and energy, divided by its height. -/
noncomputable def volumeOf (A : M4) : ℝ := ∫ d : Fin 4 → ℝ, exp (-(1 / 2) * quad A d)

/-! ## Theorems -/

theorem det_pos' {A : M4} (h : SPD A) : 0 < A.det := ((posDef_iff_spd A).2 h).det_pos

/-- What is in the text, for any stored results. -/
theorem describe_ok (c : Consts) {i : Inst} {n : Name} (hn : nameOf i.setup.settings.method = .ok n) {r : Res} {rs : List Res}
    (hr : i.result = some (r :: rs)) (h : SPD r.rms) {k : List ℝ × List ℝ × List ℝ × List ℝ} (hk : i.keys = some k)
    {p : Vec × ℝ} {ps : List (Vec × ℝ)} (hp : keyPoints k = p :: ps) :
    ∃ t, describe c true i = .ok t ∧ t.method = n ∧ t.positions = p :: ps ∧ (∀ a b, t.matrix a b * 10000 = r.rms a b) ∧
      t.volume / 2 = volumeOf r.rms ∧ t.prefactor = r.r0 ∧ AxisWidth r.rms 0 (t.dQ1 / 2) ∧ AxisWidth r.rms 1 (t.dQ2 / 2) ∧
      AxisWidth r.rms 2 (t.dQz / 2) ∧ AxisWidth r.rms 3 (t.dE / 2) ∧ VanadiumWidth r.rms (t.vanadium / 2) ∧
      t.fx = fixed i.setup.settings.infin ∧ t.angles = Verif.Angles.anglesAndQ c i.setup p.1 p.2 := by
  obtain ⟨w, e, h1, h2, -⟩ := C91_double h
  have hd := det_pos' h
  have hs : √r.rms.det ≠ 0 := (sqrt_pos.2 hd).ne'
  unfold describe
  rw [hn, hr, hk]
  dsimp only
  rw [hp]
  dsimp only
  rw [npSqrt, if_pos hd.le]
  dsimp only
  rw [npDiv, if_neg hs]
  dsimp only
  rw [e]
  dsimp only
  rw [if_neg (by simp)]
  refine ⟨_, rfl, rfl, rfl, ?_, ?_, rfl, h1 0, h1 1, h1 2, h1 3, h2, rfl, rfl⟩
  · intro a b
    dsimp only
    rw [h.symm b a]
    norm_num
  · dsimp only
    unfold volumeOf
    rw [Verif.Convolution.integral_quad h]
    ring

/-- After a query for reachable points. -/
theorem after_query {s : Setup} {E F : Mat} (h : s.Valid E F) {n : ℕ} (h0 : 0 < n) (hS : s.settings.Valid n) {q : Query}
    (hq : Good s F n q) : ∃ r rs p ps, ask (new s) q = (⟨s, some (q.H, q.K, q.L, q.W), some (r :: rs)⟩, .ok (r :: rs)) ∧
      fresh s q = .ok (r :: rs) ∧ SPD r.rms ∧ q.points = p :: ps := by
  obtain ⟨rs, e, hl, hr⟩ := compute_plane h hq.len hS hq.reach
  have lp := Query.points_length hq.len
  cases rs with
  | nil => simp at hl; omega
  | cons r rs =>
    cases hp : q.points with
    | nil => rw [hp] at lp; simp at lp; omega
    | cons p ps =>
      have e' : ask (new s) q = _ := (ask_new hq.len (Or.inl rfl)).trans e
      exact ⟨r, rs, p, ps, e', by rw [fresh, e'], hr r (by simp), rfl⟩

/-- C165 (partial).  After a resolution calculation for any list of reachable points, on an instrument whose method is given
by number or not at all, the text can be written; it names the method that was used, all positions, and for the first of them
the elements of the resolution matrix in units of 10^4, the prefactor and the angles of the instrument; it says rightly which
energy is fixed.  The volume and the widths are twice what they are said to be (`C165_volume_false`, `C165_widths_false`).
Missing: methods given by name (`C165_name_false`), settings changed since (`C165_settings_false`). -/
theorem C165_text_partial (c : Consts) {s : Setup} {E F : Mat} (h : s.Valid E F) {n : ℕ} (h0 : 0 < n) (hS : s.settings.Valid n) {q : Query}
    (hq : Good s F n q) (hm : s.settings.method = none ∨ s.settings.method = some (.number 0) ∨ s.settings.method = some (.number 1))
    (hi : s.settings.infin = none ∨ s.settings.infin = some (-1) ∨ s.settings.infin = some 1) :
    ∃ r rs p ps t, fresh s q = .ok (r :: rs) ∧ q.points = p :: ps ∧ describe c true (ask (new s) q).1 = .ok t ∧
      NameTrue s.settings t.method ∧ FixedTrue s.settings t.fx ∧ t.positions = q.points ∧ (∀ a b, t.matrix a b * 10000 = r.rms a b) ∧
      t.prefactor = r.r0 ∧ t.angles = Verif.Angles.anglesAndQ c s p.1 p.2 ∧ t.volume / 2 = volumeOf r.rms ∧
      AxisWidth r.rms 0 (t.dQ1 / 2) ∧ AxisWidth r.rms 1 (t.dQ2 / 2) ∧ AxisWidth r.rms 2 (t.dQz / 2) ∧
      AxisWidth r.rms 3 (t.dE / 2) ∧ VanadiumWidth r.rms (t.vanadium / 2) := by
  obtain ⟨r, rs, p, ps, e1, e2, e3, e4⟩ := after_query h h0 hS hq
  obtain ⟨nm, hn, ht⟩ : ∃ nm, nameOf s.settings.method = .ok nm ∧ NameTrue s.settings nm := by
    rcases hm with hm | hm | hm
    · exact ⟨.cooperNathans, by rw [hm]; rfl, by simp [NameTrue, Settings.popovici, Settings.theMethod, hm]⟩
    · exact ⟨.cooperNathans, by rw [hm]; rfl, by simp [NameTrue, Settings.popovici, Settings.theMethod, hm]⟩
    · exact ⟨.popovici, by rw [hm]; rfl, by simp [NameTrue, Settings.popovici, Settings.theMethod, hm]⟩
  obtain ⟨t, g1, g2, g3, g4, g5, g6, g7, g8, g9, g10, g11, g12, g13⟩ := describe_ok c
    (i := ⟨s, some (q.H, q.K, q.L, q.W), some (r :: rs)⟩) hn rfl e3 rfl (show keyPoints (q.H, q.K, q.L, q.W) = p :: ps from e4)
  refine ⟨r, rs, p, ps, t, e2, e4, by rw [e1]; exact g1, by rw [g2]; exact ht, ?_, g3.trans e4.symm, g4, g6, g13, g5, g7, g8, g9, g10, g11⟩
  rw [g12]
  rcases hi with hi | hi | hi
  · exact Or.inr ⟨by simp [hi, fixed], fun w => by simp [final, hi]⟩
  · exact Or.inr ⟨by simp [hi, fixed], fun w => by simp [final, hi]⟩
  · exact Or.inl ⟨by norm_num [hi, fixed], fun w => by simp [incident, hi]⟩

theorem volumeOf_pos {A : M4} (h : SPD A) : 0 < volumeOf A := by
  unfold volumeOf
  rw [Verif.Convolution.integral_quad h]
  have := sqrt_pos.2 (det_pos' h)
  positivity

/-- C165 fails.  The resolution volume in the text is not that of the resolution function, for any calculation. -/
theorem C165_volume_false (c : Consts) {s : Setup} {E F : Mat} (h : s.Valid E F) {n : ℕ} (h0 : 0 < n) (hS : s.settings.Valid n) {q : Query}
    (hq : Good s F n q) {t : Text} (ht : describe c true (ask (new s) q).1 = .ok t) :
    ∃ r rs, fresh s q = .ok (r :: rs) ∧ t.volume ≠ volumeOf r.rms := by
  obtain ⟨r, rs, p, ps, e1, e2, e3, e4⟩ := after_query h h0 hS hq
  refine ⟨r, rs, e2, ?_⟩
  rw [e1] at ht
  cases hn : nameOf s.settings.method with
  | error e =>
    unfold describe at ht
    rw [hn] at ht
    exact nomatch ht
  | ok nm =>
    obtain ⟨t', g1, -, -, -, g5, -⟩ := describe_ok c (i := ⟨s, some (q.H, q.K, q.L, q.W), some (r :: rs)⟩) hn rfl e3 rfl
      (show keyPoints (q.H, q.K, q.L, q.W) = p :: ps from e4)
    cases ht.symm.trans g1
    have := volumeOf_pos e3
    intro hv
    linarith

/-- C165 fails.  The widths in the text, said to be full widths at half maximum, are not, for any calculation. -/
theorem C165_widths_false (c : Consts) {s : Setup} {E F : Mat} (h : s.Valid E F) {n : ℕ} (h0 : 0 < n) (hS : s.settings.Valid n) {q : Query}
    (hq : Good s F n q) {t : Text} (ht : describe c true (ask (new s) q).1 = .ok t) :
    ∃ r rs, fresh s q = .ok (r :: rs) ∧ ¬ AxisWidth r.rms 0 t.dQ1 ∧ ¬ AxisWidth r.rms 1 t.dQ2 ∧ ¬ AxisWidth r.rms 2 t.dQz ∧
      ¬ AxisWidth r.rms 3 t.dE ∧ ¬ VanadiumWidth r.rms t.vanadium := by
  obtain ⟨r, rs, p, ps, e1, e2, e3, e4⟩ := after_query h h0 hS hq
  refine ⟨r, rs, e2, ?_⟩
  rw [e1] at ht
  cases hn : nameOf s.settings.method with
  | error e =>
    unfold describe at ht
    rw [hn] at ht
    exact nomatch ht
  | ok nm =>
    obtain ⟨t', g1, -, -, -, -, -, w0, w1, w2, w3, w4, -⟩ := describe_ok c (i := ⟨s, some (q.H, q.K, q.L, q.W), some (r :: rs)⟩) hn rfl e3 rfl
      (show keyPoints (q.H, q.K, q.L, q.W) = p :: ps from e4)
    cases ht.symm.trans g1
    have no {f : ℝ → ℝ} {x : ℝ} (hx : IsFWHM f (x / 2)) : ¬ IsFWHM f x := by
      intro hc
      have := hc.unique hx
      have := hc.1
      linarith
    exact ⟨no w0, no w1, no w2, no w3, no w4⟩

/-- C165 fails.  With a method given by name there is a resolution calculation but no text. -/
theorem C165_name_false (c : Consts) {s : Setup} {E F : Mat} (h : s.Valid E F) {n : ℕ} (h0 : 0 < n) (hS : s.settings.Valid n) {q : Query}
    (hq : Good s F n q) {m : List Char} (hm : s.settings.method = some (.name m)) :
    (∃ r rs, fresh s q = .ok (r :: rs)) ∧ describe c true (ask (new s) q).1 = .error .typeError := by
  obtain ⟨r, rs, p, ps, e1, e2, e3, e4⟩ := after_query h h0 hS hq
  refine ⟨⟨r, rs, e2⟩, ?_⟩
  rw [e1]
  unfold describe
  dsimp only
  rw [hm]
  rfl

/-- C165 fails.  If the method is set after the calculation the text names it, with the matrix of the other method. -/
theorem C165_settings_false (c : Consts) {s : Setup} {E F : Mat} (h : s.Valid E F) {n : ℕ} (h0 : 0 < n) (hS : s.settings.Valid n) {q : Query}
    (hq : Good s F n q) (hm : s.settings.method = none) :
    ∃ r rs t, fresh s q = .ok (r :: rs) ∧
      describe c true { (ask (new s) q).1 with setup.settings.method := some (.number 1) } = .ok t ∧
      (∀ a b, t.matrix a b * 10000 = r.rms a b) ∧ ¬ NameTrue s.settings t.method := by
  obtain ⟨r, rs, p, ps, e1, e2, e3, e4⟩ := after_query h h0 hS hq
  obtain ⟨t, g1, g2, -, g4, -⟩ := describe_ok c
    (i := ⟨{ s with settings.method := some (.number 1) }, some (q.H, q.K, q.L, q.W), some (r :: rs)⟩) (n := .popovici) rfl rfl e3 rfl
    (show keyPoints (q.H, q.K, q.L, q.W) = p :: ps from e4)
  refine ⟨r, rs, t, e2, by rw [e1]; exact g1, g4, ?_⟩
  rw [g2]
  simp [NameTrue, Settings.popovici, Settings.theMethod, hm]

/-- C165 fails.  An instrument made as a `TripleAxisInstrument`, not as an `Instrument`, has a resolution calculation but no text. -/
theorem C165_class_false (c : Consts) {s : Setup} {E F : Mat} (h : s.Valid E F) {n : ℕ} (h0 : 0 < n) (hS : s.settings.Valid n) {q : Query}
    (hq : Good s F n q) : (∃ r rs, fresh s q = .ok (r :: rs)) ∧ ∀ t, describe c false (ask (new s) q).1 ≠ .ok t := by
  obtain ⟨r, rs, p, ps, e1, e2, e3, e4⟩ := after_query h h0 hS hq
  refine ⟨⟨r, rs, e2⟩, fun t ht => ?_⟩
  rw [e1] at ht
  unfold describe at ht
  dsimp only at ht
  cases hn : nameOf s.settings.method <;> rw [hn] at ht <;> dsimp only at ht
  · exact nomatch ht
  · have e5 : keyPoints (q.H, q.K, q.L, q.W) = p :: ps := e4
    rw [e5] at ht
    dsimp only at ht
    cases h1 : npSqrt r.rms.det <;> rw [h1] at ht <;> dsimp only at ht
    · exact nomatch ht
    · rename_i root
      cases h2 : npDiv ((2 * π) ^ 2) root <;> rw [h2] at ht <;> dsimp only at ht
      · exact nomatch ht
      · cases h3 : getBraggWidths r.rms <;> rw [h3] at ht <;> dsimp only at ht
        · exact nomatch ht
        · rw [if_pos (by simp)] at ht
          exact nomatch ht

/-! ## A concrete case -/

/-- The default instrument at (1, 0, 0) and 1 meV. -/
example (c : Consts) : ∃ t, describe c true (ask (new demoSetup) (one 1 0 0 1)).1 = .ok t ∧ t.method = .cooperNathans ∧ t.fx = 2 := by
  have hm : demoSetup.settings.method = none := rfl
  have hi : demoSetup.settings.infin = none := rfl
  obtain ⟨r, rs, p, ps, t, -, -, h1, h2, h3, -⟩ := C165_text_partial c demoSetup_valid one_pos (demo_valid 1) (demo_good zero_le_one le_rfl)
    (Or.inl hm) (Or.inl hi)
  refine ⟨t, h1, ?_, ?_⟩
  · cases ht : t.method with
    | cooperNathans => rfl
    | popovici =>
      rw [ht] at h2
      exact absurd (h2.1 rfl) (by simp [Settings.popovici, Settings.theMethod, hm])
  · rcases h3 with ⟨-, h3⟩ | ⟨h3, -⟩
    · have := h3 1
      simp only [incident, hi] at this
      norm_num at this
    · exact h3

end Verif.Resolution.Report
