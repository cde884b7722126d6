import Verif.Tools.PropsKin

/-!
# Property C239: free wavevectors of successive energy transfers
-/

namespace Verif.Tools

open Real

/-! ## Lemmas -/

theorem kinetic_lt (c : Verif.Energy.Consts) {x y : ℝ} (hx : 0 ≤ x) (hy : 0 ≤ y) : kinetic c x < kinetic c y ↔ x < y := by
  rw [kinetic_eq c x, kinetic_eq c y, mul_lt_mul_iff_right₀ (kinetic_one_pos c), pow_lt_pow_iff_left₀ hx hy two_ne_zero]

theorem kinetic_cancel (c : Verif.Energy.Consts) {x y : ℝ} (hx : 0 ≤ x) (hy : 0 ≤ y) (h : kinetic c x = kinetic c y) : x = y := by
  rcases lt_trichotomy x y with h1 | h1 | h1
  · exact absurd h ((kinetic_lt c hx hy).2 h1).ne
  · exact h1
  · exact absurd h.symm ((kinetic_lt c hy hx).2 h1).ne

theorem getKfree_of_transfer (c : Verif.Energy.Consts) {W kfixed k : ℝ} (hW : 0 ≤ W) (kiFixed : Bool) (hk : 0 ≤ k)
    (h : transfer c kfixed k kiFixed = W) : getKfree c W kfixed kiFixed = .ok (.num k) := by
  obtain ⟨h1, h2, -⟩ := C58_loss_partial c (kfixed := kfixed) hW kiFixed
  cases hr : getKfree c W kfixed kiFixed with
  | error e => exact absurd ⟨k, h⟩ (h2.1 ⟨e, hr⟩)
  | ok r =>
    obtain ⟨k', rfl, hk', ht⟩ := h1 r hr
    have : kinetic c k' = kinetic c k := by
      rw [← h] at ht
      cases kiFixed
      · simpa [transfer] using ht
      · simpa [transfer] using ht
    rw [kinetic_cancel c hk' hk this]

/-! ## C239 -/

/-- C239 (partial: energy loss).  Going from the final wavevector to the initial one and back gives the final one
again, and the initial wavevector always exists. -/
theorem C239_back_partial (c : Verif.Energy.Consts) {W kf : ℝ} (hW : 0 ≤ W) (hk : 0 ≤ kf) :
    ∃ ki, getKfree c W kf false = .ok (.num ki) ∧ getKfree c W ki true = .ok (.num kf) := by
  obtain ⟨kE, -, h2⟩ := wavevec_kinetic c hW
  have e : kinetic c √(kE ^ 2 + kf ^ 2) = W + kinetic c kf := by
    rw [← h2, kinetic_eq c √_, kinetic_eq c kE, kinetic_eq c kf, sq_sqrt (by positivity)]
    ring
  refine ⟨√(kE ^ 2 + kf ^ 2), getKfree_of_transfer c hW _ (sqrt_nonneg _) ?_, getKfree_of_transfer c hW _ hk ?_⟩
  · simp only [transfer, e, Bool.false_eq_true, if_false]
    ring
  · simp only [transfer, e, if_true]
    ring

/-- C239 (partial: energy loss).  Two transfers one after the other are one transfer of their sum. -/
theorem C239_sum_partial (c : Verif.Energy.Consts) {V W k k' k'' : ℝ} (hV : 0 ≤ V) (hW : 0 ≤ W) (kiFixed : Bool)
    (h1 : getKfree c V k kiFixed = .ok (.num k')) (h2 : getKfree c W k' kiFixed = .ok (.num k'')) :
    getKfree c (V + W) k kiFixed = .ok (.num k'') := by
  obtain ⟨a, ha, -, ta⟩ := (C58_loss_partial c (kfixed := k) hV kiFixed).1 _ h1
  obtain ⟨b, hb, hb0, tb⟩ := (C58_loss_partial c (kfixed := k') hW kiFixed).1 _ h2
  cases ha
  cases hb
  refine getKfree_of_transfer c (add_nonneg hV hW) _ hb0 ?_
  rw [← ta, ← tb]
  cases kiFixed <;> simp [transfer]

/-- C239 (partial: energy loss).  A larger transfer needs a longer initial, and leaves a shorter final wavevector; a
longer fixed wavevector goes with a longer free one. -/
theorem C239_order_partial (c : Verif.Energy.Consts) {V W p q k k' : ℝ} (hV : 0 ≤ V) (hW : 0 ≤ W) (hp : 0 ≤ p) (hq : 0 ≤ q)
    (kiFixed : Bool) (h1 : getKfree c V p kiFixed = .ok (.num k)) (h2 : getKfree c W q kiFixed = .ok (.num k')) :
    (p = q → V < W → if kiFixed then k' < k else k < k') ∧ (V = W → (k < k' ↔ p < q)) := by
  obtain ⟨a, ha, ha0, ta⟩ := (C58_loss_partial c (kfixed := p) hV kiFixed).1 _ h1
  obtain ⟨b, hb, hb0, tb⟩ := (C58_loss_partial c (kfixed := q) hW kiFixed).1 _ h2
  cases ha
  cases hb
  refine ⟨?_, ?_⟩
  · rintro rfl hlt
    cases kiFixed <;> simp only [transfer, Bool.false_eq_true, if_true, if_false] at ta tb ⊢
    · exact (kinetic_lt c ha0 hb0).1 (by linarith)
    · exact (kinetic_lt c hb0 ha0).1 (by linarith)
  · rintro rfl
    rw [← kinetic_lt c ha0 hb0, ← kinetic_lt c hp hq]
    cases kiFixed <;> simp only [transfer, Bool.false_eq_true, if_true, if_false] at ta tb <;>
      constructor <;> intro h <;> linarith

/-- C239 is false for energy gain: the opposite transfer does not lead back. -/
theorem C239_gain_false (c : Verif.Energy.Consts) {W kf : ℝ} (hW : 0 < W) (hk : 0 ≤ kf) :
    ∃ ki, getKfree c W kf false = .ok (.num ki) ∧ getKfree c (-W) ki false = .ok .nan := by
  obtain ⟨ki, h, -⟩ := C239_back_partial c hW.le hk
  exact ⟨ki, h, (C58_gain c (by linarith) ki false).1⟩

/-- Without transfer the two wavevectors are equal. -/
example (c : Verif.Energy.Consts) (b : Bool) : getKfree c 0 2 b = .ok (.num 2) :=
  getKfree_of_transfer c le_rfl b (by norm_num) (by cases b <;> simp [transfer])

end Verif.Tools
