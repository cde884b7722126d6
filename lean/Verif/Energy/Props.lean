import Verif.Energy.Model
import Mathlib.Tactic.FieldSimp
import Mathlib.Tactic.Positivity
import Mathlib.Tactic.Ring
import Mathlib.Tactic.Linarith
import Mathlib.Tactic.NormNum

/-!
# Properties C28–C32: the neutron energy class
-/

namespace Verif.Energy

open Real

variable (c : Consts)

/-- One neutron: all attributes are numbers, positive, and satisfy the physical
relations in SI units (energy in meV, wavelength in Å, wavevector in 1/Å, frequency
in THz). -/
def Consistent (s : State) : Prop :=
  ∃ lam kk v, s.wavelen = .num lam ∧ s.wavevec = .num kk ∧ s.vel = .num v ∧
    0 < s.en ∧ 0 < lam ∧ 0 < kk ∧ 0 < v ∧ 0 < s.temp ∧ 0 < s.freq ∧
    s.en / c.J = c.h ^ 2 / (2 * c.m * (lam * 1e-10) ^ 2) ∧
    s.en / c.J = c.m * v ^ 2 / 2 ∧
    s.en / c.J = (c.hbar * (kk * 1e10)) ^ 2 / (2 * c.m) ∧
    s.en / c.J = c.k * s.temp ∧
    s.en / c.J = c.h * (s.freq * 1e12)

theorem hbar_pos : 0 < c.hbar := div_pos c.h_pos (by positivity)

theorem derive_consistent {e : ℝ} (he : 0 < e) : Consistent c (derive c e) := by
  have hh := c.h_pos
  have hk := c.k_pos
  have hm := c.m_pos
  have hJ := c.J_pos
  have hπ := pi_pos
  have hb := hbar_pos c
  have hx : 0 < c.h ^ 2 / (2 * c.m * e / c.J) := by positivity
  have hs : 0 < √(c.h ^ 2 / (2 * c.m * e / c.J)) := sqrt_pos.2 hx
  have hsq := sq_sqrt hx.le
  have hv : 0 < 2 * e / c.J / c.m := by positivity
  have hvs : 0 < √(2 * e / c.J / c.m) := sqrt_pos.2 hv
  have hvsq := sq_sqrt hv.le
  refine ⟨√(c.h ^ 2 / (2 * c.m * e / c.J)) * 10 ^ 10,
    2 * π / (√(c.h ^ 2 / (2 * c.m * e / c.J)) * 10 ^ 10), √(2 * e / c.J / c.m), ?_, ?_, ?_,
    he, by positivity, by positivity, hvs, ?_, ?_, ?_, ?_, ?_, ?_, ?_⟩
  · simp only [derive, he.ne', if_false, wavelenOf, npSqrt, if_pos hx.le, Num.scale]
  · simp only [derive, he.ne', if_false, wavelenOf, npSqrt, if_pos hx.le, Num.scale, divBy]
    rw [if_neg (by positivity)]
  · simp only [derive, npSqrt, if_pos hv.le]
  · simp only [derive]; positivity
  · simp only [derive]; positivity
  · simp only [derive]
    have : (√(c.h ^ 2 / (2 * c.m * e / c.J)) * 10 ^ 10 * 1e-10) ^ 2 =
        c.h ^ 2 / (2 * c.m * e / c.J) := by
      rw [← hsq]; norm_num [mul_assoc]
    rw [this]
    field_simp
  · simp only [derive]
    rw [hvsq]; field_simp
  · simp only [derive]
    have : (c.hbar * (2 * π / (√(c.h ^ 2 / (2 * c.m * e / c.J)) * 10 ^ 10) * 1e10)) ^ 2 =
        c.h ^ 2 / √(c.h ^ 2 / (2 * c.m * e / c.J)) ^ 2 := by
      unfold Consts.hbar
      generalize √(c.h ^ 2 / (2 * c.m * e / c.J)) = S at hs
      have h10 : (1e10 : ℝ) = 10 ^ 10 := by norm_num
      rw [h10]
      field_simp
    rw [this, hsq]
    field_simp
  · simp only [derive]; field_simp
  · simp only [derive]
    unfold Consts.hbar
    have h12 : (1e12 : ℝ) = 10 ^ 12 := by norm_num
    rw [h12]
    field_simp

/-- A positive value of any quantity describes a positive energy. -/
theorem energyOf_pos (q : Quantity) {v : ℝ} (hv : 0 < v) :
    ∃ e, energyOf c (argOf q v) = .ok (some e) ∧ 0 < e := by
  have hh := c.h_pos
  have hk := c.k_pos
  have hm := c.m_pos
  have hJ := c.J_pos
  have hπ := pi_pos
  have hb := hbar_pos c
  cases q with
  | energy => exact ⟨v, rfl, hv⟩
  | wavelength =>
    refine ⟨c.h ^ 2 / (2 * c.m * (v / 10 ^ 10) ^ 2) * c.J, ?_, by positivity⟩
    simp only [energyOf, argOf]
    rw [if_neg (by positivity)]
  | velocity => exact ⟨_, rfl, by positivity⟩
  | wavevector =>
    refine ⟨c.h ^ 2 / (2 * c.m * ((2 * π / v) / 10 ^ 10) ^ 2) * c.J, ?_, by positivity⟩
    simp only [energyOf, argOf]
    rw [if_neg (by positivity)]
  | temperature => exact ⟨_, rfl, by positivity⟩
  | frequency => exact ⟨_, rfl, by positivity⟩

theorem update_pos (old : Option State) (q : Quantity) {v : ℝ} (hv : 0 < v) :
    ∃ e, 0 < e ∧ energyOf c (argOf q v) = .ok (some e) ∧
      update c old (argOf q v) = .ok (derive c e) := by
  obtain ⟨e, he, hpos⟩ := energyOf_pos c q hv
  refine ⟨e, hpos, he, ?_⟩
  unfold update
  rw [he]
  rfl

/-- **C28** an `Energy` constructed from any positive quantity and changed by any
sequence of assignments of positive values never fails and always describes one
neutron. -/
theorem C28_consistent (q : Quantity) {v : ℝ} (hv : 0 < v) (ops : List (Quantity × ℝ))
    (hops : ∀ op ∈ ops, 0 < op.2) :
    ∃ s s', create c (argOf q v) = .ok s ∧ run c s ops = .ok s' ∧ Consistent c s' := by
  obtain ⟨e, he, _, hc⟩ := update_pos c none q hv
  suffices H : ∀ (ops : List (Quantity × ℝ)) (s : State), (∀ op ∈ ops, 0 < op.2) →
      Consistent c s → ∃ s', run c s ops = .ok s' ∧ Consistent c s' by
    obtain ⟨s', h1, h2⟩ := H ops _ hops (derive_consistent c he)
    exact ⟨_, s', hc, h1, h2⟩
  intro ops
  induction ops with
  | nil => intro s _ hs; exact ⟨s, rfl, hs⟩
  | cons op ops ih =>
    intro s hops _
    obtain ⟨q, v⟩ := op
    obtain ⟨e, he, _, hu⟩ := update_pos c (some s) q (hops (q, v) (by simp))
    obtain ⟨s', h1, h2⟩ := ih _ (fun op h => hops op (by simp [h])) (derive_consistent c he)
    refine ⟨s', ?_, h2⟩
    unfold run set
    rw [hu]
    exact h1

/-- **C29** whatever the object was before, a positive value assigned to one of the
six quantities is read back. -/
theorem C29_read_back (s : State) (q : Quantity) {v : ℝ} (hv : 0 < v) :
    ∃ s', set c s q v = .ok s' ∧ get s' q = .num v := by
  obtain ⟨e, he, heq, hu⟩ := update_pos c (some s) q hv
  refine ⟨derive c e, hu, ?_⟩
  have hh := c.h_pos
  have hk := c.k_pos
  have hm := c.m_pos
  have hJ := c.J_pos
  have hπ := pi_pos
  have hb := hbar_pos c
  have hx : 0 < c.h ^ 2 / (2 * c.m * e / c.J) := by positivity
  have hvv : 0 < 2 * e / c.J / c.m := by positivity
  have hs : 0 < √(c.h ^ 2 / (2 * c.m * e / c.J)) := sqrt_pos.2 hx
  cases q with
  | energy =>
    simp only [energyOf, argOf, Except.ok.injEq, Option.some.injEq] at heq
    subst heq; rfl
  | wavelength =>
    simp only [energyOf, argOf] at heq
    rw [if_neg (by positivity)] at heq
    simp only [Except.ok.injEq, Option.some.injEq] at heq
    simp only [get, derive, he.ne', if_false, wavelenOf, npSqrt, if_pos hx.le, Num.scale]
    congr 1
    have : c.h ^ 2 / (2 * c.m * e / c.J) = (v / 10 ^ 10) ^ 2 := by
      rw [← heq]; field_simp
    rw [this, sqrt_sq (by positivity)]
    field_simp
  | velocity =>
    simp only [energyOf, argOf, Except.ok.injEq, Option.some.injEq] at heq
    simp only [get, derive, npSqrt, if_pos hvv.le]
    congr 1
    have : 2 * e / c.J / c.m = v ^ 2 := by rw [← heq]; field_simp
    rw [this, sqrt_sq hv.le]
  | wavevector =>
    simp only [energyOf, argOf] at heq
    rw [if_neg (by positivity)] at heq
    simp only [Except.ok.injEq, Option.some.injEq] at heq
    simp only [get, derive, he.ne', if_false, wavelenOf, npSqrt, if_pos hx.le, Num.scale, divBy]
    rw [if_neg (by positivity)]
    congr 1
    have : c.h ^ 2 / (2 * c.m * e / c.J) = ((2 * π / v) / 10 ^ 10) ^ 2 := by
      rw [← heq]; field_simp
    rw [this, sqrt_sq (by positivity)]
    field_simp
  | temperature =>
    simp only [energyOf, argOf, Except.ok.injEq, Option.some.injEq] at heq
    simp only [get, derive]
    congr 1
    rw [← heq]; field_simp
  | frequency =>
    simp only [energyOf, argOf, Except.ok.injEq, Option.some.injEq] at heq
    simp only [get, derive]
    congr 1
    rw [← heq]; field_simp

/-- The quantities in the order of priority, with the value given for them. -/
def given (a : Args) : List (Quantity × ℝ) :=
  [(.energy, a.energy), (.wavelength, a.wavelength), (.velocity, a.velocity),
    (.wavevector, a.wavevector), (.temperature, a.temperature),
    (.frequency, a.frequency)].filterMap fun p : Quantity × Option ℝ => p.2.map fun v => (p.1, v)

/-- **C30** the first quantity that is given decides: the outcome (object or
exception) is that of giving only this one. -/
theorem C30_priority (a : Args) {q : Quantity} {v : ℝ} {r : List (Quantity × ℝ)}
    (h : given a = (q, v) :: r) (old : Option State) :
    update c old a = update c old (argOf q v) := by
  obtain ⟨e, w, ve, k, t, f⟩ := a
  unfold given at h
  cases e with
  | some x => simp at h; obtain ⟨⟨rfl, rfl⟩, _⟩ := h; rfl
  | none =>
  cases w with
  | some x => simp at h; obtain ⟨⟨rfl, rfl⟩, _⟩ := h; rfl
  | none =>
  cases ve with
  | some x => simp at h; obtain ⟨⟨rfl, rfl⟩, _⟩ := h; rfl
  | none =>
  cases k with
  | some x => simp at h; obtain ⟨⟨rfl, rfl⟩, _⟩ := h; rfl
  | none =>
  cases t with
  | some x => simp at h; obtain ⟨⟨rfl, rfl⟩, _⟩ := h; rfl
  | none =>
  cases f with
  | some x => simp at h; obtain ⟨⟨rfl, rfl⟩, _⟩ := h; rfl
  | none => simp at h

/-- **C30** with nothing given the constructor fails with `AttributeError`. -/
theorem C30_nothing_given (a : Args) (h : given a = []) : create c a = .error .attributeError := by
  obtain ⟨e, w, ve, k, t, f⟩ := a
  unfold given at h
  cases e <;> cases w <;> cases ve <;> cases k <;> cases t <;> cases f <;> simp at h
  rfl

example : given { wavelength := some 4, frequency := some 1 } =
    [(.wavelength, 4), (.frequency, 1)] := rfl
example : given {} = [] := rfl

/-- **C31** all attributes except the wavevector agree, position by position, with
those of a scalar energy; so does the wavevector if no energy is zero.
Missing: the wavevector when a zero is present (`C31_zero_spoils_wavevectors`). -/
theorem C31_arrays_partial (es : List ℝ) :
    (deriveArr c es).en = es.map (fun e => (derive c e).en) ∧
    (deriveArr c es).wavelen = es.map (fun e => (derive c e).wavelen) ∧
    (deriveArr c es).vel = es.map (fun e => (derive c e).vel) ∧
    (deriveArr c es).temp = es.map (fun e => (derive c e).temp) ∧
    (deriveArr c es).freq = es.map (fun e => (derive c e).freq) ∧
    (0 ∉ es → (deriveArr c es).wavevec = es.map (fun e => (derive c e).wavevec)) := by
  refine ⟨by simp [deriveArr, derive], ?_, rfl, rfl, rfl, ?_⟩
  · simp only [deriveArr, derive]
    split
    · rfl
    · next h =>
      apply List.map_congr_left
      intro e he
      rw [if_neg (by rintro rfl; exact h he)]
  · intro h
    simp only [deriveArr, derive, if_neg h]
    apply List.map_congr_left
    intro e he
    rw [if_neg (by rintro rfl; exact h he)]

/-- **C31 is false**: in an array with a zero, every non-zero energy gets an infinite
wavevector, while the scalar has a positive finite one. -/
theorem C31_zero_spoils_wavevectors (es : List ℝ) (h0 : 0 ∈ es) {i : Nat} {e : ℝ}
    (hi : es[i]? = some e) (he : 0 < e) :
    (deriveArr c es).wavevec[i]? = some .inf ∧ ∃ k > 0, (derive c e).wavevec = .num k := by
  constructor
  · simp only [deriveArr, if_pos h0, List.getElem?_map, hi, Option.map_some]
    rw [if_neg he.ne', divBy, if_pos rfl]
  · obtain ⟨_, k, _, _, hk, _, _, _, hk0, _⟩ := derive_consistent c he
    exact ⟨k, hk0, hk⟩

example : (0 : ℝ) ∈ [0, 1] ∧ ([0, 1] : List ℝ)[1]? = some 1 := by simp

/-- **C32** equality is reflexive. -/
theorem C32_reflexive (a : State) : eq a a := by unfold eq; norm_num

/-- **C32** equality is symmetric. -/
theorem C32_symmetric {a b : State} (h : eq a b) : eq b a := by
  unfold eq at *; rwa [abs_sub_comm]

/-- **C32 is false for transitivity**: 5, 5 + 0.6·10⁻⁶ and 5 + 1.2·10⁻⁶ meV. -/
theorem C32_not_transitive :
    eq (derive c 5) (derive c (5 + 6e-7)) ∧ eq (derive c (5 + 6e-7)) (derive c (5 + 12e-7)) ∧
      ¬ eq (derive c 5) (derive c (5 + 12e-7)) := by
  unfold eq derive
  norm_num [abs_lt]

/-- **C32** what does hold: objects closer than 10⁻⁶ meV are equal, and the
tolerances add up along a chain.
Missing: transitivity. -/
theorem C32_equality_partial (s s' : State) :
    (|s.en - s'.en| < 1e-6 → eq s s') ∧
    ∀ t, eq s t → eq t s' → |s.en - s'.en| < 2e-6 := by
  constructor
  · intro h; unfold eq; norm_num at h ⊢; exact h
  · intro t h1 h2
    unfold eq at h1 h2
    have := abs_sub_le s.en t.en s'.en
    norm_num at h1 h2 ⊢
    linarith

end Verif.Energy
