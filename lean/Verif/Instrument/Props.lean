import Verif.Instrument.Model
import Verif.Tools.Props
import Mathlib.Tactic.FieldSimp
import Mathlib.Tactic.LinearCombination
import Mathlib.Tactic.Ring

/-!
# Properties C71, C72, C92 and C93: components of an instrument
-/

namespace Verif.Instrument

open Real Matrix
open Verif.Tools

/-! ## C71 -/

/-- The value of `tau` is known, and together with the spacing satisfies `d τ = 2π`. -/
def Consistent (caller : Caller) (c : Crystal) : Prop := ∃ t, getTau caller c.tau = .ok (some t) ∧ c.d * t = 2 * π

/-- A name of the table, in any capitalisation, or a positive number. -/
def Known : TauArg → Prop
  | .num x => 0 < x
  | .name s => ∃ e ∈ choicesDisplay, lower e.1 = lower s

theorem entry_pos : ∀ e ∈ choices, 0 < e.2.val := by
  have : ∀ e ∈ choices, (match e.2 with | .tau q => decide (0 < q) | .spacing d => decide (0 < d)) = true := by
    decide +kernel
  intro e he
  have h := this e he
  cases hv : e.2 with
  | tau q =>
    rw [hv] at h
    have := of_decide_eq_true h
    simp only [Entry.val]
    exact_mod_cast this
  | spacing d =>
    rw [hv] at h
    have h := of_decide_eq_true h
    have : (0 : ℝ) < d := by exact_mod_cast h
    simp only [Entry.val]
    positivity

theorem lookup_mem {k : List Char} {d : List (List Char × Entry)} {v : Entry} (h : lookup k d = some v) : (k, v) ∈ d := by
  induction d with
  | nil => simp [lookup] at h
  | cons e d ih =>
    rw [lookup] at h
    split_ifs at h with hk
    · rw [← hk, ← Option.some.inj h]
      simp
    · simp [ih h]

theorem known_lookup : ∀ e ∈ choicesDisplay, (lookup (lower e.1) choices).isSome = true := by decide +kernel

theorem known_pos (caller : Caller) {t : TauArg} (h : Known t) : ∃ x, getTau caller t = .ok (some x) ∧ 0 < x := by
  cases t with
  | num x => exact ⟨x, rfl, h⟩
  | name s =>
    obtain ⟨e, he, hs⟩ := h
    have h1 := known_lookup e he
    rw [hs] at h1
    obtain ⟨v, hv⟩ := Option.isSome_iff_exists.1 h1
    exact ⟨v.val, by simp only [getTau, hv], entry_pos _ (lookup_mem hv)⟩

/-- **C71** a crystal that is built and then changed by any sequence of assignments of known names or
positive numbers always satisfies `d τ = 2π`, and stores the last value. -/
theorem C71_consistent (caller : Caller) {t : TauArg} (ht : Known t) (ts : List TauArg) (hts : ∀ t ∈ ts, Known t) :
    ∃ c, create caller t = .ok c ∧ Consistent caller (runTau caller c ts) ∧
      (runTau caller c ts).tau = (t :: ts).getLast (by simp) := by
  have hsp : ∀ t, Known t → ∃ d x, spacing caller t = .ok d ∧ getTau caller t = .ok (some x) ∧ d * x = 2 * π := by
    intro t ht
    obtain ⟨x, h1, h2⟩ := known_pos caller ht
    refine ⟨2 * π / x, x, ?_, h1, div_mul_cancel₀ _ h2.ne'⟩
    unfold spacing
    rw [h1]
    exact if_neg h2.ne'
  obtain ⟨d, x, h1, h2, h3⟩ := hsp t ht
  refine ⟨⟨t, d⟩, by unfold create; rw [h1]; rfl, ?_⟩
  have h0 : Consistent caller ⟨t, d⟩ := ⟨x, h2, h3⟩
  clear h1 h2 h3
  induction ts generalizing t d x with
  | nil => exact ⟨h0, rfl⟩
  | cons t' ts ih =>
    obtain ⟨d', x', h1, h2, h3⟩ := hsp t' (hts t' (by simp))
    have hrun : runTau caller ⟨t, d⟩ (t' :: ts) = runTau caller ⟨t', d'⟩ ts := by
      rw [runTau, setTau, h1]
    rw [hrun]
    have := ih (hts t' (by simp)) (fun t ht => hts t (by simp [ht])) d' x' ⟨x', h2, h3⟩
    refine ⟨this.1, this.2.trans ?_⟩
    simp

example : Known (.name cs!"pg(002)") ∧ Known (.num 3.5) := by
  refine ⟨⟨(cs!"pg(002)", .tau 1.87325), by decide +kernel, rfl⟩, ?_⟩
  norm_num [Known]

/-- **C71** a failed assignment is not undone: the unknown name is stored beside the old spacing. -/
theorem C71_failed_assignment : ∃ c, create .monochromator (.num 2) = .ok c ∧
    (setTau .monochromator c (.name cs!"Zn(002)")).1.tau = .name cs!"Zn(002)" ∧
    (setTau .monochromator c (.name cs!"Zn(002)")).1.d = c.d ∧
    ¬ Consistent .monochromator (setTau .monochromator c (.name cs!"Zn(002)")).1 := by
  have he : getTau .monochromator (.name cs!"Zn(002)") = .error .monochromatorError :=
    (C53_unknown (by decide +kernel)).1
  have hs : spacing .monochromator (.name cs!"Zn(002)") = .error (.tau .monochromatorError) := by
    unfold spacing
    rw [he]
  refine ⟨⟨.num 2, 2 * π / 2⟩, ?_, ?_, ?_, ?_⟩
  · unfold create spacing
    simp only [getTau]
    rw [if_neg (by norm_num)]
    rfl
  · simp only [setTau, hs]
  · simp only [setTau, hs]
  · rintro ⟨t, h, -⟩
    simp only [setTau, hs] at h
    rw [he] at h
    exact nomatch h

/-! ## C72 -/

/-- Every keyword that was given is readable under its name. -/
def Honoured {κ α : Type} (args attrs : Attrs κ α) : Prop := ∀ k v, args k = some v → attrs k = some v

/-- **C72** (partial: holds for `Monochromator`) what was given is readable, and nothing else exists but
the direction. -/
theorem C72_monochromator_partial {α : Type} (dflt : α) (args : Attrs Kw α)
    (h : args .horifoc = none ∧ args .thickness = none ∧ args .Q = none) :
    Honoured args (monochromator dflt args) ∧
      ∀ k, args k = none → k ≠ .direct → monochromator dflt args k = none := by
  obtain ⟨h1, h2, h3⟩ := h
  constructor
  · intro k v hk
    cases k <;> simp_all [monochromator]
  · intro k hk hd
    cases k <;> simp_all [monochromator]

/-- **C72** (partial: holds for `Sample` except `shape`). -/
theorem C72_sample_partial {α : Type} (dflt : α) (args : Attrs SKw α) :
    ∀ k v, k ≠ .shape → args k = some v → sample dflt args k = some v := by
  intro k v hs hk
  cases k <;> simp_all [sample]

/-- **C72** is false for `Sample`: a shape that was given cannot be read. -/
theorem C72_sample_shape {α : Type} (dflt : α) (args : Attrs SKw α) : sample dflt args .shape = none := rfl

/-- **C72** (partial: holds for four keywords and the required arguments of `Analyzer`). -/
theorem C72_analyzer_partial {α : Type} (d1 d2 : α) (args : Attrs Kw α) :
    ∀ k v, k ∈ [Kw.tau, .mosaic, .thickness, .Q, .horifoc] → args k = some v → analyzer d1 d2 args k = some v := by
  intro k v hk ha
  cases k <;> simp_all [analyzer, monochromator]

/-- **C72** is false for `Analyzer`: vertical mosaic, dimensions and curvatures are dropped and the
direction is always the default. -/
theorem C72_analyzer_drops {α : Type} (d1 d2 : α) (args : Attrs Kw α) :
    (∀ k ∈ [Kw.vmosaic, .height, .width, .depth, .rh, .rv], analyzer d1 d2 args k = none) ∧
    analyzer d1 d2 args .direct = some d1 := by
  constructor
  · intro k hk
    simp only [List.mem_cons, List.not_mem_nil, or_false] at hk
    rcases hk with rfl | rfl | rfl | rfl | rfl | rfl <;> rfl
  · rfl

/-- **C72** is false for `Material`: each of five keys is stored under another name. -/
theorem C72_material_permuted {α : Type} (dflt : α) (c : Attrs SKw α) {m vm u v d : α}
    (hm : c .mosaic = some m) (hvm : c .vmosaic = some vm) (hu : c .u = some u) (hv : c .v = some v)
    (hd : c .direct = some d) :
    material dflt c .u = some m ∧ material dflt c .v = some vm ∧ material dflt c .mosaic = some d ∧
      material dflt c .vmosaic = some u ∧ material dflt c .direct = some v := by
  simp [material, hm, hvm, hu, hv, hd]

/-- **C72** a material without orientation and mosaic has the mosaic one, and no direction. -/
theorem C72_material_default {α : Type} (dflt : α) (c : Attrs SKw α) (hd : c .direct = none) (hv : c .v = none) :
    material dflt c .mosaic = some dflt ∧ material dflt c .direct = none := by
  simp [material, hd, hv]

/-! ## C92 -/

/-- **C92** a value given for `tau` is used; an unknown kind of chopper and a Fermi chopper without depth are
errors. -/
theorem C92_cases (c : Chopper) :
    (∀ t, c.tauOverride = some t → c.tau = .ok t) ∧
    (c.tauOverride = none → c.kind ≠ cs!"disk" → c.kind ≠ cs!"fermi" → c.tau = .error .chopperError) ∧
    (c.tauOverride = none → c.kind = cs!"fermi" → c.depth = none → c.tau = .error .chopperError) := by
  refine ⟨fun t h => ?_, fun h h1 h2 => ?_, fun h h1 h2 => ?_⟩
  · simp only [Chopper.tau, h]
  · simp only [Chopper.tau, h, if_neg h1, if_neg h2]
  · have h3 : c.kind ≠ cs!"disk" := by rw [h1]; decide
    simp only [Chopper.tau, h, if_neg h3, if_pos h1, h2]

/-- **C92** the resolution is inversely proportional to the speed, for all kinds of choppers. -/
theorem C92_speed {c : Chopper} (h : c.tauOverride = none) {k t : ℝ} (hk : k ≠ 0) (ht : c.tau = .ok t) :
    Chopper.tau { c with speed := k * c.speed } = .ok (t / k) := by
  have scale : ∀ {x y q : ℝ}, pyDiv x y = .ok q → pyDiv x (k * y) = .ok (q / k) := by
    intro x y q hq
    unfold pyDiv at hq ⊢
    split_ifs at hq with hy
    rw [if_neg (mul_ne_zero hk hy), ← Except.ok.inj hq, div_div, mul_comm y k]
  have fin : ∀ {x y z : ℝ}, (do return (← pyDiv x y) / z : Except ChopErr ℝ) = .ok t →
      (do return (← pyDiv x (k * y)) / z : Except ChopErr ℝ) = .ok (t / k) := by
    intro x y z hq
    cases hp : pyDiv x y with
    | error e => rw [hp] at hq; exact nomatch hq
    | ok q =>
      rw [hp, ok_bind, pure_ok] at hq
      rw [scale hp, ok_bind, pure_ok, ← Except.ok.inj hq, div_right_comm]
  unfold Chopper.tau at ht ⊢
  simp only [h] at ht ⊢
  generalize (if c.counterRot = true then (2 : ℝ) else 1) = n at ht ⊢
  by_cases h1 : c.kind = cs!"disk"
  · simp only [if_pos h1] at ht ⊢
    cases hr : c.radius with
    | some r =>
      simp only [hr] at ht ⊢
      rw [show r * (k * c.speed) * n = k * (r * c.speed * n) by ring]
      exact fin ht
    | none =>
      simp only [hr] at ht ⊢
      rw [show k * c.speed * c.acceptance * n = k * (c.speed * c.acceptance * n) by ring]
      exact fin ht
  · simp only [if_neg h1] at ht ⊢
    by_cases h2 : c.kind = cs!"fermi"
    · simp only [if_pos h2] at ht ⊢
      cases hd : c.depth with
      | none => simp only [hd] at ht; exact nomatch ht
      | some d =>
        simp only [hd] at ht ⊢
        cases hq : pyDiv c.acceptance d with
        | error e => rw [hq] at ht; exact nomatch ht
        | ok q =>
          rw [hq, ok_bind] at ht
          rw [ok_bind, show k * c.speed * 2 * arctan q = k * (c.speed * 2 * arctan q) by ring]
          exact fin ht
    · simp only [if_neg h2] at ht
      exact nomatch ht

/-- **C92** (partial: disk choppers with a radius) a wider opening never improves the resolution. Missing: the
other choppers, see `C92_opening_inverted`. -/
theorem C92_opening_partial {c : Chopper} (h : c.tauOverride = none) (hk : c.kind = cs!"disk") {r a' t t' : ℝ}
    (hr : c.radius = some r) (hpos : 0 < r) (hs : 0 < c.speed) (ha : c.acceptance ≤ a') (ht : c.tau = .ok t)
    (ht' : Chopper.tau { c with acceptance := a' } = .ok t') : t ≤ t' := by
  have hx : 0 < r * c.speed * (if c.counterRot = true then (2 : ℝ) else 1) := by
    split_ifs <;> positivity
  simp only [Chopper.tau, h, if_pos hk, hr, pyDiv, if_neg hx.ne', ok_bind, pure_ok] at ht ht'
  rw [← Except.ok.inj ht, ← Except.ok.inj ht']
  gcongr

/-- **C92** is false for the other choppers: opening a disk chopper without radius, or a Fermi chopper, wider
always makes the computed time shorter. -/
theorem C92_opening_inverted {c : Chopper} (h : c.tauOverride = none) (hs : 0 < c.speed) (ha : 0 < c.acceptance)
    {a' : ℝ} (haa : c.acceptance < a')
    (hkind : (c.kind = cs!"disk" ∧ c.radius = none) ∨ (c.kind = cs!"fermi" ∧ ∃ d, 0 < d ∧ c.depth = some d)) :
    ∃ t t', c.tau = .ok t ∧ Chopper.tau { c with acceptance := a' } = .ok t' ∧ t' < t := by
  have ha' : 0 < a' := ha.trans haa
  rcases hkind with ⟨h1, h2⟩ | ⟨h1, d, hd, h2⟩
  · have hc : 0 < (if c.counterRot = true then (2 : ℝ) else 1) := by split_ifs <;> norm_num
    have e1 : c.speed * c.acceptance * (if c.counterRot = true then (2 : ℝ) else 1) ≠ 0 := by positivity
    have e2 : c.speed * a' * (if c.counterRot = true then (2 : ℝ) else 1) ≠ 0 := by positivity
    refine ⟨10 ^ 6 / (c.speed * c.acceptance * (if c.counterRot = true then (2 : ℝ) else 1)) / 360,
      10 ^ 6 / (c.speed * a' * (if c.counterRot = true then (2 : ℝ) else 1)) / 360,
      by simp only [Chopper.tau, h, if_pos h1, h2, pyDiv, if_neg e1, ok_bind, pure_ok],
      by simp only [Chopper.tau, h, if_pos h1, h2, pyDiv, if_neg e2, ok_bind, pure_ok], ?_⟩
    gcongr
  · have h3 : c.kind ≠ cs!"disk" := by rw [h1]; decide
    have p1 : 0 < arctan (c.acceptance / d) := arctan_pos.2 (by positivity)
    have p2 : arctan (c.acceptance / d) < arctan (a' / d) := arctan_strictMono (by gcongr)
    have e1 : c.speed * 2 * arctan (c.acceptance / d) ≠ 0 := by positivity
    have e2 : c.speed * 2 * arctan (a' / d) ≠ 0 := by
      have := p1.trans p2
      positivity
    refine ⟨10 ^ 6 / (c.speed * 2 * arctan (c.acceptance / d)) / 360, 10 ^ 6 / (c.speed * 2 * arctan (a' / d)) / 360,
      by simp only [Chopper.tau, h, if_neg h3, if_pos h1, h2, pyDiv, if_neg hd.ne', if_neg e1, ok_bind, pure_ok],
      by simp only [Chopper.tau, h, if_neg h3, if_pos h1, h2, pyDiv, if_neg hd.ne', if_neg e2, ok_bind, pure_ok], ?_⟩
    gcongr

/-- **C92** the representation of a chopper always fails. -/
theorem C92_repr_fails (c : Chopper) : ∃ e, c.repr = .error e := by
  unfold Chopper.repr
  split_ifs
  · exact ⟨_, rfl⟩
  · split
    · exact ⟨_, rfl⟩
    · exact ⟨_, rfl⟩

/-! ## C93 -/

/-- Rotation matrices. -/
def IsRotation (A : Matrix (Fin 3) (Fin 3) ℝ) : Prop := Aᵀ * A = 1 ∧ A.det = 1

/-- **C93** (partial) the matrices of the two tilts are rotations, for all angles. Missing: the rotation about
the vertical axis and the product, which never return (`C93_recursion`). -/
theorem C93_tilts_partial (g : Goniometer) : IsRotation g.N ∧ IsRotation g.M := by
  have h1 := sin_sq_add_cos_sq (Goniometer.rad g.sgu)
  have h2 := sin_sq_add_cos_sq (Goniometer.rad g.sgl)
  rw [sq, sq] at h1 h2
  refine ⟨⟨?_, ?_⟩, ⟨?_, ?_⟩⟩
  · ext i j
    fin_cases i <;> fin_cases j <;> simp [Goniometer.N, Matrix.mul_apply, Fin.sum_univ_three] <;> linarith
  · simp [Goniometer.N, det_fin_three]
    linear_combination h1
  · ext i j
    fin_cases i <;> fin_cases j <;> simp [Goniometer.M, Matrix.mul_apply, Fin.sum_univ_three] <;> linarith
  · simp [Goniometer.M, det_fin_three]
    linear_combination h2

/-- Rotation of `v` about the unit vector `k` by `t`, counter-clockwise seen from the tip of `k`
(Rodrigues' formula). -/
noncomputable def rotateAbout (k : Fin 3 → ℝ) (t : ℝ) (v : Fin 3 → ℝ) : Fin 3 → ℝ :=
  cos t • v + sin t • crossProduct k v + ((1 - cos t) * (k ⬝ᵥ v)) • k

/-- **C93** the tilts turn counter-clockwise, by the stored angles in degrees, about the first and the second
axis. -/
theorem C93_sense (g : Goniometer) (v : Fin 3 → ℝ) :
    g.N *ᵥ v = rotateAbout ![1, 0, 0] (g.sgu * π / 180) v ∧ g.M *ᵥ v = rotateAbout ![0, 1, 0] (g.sgl * π / 180) v := by
  constructor <;>
  · ext i
    fin_cases i <;>
      simp [Goniometer.N, Goniometer.M, Goniometer.rad, rotateAbout, cross_apply, Matrix.mulVec, dotProduct,
        Fin.sum_univ_three, Matrix.vecHead, Matrix.vecTail, Pi.smul_apply] <;> ring

/-- **C93** is false for the rotation about the vertical axis and for the whole rotation: reading them never
returns, whatever the recursion limit. -/
theorem C93_recursion (g : Goniometer) (fuel : ℕ) :
    Goniometer.Omega fuel = .error .recursionError ∧ g.R fuel = .error .recursionError := by
  have h : Goniometer.omegaRad fuel = .error .recursionError := by
    induction fuel with
    | zero => rfl
    | succ n ih => exact ih
  have h2 : Goniometer.Omega fuel = .error .recursionError := by
    unfold Goniometer.Omega
    rw [h]
    rfl
  refine ⟨h2, ?_⟩
  unfold Goniometer.R
  rw [h2]
  rfl

theorem dotProduct_self_eq_zero_iff {w : Fin 3 → ℝ} (h : w ⬝ᵥ w = 0) : w = 0 := by
  simp only [dotProduct, Fin.sum_univ_three] at h
  have h0 := mul_self_nonneg (w 0)
  have h1 := mul_self_nonneg (w 1)
  have h2 := mul_self_nonneg (w 2)
  ext i
  fin_cases i
  · exact (mul_self_eq_zero.1 (by linarith) : w 0 = 0)
  · exact (mul_self_eq_zero.1 (by linarith) : w 1 = 0)
  · exact (mul_self_eq_zero.1 (by linarith) : w 2 = 0)

/-- **C93** the orientation matrix exists exactly if the two reflections are not parallel, and it is the one
that maps the first reflection, the second, and their normal to the measured unit vectors. -/
theorem C93_orientation (g : Goniometer) :
    (crossProduct g.u g.v = 0 → g.U = .error .linAlgError) ∧
    (crossProduct g.u g.v ≠ 0 → ∃ U, g.U = .ok U ∧
      U *ᵥ g.u = Goniometer.uPhi (Goniometer.rad g.thetaU) (Goniometer.rad g.sgl) (Goniometer.rad g.sgu) ∧
      U *ᵥ g.v = Goniometer.uPhi (Goniometer.rad g.thetaV) (Goniometer.rad g.sgl) (Goniometer.rad g.sgu) ∧
      U *ᵥ crossProduct g.u g.v = ![0, 0, 1]) := by
  have hdet : g.Tc.det = crossProduct g.u g.v ⬝ᵥ crossProduct g.u g.v := by
    rw [Goniometer.Tc, det_transpose, det_fin_three, cross_apply]
    simp [dotProduct, Fin.sum_univ_three]
    ring
  constructor
  · intro h
    unfold Goniometer.U
    rw [if_pos (by rw [hdet, h]; simp)]
  · intro h
    have hd : g.Tc.det ≠ 0 := by
      rw [hdet]
      intro hc
      exact h (dotProduct_self_eq_zero_iff hc)
    refine ⟨_, if_neg hd, ?_⟩
    have hcol : ∀ (A : Fin 3 → Fin 3 → ℝ) (k : Fin 3), (Matrix.of A)ᵀ *ᵥ Pi.single k 1 = A k := by
      intro A k
      ext i
      simp
    have key : ∀ k : Fin 3, (g.Tphi * (g.Tc)⁻¹) *ᵥ ((g.Tc) *ᵥ Pi.single k 1) = g.Tphi *ᵥ Pi.single k 1 := by
      intro k
      rw [mulVec_mulVec, Matrix.mul_assoc, nonsing_inv_mul _ hd.isUnit, Matrix.mul_one]
    have k0 := key 0
    have k1 := key 1
    have k2 := key 2
    unfold Goniometer.Tphi at k0 k1 k2 ⊢
    simp only [Goniometer.Tc, hcol] at k0 k1 k2 ⊢
    refine ⟨k0, k1, k2.trans ?_⟩
    have e1 : Goniometer.rad 90 = π / 2 := by unfold Goniometer.rad; ring
    have e2 : Goniometer.rad 0 = 0 := by unfold Goniometer.rad; ring
    ext i
    fin_cases i <;> simp [Goniometer.uPhi, e1, e2]

/-- **C93** the vectors that reflections are mapped to have length one. -/
theorem C93_unit (omega chi phi : ℝ) : Goniometer.uPhi omega chi phi ⬝ᵥ Goniometer.uPhi omega chi phi = 1 := by
  simp only [Goniometer.uPhi, dotProduct, Fin.sum_univ_three, cons_val_zero, cons_val_one, cons_val]
  have h1 := sin_sq_add_cos_sq omega
  have h2 := sin_sq_add_cos_sq chi
  have h3 := sin_sq_add_cos_sq phi
  linear_combination (cos omega ^ 2 * cos chi ^ 2 + sin omega ^ 2) * h3 + cos omega ^ 2 * h2 + h1

example : crossProduct (![1, 0, 0] : Fin 3 → ℝ) ![0, 1, 0] ≠ 0 := by
  intro h
  have := congrFun h 2
  simp [cross_apply] at this

end Verif.Instrument
