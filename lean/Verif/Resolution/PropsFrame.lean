import Verif.Resolution.PropsState
import Verif.Tools.PropsWidths

/-! # Property theorems: the matrix in the frame of the crystal (C95) -/

namespace Verif.Resolution

open Real Matrix
open Verif.Crystal (Fail Vec Mat npDiv Lattice getLattice standardSystem modvec scalar Valid Realises Dual vecOf len Indep)
open Verif.Tools (quad SPD)

/-- The direction of the scattering vector `hkl`. -/
noncomputable def direction (F : Mat) (hkl : Vec) : Vec := (len (vecOf F hkl))⁻¹ • vecOf F hkl

theorem frame_ok {s : Setup} (h : Valid s.lattice) {E F : Mat} (hE : Realises s.lattice E) (hF : Dual E F) {x y z : Vec}
    (hs : standardSystem s.lattice s.u s.v = .ok (x, y, z)) {hkl : Vec} (hne : hkl ≠ 0) :
    frame s hkl = .ok (len (vecOf F hkl), vecOf F x ⬝ᵥ direction F hkl, vecOf F y ⬝ᵥ direction F hkl) := by
  obtain ⟨lat, rl, hlat, hsc, _, hmod, _⟩ := Verif.Crystal.C46_scalar h hE hF
  have hp := Verif.Crystal.len_pos h hE hF hne
  unfold frame
  rw [hs, ok_bind]
  dsimp only
  rw [hlat, ok_bind]
  dsimp only
  rw [hmod, ok_bind, if_neg hp.ne', hsc, hsc, Verif.Crystal.vecOf_smul]
  rfl

/-- A vector in the plane of the orientation vectors. -/
def InPlane (s : Setup) (hkl : Vec) : Prop := ∃ a b : ℝ, hkl = a • s.u + b • s.v

/-- An in-plane direction is the combination of the first two axes with its own components. -/
theorem direction_inPlane {s : Setup} {F : Mat} {x y : Vec}
    (xx : vecOf F x ⬝ᵥ vecOf F x = 1) (yy : vecOf F y ⬝ᵥ vecOf F y = 1) (xy : vecOf F x ⬝ᵥ vecOf F y = 0)
    (hu : ∃ r : ℝ, 0 < r ∧ s.u = r • x) (hv : ∃ r t : ℝ, 0 < t ∧ s.v = r • x + t • y) {hkl : Vec} (hp : InPlane s hkl) :
    direction F hkl = (vecOf F x ⬝ᵥ direction F hkl) • vecOf F x + (vecOf F y ⬝ᵥ direction F hkl) • vecOf F y := by
  obtain ⟨r, -, hu⟩ := hu
  obtain ⟨r', t, -, hv⟩ := hv
  obtain ⟨a, b, hp⟩ := hp
  have add (p q : Vec) : vecOf F (p + q) = vecOf F p + vecOf F q := by
    simp only [vecOf, Pi.add_apply, add_smul]; abel
  have e : ∃ c d : ℝ, direction F hkl = c • vecOf F x + d • vecOf F y := by
    refine ⟨(len (vecOf F hkl))⁻¹ * (a * r + b * r'), (len (vecOf F hkl))⁻¹ * (b * t), ?_⟩
    unfold direction
    generalize (len (vecOf F hkl))⁻¹ = L
    rw [hp, hu, hv]
    simp only [add, Verif.Crystal.vecOf_smul]
    ext i
    simp only [Pi.smul_apply, Pi.add_apply, smul_eq_mul]
    ring
  obtain ⟨c, d, e⟩ := e
  rw [e]
  simp only [dotProduct_add, dotProduct_smul, xx, yy, xy, dotProduct_comm (vecOf F y) (vecOf F x), smul_eq_mul, mul_one, mul_zero,
    add_zero, zero_add]

theorem direction_unit {s : Setup} (h : Valid s.lattice) {E F : Mat} (hE : Realises s.lattice E) (hF : Dual E F) {hkl : Vec}
    (hne : hkl ≠ 0) : direction F hkl ⬝ᵥ direction F hkl = 1 := by
  have := Verif.Crystal.unit_form (Verif.Crystal.len_pos h hE hF hne)
  rwa [Verif.Crystal.vecOf_smul] at this

theorem quad_tmat (xq yq : ℝ) (M : M4) (c : Fin 4 → ℝ) :
    quad ((tmat xq yq)ᵀ * M * tmat xq yq) c = quad M ![xq * c 0 + yq * c 1, -yq * c 0 + xq * c 1, c 2, c 3] := by
  have e : (tmat xq yq) *ᵥ c = ![xq * c 0 + yq * c 1, -yq * c 0 + xq * c 1, c 2, c 3] := by
    ext i
    fin_cases i <;> simp [tmat, Matrix.mulVec, dotProduct, Fin.sum_univ_four]
  rw [Verif.Tools.quad_congr, e]

/-- A query for one point. -/
def one (h k l w : ℝ) : Query := ⟨[h], [k], [l], [w]⟩

theorem one_len (h k l w : ℝ) : (one h k l w).Len 1 := ⟨rfl, rfl, rfl, rfl⟩

theorem fresh_one {s : Setup} (hs : s.settings.sample.shape = none) {h k l w : ℝ} {f : ℝ × ℝ × ℝ}
    (hf : frame s ![h, k, l] = .ok f) :
    fresh s (one h k l w) = (calcInQ s.settings [(f.1, w)]).map (List.zipWith toCrystal [f]) := by
  rw [fresh_eq s (one_len h k l w)]
  have e : { s.settings with sample.shape := none } = s.settings := by
    conv_rhs => rw [show s.settings = { s.settings with sample.shape := s.settings.sample.shape } from rfl, hs]
  have e1 : (hkls [h] [k] [l]).mapM (frame s) = .ok [f] := by
    simp only [hkls, List.mapM_cons, List.mapM_nil, hf, ok_bind]
    rfl
  unfold compute
  simp only [new, one, e1, hs, turnSample, List.map_cons, List.map_nil, List.zip_cons_cons, List.zip_nil_right]
  rw [show ({ s.settings with sample := { s.settings.sample with shape := none } } : Settings) = s.settings from e]
  cases calcInQ s.settings [(f.1, w)] with
  | error _ => rfl
  | ok rs => rfl

/-- An orthonormal frame. -/
structure Frame (ex ey ez : Vec) : Prop where
  xx : ex ⬝ᵥ ex = 1
  yy : ey ⬝ᵥ ey = 1
  zz : ez ⬝ᵥ ez = 1
  xy : ex ⬝ᵥ ey = 0
  xz : ex ⬝ᵥ ez = 0
  yz : ey ⬝ᵥ ez = 0

theorem Frame.expand {ex ey ez : Vec} (h : Frame ex ey ez) (v : Vec) :
    v = (ex ⬝ᵥ v) • ex + (ey ⬝ᵥ v) • ey + (ez ⬝ᵥ v) • ez := by
  have e : Matrix.of ![ex, ey, ez] * (Matrix.of ![ex, ey, ez])ᵀ = 1 := by
    have yx : ey ⬝ᵥ ex = 0 := by rw [dotProduct_comm, h.xy]
    have zx : ez ⬝ᵥ ex = 0 := by rw [dotProduct_comm, h.xz]
    have zy : ez ⬝ᵥ ey = 0 := by rw [dotProduct_comm, h.yz]
    ext i j
    have hij : (Matrix.of ![ex, ey, ez] * (Matrix.of ![ex, ey, ez])ᵀ) i j = (![ex, ey, ez] i) ⬝ᵥ (![ex, ey, ez] j) := rfl
    rw [hij]
    fin_cases i <;> fin_cases j <;> simp [h.xx, h.yy, h.zz, h.xy, h.xz, h.yz, yx, zx, zy]
  have e' := mul_eq_one_comm.1 e
  have e2 : (Matrix.of ![ex, ey, ez])ᵀ *ᵥ (Matrix.of ![ex, ey, ez] *ᵥ v) = v := by
    rw [Matrix.mulVec_mulVec, e', Matrix.one_mulVec]
  conv_lhs => rw [← e2]
  ext i
  simp [Matrix.mulVec, dotProduct, Fin.sum_univ_three]
  ring

theorem Frame.norm {ex ey ez : Vec} (h : Frame ex ey ez) (v : Vec) :
    v ⬝ᵥ v = (ex ⬝ᵥ v) ^ 2 + (ey ⬝ᵥ v) ^ 2 + (ez ⬝ᵥ v) ^ 2 := by
  have e := congrArg (v ⬝ᵥ ·) (h.expand v)
  simp only [dotProduct_add, dotProduct_smul, smul_eq_mul, dotProduct_comm v ex, dotProduct_comm v ey, dotProduct_comm v ez] at e
  linear_combination e

/-- What is asked of the sample: a valid cell, real vectors for it and independent orientation vectors. -/
structure Setup.Valid (s : Setup) (E F : Mat) : Prop where
  cell : Verif.Crystal.Valid s.lattice
  real : Realises s.lattice E
  dual : Dual E F
  indep : Indep s.u s.v
  noShape : s.settings.sample.shape = none

theorem axes {s : Setup} {E F : Mat} (h : s.Valid E F) : ∃ x y z, standardSystem s.lattice s.u s.v = .ok (x, y, z) ∧
    Frame (vecOf F x) (vecOf F y) (vecOf F z) ∧ (∃ r : ℝ, 0 < r ∧ s.u = r • x) ∧ ∃ r t : ℝ, 0 < t ∧ s.v = r • x + t • y := by
  obtain ⟨x, y, z, h1, xx, yy, zz, xy, xz, yz, hu, hv⟩ := Verif.Crystal.C64_standard_system h.cell h.real h.dual h.indep
  exact ⟨x, y, z, h1, ⟨xx, yy, zz, xy, xz, yz⟩, hu, hv⟩

/-- The result at one point. -/
theorem fresh_point {s : Setup} {E F : Mat} (h : s.Valid E F) (hS : s.settings.Valid 1) {x y z : Vec}
    (hs : standardSystem s.lattice s.u s.v = .ok (x, y, z)) {a b c w : ℝ} (hne : ![a, b, c] ≠ (0 : Vec))
    (hr : Reaches s.settings (len (vecOf F ![a, b, c])) w) : ∃ r, fresh s (one a b c w) = .ok [r] ∧ SPD r.rm ∧ 0 < r.r0 ∧
      r.rms = (tmat (vecOf F x ⬝ᵥ direction F ![a, b, c]) (vecOf F y ⬝ᵥ direction F ![a, b, c]))ᵀ * r.rm *
        tmat (vecOf F x ⬝ᵥ direction F ![a, b, c]) (vecOf F y ⬝ᵥ direction F ![a, b, c]) := by
  have hf := frame_ok h.cell h.real h.dual hs hne
  rw [fresh_one h.noShape hf]
  obtain ⟨rs, h1, h2, h3⟩ := C61_spd s.settings [(len (vecOf F ![a, b, c]), w)] hS (by
    intro p hp
    rw [List.mem_singleton.1 hp]
    exact hr)
  obtain ⟨r, rfl⟩ := List.length_eq_one_iff.1 h2
  rw [h1]
  exact ⟨_, rfl, (h3 r (by simp)).1, (h3 r (by simp)).2, rfl⟩

/-- C95 (partial).  At a point in the scattering plane the matrix in the frame of the crystal describes the
same ellipsoid as the matrix in the frame of Q: for a deviation `d` of the wavevector and `e` of the energy, the
quadratic form of the components of `d` along the axes of the crystal frame equals the form of its components along Q,
across Q in the plane, and along the normal.  It is symmetric and positive definite.  Missing: points outside
the plane (`C95_volume`, `C95_normal_false`). -/
theorem C95_crystal_frame_partial {s : Setup} {E F : Mat} (h : s.Valid E F) (hS : s.settings.Valid 1) {a b c w : ℝ}
    (hne : ![a, b, c] ≠ (0 : Vec)) (hr : Reaches s.settings (len (vecOf F ![a, b, c])) w) (hp : InPlane s ![a, b, c]) :
    ∃ r x y z across, fresh s (one a b c w) = .ok [r] ∧ standardSystem s.lattice s.u s.v = .ok (x, y, z) ∧
      Frame (direction F ![a, b, c]) across (vecOf F z) ∧ SPD r.rms ∧ ∀ (d : Vec) (e : ℝ),
        quad r.rms ![vecOf F x ⬝ᵥ d, vecOf F y ⬝ᵥ d, vecOf F z ⬝ᵥ d, e] =
          quad r.rm ![direction F ![a, b, c] ⬝ᵥ d, across ⬝ᵥ d, vecOf F z ⬝ᵥ d, e] := by
  obtain ⟨x, y, z, hs, hfr, hu, hv⟩ := axes h
  obtain ⟨r, h1, h2, -, h3⟩ := fresh_point h hS hs hne hr
  have hd := direction_inPlane hfr.xx hfr.yy hfr.xy hu hv hp
  have hn := direction_unit h.cell h.real h.dual hne
  generalize direction F ![a, b, c] = D at *
  generalize vecOf F x ⬝ᵥ D = xq at *
  generalize vecOf F y ⬝ᵥ D = yq at *
  have hxy : xq ^ 2 + yq ^ 2 = 1 := by
    rw [hd] at hn
    simp only [add_dotProduct, dotProduct_add, smul_dotProduct, dotProduct_smul, smul_eq_mul, hfr.xx, hfr.yy, hfr.xy,
      dotProduct_comm (vecOf F y) (vecOf F x)] at hn
    linear_combination hn
  refine ⟨r, x, y, z, (-yq) • vecOf F x + xq • vecOf F y, h1, hs, ?_, ?_, ?_⟩
  · refine ⟨hn, ?_, hfr.zz, ?_, ?_, ?_⟩
    · simp only [add_dotProduct, dotProduct_add, smul_dotProduct, dotProduct_smul, smul_eq_mul, hfr.xx, hfr.yy, hfr.xy,
        dotProduct_comm (vecOf F y) (vecOf F x)]
      linear_combination hxy
    · rw [hd]
      simp only [add_dotProduct, dotProduct_add, smul_dotProduct, dotProduct_smul, smul_eq_mul, hfr.xx, hfr.yy, hfr.xy,
        dotProduct_comm (vecOf F y) (vecOf F x)]
      ring
    · rw [hd]
      simp only [add_dotProduct, smul_dotProduct, smul_eq_mul, hfr.xz, hfr.yz]
      ring
    · simp only [add_dotProduct, smul_dotProduct, smul_eq_mul, hfr.xz, hfr.yz]
      ring
  · have hdet : ∀ v : Fin 4 → ℝ, v ᵥ* (tmat xq yq)ᵀ = 0 → v = 0 := by
      intro v hv
      have e0 := congrFun hv 0
      have e1 := congrFun hv 1
      have e2 := congrFun hv 2
      have e3 := congrFun hv 3
      simp [tmat, Matrix.vecMul, dotProduct, Fin.sum_univ_four] at e0 e1 e2 e3
      funext i
      fin_cases i
      · change v 0 = 0
        linear_combination xq * e0 - yq * e1 - v 0 * hxy
      · change v 1 = 0
        linear_combination yq * e0 + xq * e1 - v 1 * hxy
      · exact e2
      · exact e3
    rw [← posDef_iff_spd] at h2 ⊢
    rw [h3]
    have := congr_posDef h2 (tmat xq yq)ᵀ hdet
    rwa [transpose_transpose] at this
  · intro d e
    rw [h3, quad_tmat]
    congr 1
    conv_rhs => rw [hd]
    simp only [add_dotProduct, smul_dotProduct, smul_eq_mul]
    funext i
    fin_cases i <;> simp

theorem det_tmat (xq yq : ℝ) : (tmat xq yq).det = xq ^ 2 + yq ^ 2 := by
  simp [tmat, Matrix.det_succ_row_zero, Fin.sum_univ_succ, Fin.succAbove]
  ring

theorem inPlane_iff {s : Setup} {E F : Mat} (h : s.Valid E F) {x y z : Vec} (hfr : Frame (vecOf F x) (vecOf F y) (vecOf F z))
    (hu : ∃ r : ℝ, 0 < r ∧ s.u = r • x) (hv : ∃ r t : ℝ, 0 < t ∧ s.v = r • x + t • y) {hkl : Vec} (hne : hkl ≠ 0) :
    InPlane s hkl ↔ vecOf F z ⬝ᵥ direction F hkl = 0 := by
  constructor
  · intro hp
    rw [direction_inPlane hfr.xx hfr.yy hfr.xy hu hv hp, dotProduct_comm]
    simp only [add_dotProduct, smul_dotProduct, hfr.xz, hfr.yz, smul_eq_mul, mul_zero, add_zero]
  · intro hz
    obtain ⟨r, hr, hu⟩ := hu
    obtain ⟨r', t, ht, hv⟩ := hv
    have e := hfr.expand (direction F hkl)
    rw [hz, zero_smul, add_zero] at e
    have hp := Verif.Crystal.len_pos h.cell h.real h.dual hne
    set L := len (vecOf F hkl)
    set xq := vecOf F x ⬝ᵥ direction F hkl
    set yq := vecOf F y ⬝ᵥ direction F hkl
    have e2 : vecOf F (hkl - (L * xq) • x - (L * yq) • y) = 0 := by
      rw [Verif.Crystal.vecOf_sub, Verif.Crystal.vecOf_sub, Verif.Crystal.vecOf_smul, Verif.Crystal.vecOf_smul]
      have : vecOf F hkl = L • direction F hkl := by
        unfold direction
        rw [smul_smul, mul_inv_cancel₀ hp.ne', one_smul]
      rw [this, e, smul_add, smul_smul, smul_smul]
      abel
    have e3 : hkl - (L * xq) • x - (L * yq) • y = 0 := by
      by_contra hc
      have := Verif.Crystal.vecOf_ne_zero h.cell h.real h.dual hc
      rw [e2] at this
      simp at this
    have ex : x = r⁻¹ • s.u := by rw [hu, smul_smul, inv_mul_cancel₀ hr.ne', one_smul]
    have ey : y = t⁻¹ • (s.v - r' • x) := by
      rw [hv, add_sub_cancel_left, smul_smul, inv_mul_cancel₀ ht.ne', one_smul]
    refine ⟨L * xq * r⁻¹ - L * yq * t⁻¹ * r' * r⁻¹, L * yq * t⁻¹, ?_⟩
    have e4 : hkl = (L * xq) • x + (L * yq) • y := by
      rw [sub_sub] at e3
      exact sub_eq_zero.1 e3
    rw [e4, ey, ex]
    ext i
    simp only [Pi.add_apply, Pi.smul_apply, Pi.sub_apply, smul_eq_mul]
    ring

/-- C95, the volume.  The transformation to the crystal frame keeps the determinant, that is the volume of the
resolution ellipsoid, exactly for the points in the scattering plane. -/
theorem C95_volume {s : Setup} {E F : Mat} (h : s.Valid E F) (hS : s.settings.Valid 1) {a b c w : ℝ}
    (hne : ![a, b, c] ≠ (0 : Vec)) (hr : Reaches s.settings (len (vecOf F ![a, b, c])) w) :
    ∃ r, fresh s (one a b c w) = .ok [r] ∧ (r.rms.det = r.rm.det ↔ InPlane s ![a, b, c]) := by
  obtain ⟨x, y, z, hs, hfr, hu, hv⟩ := axes h
  obtain ⟨r, h1, h2, -, h3⟩ := fresh_point h hS hs hne hr
  refine ⟨r, h1, ?_⟩
  rw [inPlane_iff h hfr hu hv hne]
  have hn := direction_unit h.cell h.real h.dual hne
  rw [hfr.norm] at hn
  rw [h3, det_mul, det_mul, det_transpose, det_tmat]
  have hd := ((posDef_iff_spd _).2 h2).det_pos
  generalize direction F ![a, b, c] = D at *
  generalize vecOf F x ⬝ᵥ D = xq at *
  generalize vecOf F y ⬝ᵥ D = yq at *
  generalize vecOf F z ⬝ᵥ D = zq at *
  constructor
  · intro he
    have e1 : ((xq ^ 2 + yq ^ 2) ^ 2 - 1) * r.rm.det = 0 := by linear_combination he
    have e2 := (mul_eq_zero.1 e1).resolve_right hd.ne'
    have e3 : (xq ^ 2 + yq ^ 2 - 1) * (xq ^ 2 + yq ^ 2 + 1) = 0 := by linear_combination e2
    have e4 := (mul_eq_zero.1 e3).resolve_right (by positivity)
    have : zq ^ 2 = 0 := by linear_combination hn - e4
    exact pow_eq_zero_iff (two_ne_zero) |>.1 this
  · intro he
    rw [he] at hn
    have : xq ^ 2 + yq ^ 2 = 1 := by linear_combination hn
    rw [this]
    ring

/-- C95, outside the plane.  For a scattering vector along the normal of the plane the matrix in the crystal
frame is not positive definite: no deviation in the plane is resolved. -/
theorem C95_normal_false {s : Setup} {E F : Mat} (h : s.Valid E F) (hS : s.settings.Valid 1) {a b c w : ℝ}
    (hne : ![a, b, c] ≠ (0 : Vec)) (hr : Reaches s.settings (len (vecOf F ![a, b, c])) w)
    (hu : vecOf F s.u ⬝ᵥ vecOf F ![a, b, c] = 0) (hv : vecOf F s.v ⬝ᵥ vecOf F ![a, b, c] = 0) :
    ∃ r, fresh s (one a b c w) = .ok [r] ∧ ∀ p q : ℝ, quad r.rms ![p, q, 0, 0] = 0 := by
  obtain ⟨x, y, z, hs, hfr, ⟨t, ht, eu⟩, t', t'', ht'', ev⟩ := axes h
  obtain ⟨r, h1, h2, -, h3⟩ := fresh_point h hS hs hne hr
  refine ⟨r, h1, fun p q => ?_⟩
  have add (p q : Vec) : vecOf F (p + q) = vecOf F p + vecOf F q := by
    simp only [vecOf, Pi.add_apply, add_smul]; abel
  rw [eu, Verif.Crystal.vecOf_smul, smul_dotProduct, smul_eq_mul] at hu
  have hx := (mul_eq_zero.1 hu).resolve_left ht.ne'
  rw [ev, add, Verif.Crystal.vecOf_smul, Verif.Crystal.vecOf_smul, add_dotProduct, smul_dotProduct, smul_dotProduct, hx, smul_zero,
    zero_add, smul_eq_mul] at hv
  have hy := (mul_eq_zero.1 hv).resolve_left ht''.ne'
  have dx : vecOf F x ⬝ᵥ direction F ![a, b, c] = 0 := by
    unfold direction
    rw [dotProduct_smul, hx, smul_zero]
  have dy : vecOf F y ⬝ᵥ direction F ![a, b, c] = 0 := by
    unfold direction
    rw [dotProduct_smul, hy, smul_zero]
  rw [h3, dx, dy, quad_tmat]
  simp [quad, Fin.sum_univ_four]

/-- The default instrument with a cubic crystal of lattice constant `2π`, oriented with (1, 0, 0) and (0, 1, 0). -/
noncomputable def demoSetup : Setup := ⟨demo, ⟨2 * π, 2 * π, 2 * π, 90, 90, 90⟩, ![1, 0, 0], ![0, 1, 0]⟩

theorem demoSetup_valid : demoSetup.Valid ((2 * π) • 1) 1 where
  cell := by
    have := pi_pos
    constructor <;> simp only [demoSetup] <;> first | positivity | norm_num
  real := by
    have e : (90 : ℝ) * π / 180 = π / 2 := by ring
    constructor <;> simp [demoSetup, dotProduct, Fin.sum_univ_three, e, pow_two]
  dual := by
    intro i j
    fin_cases i <;> fin_cases j <;> simp [dotProduct, Matrix.one_apply]
  indep := by
    intro s t h
    have h0 := congrFun h 0
    have h1 := congrFun h 1
    simp [demoSetup] at h0 h1
    exact ⟨h0, h1⟩
  noShape := rfl

theorem demo_len (h k l : ℝ) : len (vecOf 1 ![h, k, l]) = √(h ^ 2 + k ^ 2 + l ^ 2) := by
  unfold len
  congr 1
  simp [vecOf, dotProduct, Fin.sum_univ_three, Matrix.one_apply]
  ring

/-- The hypotheses of the theorems on the crystal frame are met in the plane. -/
example : ∃ r, fresh demoSetup (one (3 / 5) (4 / 5) 0 1) = .ok [r] ∧ r.rms.det = r.rm.det := by
  have e : len (vecOf 1 ![3 / 5, 4 / 5, 0]) = 1 := by
    rw [demo_len]
    norm_num
  obtain ⟨r, h1, h2⟩ := C95_volume (w := 1) demoSetup_valid (demo_valid 1) (a := 3 / 5) (b := 4 / 5) (c := 0)
    (fun h => by have := congrFun h 0; norm_num at this)
    (by rw [e]; exact demo_reaches (by norm_num) (by norm_num) (by norm_num) (by norm_num))
  refine ⟨r, h1, h2.2 ⟨3 / 5, 4 / 5, ?_⟩⟩
  funext i
  fin_cases i <;> simp [demoSetup]

/-- And along its normal. -/
example : ∃ r, fresh demoSetup (one 0 0 1 0) = .ok [r] ∧ ∀ p q : ℝ, quad r.rms ![p, q, 0, 0] = 0 := by
  have e : len (vecOf 1 ![0, 0, 1]) = 1 := by
    rw [demo_len]
    norm_num
  refine C95_normal_false (w := 0) demoSetup_valid (demo_valid 1) (fun h => by have := congrFun h 2; simp at this)
    (by rw [e]; exact demo_reaches (by norm_num) (by norm_num) (by norm_num) (by norm_num)) ?_ ?_
  · simp [vecOf, demoSetup, dotProduct, Matrix.one_apply]
  · simp [vecOf, demoSetup, dotProduct, Matrix.one_apply]

end Verif.Resolution
