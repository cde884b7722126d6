import Verif.Resolution.PropsView
import Verif.Resolution.PropsScale
import Verif.Resolution.PropsForms

/-!
# Property C132: the parameters returned by `get_resolution_params`
-/

namespace Verif.Resolution

open Real Matrix
open Verif.Crystal (Fail Vec Mat vecOf len standardSystem npDiv npSqrt)
open Verif.Tools (Arg SPD quad projectIntoPlane)

/-- The answer consists of the parameters of the Gaussian `f`. -/
def Gives (a : Except ViewErr (Option (ℝ × ℝ × ℝ × ℝ))) (f : ℝ → ℝ → ℝ) : Prop :=
  ∃ R p q m, a = .ok (some (R, p, q, m)) ∧ ∀ x y, R * exp (-(p * x ^ 2 + q * y ^ 2 + 2 * m * x * y) / 2) = f x y

theorem quad_plane (A : M4) (v : Fin 3 → ℝ) : quad (level A) v = quad A ![v 0, v 1, 0, v 2] := by
  simp [quad, level, Fin.sum_univ_four, Fin.sum_univ_three]

theorem params_head {r : Res} (h : SPD r.rms) (idx : Fin 3) (axes : Fin 2 → Fin 4) (mode : Mode) :
    paramsIn r idx axes mode = match mode with
      | .project => (projectIntoPlane idx (√(2 * π / level r.rms idx idx) * r.r0) (level r.rms)).map fun x => some (x.1, x.2 0 0, x.2 1 1, x.2 0 1)
      | .slice => .ok (some (√(2 * π / level r.rms idx idx) * r.r0, r.rms (axes 0) (axes 0), r.rms (axes 1) (axes 1), r.rms (axes 0) (axes 1)))
      | .other => .ok none := by
  have hl : SPD (level r.rms) := SPD.sub h (by decide)
  have hd := hl.diag idx
  have hp := pi_pos
  unfold paramsIn npDiv
  dsimp only
  rw [if_neg hd.ne', ok_bind]
  unfold npSqrt
  rw [if_pos (by positivity), ok_bind]
  cases mode with
  | project =>
    dsimp only
    cases projectIntoPlane idx (√(2 * π / level r.rms idx idx) * r.r0) (level r.rms) <;> rfl
  | slice => rfl
  | other => rfl

theorem params_project {r : Res} (h : SPD r.rms) (idx : Fin 3) (axes : Fin 2 → Fin 4) :
    ∃ R p q m, paramsIn r idx axes .project = .ok (some (R, p, q, m)) ∧ ∀ x y, R * exp (-(p * x ^ 2 + q * y ^ 2 + 2 * m * x * y) / 2) =
      √(2 * π / level r.rms idx idx) * ∫ t : ℝ, r.r0 * exp (-quad (level r.rms) (idx.insertNth (α := fun _ => ℝ) t ![x, y]) / 2) := by
  have hl : SPD (level r.rms) := SPD.sub h (by decide)
  obtain ⟨R, P, h1, h2, h3, h4⟩ := Verif.Tools.C55_marginal hl idx (√(2 * π / level r.rms idx idx) * r.r0)
  refine ⟨R, P 0 0, P 1 1, P 0 1, ?_, fun x y => ?_⟩
  · rw [params_head h]
    dsimp only
    rw [h1]
    rfl
  · rw [← MeasureTheory.integral_const_mul]
    simp only [← mul_assoc]
    rw [h4 ![x, y], Verif.Tools.quad_two]
    congr 3
    rw [h3.symm 1 0]
    simp
    ring

theorem params_slice {r : Res} (h : SPD r.rms) (idx : Fin 3) (axes : Fin 2 → Fin 4) :
    ∃ R p q m, paramsIn r idx axes .slice = .ok (some (R, p, q, m)) ∧ ∀ x y, R * exp (-(p * x ^ 2 + q * y ^ 2 + 2 * m * x * y) / 2) =
      √(2 * π / level r.rms idx idx) * (r.r0 * exp (-quad (r.rms.submatrix axes axes) ![x, y] / 2)) := by
  refine ⟨_, _, _, _, params_head h idx axes .slice, fun x y => ?_⟩
  rw [Verif.Tools.quad_two, mul_assoc]
  congr 3
  simp only [submatrix_apply]
  rw [h.symm (axes 1) (axes 0)]
  simp
  ring

/-- A new instrument asked for one point in the plane. -/
theorem params_new {s : Setup} {E F : Mat} (h : s.Valid E F) (hS : s.settings.Valid 1) {a b c w : ℝ} (hne : ![a, b, c] ≠ (0 : Vec))
    (hp : InPlane s ![a, b, c]) (hr : Reaches s.settings (len (vecOf F ![a, b, c])) w) :
    ∃ r, fresh s (one a b c w) = .ok [r] ∧ SPD r.rms ∧ ∀ plane mode, (getParams (new s) a b c w plane mode).2 =
      paramsFrom [r] [(![a, b, c], w)] (![a, b, c], w) plane mode := by
  obtain ⟨rs, e, hl, hs⟩ := compute_plane h (q := one a b c w) (n := 1) (one_len a b c w) hS (by
    intro p hp'
    simp only [Query.points, keyPoints, one, hkls, List.zip_cons_cons, List.zip_nil_right, List.mem_cons, List.not_mem_nil, or_false] at hp'
    rw [hp']
    exact ⟨hne, hp, hr⟩)
  obtain ⟨r, rfl⟩ := List.length_eq_one_iff.1 hl
  refine ⟨r, by rw [fresh_eq s (one_len a b c w), e], hs r (by simp), fun plane mode => ?_⟩
  obtain ⟨q, n, m, e'⟩ := recompute_means (new s) (H := .scalar a) (K := .scalar b) (L := .scalar c) (W := .scalar w) (by simp [Arg.toList])
    (by simp [Arg.toList]) (by simp [Arg.toList]) (by simp [Arg.toList])
  rw [(means_numbers m).1, e] at e'
  unfold getParams
  rw [show (new s).result = none from rfl]
  dsimp only
  unfold recompute at e'
  split at e'
  · exact nomatch (Prod.mk.inj e').2
  · rename_i i' hc
    rw [hc]
    dsimp only
    rw [(Prod.mk.inj e').1]
    rfl

theorem params_found (r : Res) (p : Vec × ℝ) (plane : Plane) (mode : Mode) : paramsFrom [r] [p] p plane mode = match plane with
    | .QxQy => (paramsIn r 2 ![0, 1] mode).mapError .fail
    | .QxW => (paramsIn r 1 ![0, 3] mode).mapError .fail
    | .QyW => (paramsIn r 0 ![1, 3] mode).mapError .fail
    | _ => .ok none := by
  unfold paramsFrom
  simp only [List.findIdx?_cons, decide_true, if_true, List.getElem?_cons_zero, List.length_cons, List.length_nil, zero_add]
  cases plane <;> rfl

/-- C132 (partial).  At a point in the scattering plane that a new instrument can reach, the parameters describe, in each of
the three planes, the resolution function in the plane (`slice`), or integrated over the third of Qx, Qy and energy
(`project`), times the factor `√(2π/B)` with the diagonal element `B` of that third quantity.  Missing: this factor does not
belong there (`C132_height_false`); planes called `…Slice` (`C132_planes_false`), more than one point
(`C132_several_false`), another point (`C132_elsewhere_false`). -/
theorem C132_params_partial {s : Setup} {E F : Mat} (h : s.Valid E F) (hS : s.settings.Valid 1) {a b c w : ℝ} (hne : ![a, b, c] ≠ (0 : Vec))
    (hp : InPlane s ![a, b, c]) (hr : Reaches s.settings (len (vecOf F ![a, b, c])) w) :
    ∃ r, fresh s (one a b c w) = .ok [r] ∧ SPD r.rms ∧
      Gives (getParams (new s) a b c w .QxQy .project).2 (fun x y => √(2 * π / r.rms 3 3) * ∫ e : ℝ, r.r0 * exp (-quad r.rms ![x, y, 0, e] / 2)) ∧
      Gives (getParams (new s) a b c w .QxW .project).2 (fun x e => √(2 * π / r.rms 1 1) * ∫ y : ℝ, r.r0 * exp (-quad r.rms ![x, y, 0, e] / 2)) ∧
      Gives (getParams (new s) a b c w .QyW .project).2 (fun y e => √(2 * π / r.rms 0 0) * ∫ x : ℝ, r.r0 * exp (-quad r.rms ![x, y, 0, e] / 2)) ∧
      Gives (getParams (new s) a b c w .QxQy .slice).2 (fun x y => √(2 * π / r.rms 3 3) * (r.r0 * exp (-quad r.rms ![x, y, 0, 0] / 2))) ∧
      Gives (getParams (new s) a b c w .QxW .slice).2 (fun x e => √(2 * π / r.rms 1 1) * (r.r0 * exp (-quad r.rms ![x, 0, 0, e] / 2))) ∧
      Gives (getParams (new s) a b c w .QyW .slice).2 (fun y e => √(2 * π / r.rms 0 0) * (r.r0 * exp (-quad r.rms ![0, y, 0, e] / 2))) := by
  obtain ⟨r, h1, h2, h3⟩ := params_new h hS hne hp hr
  refine ⟨r, h1, h2, ?_, ?_, ?_, ?_, ?_, ?_⟩ <;> rw [h3, params_found] <;> dsimp only
  · obtain ⟨R, p, q, m, e1, e2⟩ := params_project h2 2 ![0, 1]
    refine ⟨R, p, q, m, by rw [e1]; rfl, fun x y => ?_⟩
    rw [e2]
    simp only [quad_plane]
    rfl
  · obtain ⟨R, p, q, m, e1, e2⟩ := params_project h2 1 ![0, 3]
    refine ⟨R, p, q, m, by rw [e1]; rfl, fun x y => ?_⟩
    rw [e2]
    simp only [quad_plane]
    rfl
  · obtain ⟨R, p, q, m, e1, e2⟩ := params_project h2 0 ![1, 3]
    refine ⟨R, p, q, m, by rw [e1]; rfl, fun x y => ?_⟩
    rw [e2]
    simp only [quad_plane]
    rfl
  · obtain ⟨R, p, q, m, e1, e2⟩ := params_slice h2 2 ![0, 1]
    refine ⟨R, p, q, m, by rw [e1]; rfl, fun x y => ?_⟩
    rw [e2]
    simp [quad, Fin.sum_univ_four, Fin.sum_univ_two, level]
  · obtain ⟨R, p, q, m, e1, e2⟩ := params_slice h2 1 ![0, 3]
    refine ⟨R, p, q, m, by rw [e1]; rfl, fun x y => ?_⟩
    rw [e2]
    simp [quad, Fin.sum_univ_four, Fin.sum_univ_two, level]
  · obtain ⟨R, p, q, m, e1, e2⟩ := params_slice h2 0 ![1, 3]
    refine ⟨R, p, q, m, by rw [e1]; rfl, fun x y => ?_⟩
    rw [e2]
    simp [quad, Fin.sum_univ_four, Fin.sum_univ_two, level]

/-- The Gaussian that an answer describes is unique. -/
theorem Gives.unique {a : Except ViewErr (Option (ℝ × ℝ × ℝ × ℝ))} {f g : ℝ → ℝ → ℝ} (h : Gives a f) (h' : Gives a g) : f = g := by
  obtain ⟨R, p, q, m, e, hf⟩ := h
  obtain ⟨R', p', q', m', e', hg⟩ := h'
  rw [e] at e'
  obtain ⟨rfl, rfl, rfl, rfl⟩ : R = R' ∧ p = p' ∧ q = q' ∧ m = m' := by simpa using e'
  funext x y
  rw [← hf, ← hg]

/-- C132, the height.  The parameters for a slice are those of the resolution function in the plane if and only if the
diagonal element of the energy is `2π`, and those for the projection are those of the integral over the energy only then. -/
theorem C132_height {s : Setup} {E F : Mat} (h : s.Valid E F) (hS : s.settings.Valid 1) {a b c w : ℝ} (hne : ![a, b, c] ≠ (0 : Vec))
    (hp : InPlane s ![a, b, c]) (hr : Reaches s.settings (len (vecOf F ![a, b, c])) w) :
    ∃ r, fresh s (one a b c w) = .ok [r] ∧
      (Gives (getParams (new s) a b c w .QxQy .slice).2 (fun x y => r.r0 * exp (-quad r.rms ![x, y, 0, 0] / 2)) ↔ r.rms 3 3 = 2 * π) ∧
      (Gives (getParams (new s) a b c w .QxQy .project).2 (fun x y => ∫ e : ℝ, r.r0 * exp (-quad r.rms ![x, y, 0, e] / 2)) ↔ r.rms 3 3 = 2 * π) := by
  obtain ⟨r, h1, h2, g1, -, -, g4, -, -⟩ := C132_params_partial h hS hne hp hr
  obtain ⟨x', y', z', hs', -⟩ := axes h
  obtain ⟨r', h1', -, hr0, -⟩ := fresh_point h hS hs' hne hr
  have er : r' = r := by
    rw [h1] at h1'
    exact (List.singleton_inj.1 (Except.ok.inj h1')).symm
  rw [er] at hr0
  have hB := h2.diag 3
  have hpi := pi_pos
  have root : √(2 * π / r.rms 3 3) = 1 ↔ r.rms 3 3 = 2 * π := by
    rw [sqrt_eq_one, div_eq_one_iff_eq hB.ne', eq_comm]
  have zero : quad r.rms ![0, 0, 0, 0] = 0 := by simp [quad, Fin.sum_univ_four]
  refine ⟨r, h1, ?_, ?_⟩
  · constructor
    · intro g
      have := congrFun (congrFun (g4.unique g) 0) 0
      rw [zero, neg_zero, zero_div, exp_zero, mul_one] at this
      exact root.1 (mul_right_cancel₀ hr0.ne' (this.trans (one_mul _).symm))
    · intro e
      simpa only [root.2 e, one_mul] using g4
  · constructor
    · intro g
      have := congrFun (congrFun (g1.unique g) 0) 0
      have pos : 0 < ∫ e : ℝ, r.r0 * exp (-quad r.rms ![0, 0, 0, e] / 2) := by
        have e1 : ∀ e : ℝ, r.r0 * exp (-quad r.rms ![0, 0, 0, e] / 2) = r.r0 * exp (-(r.rms 3 3 * (e + 0) ^ 2) / 2) := by
          intro e
          congr 3
          simp [quad, Fin.sum_univ_four]
          ring
        simp only [e1]
        rw [MeasureTheory.integral_const_mul, Verif.Tools.integral_shifted]
        positivity
      exact root.1 (mul_right_cancel₀ pos.ne' (this.trans (one_mul _).symm))
    · intro e
      simpa only [root.2 e, one_mul] using g1

/-- The sample with the instrument that is `t` times as wide. -/
noncomputable def Setup.stretch (t : ℝ) (s : Setup) : Setup := { s with settings := s.settings.stretch t }

theorem Setup.Valid.stretch {s : Setup} {E F : Mat} (h : s.Valid E F) (t : ℝ) : (s.stretch t).Valid E F :=
  ⟨h.cell, h.real, h.dual, h.indep, by
    show (s.settings.sample.shape.map (Shape.stretch t)) = none
    rw [h.noShape]; rfl⟩

theorem energy_stretch {s : Setup} {E F : Mat} (h : s.Valid E F) (hS : s.settings.Valid 1) (hp : s.settings.popovici = true → s.settings.Sized)
    {a b c w : ℝ} (hne : ![a, b, c] ≠ (0 : Vec)) (hr : Reaches s.settings (len (vecOf F ![a, b, c])) w) {t : ℝ} (ht : 0 < t) {r r' : Res}
    (e : fresh s (one a b c w) = .ok [r]) (e' : fresh (s.stretch t) (one a b c w) = .ok [r']) : t ^ 2 * r'.rms 3 3 = r.rms 3 3 := by
  obtain ⟨x, y, z, hs, -⟩ := axes h
  have hf := frame_ok h.cell h.real h.dual hs hne
  rw [fresh_one h.noShape hf] at e
  rw [fresh_one (h.stretch t).noShape (f := _) hf] at e'
  obtain ⟨rs, rs', g, g', l, l', hq⟩ := C134_stretch (pts := [(len (vecOf F ![a, b, c]), w)]) hS (by
    intro p hp
    rw [List.mem_singleton.1 hp]
    exact hr) hp ht
  obtain ⟨p, rfl⟩ := List.length_eq_one_iff.1 l
  obtain ⟨p', rfl⟩ := List.length_eq_one_iff.1 l'
  have q := hq 0 p p' rfl rfl ![0, 0, 0, 1]
  rw [g] at e
  rw [show (s.stretch t).settings = s.settings.stretch t from rfl, g'] at e'
  have k := List.singleton_inj.1 (Except.ok.inj e)
  have k' := List.singleton_inj.1 (Except.ok.inj e')
  have m (f : ℝ × ℝ × ℝ) (p : ℝ × M4) : (toCrystal f p).rms 3 3 = p.2 3 3 := by
    simp [toCrystal, tmat, Matrix.mul_apply, Fin.sum_univ_four]
  rw [← k, ← k', m, m]
  simp [quad, Fin.sum_univ_four] at q
  linear_combination q

/-- C132, the height is wrong.  Take any valid instrument and the same with collimations, mosaics and sizes twice as large: for
one of the two, the parameters of the slice are not those of the resolution function in the plane and the parameters of
the projection are not those of its integral over the energy. -/
theorem C132_height_false {s : Setup} {E F : Mat} (h : s.Valid E F) (hS : s.settings.Valid 1) (hz : s.settings.popovici = true → s.settings.Sized)
    {a b c w : ℝ} (hne : ![a, b, c] ≠ (0 : Vec)) (hp : InPlane s ![a, b, c]) (hr : Reaches s.settings (len (vecOf F ![a, b, c])) w) :
    ∃ s' r, (s' = s ∨ s' = s.stretch 2) ∧ fresh s' (one a b c w) = .ok [r] ∧
      ¬ Gives (getParams (new s') a b c w .QxQy .slice).2 (fun x y => r.r0 * exp (-quad r.rms ![x, y, 0, 0] / 2)) ∧
      ¬ Gives (getParams (new s') a b c w .QxQy .project).2 (fun x y => ∫ e : ℝ, r.r0 * exp (-quad r.rms ![x, y, 0, e] / 2)) := by
  obtain ⟨r, h1, h2, h3⟩ := C132_height h hS hne hp hr
  obtain ⟨r', h1', h2', h3'⟩ := C132_height (h.stretch 2) (hS.stretch two_pos) hne hp (hr.stretch 2)
  have e := energy_stretch h hS hz hne hr two_pos h1 h1'
  by_cases hB : r.rms 3 3 = 2 * π
  · have hB' : r'.rms 3 3 ≠ 2 * π := by
      have := pi_pos
      intro hB'
      rw [hB, hB'] at e
      nlinarith
    exact ⟨s.stretch 2, r', Or.inr rfl, h1', fun g => hB' (h2'.1 g), fun g => hB' (h3'.1 g)⟩
  · exact ⟨s, r, Or.inl rfl, h1, fun g => hB (h2.1 g), fun g => hB (h3.1 g)⟩

/-- C132, planes.  For the documented planes whose names end in `Slice` nothing is returned, in any mode. -/
theorem C132_planes_false {s : Setup} {E F : Mat} (h : s.Valid E F) (hS : s.settings.Valid 1) {a b c w : ℝ} (hne : ![a, b, c] ≠ (0 : Vec))
    (hp : InPlane s ![a, b, c]) (hr : Reaches s.settings (len (vecOf F ![a, b, c])) w) :
    ∀ plane ∈ [Plane.QxQySlice, .QxWSlice, .QyWSlice], ∀ mode, (getParams (new s) a b c w plane mode).2 = .ok none := by
  obtain ⟨r, -, -, h3⟩ := params_new h hS hne hp hr
  intro plane hpl mode
  rw [h3, params_found]
  simp only [List.mem_cons, List.not_mem_nil, or_false] at hpl
  rcases hpl with rfl | rfl | rfl <;> rfl

/-- C132, several points.  When the resolution at more than one point is stored, the parameters at none of them can be had:
`UnboundLocalError`. -/
theorem C132_several_false {i : Inst} {q : Query} {n : ℕ} (hq : q.Len n) (hn : 2 ≤ n) {rs : List Res} (h : i.result = some rs)
    (hk : i.keys = some (q.H, q.K, q.L, q.W)) (hl : rs.length = n) {a b c w : ℝ} (hm : (![a, b, c], w) ∈ q.points) :
    ∀ plane ∈ [Plane.QxQy, .QxW, .QyW], ∀ mode, (getParams i a b c w plane mode).2 = .error .unboundLocalError := by
  intro plane hpl mode
  unfold getParams
  rw [h]
  dsimp only
  rw [hk]
  unfold paramsFrom
  simp only [Option.getD_some]
  change (match List.findIdx? _ q.points with | none => _ | some ind => _) = _
  split
  · rename_i hf
    rw [List.findIdx?_eq_none_iff] at hf
    have := hf _ hm
    simp at this
  · rename_i ind hf
    obtain ⟨hi, -⟩ := List.findIdx?_eq_some_iff_getElem.1 hf
    rw [Query.points_length hq] at hi
    rw [List.getElem?_eq_getElem (by omega : ind < rs.length)]
    simp only [List.mem_cons, List.not_mem_nil, or_false] at hpl
    rcases hpl with rfl | rfl | rfl <;> exact if_neg (by omega)

/-- C132, another point.  Once a resolution is stored, the parameters at a point that is not among the stored ones are refused
with `InstrumentError`, though they could be calculated. -/
theorem C132_elsewhere_false {i : Inst} {q : Query} {rs : List Res} (h : i.result = some rs)
    (hk : i.keys = some (q.H, q.K, q.L, q.W)) {a b c w : ℝ} (hm : (![a, b, c], w) ∉ q.points) (plane : Plane) (mode : Mode) :
    (getParams i a b c w plane mode).2 = .error .instrumentError := by
  unfold getParams
  rw [h]
  dsimp only
  rw [hk]
  unfold paramsFrom
  simp only [Option.getD_some]
  change (match List.findIdx? _ q.points with | none => _ | some ind => _) = _
  split
  · rfl
  · rename_i ind hf
    obtain ⟨hi, he, -⟩ := List.findIdx?_eq_some_iff_getElem.1 hf
    exact absurd (of_decide_eq_true he ▸ List.getElem_mem hi) hm

theorem demo_point : (![3 / 5, 4 / 5, 0] : Vec) ≠ 0 ∧ InPlane demoSetup ![3 / 5, 4 / 5, 0] ∧
    Reaches demoSetup.settings (len (vecOf 1 ![3 / 5, 4 / 5, 0])) 1 := by
  refine ⟨fun h => by simpa using congrFun h 0, ⟨3 / 5, 4 / 5, ?_⟩, ?_⟩
  · funext i
    fin_cases i <;> simp [demoSetup]
  · have e : len (vecOf 1 ![3 / 5, 4 / 5, 0]) = 1 := by
      rw [demo_len]
      norm_num
    rw [e]
    exact demo_reaches (by norm_num) (by norm_num) (by norm_num) (by norm_num)

/-- The hypotheses are met: the height is wrong for the default instrument or the one that is twice as wide. -/
example : ∃ s' r, (s' = demoSetup ∨ s' = demoSetup.stretch 2) ∧ fresh s' (one (3 / 5) (4 / 5) 0 1) = .ok [r] ∧
    ¬ Gives (getParams (new s') (3 / 5) (4 / 5) 0 1 .QxQy .slice).2 (fun x y => r.r0 * exp (-quad r.rms ![x, y, 0, 0] / 2)) ∧
    ¬ Gives (getParams (new s') (3 / 5) (4 / 5) 0 1 .QxQy .project).2 (fun x y => ∫ e : ℝ, r.r0 * exp (-quad r.rms ![x, y, 0, e] / 2)) :=
  C132_height_false demoSetup_valid (demo_valid 1) (fun h => nomatch h) demo_point.1 demo_point.2.1 demo_point.2.2

/-- Two stored points, one of which is asked for. -/
example : ∃ i : Inst, ∃ rs, i.result = some rs ∧ rs.length = 2 ∧
    (getParams i (3 / 5) (4 / 5) 0 1 .QxQy .project).2 = .error .unboundLocalError ∧
    (getParams i (1 / 2) (1 / 2) 0 1 .QxQy .project).2 = .error .instrumentError := by
  obtain ⟨rs, e, hl, -⟩ := compute_plane demoSetup_valid (q := ⟨[3 / 5, 3 / 5], [4 / 5, 4 / 5], [0, 0], [1, 1]⟩) (n := 2) ⟨rfl, rfl, rfl, rfl⟩
    (demo_valid 2) (by
      intro p hp
      simp only [Query.points, keyPoints, hkls, List.zip_cons_cons, List.zip_nil_right, List.mem_cons, List.not_mem_nil, or_false, or_self] at hp
      rw [hp]
      exact demo_point)
  have hk : (compute (new demoSetup) ⟨[3 / 5, 3 / 5], [4 / 5, 4 / 5], [0, 0], [1, 1]⟩).1.keys =
    some ([3 / 5, 3 / 5], [4 / 5, 4 / 5], [0, 0], [1, 1]) := by rw [e]
  have hr : (compute (new demoSetup) ⟨[3 / 5, 3 / 5], [4 / 5, 4 / 5], [0, 0], [1, 1]⟩).1.result = some rs := by rw [e]
  refine ⟨_, rs, hr, hl, ?_, ?_⟩
  · exact C132_several_false (q := ⟨[3 / 5, 3 / 5], [4 / 5, 4 / 5], [0, 0], [1, 1]⟩) (n := 2) ⟨rfl, rfl, rfl, rfl⟩ le_rfl hr hk hl
      (by simp [Query.points, keyPoints, hkls]) _ (by simp) _
  · refine C132_elsewhere_false (q := ⟨[3 / 5, 3 / 5], [4 / 5, 4 / 5], [0, 0], [1, 1]⟩) hr hk ?_ _ _
    simp only [Query.points, keyPoints, hkls, List.zip_cons_cons, List.zip_nil_right, List.mem_cons, List.not_mem_nil, or_false, or_self]
    intro h
    have := congrFun (Prod.mk.inj h).1 0
    norm_num at this

end Verif.Resolution
