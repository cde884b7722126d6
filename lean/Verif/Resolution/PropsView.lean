import Verif.Resolution.PropsMirror
import Mathlib.Analysis.Real.Pi.Bounds

/-!
# Property C131, theorems: what the curves of `calc_projections` show
-/

namespace Verif.Resolution

open Real Matrix
open Verif.Crystal (Fail Vec Mat vecOf len standardSystem)
open Verif.Tools (Arg SPD quad)

theorem hkls_length : ∀ {H K L : List ℝ} {n : ℕ}, H.length = n → K.length = n → L.length = n → (hkls H K L).length = n
  | [], _, _, n, h, _, _ => by rw [← h]; rfl
  | _ :: hs, k :: ks, l :: ls, n, h, h', h'' => by
    have e := hkls_length (n := hs.length) (H := hs) (K := ks) (L := ls) rfl (by simp at h h'; omega) (by simp at h h''; omega)
    simp only [hkls, List.length_cons, e] at *
    exact h
  | _ :: _, [], _, n, h, h', _ => by simp at h h'; omega
  | _ :: _, _ :: _, [], n, h, _, h'' => by simp at h h''; omega

theorem mapM_ok {α β : Type} {f : α → Except Fail β} {g : α → β} : ∀ {l : List α}, (∀ a ∈ l, f a = .ok (g a)) → l.mapM f = .ok (l.map g)
  | [], _ => rfl
  | a :: l, h => by
    rw [List.mapM_cons, h a (by simp), mapM_ok (fun b hb => h b (by simp [hb]))]
    rfl

/-- The matrix of a point in the plane is positive definite in the frame of the crystal as well. -/
theorem spd_turned {A : M4} (h : SPD A) {xq yq : ℝ} (hxy : xq ^ 2 + yq ^ 2 = 1) : SPD ((tmat xq yq)ᵀ * A * tmat xq yq) := by
  have hdet : ∀ v : Fin 4 → ℝ, v ᵥ* (tmat xq yq)ᵀ = 0 → v = 0 := by
    intro v hv
    have e0 := congrFun hv 0
    have e1 := congrFun hv 1
    have e2 := congrFun hv 2
    have e3 := congrFun hv 3
    simp [tmat, Matrix.vecMul, dotProduct, Fin.sum_univ_four] at e0 e1 e2 e3
    funext i
    fin_cases i
    · change v 0 = 0
      linear_combination xq * e0 - yq * e1 - v 0 * hxy
    · change v 1 = 0
      linear_combination yq * e0 + xq * e1 - v 1 * hxy
    · exact e2
    · exact e3
  rw [← posDef_iff_spd] at h ⊢
  have := congr_posDef h (tmat xq yq)ᵀ hdet
  rwa [transpose_transpose] at this

/-- The points of a query. -/
def Query.points (q : Query) : List (Vec × ℝ) := keyPoints (q.H, q.K, q.L, q.W)

theorem Query.points_length {q : Query} {n : ℕ} (h : q.Len n) : q.points.length = n := by
  unfold Query.points keyPoints
  rw [List.length_zip, hkls_length h.H h.K h.L, h.W, min_self]

/-- Results for a list of points in the plane. -/
theorem compute_plane {s : Setup} {E F : Mat} (h : s.Valid E F) {q : Query} {n : ℕ} (hq : q.Len n) (hS : s.settings.Valid n)
    (hp : ∀ p ∈ q.points, p.1 ≠ 0 ∧ InPlane s p.1 ∧ Reaches s.settings (len (vecOf F p.1)) p.2) :
    ∃ rs, compute (new s) q = (⟨s, some (q.H, q.K, q.L, q.W), some rs⟩, .ok rs) ∧ rs.length = n ∧ ∀ r ∈ rs, SPD r.rms := by
  obtain ⟨x, y, z, hs, hfr, hu, hv⟩ := axes h
  have hl := hkls_length hq.H hq.K hq.L
  have mem (v : Vec) (hv : v ∈ hkls q.H q.K q.L) : ∃ w, (v, w) ∈ q.points := by
    obtain ⟨i, hi, rfl⟩ := List.getElem_of_mem hv
    have hw : i < q.W.length := by rw [hq.W]; omega
    refine ⟨q.W[i], ?_⟩
    unfold Query.points keyPoints
    rw [← List.getElem_zip (h := by rw [List.length_zip]; omega)]
    exact List.getElem_mem _
  have e1 := mapM_ok (f := frame s) (l := hkls q.H q.K q.L) (fun v hv => by
    obtain ⟨w, hw⟩ := mem v hv
    exact frame_ok h.cell h.real h.dual hs (hp _ hw).1)
  set fr := (hkls q.H q.K q.L).map fun v => (len (vecOf F v), vecOf F x ⬝ᵥ direction F v, vecOf F y ⬝ᵥ direction F v) with hfre
  have e2 : (fr.map Prod.fst).zip q.W = q.points.map fun p => (len (vecOf F p.1), p.2) := by
    rw [hfre, List.map_map]
    unfold Query.points keyPoints
    rw [List.zip_map_left]
    rfl
  obtain ⟨rs, h1, h2, h3⟩ := C61_spd s.settings ((fr.map Prod.fst).zip q.W) (by rw [e2, List.length_map, Query.points_length hq]; exact hS) (by
    rw [e2]
    intro p hp'
    obtain ⟨p', hp'', rfl⟩ := List.mem_map.1 hp'
    exact (hp p' hp'').2.2)
  have hlen : rs.length = n := by rw [h2, e2, List.length_map, Query.points_length hq]
  refine ⟨List.zipWith toCrystal fr rs, ?_, ?_, ?_⟩
  · unfold compute
    have es : ({ s.settings with sample.shape := none } : Settings) = s.settings := by
      conv_rhs => rw [show s.settings = { s.settings with sample.shape := s.settings.sample.shape } from rfl, h.noShape]
    have e3 : turnSample s.settings.sample.shape fr = .ok none := by rw [h.noShape]; rfl
    simp only [new, e1, e3, es, h1]
  · rw [List.length_zipWith, hfre, List.length_map, hl, hlen, min_self]
  · intro r hr
    obtain ⟨i, hi, rfl⟩ := List.getElem_of_mem hr
    rw [List.getElem_zipWith]
    rw [List.length_zipWith, hfre, List.length_map] at hi
    have hv' : (hkls q.H q.K q.L)[i]'(by omega) ∈ hkls q.H q.K q.L := List.getElem_mem _
    obtain ⟨w, hw⟩ := mem _ hv'
    obtain ⟨p1, p2, p3⟩ := hp _ hw
    have hd := direction_inPlane hfr.xx hfr.yy hfr.xy hu hv p2
    have hn := direction_unit h.cell h.real h.dual p1
    have ef : fr[i]'(by rw [hfre, List.length_map]; omega) = (len (vecOf F (hkls q.H q.K q.L)[i]), vecOf F x ⬝ᵥ direction F (hkls q.H q.K q.L)[i],
        vecOf F y ⬝ᵥ direction F (hkls q.H q.K q.L)[i]) := by
      simp only [hfre, List.getElem_map]
    rw [ef]
    refine spd_turned (h3 _ (List.getElem_mem _)).1 ?_
    dsimp only
    generalize direction F (hkls q.H q.K q.L)[i] = D at *
    generalize vecOf F x ⬝ᵥ D = xq at *
    generalize vecOf F y ⬝ᵥ D = yq at *
    rw [hd] at hn
    simp only [add_dotProduct, dotProduct_add, smul_dotProduct, dotProduct_smul, smul_eq_mul, hfr.xx, hfr.yy, hfr.xy,
      dotProduct_comm (vecOf F y) (vecOf F x)] at hn
    linear_combination hn

theorem views_show (u v : Vec) {n : ℕ} (hn : 2 ≤ n) : ∀ {rs : List Res} {ps : List (Vec × ℝ)}, rs.length ≤ ps.length →
    (∀ r ∈ rs, SPD r.rms ∧ Decoupled r.rms) → ∃ vs, views u v n rs ps = .ok vs ∧ vs.length = rs.length ∧
      ∀ (k : ℕ) (r : Res) (p : Vec × ℝ) (x : View), rs[k]? = some r → ps[k]? = some p → vs[k]? = some x →
        Shows r.rms (coordinate p.1 u) (coordinate p.1 v) p.2 n x
  | [], ps, _, _ => ⟨[], by cases ps <;> rfl, rfl, fun k r p x h => by simp at h⟩
  | _ :: _, [], h, _ => by simp at h
  | r :: rs, p :: ps, h, hr => by
    obtain ⟨x, e1, s1⟩ := viewAt_shows u v (hr r (by simp)).1 (hr r (by simp)).2 p.1 p.2 hn
    obtain ⟨vs, e2, l2, s2⟩ := views_show u v hn (rs := rs) (ps := ps) (by simpa using h) (fun r' h' => hr r' (by simp [h']))
    refine ⟨x :: vs, ?_, by simp [l2], ?_⟩
    · unfold views
      rw [e1]
      dsimp only
      rw [e2]
    · intro k r' p' x' h1 h2 h3
      cases k with
      | zero =>
        simp only [List.getElem?_cons_zero, Option.some.injEq] at h1 h2 h3
        rw [← h1, ← h2, ← h3]
        exact s1
      | succ k =>
        simp only [List.getElem?_cons_succ] at h1 h2 h3
        exact s2 k r' p' x' h1 h2 h3

/-- C131 (partial).  For any list of points in the scattering plane that the instrument can reach, a new instrument
calculates for each point the six curves: the outlines at half height of the resolution function in the three planes through
the point, and of its integrals over the two other components; they are centred at the coordinates of the point, and
the `_fwhm` entries are full widths at half maximum.  Missing: lengths in the units of the axes (`C131_units_false`), the
coordinates of the centre (`C131_centre_partial`). -/
theorem C131_curves_partial {s : Setup} {E F : Mat} (h : s.Valid E F) {q : Query} {n : ℕ} (hq : q.Len n) (hS : s.settings.Valid n)
    (hp : ∀ p ∈ q.points, p.1 ≠ 0 ∧ InPlane s p.1 ∧ Reaches s.settings (len (vecOf F p.1)) p.2) {npts : ℕ} (hn : 2 ≤ npts) :
    ∃ rs vs, fresh s q = .ok rs ∧ (calcProjections (new s) (.list q.H) (.list q.K) (.list q.L) (.list q.W) npts).2 = .ok vs ∧
      rs.length = n ∧ vs.length = n ∧ (∀ r ∈ rs, SPD r.rms) ∧
      ∀ (k : ℕ) (r : Res) (p : Vec × ℝ) (x : View), rs[k]? = some r → q.points[k]? = some p → vs[k]? = some x →
        Shows r.rms (coordinate p.1 s.u) (coordinate p.1 s.v) p.2 npts x := by
  obtain ⟨rs, e, hl, hr⟩ := compute_plane h hq hS hp
  have eg : getResolution (new s) (.list q.H) (.list q.K) (.list q.L) (.list q.W) = compute (new s) q := recompute_eq _ hq
  have hd := (level_get (i := new s) ⟨by rw [show (new s).setup = s from rfl, h.noShape]; trivial, fun rs hrs => nomatch hrs⟩
    (.list q.H) (.list q.K) (.list q.L) (.list q.W)).2 rs (by rw [eg, e])
  obtain ⟨vs, e2, l2, s2⟩ := views_show s.u s.v hn (rs := rs) (ps := q.points) (by rw [hl, Query.points_length hq])
    (fun r h' => ⟨hr r h', (hd r h').2⟩)
  refine ⟨rs, vs, by rw [fresh_eq s hq, e], ?_, hl, by rw [l2, hl], hr, s2⟩
  unfold calcProjections
  rw [eg, e]
  exact e2

/-- The hypotheses are met by two points. -/
example : ∃ vs, (calcProjections (new demoSetup) (.list [1, 3 / 5]) (.list [0, 4 / 5]) (.list [0, 0]) (.list [0, 1]) 36).2 = .ok vs ∧ vs.length = 2 := by
  obtain ⟨rs, vs, -, h2, -, h3, -⟩ := C131_curves_partial (q := ⟨[1, 3 / 5], [0, 4 / 5], [0, 0], [0, 1]⟩) (n := 2) (npts := 36) demoSetup_valid
    ⟨rfl, rfl, rfl, rfl⟩ (demo_valid 2) (by
      intro p hp
      simp only [Query.points, keyPoints, hkls, List.zip_cons_cons, List.zip_nil_right, List.mem_cons, List.not_mem_nil, or_false] at hp
      rcases hp with rfl | rfl
      · refine ⟨fun h => by simpa using congrFun h 0, ⟨1, 0, ?_⟩, ?_⟩
        · funext i
          fin_cases i <;> simp [demoSetup]
        · have e := demo_len 1 0 0
          norm_num at e
          rw [e]
          exact demo_reaches (by norm_num) (by norm_num) (by norm_num) (by norm_num)
      · refine ⟨fun h => by simpa using congrFun h 0, ⟨3 / 5, 4 / 5, ?_⟩, ?_⟩
        · funext i
          fin_cases i <;> simp [demoSetup]
        · have e : len (vecOf 1 ![3 / 5, 4 / 5, 0]) = 1 := by
            rw [demo_len]
            norm_num
          rw [e]
          exact demo_reaches (by norm_num) (by norm_num) (by norm_num) (by norm_num)) (by norm_num)
  exact ⟨vs, h2, h3⟩

/-- C131 (partial), the centre.  With perpendicular indices of the two orientation vectors, the centre of the curve is given
by the coordinates of the point along them. -/
theorem C131_centre_partial {u v : Vec} (hu : u ≠ 0) (hv : v ≠ 0) (h : u ⬝ᵥ v = 0) (a b : ℝ) :
    coordinate (a • u + b • v) u = a ∧ coordinate (a • u + b • v) v = b := by
  have h1 : u ⬝ᵥ u ≠ 0 := fun e => hu (dotProduct_self_eq_zero.1 e)
  have h2 : v ⬝ᵥ v ≠ 0 := fun e => hv (dotProduct_self_eq_zero.1 e)
  unfold coordinate
  simp only [add_dotProduct, smul_dotProduct, dotProduct_smul, smul_eq_mul, h, dotProduct_comm v u]
  constructor <;> field_simp <;> ring

/-- C131, the centre of the curve is elsewhere if the indices of the orientation vectors are not perpendicular: for the point
`u` itself, whose coordinates are 1 and 0, the second coordinate is not zero. -/
theorem C131_centre_false {u v : Vec} (hv : v ≠ 0) (h : u ⬝ᵥ v ≠ 0) : coordinate u v ≠ 0 := by
  have h2 : v ⬝ᵥ v ≠ 0 := fun e => hv (dotProduct_self_eq_zero.1 e)
  unfold coordinate
  rw [dotProduct_smul, smul_eq_mul]
  positivity

/-- For the orientation (1, 0, 0), (1, 1, 0) the curve of (1, 0, 0) is drawn around (1, 1/2). -/
example : coordinate ![1, 0, 0] ![1, 0, 0] = 1 ∧ coordinate ![1, 0, 0] ![1, 1, 0] = 1 / 2 := by
  constructor <;> simp [coordinate, dotProduct, Fin.sum_univ_three] <;> norm_num

/-- C131, units.  For a cubic crystal with a lattice constant of at most 5 Å, oriented with (1, 0, 0) and (0, 1, 0): at none of
the points of the curve through the plane, read in reciprocal lattice units as the axes of the plot say, is the resolution
function near one half of its maximum: it is below 0.36. -/
theorem C131_units_false {s : Setup} {a : ℝ} (h0 : 0 < a) (ha : a ≤ 5) (h : s.Valid (a • 1) ((2 * π / a) • 1)) (hu : s.u = ![1, 0, 0])
    (hv : s.v = ![0, 1, 0]) {x y z : Vec} (hs : standardSystem s.lattice s.u s.v = .ok (x, y, z)) {A : M4} (hA : SPD A) {qx qy w : ℝ} {npts : ℕ}
    {V : View} (hV : Shows A qx qy w npts V) : ∀ p ∈ V.qxqySlice.points,
      exp (-quad A ![vecOf ((2 * π / a) • 1) x ⬝ᵥ vecOf ((2 * π / a) • 1) ((p.1 - qx) • s.u + (p.2 - qy) • s.v),
        vecOf ((2 * π / a) • 1) y ⬝ᵥ vecOf ((2 * π / a) • 1) ((p.1 - qx) • s.u + (p.2 - qy) • s.v), 0, 0] / 2) < 0.36 := by
  obtain ⟨x', y', z', hs', hfr, ⟨r, hr, eu⟩, r', t, ht, ev⟩ := axes h
  rw [hs] at hs'
  obtain ⟨rfl, rfl, rfl⟩ : x = x' ∧ y = y' ∧ z = z' := by simpa using hs'
  set F : Mat := (2 * π / a) • 1 with hF
  have hl0 : 0 < 2 * π / a := by have := pi_pos; positivity
  set l := 2 * π / a with hl
  have vF (v : Vec) : vecOf F v = l • v := by
    ext i
    fin_cases i <;> simp [vecOf, hF] <;> ring
  have add (p q : Vec) : vecOf F (p + q) = vecOf F p + vecOf F q := by
    simp only [vecOf, Pi.add_apply, add_smul]; abel
  -- components of the two orientation vectors
  have xu : vecOf F x ⬝ᵥ vecOf F s.u = r := by
    rw [eu, Verif.Crystal.vecOf_smul, dotProduct_smul, hfr.xx, smul_eq_mul, mul_one]
  have yu : vecOf F y ⬝ᵥ vecOf F s.u = 0 := by
    rw [eu, Verif.Crystal.vecOf_smul, dotProduct_smul, dotProduct_comm, hfr.xy, smul_zero]
  have xv : vecOf F x ⬝ᵥ vecOf F s.v = r' := by
    rw [ev, add, Verif.Crystal.vecOf_smul, Verif.Crystal.vecOf_smul, dotProduct_add, dotProduct_smul, dotProduct_smul, hfr.xx, hfr.xy]; simp
  have yv : vecOf F y ⬝ᵥ vecOf F s.v = t := by
    rw [ev, add, Verif.Crystal.vecOf_smul, Verif.Crystal.vecOf_smul, dotProduct_add, dotProduct_smul, dotProduct_smul, hfr.yy, dotProduct_comm,
      hfr.xy]; simp
  have uu : vecOf F s.u ⬝ᵥ vecOf F s.u = r ^ 2 := by
    conv_lhs => rw [eu, Verif.Crystal.vecOf_smul, dotProduct_smul, smul_dotProduct, hfr.xx, smul_eq_mul, smul_eq_mul]
    ring
  have uv : vecOf F s.u ⬝ᵥ vecOf F s.v = r * r' := by
    conv_lhs => rw [eu, Verif.Crystal.vecOf_smul, smul_dotProduct, xv, smul_eq_mul]
  have vv : vecOf F s.v ⬝ᵥ vecOf F s.v = r' ^ 2 + t ^ 2 := by
    conv_lhs => rw [ev, add, Verif.Crystal.vecOf_smul, Verif.Crystal.vecOf_smul]
    simp only [add_dotProduct, dotProduct_add, smul_dotProduct, dotProduct_smul, hfr.xx, hfr.yy, hfr.xy, dotProduct_comm (vecOf F y) (vecOf F x), smul_eq_mul]
    ring
  rw [vF, hu] at uu uv
  rw [vF, hv] at vv
  rw [vF, hv] at uv
  simp [dotProduct, Fin.sum_univ_three] at uu uv vv
  have er : r = l := by nlinarith
  have er' : r' = 0 := by
    rcases uv with h | h
    · exact absurd h hr.ne'
    · exact h
  have et : t = l := by rw [er'] at vv; nlinarith
  intro p hp
  have hh := hV.qxqySlice.half p hp
  rw [add, Verif.Crystal.vecOf_smul, Verif.Crystal.vecOf_smul]
  simp only [dotProduct_add, dotProduct_smul, xu, yu, xv, yv, smul_eq_mul, er, er', et, mul_zero, add_zero, zero_add]
  generalize p.1 - qx = X at *
  generalize p.2 - qy = Y at *
  have e : quad A ![X * l, Y * l, 0, 0] = l ^ 2 * quad A ![X, Y, 0, 0] := by
    simp [quad, Fin.sum_univ_four]
    ring
  rw [e]
  have z0 : quad A ![0, 0, 0, 0] = 0 := by simp [quad, Fin.sum_univ_four]
  rw [z0] at hh
  have q0 : 0 ≤ quad A ![X, Y, 0, 0] := by
    rcases eq_or_ne ![X, Y, 0, 0] 0 with e0 | e0
    · rw [e0]; simp [quad]
    · exact (hA.pos _ (Function.ne_iff.1 e0)).le
  generalize quad A ![X, Y, 0, 0] = Q at *
  norm_num at hh
  have hl2 : 1.5 ≤ l ^ 2 := by
    have : 1.25 ≤ l := by
      rw [hl, le_div_iff₀ h0]
      have := pi_gt_d6
      nlinarith
    nlinarith
  have hf : exp (-Q / 2) ≤ 0.5000001 := by
    have := (abs_le.1 hh).2
    norm_num at this ⊢
    linarith
  have p0 := exp_pos (-(l ^ 2 * Q) / 2)
  have h2 : exp (-(l ^ 2 * Q) / 2) ^ 2 ≤ exp (-Q / 2) ^ 3 := by
    rw [← exp_nat_mul, ← exp_nat_mul, exp_le_exp]
    push_cast
    nlinarith
  have h3 : exp (-Q / 2) ^ 3 ≤ 0.5000001 ^ 3 := pow_le_pow_left₀ (exp_pos _).le hf 3
  by_contra hc
  push Not at hc
  have : (0.36 : ℝ) ^ 2 ≤ exp (-(l ^ 2 * Q) / 2) ^ 2 := pow_le_pow_left₀ (by norm_num) hc 2
  norm_num at this h3
  linarith

/-- The default instrument with a cubic crystal of lattice constant 5 Å. -/
noncomputable def smallSetup : Setup := ⟨demo, ⟨5, 5, 5, 90, 90, 90⟩, ![1, 0, 0], ![0, 1, 0]⟩

theorem smallSetup_valid : smallSetup.Valid ((5 : ℝ) • 1) ((2 * π / 5) • 1) where
  cell := by
    constructor <;> simp only [smallSetup] <;> norm_num
  real := by
    have e : (90 : ℝ) * π / 180 = π / 2 := by ring
    constructor <;> simp [smallSetup, dotProduct, Fin.sum_univ_three, e] <;> norm_num
  dual := by
    intro i j
    fin_cases i <;> fin_cases j <;> simp [dotProduct, Matrix.one_apply] <;> ring
  indep := by
    intro s t h
    have h0 := congrFun h 0
    have h1 := congrFun h 1
    simp [smallSetup] at h0 h1
    exact ⟨h0, h1⟩
  noShape := rfl

/-- The hypotheses are met by the result of a calculation. -/
example : ∃ (V : View) (A : M4), (calcProjections (new smallSetup) (.list [1 / 2]) (.list [0]) (.list [0]) (.list [0]) 36).2 = .ok [V] ∧
    SPD A ∧ Shows A (1 / 2) 0 0 36 V := by
  have e : len (vecOf ((2 * π / 5) • 1) ![1 / 2, 0, 0]) = π / 5 := by
    have : vecOf ((2 * π / 5) • 1) ![1 / 2, 0, 0] ⬝ᵥ vecOf ((2 * π / 5) • 1) ![1 / 2, 0, 0] = (π / 5) ^ 2 := by
      simp [vecOf, dotProduct, Matrix.one_apply]
      ring
    unfold len
    rw [this, sqrt_sq (by have := pi_pos; positivity)]
  obtain ⟨rs, vs, h1, h2, h3, h4, h5, h6⟩ := C131_curves_partial (q := ⟨[1 / 2], [0], [0], [0]⟩) (n := 1) (npts := 36) smallSetup_valid
    ⟨rfl, rfl, rfl, rfl⟩ (demo_valid 1) (by
      intro p hp
      simp only [Query.points, keyPoints, hkls, List.zip_cons_cons, List.zip_nil_right, List.mem_cons, List.not_mem_nil, or_false] at hp
      rw [hp]
      refine ⟨fun h => by simpa using congrFun h 0, ⟨1 / 2, 0, ?_⟩, ?_⟩
      · funext i
        fin_cases i <;> simp [smallSetup]
      · rw [e]
        have a := pi_gt_d6
        have b := pi_lt_d6
        exact demo_reaches (by linarith) (by linarith) (by norm_num) (by norm_num)) (by norm_num)
  obtain ⟨r, rfl⟩ := List.length_eq_one_iff.1 h3
  obtain ⟨V, rfl⟩ := List.length_eq_one_iff.1 h4
  refine ⟨V, r.rms, h2, h5 r (by simp), ?_⟩
  have := h6 0 r (![1 / 2, 0, 0], 0) V rfl rfl rfl
  have c1 : coordinate ![1 / 2, 0, 0] smallSetup.u = 1 / 2 := by simp [coordinate, smallSetup, dotProduct, Fin.sum_univ_three]
  have c2 : coordinate ![1 / 2, 0, 0] smallSetup.v = 0 := by simp [coordinate, smallSetup, dotProduct, Fin.sum_univ_three]
  rwa [c1, c2] at this

end Verif.Resolution
