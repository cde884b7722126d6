import Verif.Convolution.Spec
import Verif.Resolution.PropsView

/-! # The resolution at a list of points in the scattering plane -/

namespace Verif.Convolution

open Real Matrix
open Verif.Crystal (Fail Vec Mat standardSystem vecOf len)
open Verif.Resolution (M4 Decoupled Inst Setup Settings Res calcResolution calcInQ hkls Query clean_query InPlane Reaches frame frame_ok direction
  direction_inPlane direction_unit tmat toCrystal turnSample M3 rot3 Flat FlatShape Frame spd_turned hkls_length C61_spd C133_Q Decoupled.turned mapM_ok)
open Verif.Tools (quad SPD Arg cleanArgs)

/-- What is asked of the points: the instrument can reach them, and they lie in the scattering plane. -/
def Points (s : Setup) (F : Mat) (q : Query) : Prop :=
  ∀ p ∈ (hkls q.H q.K q.L).zip q.W, p.1 ≠ 0 ∧ Reaches s.settings (len (vecOf F p.1)) p.2 ∧ InPlane s p.1

/-- What is asked of the sample: a valid cell, real vectors for it, independent orientation vectors, and a shape that is the same
seen from above and below, if any. -/
structure Level (s : Setup) (E F : Mat) : Prop where
  cell : Verif.Crystal.Valid s.lattice
  real : Verif.Crystal.Realises s.lattice E
  dual : Verif.Crystal.Dual E F
  indep : Verif.Crystal.Indep s.u s.v
  shape : s.settings.sample.shape = none ∨ ∃ M, s.settings.sample.shape = some (.one M) ∧ Flat M

theorem Level.of {s : Setup} {E F : Mat} (h : s.Valid E F) : Level s E F := ⟨h.cell, h.real, h.dual, h.indep, Or.inl h.noShape⟩

theorem Level.axes {s : Setup} {E F : Mat} (h : Level s E F) : ∃ x y z, standardSystem s.lattice s.u s.v = .ok (x, y, z) ∧
    Frame (vecOf F x) (vecOf F y) (vecOf F z) ∧ (∃ r : ℝ, 0 < r ∧ s.u = r • x) ∧ ∃ r t : ℝ, 0 < t ∧ s.v = r • x + t • y := by
  obtain ⟨x, y, z, h1, xx, yy, zz, xy, xz, yz, hu, hv⟩ := Verif.Crystal.C64_standard_system h.cell h.real h.dual h.indep
  exact ⟨x, y, z, h1, ⟨xx, yy, zz, xy, xz, yz⟩, hu, hv⟩

/-- A turned shape. -/
theorem spd_rot3 {M : M3} (h : SPD M) {a b : ℝ} (hab : a ^ 2 + b ^ 2 = 1) : SPD (rot3 a b * M * (rot3 a b)ᵀ) := by
  rw [← Verif.Resolution.posDef_iff_spd] at *
  refine Verif.Resolution.congr_posDef h _ fun v hv => ?_
  have e0 := congrFun hv 0
  have e1 := congrFun hv 1
  have e2 := congrFun hv 2
  simp [rot3, Matrix.vecMul, dotProduct, Fin.sum_univ_three] at e0 e1 e2
  funext i
  fin_cases i
  · change v 0 = 0
    linear_combination a * e0 + b * e1 - v 0 * hab
  · change v 1 = 0
    linear_combination -b * e0 + a * e1 - v 1 * hab
  · exact e2

theorem flat_rot3 {M : M3} (h : Flat M) (a b : ℝ) : Flat (rot3 a b * M * (rot3 a b)ᵀ) := by
  obtain ⟨h1, h2, h3, h4⟩ := h
  refine ⟨?_, ?_, ?_, ?_⟩ <;> simp [rot3, Matrix.mul_apply, Matrix.vecMul, dotProduct, Fin.sum_univ_three, h1, h2, h3, h4]

theorem calc_points {i : Inst} {E F : Mat} (h : Level i.setup E F) {q : Query} {n : ℕ} (hq : q.Len n) (hS : i.setup.settings.Valid n)
    (hp : Points i.setup F q) : ∃ i' rs, calcResolution i (.list q.H) (.list q.K) (.list q.L) (.list q.W) = (i', none) ∧
      (i'.setup.lattice = i.setup.lattice ∧ i'.setup.u = i.setup.u ∧ i'.setup.v = i.setup.v) ∧ i'.result = some rs ∧ rs.length = n ∧ ∀ r ∈ rs, SPD r.rms ∧ Decoupled r.rms ∧ 0 < r.r0 := by
  obtain ⟨x, y, z, hs, hfr, hu, hv⟩ := h.axes
  have hlen := hkls_length hq.H hq.K hq.L
  have mem : ∀ a ∈ hkls q.H q.K q.L, ∃ w, (a, w) ∈ (hkls q.H q.K q.L).zip q.W := by
    intro a ha
    obtain ⟨k, hk, rfl⟩ := List.mem_iff_getElem.1 ha
    have hk' : k < q.W.length := by rw [hq.W]; omega
    exact ⟨q.W[k], List.mem_iff_getElem.2 ⟨k, by simp [hk, hk'], by simp⟩⟩
  obtain ⟨f, hfdef⟩ : ∃ f : Vec → ℝ × ℝ × ℝ, f = fun a => (len (vecOf F a), vecOf F x ⬝ᵥ direction F a, vecOf F y ⬝ᵥ direction F a) := ⟨_, rfl⟩
  have hfr' : (hkls q.H q.K q.L).mapM (frame i.setup) = .ok ((hkls q.H q.K q.L).map f) := mapM_ok fun a ha => by
    obtain ⟨w, hw⟩ := mem a ha
    rw [frame_ok h.cell h.real h.dual hs (hp _ hw).1, hfdef]
  have hunit : ∀ a ∈ hkls q.H q.K q.L, (f a).2.1 ^ 2 + (f a).2.2 ^ 2 = 1 := by
    intro a hm
    obtain ⟨w, hw⟩ := mem a hm
    obtain ⟨hne, -, hin⟩ := hp _ hw
    have hd := direction_inPlane hfr.xx hfr.yy hfr.xy hu hv hin
    have hn := direction_unit h.cell h.real h.dual hne
    rw [hfdef]
    dsimp only at hd hn ⊢
    generalize direction F a = D at *
    generalize vecOf F x ⬝ᵥ D = xq at *
    generalize vecOf F y ⬝ᵥ D = yq at *
    rw [hd] at hn
    simp only [add_dotProduct, dotProduct_add, smul_dotProduct, dotProduct_smul, smul_eq_mul, hfr.xx, hfr.yy, hfr.xy,
      dotProduct_comm (vecOf F y) (vecOf F x)] at hn
    linear_combination hn
  have hlen2 : ((((hkls q.H q.K q.L).map f).map Prod.fst).zip q.W).length = n := by
    simp [hlen, hq.W]
  obtain ⟨sh, hturn, hflat, hS'⟩ : ∃ sh, turnSample i.setup.settings.sample.shape ((hkls q.H q.K q.L).map f) = .ok sh ∧ FlatShape sh ∧
      ({ i.setup.settings with sample.shape := sh } : Settings).Valid n := by
    rcases h.shape with hs | ⟨M, hs, hM⟩
    · refine ⟨none, by rw [hs]; rfl, trivial, hS.mono, hS.ana, hS.guide, hS.monitor, hS.detector, ?_, hS.hcol, hS.vcol, hS.arms⟩
      exact ⟨hS.sample.width, hS.sample.depth, hS.sample.height, (fun _ e => nomatch e), (fun _ e => nomatch e), hS.sample.dir⟩
    · refine ⟨some (.stack (((hkls q.H q.K q.L).map f).map fun f => rot3 f.2.1 f.2.2 * M * (rot3 f.2.1 f.2.2)ᵀ)), by rw [hs]; rfl, ?_,
        hS.mono, hS.ana, hS.guide, hS.monitor, hS.detector, ?_, hS.hcol, hS.vcol, hS.arms⟩
      · intro M' hM'
        obtain ⟨a, -, rfl⟩ := List.mem_map.1 hM'
        exact flat_rot3 hM _ _
      · refine ⟨hS.sample.width, hS.sample.depth, hS.sample.height, (fun _ e => nomatch e), fun l e => ?_, hS.sample.dir⟩
        obtain rfl := Verif.Resolution.Shape.stack.inj (Option.some.inj e)
        refine ⟨by simp [hlen], fun M' hM' => ?_⟩
        obtain ⟨b, hb, rfl⟩ := List.mem_map.1 hM'
        obtain ⟨a, ha, rfl⟩ := List.mem_map.1 hb
        exact spd_rot3 (hS.sample.one M hs) (hunit a ha)
  obtain ⟨rs, h1, h2, h3⟩ := C61_spd { i.setup.settings with sample.shape := sh } ((((hkls q.H q.K q.L).map f).map Prod.fst).zip q.W) (hlen2.symm ▸ hS') (by
    intro p hp'
    rw [List.map_map, List.zip_map_left] at hp'
    obtain ⟨b, hb, rfl⟩ := List.mem_map.1 hp'
    have := (hp b hb).2.1
    have : Reaches { i.setup.settings with sample.shape := sh } (len (vecOf F b.1)) b.2 :=
      ⟨this.ei, this.ef, this.mono, this.ana, this.closes, this.q⟩
    simpa [hfdef] using this)
  have hdec := C133_Q hflat h1
  have hcalc : calcResolution i (.list q.H) (.list q.K) (.list q.L) (.list q.W) =
      ({ i with keys := some (q.H, q.K, q.L, q.W), setup.settings.sample.shape := sh, result := some (List.zipWith toCrystal ((hkls q.H q.K q.L).map f) rs) }, none) := by
    unfold calcResolution
    rw [clean_query hq]
    dsimp only
    rw [hfr']
    dsimp only
    rw [hturn]
    dsimp only
    rw [h1]
  refine ⟨_, _, hcalc, ⟨rfl, rfl, rfl⟩, rfl, ?_, ?_⟩
  · rw [List.length_zipWith, h2, hlen2]
    simp [hlen]
  · intro r hr
    obtain ⟨k, hk, rfl⟩ := List.mem_iff_getElem.1 hr
    rw [List.length_zipWith, List.length_map] at hk
    have hk1 : k < (hkls q.H q.K q.L).length := by omega
    have hk2 : k < rs.length := by omega
    rw [List.getElem_zipWith, List.getElem_map]
    have hm := List.getElem_mem (l := hkls q.H q.K q.L) hk1
    generalize (hkls q.H q.K q.L)[k] = a at hm
    obtain ⟨hA, hr0⟩ := h3 _ (List.getElem_mem hk2)
    have hD := hdec _ (List.getElem_mem hk2)
    exact ⟨spd_turned hA (hunit a hm), hD.turned _ _, hr0⟩

end Verif.Convolution
