import Verif.Convolution.PropsMonotone
import Verif.Single.PropsForm
import Verif.Single.Positive

/-!
# Property C221: the profile of a line is never negative, and the convolution of single modes preserves signs and order
-/

namespace Verif.Single

open Real Matrix
open Verif.Crystal (Fail Vec Mat npSqrt npDiv npDiv_ok npSqrt_ok standardSystem)
open Verif.Resolution (M4 Inst Res calcResolution hkls Query demoSetup demoSetup_valid demo_valid)
open Verif.Tools (Arg cleanArgs SPD)
open Verif.Convolution (Err lift Point Pref weight step nodes Accuracy Method gridSize blockNumber lift_ok npDiv_some twoPoints twoPoints_ok sum_map_mono
  weight_nonneg step_nonneg Level Points calc_points)

/-! ## Lemmas -/

/-- What the order needs of the coefficients. -/
structure Signs (c : Coeffs) : Prop where
  gamma : 0 ≤ c.gamma
  detxy : 0 ≤ c.detxy
  detz : 0 ≤ c.detz

theorem coeffs_zip : ∀ {rs : List Res} {cs : List Coeffs}, (∀ r ∈ rs, SPD r.rms) → rs.mapM (fun r => coeffs r.rms) = .ok cs →
    ∀ x ∈ rs.zip cs, Signs x.2
  | [], cs, _, _ => by simp
  | a :: rs, cs, hs, h1 => by
    rw [List.mapM_cons] at h1
    obtain ⟨c, hc, h1⟩ := bind_eq_ok.1 h1
    obtain ⟨cs', hcs, h1⟩ := bind_eq_ok.1 h1
    rw [← Except.ok.inj h1, List.zip_cons_cons]
    refine List.forall_mem_cons.2 ⟨?_, coeffs_zip (fun r hr => hs r (List.mem_cons_of_mem _ hr)) hcs⟩
    obtain ⟨c', hc', -, -, -, h4, h5, h6, -⟩ := coeffs_ok (hs a List.mem_cons_self)
    rw [hc] at hc'
    obtain rfl := Except.ok.inj hc'
    exact ⟨h6.le, h4.le, h5.le⟩

theorem term_mono {n : ℕ} {c : Coeffs} (hc : Signs c) (ax : Vec × Vec × Vec) (p : Point) {D Γ I J : Fin n → Vec → ℝ} (hΓ : ∀ j q, 0 ≤ Γ j q)
    (h : ∀ j q, I j q ≤ J j q) (j : Fin n) (x y z : ℝ) : term c ax p (modes D Γ I j) x y z ≤ term c ax p (modes D Γ J j) x y z :=
  mul_le_mul_of_nonneg_right (h j _) (voigt_nonneg _ (mul_nonneg (hΓ j _) hc.gamma))

theorem gridSum_mono {n : ℕ} {c : Coeffs} (hc : Signs c) (ax : Vec × Vec × Vec) (p : Point) {D Γ I J : Fin n → Vec → ℝ} (hΓ : ∀ j q, 0 ≤ Γ j q)
    (h : ∀ j q, I j q ≤ J j q) (j : Fin n) (M0 M1 : ℕ) : gridSum c ax p (modes D Γ I j) M0 M1 ≤ gridSum c ax p (modes D Γ J j) M0 M1 :=
  sum_map_mono fun z _ => sum_map_mono fun y _ => sum_map_mono fun x _ =>
    div_le_div_of_nonneg_right (div_le_div_of_nonneg_right (mul_le_mul_of_nonneg_right (mul_le_mul_of_nonneg_right (term_mono hc ax p hΓ h j _ _ _)
      (mul_nonneg (weight_nonneg _) (weight_nonneg _))) (weight_nonneg _)) hc.detxy) hc.detz

theorem blockSum_mono {n : ℕ} {c : Coeffs} (hc : Signs c) (ax : Vec × Vec × Vec) (p : Point) {D Γ I J : Fin n → Vec → ℝ} (hΓ : ∀ j q, 0 ≤ Γ j q)
    (h : ∀ j q, I j q ≤ J j q) (j : Fin n) (r : Fin 3 → Fin 1000 → ℝ) :
    blockSum c ax p (modes D Γ I j) r ≤ blockSum c ax p (modes D Γ J j) r :=
  Finset.sum_le_sum fun k _ => div_le_div_of_nonneg_right (div_le_div_of_nonneg_right (mul_le_mul_of_nonneg_right (term_mono hc ax p hΓ h j _ _ _)
    (mul_nonneg (mul_nonneg (weight_nonneg _) (weight_nonneg _)) (weight_nonneg _))) hc.detxy) hc.detz

theorem blocks_mono {G : Type} {n : ℕ} (R : Random G) (seed : Option ℕ) {c : Coeffs} (hc : Signs c) (ax : Vec × Vec × Vec) (p : Point)
    {D Γ I J : Fin n → Vec → ℝ} (hΓ : ∀ j q, 0 ≤ Γ j q) (h : ∀ j q, I j q ≤ J j q) : ∀ (m : ℕ) (u v : Fin n → ℝ) (g : G), (∀ j, u j ≤ v j) →
    (∀ j, (blocks R seed c ax p (modes D Γ I) m (u, g)).1 j ≤ (blocks R seed c ax p (modes D Γ J) m (v, g)).1 j) ∧
      (blocks R seed c ax p (modes D Γ I) m (u, g)).2 = (blocks R seed c ax p (modes D Γ J) m (v, g)).2
  | 0, _, _, _, huv => ⟨huv, rfl⟩
  | m + 1, u, v, g, huv => by
    simp only [blocks]
    exact blocks_mono R seed hc ax p hΓ h m _ _ _ fun j => add_le_add (huv j) (blockSum_mono hc ax p hΓ h j _)

theorem fixAt_mono {n : ℕ} {c : Coeffs} (hc : Signs c) (ax : Vec × Vec × Vec) (p : Point) {D Γ I J : Fin n → Vec → ℝ} (hΓ : ∀ j q, 0 ≤ Γ j q)
    (h : ∀ j q, I j q ≤ J j q) {f : Fin n → ℝ} (hf : ∀ j, 0 ≤ f j) (M0 M1 : ℕ) :
    fixAt c ax p (modes D Γ I) f M0 M1 ≤ fixAt c ax p (modes D Γ J) f M0 M1 := by
  have e : (∑ j, gridSum c ax p (modes D Γ I j) M0 M1 * f j) * step M0 ^ 2 * step M1 ≤ (∑ j, gridSum c ax p (modes D Γ J j) M0 M1 * f j) * step M0 ^ 2 * step M1 :=
    mul_le_mul_of_nonneg_right (mul_le_mul_of_nonneg_right
      (Finset.sum_le_sum fun j _ => mul_le_mul_of_nonneg_right (gridSum_mono hc ax p hΓ h j M0 M1) (hf j)) (pow_nonneg (step_nonneg _) _)) (step_nonneg _)
  unfold fixAt
  dsimp only
  split_ifs
  · exact mul_le_mul_of_nonneg_right (mul_le_mul_of_nonneg_right e (by norm_num)) (by norm_num)
  · exact mul_le_mul_of_nonneg_right e (by norm_num)
  · exact mul_le_mul_of_nonneg_right e (by norm_num)
  · exact e

theorem mcAt_mono {G : Type} {n : ℕ} {R : Random G} {seed : Option ℕ} {c : Coeffs} (hc : Signs c) {ax : Vec × Vec × Vec} {p : Point}
    {D Γ I J : Fin n → Vec → ℝ} (hΓ : ∀ j q, 0 ≤ Γ j q) (h : ∀ j q, I j q ≤ J j q) {f : Fin n → ℝ} (hf : ∀ j, 0 ≤ f j) {x y : ℝ} {M : ℕ} {g g1 g2 : G}
    (h1 : mcAt R seed c ax p (modes D Γ I) f M g = .ok (x, g1)) (h2 : mcAt R seed c ax p (modes D Γ J) f M g = .ok (y, g2)) : x ≤ y ∧ g1 = g2 := by
  unfold mcAt at *
  have hb := blocks_mono R seed hc ax p (D := D) hΓ h M (fun _ => 0) (fun _ => 0) g fun _ => le_rfl
  revert h1 h2 hb
  generalize blocks R seed c ax p (modes D Γ I) M (fun _ => 0, g) = s
  generalize blocks R seed c ax p (modes D Γ J) M (fun _ => 0, g) = t
  obtain ⟨u, gu⟩ := s
  obtain ⟨v, gv⟩ := t
  rintro h1 h2 ⟨hb, hg⟩
  dsimp only at *
  obtain ⟨q1, hq1, h1⟩ := bind_eq_ok.1 h1
  obtain ⟨q2, hq2, h2⟩ := bind_eq_ok.1 h2
  obtain ⟨-, rfl⟩ := npDiv_some hq1
  obtain ⟨-, rfl⟩ := npDiv_some hq2
  obtain ⟨rfl, rfl⟩ := Prod.mk.inj (Except.ok.inj h1)
  obtain ⟨rfl, rfl⟩ := Prod.mk.inj (Except.ok.inj h2)
  have hp := pi_pos
  exact ⟨mul_le_mul_of_nonneg_right (div_le_div_of_nonneg_right (div_le_div_of_nonneg_right
    (Finset.sum_le_sum fun j _ => mul_le_mul_of_nonneg_right (hb j) (hf j)) (Nat.cast_nonneg _)) (by norm_num)) (by positivity), hg⟩

theorem mcAll_mono {G : Type} {n : ℕ} {R : Random G} {seed : Option ℕ} {ax : Vec × Vec × Vec} {D Γ I J : Fin n → Vec → ℝ} (hΓ : ∀ j q, 0 ≤ Γ j q)
    (h : ∀ j q, I j q ≤ J j q) {f : Pref n} (hf : ∀ p j, 0 ≤ f.factor p j) {M : ℕ} :
    ∀ {l : List (Point × Res × Coeffs)} {g g1 g2 : G} {l1 l2 : List ℝ}, (∀ x ∈ l, 0 ≤ x.2.1.r0 ∧ Signs x.2.2) →
      mcAll R seed ax (modes D Γ I) f M l g = .ok (l1, g1) →
      mcAll R seed ax (modes D Γ J) f M l g = .ok (l2, g2) → List.Forall₂ (· ≤ ·) l1 l2
  | [], g, g1, g2, l1, l2, _, h1, h2 => by
    obtain ⟨rfl, rfl⟩ := Prod.mk.inj (Except.ok.inj h1)
    obtain ⟨rfl, rfl⟩ := Prod.mk.inj (Except.ok.inj h2)
    exact .nil
  | x :: l, g, g1, g2, l1, l2, hr, h1, h2 => by
    unfold mcAll at h1 h2
    obtain ⟨⟨x1, k1⟩, hx1, h1⟩ := bind_eq_ok.1 h1
    obtain ⟨⟨x2, k2⟩, hx2, h2⟩ := bind_eq_ok.1 h2
    obtain ⟨hc, rfl⟩ := mcAt_mono (hr x List.mem_cons_self).2 hΓ h (hf x.1) (lift_ok hx1) (lift_ok hx2)
    dsimp only at h1 h2
    obtain ⟨⟨y1, m1⟩, hy1, h1⟩ := bind_eq_ok.1 h1
    obtain ⟨⟨y2, m2⟩, hy2, h2⟩ := bind_eq_ok.1 h2
    have ih := mcAll_mono hΓ h hf (l := l) (fun z hz => hr z (List.mem_cons_of_mem _ hz)) hy1 hy2
    obtain ⟨rfl, rfl⟩ := Prod.mk.inj (Except.ok.inj h1)
    obtain ⟨rfl, rfl⟩ := Prod.mk.inj (Except.ok.inj h2)
    exact .cons (add_le_add_left (mul_le_mul_of_nonneg_right hc (hr x List.mem_cons_self).1) _) ih

theorem map_forall₂ {α : Type} {F F' : α → ℝ} : ∀ {l : List α}, (∀ x ∈ l, F x ≤ F' x) → List.Forall₂ (· ≤ ·) (l.map F) (l.map F')
  | [], _ => .nil
  | x :: _, h => .cons (h x List.mem_cons_self) (map_forall₂ fun y hy => h y (List.mem_cons_of_mem _ hy))

theorem zip_signs {rs : List Res} {cs : List Coeffs} (ps : List Point) (hr : ∀ r ∈ rs, SPD r.rms ∧ 0 ≤ r.r0)
    (hcs : rs.mapM (fun r => coeffs r.rms) = .ok cs) : ∀ x ∈ ps.zip (rs.zip cs), 0 ≤ x.2.1.r0 ∧ Signs x.2.2 := fun x hx =>
  have hx' := (List.of_mem_zip hx).2
  ⟨(hr _ (List.of_mem_zip hx').1).2, coeffs_zip (fun r h => (hr r h).1) hcs _ hx'⟩

theorem convolveAt_mono {G : Type} {n : ℕ} {R : Random G} {g g1 g2 : G} {ax : Vec × Vec × Vec} {rs : List Res} {ps : List Point}
    {D Γ I J : Fin n → Vec → ℝ} {pref : Option (Pref n)} {nargout : ℤ} {method : Method} {acc : Accuracy} {seed : Option ℕ} {l1 l2 : List ℝ}
    (hΓ : ∀ j q, 0 ≤ Γ j q) (h : ∀ j q, I j q ≤ J j q) (hf : ∀ f, prefactor pref nargout = .ok f → ∀ p j, 0 ≤ f.factor p j)
    (hr : ∀ r ∈ rs, SPD r.rms ∧ 0 ≤ r.r0)
    (h1 : convolveAt R g ax rs ps (modes D Γ I) pref nargout method acc seed = .ok (l1, g1))
    (h2 : convolveAt R g ax rs ps (modes D Γ J) pref nargout method acc seed = .ok (l2, g2)) : List.Forall₂ (· ≤ ·) l1 l2 := by
  unfold convolveAt at *
  by_cases hl : rs.length = 1
  · rw [if_pos hl] at h1
    exact nomatch h1
  · rw [if_neg hl] at *
    obtain ⟨cs, hcs, h1⟩ := bind_eq_ok.1 h1
    rw [hcs] at h2
    simp only [ok_bind] at h2
    obtain ⟨f, hpf, h1⟩ := bind_eq_ok.1 h1
    rw [hpf] at h2
    simp only [ok_bind] at h2
    have hall := zip_signs ps hr (lift_ok hcs)
    cases method with
    | fix =>
      dsimp only at h1 h2
      obtain ⟨M, hM, h1⟩ := bind_eq_ok.1 h1
      rw [hM] at h2
      simp only [ok_bind] at h2
      obtain ⟨rfl, rfl⟩ := Prod.mk.inj (Except.ok.inj h1)
      obtain ⟨rfl, rfl⟩ := Prod.mk.inj (Except.ok.inj h2)
      exact map_forall₂ fun x hx =>
        add_le_add_left (mul_le_mul_of_nonneg_right (fixAt_mono (hall x hx).2 ax x.1 hΓ h (hf f hpf x.1) M.1 M.2) (hall x hx).1) _
    | mc =>
      dsimp only at h1 h2
      obtain ⟨M, hM, h1⟩ := bind_eq_ok.1 h1
      rw [hM] at h2
      simp only [ok_bind] at h2
      exact mcAll_mono hΓ h (hf f hpf) hall h1 h2
    | other => exact nomatch h1

theorem mixed_zero {n : ℕ} (D Γ I : Fin n → Vec → ℝ) : mixed 0 0 D Γ I I = modes D Γ fun _ _ => 0 := by
  funext j q
  unfold mixed modes
  norm_num

theorem fixAt_nonneg {n : ℕ} {c : Coeffs} (hc : Signs c) (ax : Vec × Vec × Vec) (p : Point) {D Γ I : Fin n → Vec → ℝ} (hΓ : ∀ j q, 0 ≤ Γ j q)
    (h : ∀ j q, 0 ≤ I j q) {f : Fin n → ℝ} (hf : ∀ j, 0 ≤ f j) (M0 M1 : ℕ) : 0 ≤ fixAt c ax p (modes D Γ I) f M0 M1 := by
  have h0 := fixAt_mixed c ax p D Γ I I 0 0 f M0 M1
  rw [mixed_zero] at h0
  have := fixAt_mono hc ax p (D := D) hΓ h hf M0 M1
  linarith

theorem mcAt_nonneg {G : Type} {n : ℕ} {R : Random G} {seed : Option ℕ} {c : Coeffs} (hc : Signs c) {ax : Vec × Vec × Vec} {p : Point}
    {D Γ I : Fin n → Vec → ℝ} (hΓ : ∀ j q, 0 ≤ Γ j q) (h : ∀ j q, 0 ≤ I j q) {f : Fin n → ℝ} (hf : ∀ j, 0 ≤ f j) {x : ℝ} {M : ℕ} {g g1 : G}
    (h1 : mcAt R seed c ax p (modes D Γ I) f M g = .ok (x, g1)) : 0 ≤ x := by
  have h0 := (mcAt_mixed (a := 0) (b := 0) h1 h1).1
  rw [mixed_zero] at h0
  have := (mcAt_mono hc hΓ h hf h0 h1).1
  linarith

theorem mcAll_nonneg {G : Type} {n : ℕ} {R : Random G} {seed : Option ℕ} {ax : Vec × Vec × Vec} {D Γ I : Fin n → Vec → ℝ} (hΓ : ∀ j q, 0 ≤ Γ j q)
    (h : ∀ j q, 0 ≤ I j q) {f : Pref n} (hf : ∀ p j, 0 ≤ f.factor p j) (hb : ∀ p, 0 ≤ f.background p) {M : ℕ} :
    ∀ {l : List (Point × Res × Coeffs)} {g g1 : G} {l1 : List ℝ}, (∀ x ∈ l, 0 ≤ x.2.1.r0 ∧ Signs x.2.2) →
      mcAll R seed ax (modes D Γ I) f M l g = .ok (l1, g1) → ∀ y ∈ l1, 0 ≤ y
  | [], g, g1, l1, _, h1 => by
    obtain ⟨rfl, rfl⟩ := Prod.mk.inj (Except.ok.inj h1)
    simp
  | x :: l, g, g1, l1, hr, h1 => by
    unfold mcAll at h1
    obtain ⟨⟨x1, k1⟩, hx1, h1⟩ := bind_eq_ok.1 h1
    have hc := mcAt_nonneg (hr x List.mem_cons_self).2 hΓ h (hf x.1) (lift_ok hx1)
    dsimp only at h1
    obtain ⟨⟨y1, m1⟩, hy1, h1⟩ := bind_eq_ok.1 h1
    have ih := mcAll_nonneg hΓ h hf hb (l := l) (fun z hz => hr z (List.mem_cons_of_mem _ hz)) hy1
    obtain ⟨rfl, rfl⟩ := Prod.mk.inj (Except.ok.inj h1)
    exact List.forall_mem_cons.2 ⟨add_nonneg (mul_nonneg hc (hr x List.mem_cons_self).1) (hb _), ih⟩

theorem convolveAt_nonneg {G : Type} {n : ℕ} {R : Random G} {g g1 : G} {ax : Vec × Vec × Vec} {rs : List Res} {ps : List Point}
    {D Γ I : Fin n → Vec → ℝ} {pref : Option (Pref n)} {nargout : ℤ} {method : Method} {acc : Accuracy} {seed : Option ℕ} {l1 : List ℝ}
    (hΓ : ∀ j q, 0 ≤ Γ j q) (h : ∀ j q, 0 ≤ I j q)
    (hf : ∀ f, prefactor pref nargout = .ok f → (∀ p j, 0 ≤ f.factor p j) ∧ ∀ p, 0 ≤ f.background p)
    (hr : ∀ r ∈ rs, SPD r.rms ∧ 0 ≤ r.r0)
    (h1 : convolveAt R g ax rs ps (modes D Γ I) pref nargout method acc seed = .ok (l1, g1)) : ∀ y ∈ l1, 0 ≤ y := by
  unfold convolveAt at *
  by_cases hl : rs.length = 1
  · rw [if_pos hl] at h1
    exact nomatch h1
  · rw [if_neg hl] at *
    obtain ⟨cs, hcs, h1⟩ := bind_eq_ok.1 h1
    obtain ⟨f, hpf, h1⟩ := bind_eq_ok.1 h1
    have hall := zip_signs ps hr (lift_ok hcs)
    cases method with
    | fix =>
      dsimp only at h1
      obtain ⟨M, hM, h1⟩ := bind_eq_ok.1 h1
      obtain ⟨rfl, rfl⟩ := Prod.mk.inj (Except.ok.inj h1)
      intro y hy
      obtain ⟨x, hx, rfl⟩ := List.mem_map.1 hy
      exact add_nonneg (mul_nonneg (fixAt_nonneg (hall x hx).2 ax x.1 hΓ h ((hf f hpf).1 x.1) M.1 M.2) (hall x hx).1) ((hf f hpf).2 _)
    | mc =>
      dsimp only at h1
      obtain ⟨M, hM, h1⟩ := bind_eq_ok.1 h1
      exact mcAll_nonneg hΓ h (hf f hpf).1 (hf f hpf).2 hall h1
    | other => exact nomatch h1

/-! ## C221 -/

/-- C221, profile: the approximations of the profile are never negative, at any distance from the line and for every width. -/
theorem C221_profile (x : ℝ) {a : ℝ} (ha : 0 ≤ a) : 0 ≤ voigt x a := voigt_nonneg x ha

/-- A narrow line, far from its centre: the fourth approximation, where the exact profile is far below the accuracy of the approximations. -/
example : 0 ≤ voigt 1000 (1 / 100) ∧ 0 ≤ voigt (-3) 0 ∧ 0 ≤ voigt 7 2 := ⟨C221_profile _ (by norm_num), C221_profile _ le_rfl, C221_profile _ (by norm_num)⟩

/-- C221, order.  For both methods, every `ACCURACY` and seed: for modes with the same dispersions and widths, where the intensities are nowhere larger than
others, the convolution is not larger at any of the points, provided that the factors of the modes and the widths are not negative. -/
theorem C221_order {G : Type} {n m : ℕ} {R : Random G} {g g1 g2 : G} {i i1 i2 : Inst} {E F : Mat} (hi : Level i.setup E F) {q : Query} (hq : q.Len m)
    (hS : i.setup.settings.Valid m) (hp : Points i.setup F q) {D Γ I J : Fin n → Vec → ℝ} {pref : Option (Pref n)} {nargout : ℤ} {method : Method}
    {acc : Accuracy} {seed : Option ℕ} {l1 l2 : List ℝ} (hΓ : ∀ j x, 0 ≤ Γ j x) (h : ∀ j x, I j x ≤ J j x)
    (hf : ∀ f, prefactor pref nargout = .ok f → ∀ p j, 0 ≤ f.factor p j)
    (h1 : convolve R g i (fun j x => ⟨D j x, I j x, Γ j x⟩) pref nargout (.list q.H) (.list q.K) (.list q.L) (.list q.W) method acc seed = (i1, .ok (l1, g1)))
    (h2 : convolve R g i (fun j x => ⟨D j x, J j x, Γ j x⟩) pref nargout (.list q.H) (.list q.K) (.list q.L) (.list q.W) method acc seed = (i2, .ok (l2, g2))) :
    List.Forall₂ (· ≤ ·) l1 l2 := by
  obtain ⟨i', rs, hc, -, hres, -, hgood⟩ := calc_points hi hq hS hp
  obtain ⟨hc1, z, h0, k, l, w, ax, hca, hax, h1⟩ := single_ok_iff.1 h1
  obtain ⟨hc2, z', h', k', l', w', ax', hca', hax', h2⟩ := single_ok_iff.1 h2
  rw [hc] at hc1 hc2
  obtain ⟨rfl, -⟩ := Prod.mk.inj hc1
  obtain ⟨rfl, -⟩ := Prod.mk.inj hc2
  rw [hca] at hca'
  obtain ⟨-, rfl, rfl, rfl, rfl⟩ : z = z' ∧ h0 = h' ∧ k = k' ∧ l = l' ∧ w = w' := by
    have := Except.ok.inj hca'
    simpa only [Prod.mk.injEq, List.cons.injEq, and_true] using this
  rw [hax] at hax'
  obtain rfl := Except.ok.inj hax'
  refine convolveAt_mono hΓ h hf ?_ h1 h2
  rw [hres]
  exact fun r hr => ⟨(hgood r hr).1, (hgood r hr).2.2.le⟩

/-- C221, sign.  For both methods, every `ACCURACY` and seed: the convolution of modes with intensities and widths that are nowhere negative, with factors of
the modes and a background that are not negative, is not negative at any of the points. -/
theorem C221_nonneg {G : Type} {n m : ℕ} {R : Random G} {g g1 : G} {i i1 : Inst} {E F : Mat} (hi : Level i.setup E F) {q : Query} (hq : q.Len m)
    (hS : i.setup.settings.Valid m) (hp : Points i.setup F q) {S : Fin n → Vec → Mode} {pref : Option (Pref n)} {nargout : ℤ} {method : Method}
    {acc : Accuracy} {seed : Option ℕ} {l1 : List ℝ} (h : ∀ j x, 0 ≤ (S j x).inte ∧ 0 ≤ (S j x).width)
    (hf : ∀ f, prefactor pref nargout = .ok f → (∀ p j, 0 ≤ f.factor p j) ∧ ∀ p, 0 ≤ f.background p)
    (h1 : convolve R g i S pref nargout (.list q.H) (.list q.K) (.list q.L) (.list q.W) method acc seed = (i1, .ok (l1, g1))) :
    ∀ y ∈ l1, 0 ≤ y := by
  obtain ⟨i', rs, hc, -, hres, -, hgood⟩ := calc_points hi hq hS hp
  obtain ⟨hc', _, _, _, _, _, _, -, -, h1⟩ := single_ok_iff.1 h1
  rw [hc] at hc'
  obtain ⟨rfl, -⟩ := Prod.mk.inj hc'
  refine convolveAt_nonneg (D := fun j x => (S j x).disp) (I := fun j x => (S j x).inte) (Γ := fun j x => (S j x).width)
    (fun j x => (h j x).2) (fun j x => (h j x).1) hf ?_ h1
  rw [hres]
  exact fun r hr => ⟨(hgood r hr).1, (hgood r hr).2.2.le⟩

/-- Two intensities of a mode with the dispersion `1 + q₀²` and the width `1/2`, at two points of the demonstration instrument. -/
example {G : Type} (gen : Random G) (g : G) : ∃ i' l1 l2,
    convolve gen g (Verif.Resolution.new demoSetup) (fun (_ : Fin 1) q => ⟨1 + q 0 ^ 2, q 1 ^ 2, 1 / 2⟩) (some ⟨fun _ _ => 3, fun _ => 1⟩) 2
      (.list twoPoints.H) (.list twoPoints.K) (.list twoPoints.L) (.list twoPoints.W) .fix (.list [3, 2]) none = (i', .ok (l1, g)) ∧
    convolve gen g (Verif.Resolution.new demoSetup) (fun (_ : Fin 1) q => ⟨1 + q 0 ^ 2, q 1 ^ 2 + 2, 1 / 2⟩) (some ⟨fun _ _ => 3, fun _ => 1⟩) 2
      (.list twoPoints.H) (.list twoPoints.K) (.list twoPoints.L) (.list twoPoints.W) .fix (.list [3, 2]) none = (i', .ok (l2, g)) ∧
    List.Forall₂ (· ≤ ·) l1 l2 ∧ ∀ y ∈ l1, 0 ≤ y := by
  have hc := fun S : Fin 1 → Vec → Mode => convolve_fix gen g (i := Verif.Resolution.new demoSetup) (.of demoSetup_valid) (q := twoPoints) (m := 2)
    ⟨rfl, rfl, rfl, rfl⟩ (by norm_num) (demo_valid 2) twoPoints_ok S (some ⟨fun _ _ => 3, fun _ => 1⟩) 2 rfl none
  obtain ⟨i1, _, _, _, _, a1, -, -, -, -, b1⟩ := hc fun _ q => ⟨1 + q 0 ^ 2, q 1 ^ 2, 1 / 2⟩
  obtain ⟨i2, _, _, _, _, a2, -, -, -, -, c1⟩ := hc fun _ q => ⟨1 + q 0 ^ 2, q 1 ^ 2 + 2, 1 / 2⟩
  rw [a1] at a2
  obtain ⟨rfl, -⟩ := Prod.mk.inj a2
  have hf : ∀ f : Pref 1, prefactor (some ⟨fun _ _ => 3, fun _ => 1⟩) 2 = .ok f → (∀ p j, 0 ≤ f.factor p j) ∧ ∀ p, 0 ≤ f.background p := by
    intro f hf
    rw [← Except.ok.inj hf]
    exact ⟨fun _ _ => by norm_num, fun _ => by norm_num⟩
  exact ⟨i1, _, _, b1 3 2, c1 3 2, C221_order (i := Verif.Resolution.new demoSetup) (.of demoSetup_valid) (q := twoPoints) (m := 2)
    ⟨rfl, rfl, rfl, rfl⟩ (demo_valid 2) twoPoints_ok (D := fun _ q => 1 + q 0 ^ 2) (Γ := fun _ _ => 1 / 2) (I := fun _ q => q 1 ^ 2)
      (J := fun _ q => q 1 ^ 2 + 2) (fun _ _ => by norm_num) (fun _ q => by linarith) (fun f h => (hf f h).1) (b1 3 2) (c1 3 2),
    C221_nonneg (i := Verif.Resolution.new demoSetup) (.of demoSetup_valid) (q := twoPoints) (m := 2)
    ⟨rfl, rfl, rfl, rfl⟩ (demo_valid 2) twoPoints_ok (fun _ q => ⟨sq_nonneg (q 1), by norm_num⟩) hf (b1 3 2)⟩

end Verif.Single
