import Verif.Convolution.PropsForm

/-!
# Property C218: the convolution with the resolution preserves signs and order
-/

namespace Verif.Convolution

open Real Matrix
open Verif.Crystal (Fail Vec Mat npSqrt npDiv standardSystem)
open Verif.Resolution (M4 Inst Res calcResolution hkls Query demoSetup demoSetup_valid demo_valid)
open Verif.Tools (Arg cleanArgs)

/-! ## Lemmas -/

theorem sum_map_mono {ι : Type} {l : List ι} {f g : ι → ℝ} (h : ∀ x ∈ l, f x ≤ g x) : (l.map f).sum ≤ (l.map g).sum := List.sum_le_sum h

theorem gridSum_mono (c : Coeffs) (ax : Vec × Vec × Vec) (p : Point) {S T : Point → ℝ} (h : ∀ x, S x ≤ T x) (M0 M1 : ℕ) :
    gridSum c ax p S M0 M1 ≤ gridSum c ax p T M0 M1 :=
  sum_map_mono fun z _ => sum_map_mono fun w _ => sum_map_mono fun x _ => sum_map_mono fun y _ =>
    mul_le_mul_of_nonneg_right (mul_le_mul_of_nonneg_right (h _) (mul_nonneg (mul_nonneg (weight_nonneg _) (weight_nonneg _)) (weight_nonneg _))) (weight_nonneg _)

theorem blockSum_mono (c : Coeffs) (ax : Vec × Vec × Vec) (p : Point) {S T : Point → ℝ} (h : ∀ x, S x ≤ T x) (r : Fin 4 → Fin 1000 → ℝ) :
    blockSum c ax p S r ≤ blockSum c ax p T r :=
  Finset.sum_le_sum fun k _ => mul_le_mul_of_nonneg_right (h _)
    (mul_nonneg (mul_nonneg (mul_nonneg (weight_nonneg _) (weight_nonneg _)) (weight_nonneg _)) (weight_nonneg _))

theorem blocks_mono {G : Type} {n : ℕ} (R : Random G) (seed : Option ℕ) (c : Coeffs) (ax : Vec × Vec × Vec) (p : Point)
    {S T : Fin n → Point → ℝ} (h : ∀ j x, S j x ≤ T j x) : ∀ (m : ℕ) (u v : Fin n → ℝ) (g : G), (∀ j, u j ≤ v j) →
    (∀ j, (blocks R seed c ax p S m (u, g)).1 j ≤ (blocks R seed c ax p T m (v, g)).1 j) ∧
      (blocks R seed c ax p S m (u, g)).2 = (blocks R seed c ax p T m (v, g)).2
  | 0, _, _, _, huv => ⟨huv, rfl⟩
  | m + 1, u, v, g, huv => by
    simp only [blocks]
    exact blocks_mono R seed c ax p h m _ _ _ fun j => add_le_add (huv j) (blockSum_mono c ax p (h j) _)

theorem step_nonneg (M : ℕ) : 0 ≤ step M := by
  unfold step
  have := pi_pos
  positivity

theorem fixAt_mono {n : ℕ} {c : Coeffs} {ax : Vec × Vec × Vec} {p : Point} {S T : Fin n → Point → ℝ} (h : ∀ j x, S j x ≤ T j x) {f : Fin n → ℝ}
    (hf : ∀ j, 0 ≤ f j) {x y : ℝ} {M0 M1 : ℕ} (h1 : fixAt c ax p S f M0 M1 = .ok x) (h2 : fixAt c ax p T f M0 M1 = .ok y) : x ≤ y := by
  unfold fixAt at *
  obtain ⟨root, hr, h1⟩ := bind_eq_ok.1 h1
  rw [hr, ok_bind] at h2
  obtain ⟨u, hu, h1⟩ := bind_eq_ok.1 h1
  obtain ⟨v, hv, h2⟩ := bind_eq_ok.1 h2
  obtain ⟨-, rfl⟩ := npDiv_some hu
  obtain ⟨-, rfl⟩ := npDiv_some hv
  have h0 : 0 ≤ root := by
    unfold npSqrt at hr
    split_ifs at hr
    rw [← Except.ok.inj hr]
    exact sqrt_nonneg _
  have e : (∑ j, gridSum c ax p (S j) M0 M1 * f j) * step M0 ^ 3 * step M1 / root ≤ (∑ j, gridSum c ax p (T j) M0 M1 * f j) * step M0 ^ 3 * step M1 / root :=
    div_le_div_of_nonneg_right (mul_le_mul_of_nonneg_right (mul_le_mul_of_nonneg_right
      (Finset.sum_le_sum fun j _ => mul_le_mul_of_nonneg_right (gridSum_mono c ax p (h j) M0 M1) (hf j)) (pow_nonneg (step_nonneg _) _)) (step_nonneg _)) h0
  rw [← Except.ok.inj h1, ← Except.ok.inj h2]
  split_ifs
  · exact mul_le_mul_of_nonneg_right (mul_le_mul_of_nonneg_right e (by norm_num)) (by norm_num)
  · exact mul_le_mul_of_nonneg_right e (by norm_num)
  · exact mul_le_mul_of_nonneg_right e (by norm_num)
  · exact e

theorem mcAt_mono {G : Type} {n : ℕ} {R : Random G} {seed : Option ℕ} {c : Coeffs} {ax : Vec × Vec × Vec} {p : Point}
    {S T : Fin n → Point → ℝ} (h : ∀ j x, S j x ≤ T j x) {f : Fin n → ℝ} (hf : ∀ j, 0 ≤ f j) {x y : ℝ} {M : ℕ} {g g1 g2 : G}
    (h1 : mcAt R seed c ax p S f M g = .ok (x, g1)) (h2 : mcAt R seed c ax p T f M g = .ok (y, g2)) : x ≤ y ∧ g1 = g2 := by
  unfold mcAt at *
  have hb := blocks_mono R seed c ax p h M (fun _ => 0) (fun _ => 0) g fun _ => le_rfl
  revert h1 h2 hb
  generalize blocks R seed c ax p S M (fun _ => 0, g) = s
  generalize blocks R seed c ax p T M (fun _ => 0, g) = t
  obtain ⟨u, gu⟩ := s
  obtain ⟨v, gv⟩ := t
  rintro h1 h2 ⟨hb, hg⟩
  dsimp only at *
  obtain ⟨q1, hq1, h1⟩ := bind_eq_ok.1 h1
  obtain ⟨q2, hq2, h2⟩ := bind_eq_ok.1 h2
  obtain ⟨root, hr, h1⟩ := bind_eq_ok.1 h1
  rw [hr, ok_bind] at h2
  obtain ⟨w1, hw1, h1⟩ := bind_eq_ok.1 h1
  obtain ⟨w2, hw2, h2⟩ := bind_eq_ok.1 h2
  obtain ⟨-, rfl⟩ := npDiv_some hq1
  obtain ⟨-, rfl⟩ := npDiv_some hq2
  obtain ⟨-, rfl⟩ := npDiv_some hw1
  obtain ⟨-, rfl⟩ := npDiv_some hw2
  obtain ⟨rfl, rfl⟩ := Prod.mk.inj (Except.ok.inj h1)
  obtain ⟨rfl, rfl⟩ := Prod.mk.inj (Except.ok.inj h2)
  have h0 : 0 ≤ root := by
    unfold npSqrt at hr
    split_ifs at hr
    rw [← Except.ok.inj hr]
    exact sqrt_nonneg _
  have hp := pi_pos
  refine ⟨div_le_div_of_nonneg_right (mul_le_mul_of_nonneg_right (div_le_div_of_nonneg_right (div_le_div_of_nonneg_right
    (Finset.sum_le_sum fun j _ => mul_le_mul_of_nonneg_right (hb j) (hf j)) (Nat.cast_nonneg _)) (by norm_num)) (by positivity)) h0, hg⟩

theorem fixAll_mono {n : ℕ} {ax : Vec × Vec × Vec} {S T : Fin n → Point → ℝ} (h : ∀ j x, S j x ≤ T j x) {f : Pref n}
    (hf : ∀ p j, 0 ≤ f.factor p j) {M : ℕ × ℕ} : ∀ {l : List (Point × Res × Coeffs)} {l1 l2 : List ℝ}, (∀ x ∈ l, 0 ≤ x.2.1.r0) →
      fixAll ax S f M l = .ok l1 → fixAll ax T f M l = .ok l2 → List.Forall₂ (· ≤ ·) l1 l2
  | [], l1, l2, _, h1, h2 => by
    rw [← Except.ok.inj h1, ← Except.ok.inj h2]
    exact .nil
  | x :: l, l1, l2, hr, h1, h2 => by
    unfold fixAll at *
    rw [List.mapM_cons] at *
    obtain ⟨x1, hx1, h1⟩ := bind_eq_ok.1 h1
    obtain ⟨x2, hx2, h2⟩ := bind_eq_ok.1 h2
    obtain ⟨y1, hy1, h1⟩ := bind_eq_ok.1 h1
    obtain ⟨y2, hy2, h2⟩ := bind_eq_ok.1 h2
    have ih := fixAll_mono h hf (l := l) (fun z hz => hr z (List.mem_cons_of_mem _ hz)) hy1 hy2
    obtain ⟨z1, hz1, hx1⟩ := bind_eq_ok.1 hx1
    obtain ⟨z2, hz2, hx2⟩ := bind_eq_ok.1 hx2
    rw [← Except.ok.inj h1, ← Except.ok.inj h2, ← Except.ok.inj hx1, ← Except.ok.inj hx2]
    exact .cons (add_le_add_left (mul_le_mul_of_nonneg_right (fixAt_mono h (hf x.1) (lift_ok hz1) (lift_ok hz2)) (hr x List.mem_cons_self)) _) ih

theorem mcAll_mono {G : Type} {n : ℕ} {R : Random G} {seed : Option ℕ} {ax : Vec × Vec × Vec} {S T : Fin n → Point → ℝ}
    (h : ∀ j x, S j x ≤ T j x) {f : Pref n} (hf : ∀ p j, 0 ≤ f.factor p j) {M : ℕ} :
    ∀ {l : List (Point × Res × Coeffs)} {g g1 g2 : G} {l1 l2 : List ℝ}, (∀ x ∈ l, 0 ≤ x.2.1.r0) → mcAll R seed ax S f M l g = .ok (l1, g1) →
      mcAll R seed ax T f M l g = .ok (l2, g2) → List.Forall₂ (· ≤ ·) l1 l2
  | [], g, g1, g2, l1, l2, _, h1, h2 => by
    obtain ⟨rfl, rfl⟩ := Prod.mk.inj (Except.ok.inj h1)
    obtain ⟨rfl, rfl⟩ := Prod.mk.inj (Except.ok.inj h2)
    exact .nil
  | x :: l, g, g1, g2, l1, l2, hr, h1, h2 => by
    unfold mcAll at h1 h2
    obtain ⟨⟨x1, k1⟩, hx1, h1⟩ := bind_eq_ok.1 h1
    obtain ⟨⟨x2, k2⟩, hx2, h2⟩ := bind_eq_ok.1 h2
    obtain ⟨hc, rfl⟩ := mcAt_mono h (hf x.1) (lift_ok hx1) (lift_ok hx2)
    dsimp only at h1 h2
    obtain ⟨⟨y1, m1⟩, hy1, h1⟩ := bind_eq_ok.1 h1
    obtain ⟨⟨y2, m2⟩, hy2, h2⟩ := bind_eq_ok.1 h2
    have ih := mcAll_mono h hf (l := l) (fun z hz => hr z (List.mem_cons_of_mem _ hz)) hy1 hy2
    obtain ⟨rfl, rfl⟩ := Prod.mk.inj (Except.ok.inj h1)
    obtain ⟨rfl, rfl⟩ := Prod.mk.inj (Except.ok.inj h2)
    exact .cons (add_le_add_left (mul_le_mul_of_nonneg_right hc (hr x List.mem_cons_self)) _) ih

theorem convolveAt_mono {G : Type} {n : ℕ} {R : Random G} {g g1 g2 : G} {ax : Vec × Vec × Vec} {rs : List Res} {ps : List Point}
    {S T : Fin n → Point → ℝ} {pref : Option (Pref n)} {nargout : ℤ} {method : Method} {acc : Accuracy} {seed : Option ℕ} {l1 l2 : List ℝ}
    (h : ∀ j x, S j x ≤ T j x) (hf : ∀ f, prefactor pref nargout = .ok f → ∀ p j, 0 ≤ f.factor p j) (hr : ∀ r ∈ rs, 0 ≤ r.r0)
    (h1 : convolveAt R g ax rs ps S pref nargout method acc seed = .ok (l1, g1))
    (h2 : convolveAt R g ax rs ps T pref nargout method acc seed = .ok (l2, g2)) : List.Forall₂ (· ≤ ·) l1 l2 := by
  unfold convolveAt at *
  by_cases hl : rs.length = 1
  · rw [if_pos hl] at h1
    exact nomatch h1
  · rw [if_neg hl] at *
    obtain ⟨cs, hcs, h1⟩ := bind_eq_ok.1 h1
    rw [hcs] at h2
    simp only [ok_bind] at h2
    obtain ⟨f, hpf, h1⟩ := bind_eq_ok.1 h1
    rw [hpf] at h2
    simp only [ok_bind] at h2
    have hall : ∀ x ∈ ps.zip (rs.zip cs), 0 ≤ x.2.1.r0 := fun x hx => hr _ (List.of_mem_zip (List.of_mem_zip hx).2).1
    cases method with
    | fix =>
      dsimp only at h1 h2
      obtain ⟨M, hM, h1⟩ := bind_eq_ok.1 h1
      rw [hM] at h2
      simp only [ok_bind] at h2
      obtain ⟨u, hu, h1⟩ := bind_eq_ok.1 h1
      obtain ⟨v, hv, h2⟩ := bind_eq_ok.1 h2
      obtain ⟨rfl, rfl⟩ := Prod.mk.inj (Except.ok.inj h1)
      obtain ⟨rfl, rfl⟩ := Prod.mk.inj (Except.ok.inj h2)
      exact fixAll_mono h (hf f hpf) hall hu hv
    | mc =>
      dsimp only at h1 h2
      obtain ⟨M, hM, h1⟩ := bind_eq_ok.1 h1
      rw [hM] at h2
      simp only [ok_bind] at h2
      exact mcAll_mono h (hf f hpf) hall h1 h2
    | other => exact nomatch h1

theorem fixAt_nonneg {n : ℕ} {c : Coeffs} {ax : Vec × Vec × Vec} {p : Point} {S : Fin n → Point → ℝ} (h : ∀ j x, 0 ≤ S j x) {f : Fin n → ℝ}
    (hf : ∀ j, 0 ≤ f j) {x : ℝ} {M0 M1 : ℕ} (h1 : fixAt c ax p S f M0 M1 = .ok x) : 0 ≤ x := by
  have h0 := fixAt_combine (a := 0) (b := 0) h1 h1
  have := fixAt_mono (fun j q => by unfold combine; linarith [h j q]) hf h0 h1
  linarith

theorem mcAt_nonneg {G : Type} {n : ℕ} {R : Random G} {seed : Option ℕ} {c : Coeffs} {ax : Vec × Vec × Vec} {p : Point}
    {S : Fin n → Point → ℝ} (h : ∀ j x, 0 ≤ S j x) {f : Fin n → ℝ} (hf : ∀ j, 0 ≤ f j) {x : ℝ} {M : ℕ} {g g1 : G}
    (h1 : mcAt R seed c ax p S f M g = .ok (x, g1)) : 0 ≤ x := by
  have h0 := (mcAt_combine (a := 0) (b := 0) h1 h1).1
  have := (mcAt_mono (fun j q => by unfold combine; linarith [h j q]) hf h0 h1).1
  linarith

theorem fixAll_nonneg {n : ℕ} {ax : Vec × Vec × Vec} {S : Fin n → Point → ℝ} (h : ∀ j x, 0 ≤ S j x) {f : Pref n}
    (hf : ∀ p j, 0 ≤ f.factor p j) (hb : ∀ p, 0 ≤ f.background p) {M : ℕ × ℕ} : ∀ {l : List (Point × Res × Coeffs)} {l1 : List ℝ},
      (∀ x ∈ l, 0 ≤ x.2.1.r0) → fixAll ax S f M l = .ok l1 → ∀ y ∈ l1, 0 ≤ y
  | [], l1, _, h1 => by
    rw [← Except.ok.inj h1]
    simp
  | x :: l, l1, hr, h1 => by
    unfold fixAll at *
    rw [List.mapM_cons] at *
    obtain ⟨x1, hx1, h1⟩ := bind_eq_ok.1 h1
    obtain ⟨y1, hy1, h1⟩ := bind_eq_ok.1 h1
    have ih := fixAll_nonneg h hf hb (l := l) (fun z hz => hr z (List.mem_cons_of_mem _ hz)) hy1
    obtain ⟨z1, hz1, hx1⟩ := bind_eq_ok.1 hx1
    rw [← Except.ok.inj h1, ← Except.ok.inj hx1]
    exact List.forall_mem_cons.2 ⟨add_nonneg (mul_nonneg (fixAt_nonneg h (hf x.1) (lift_ok hz1)) (hr x List.mem_cons_self)) (hb _), ih⟩

theorem mcAll_nonneg {G : Type} {n : ℕ} {R : Random G} {seed : Option ℕ} {ax : Vec × Vec × Vec} {S : Fin n → Point → ℝ}
    (h : ∀ j x, 0 ≤ S j x) {f : Pref n} (hf : ∀ p j, 0 ≤ f.factor p j) (hb : ∀ p, 0 ≤ f.background p) {M : ℕ} :
    ∀ {l : List (Point × Res × Coeffs)} {g g1 : G} {l1 : List ℝ}, (∀ x ∈ l, 0 ≤ x.2.1.r0) → mcAll R seed ax S f M l g = .ok (l1, g1) →
      ∀ y ∈ l1, 0 ≤ y
  | [], g, g1, l1, _, h1 => by
    obtain ⟨rfl, rfl⟩ := Prod.mk.inj (Except.ok.inj h1)
    simp
  | x :: l, g, g1, l1, hr, h1 => by
    unfold mcAll at h1
    obtain ⟨⟨x1, k1⟩, hx1, h1⟩ := bind_eq_ok.1 h1
    have hc := mcAt_nonneg h (hf x.1) (lift_ok hx1)
    dsimp only at h1
    obtain ⟨⟨y1, m1⟩, hy1, h1⟩ := bind_eq_ok.1 h1
    have ih := mcAll_nonneg h hf hb (l := l) (fun z hz => hr z (List.mem_cons_of_mem _ hz)) hy1
    obtain ⟨rfl, rfl⟩ := Prod.mk.inj (Except.ok.inj h1)
    exact List.forall_mem_cons.2 ⟨add_nonneg (mul_nonneg hc (hr x List.mem_cons_self)) (hb _), ih⟩

theorem convolveAt_nonneg {G : Type} {n : ℕ} {R : Random G} {g g1 : G} {ax : Vec × Vec × Vec} {rs : List Res} {ps : List Point}
    {S : Fin n → Point → ℝ} {pref : Option (Pref n)} {nargout : ℤ} {method : Method} {acc : Accuracy} {seed : Option ℕ} {l1 : List ℝ}
    (h : ∀ j x, 0 ≤ S j x) (hf : ∀ f, prefactor pref nargout = .ok f → (∀ p j, 0 ≤ f.factor p j) ∧ ∀ p, 0 ≤ f.background p)
    (hr : ∀ r ∈ rs, 0 ≤ r.r0) (h1 : convolveAt R g ax rs ps S pref nargout method acc seed = .ok (l1, g1)) : ∀ y ∈ l1, 0 ≤ y := by
  unfold convolveAt at *
  by_cases hl : rs.length = 1
  · rw [if_pos hl] at h1
    exact nomatch h1
  · rw [if_neg hl] at *
    obtain ⟨cs, hcs, h1⟩ := bind_eq_ok.1 h1
    obtain ⟨f, hpf, h1⟩ := bind_eq_ok.1 h1
    have hall : ∀ x ∈ ps.zip (rs.zip cs), 0 ≤ x.2.1.r0 := fun x hx => hr _ (List.of_mem_zip (List.of_mem_zip hx).2).1
    cases method with
    | fix =>
      dsimp only at h1
      obtain ⟨M, hM, h1⟩ := bind_eq_ok.1 h1
      obtain ⟨u, hu, h1⟩ := bind_eq_ok.1 h1
      obtain ⟨rfl, rfl⟩ := Prod.mk.inj (Except.ok.inj h1)
      exact fixAll_nonneg h (hf f hpf).1 (hf f hpf).2 hall hu
    | mc =>
      dsimp only at h1
      obtain ⟨M, hM, h1⟩ := bind_eq_ok.1 h1
      exact mcAll_nonneg h (hf f hpf).1 (hf f hpf).2 hall h1
    | other => exact nomatch h1

/-! ## C218 -/

/-- C218, for whatever resolution the instrument has: prefactors of the resolution that are not negative suffice. -/
theorem convolve_mono {G : Type} {n : ℕ} {R : Random G} {g g1 g2 : G} {i i1 i2 : Inst} {S T : Fin n → Point → ℝ} {pref : Option (Pref n)} {nargout : ℤ}
    {H K L W : Arg ℝ} {method : Method} {acc : Accuracy} {seed : Option ℕ} {l1 l2 : List ℝ} (h : ∀ j x, S j x ≤ T j x)
    (hf : ∀ f, prefactor pref nargout = .ok f → ∀ p j, 0 ≤ f.factor p j) (hr : ∀ r ∈ (calcResolution i H K L W).1.result.getD [], 0 ≤ r.r0)
    (h1 : convolve R g i S pref nargout H K L W method acc seed = (i1, .ok (l1, g1)))
    (h2 : convolve R g i T pref nargout H K L W method acc seed = (i2, .ok (l2, g2))) : List.Forall₂ (· ≤ ·) l1 l2 := by
  obtain ⟨hc, z, h0, k, l, w, ax, hca, hax, h1⟩ := convolve_ok_iff.1 h1
  obtain ⟨hc', z', h', k', l', w', ax', hca', hax', h2⟩ := convolve_ok_iff.1 h2
  rw [hc] at hc' hr
  obtain ⟨rfl, -⟩ := Prod.mk.inj hc'
  rw [hca] at hca'
  obtain ⟨-, rfl, rfl, rfl, rfl⟩ : z = z' ∧ h0 = h' ∧ k = k' ∧ l = l' ∧ w = w' := by
    have := Except.ok.inj hca'
    simpa only [Prod.mk.injEq, List.cons.injEq, and_true] using this
  rw [hax] at hax'
  obtain rfl := Except.ok.inj hax'
  exact convolveAt_mono h hf hr h1 h2

/-- C218, order.  For both methods, every `ACCURACY` and seed: where one cross section is nowhere larger than another, its convolution is not larger at any of
the points, provided that the factors of the modes are not negative. -/
theorem C218_order {G : Type} {n m : ℕ} {R : Random G} {g g1 g2 : G} {i i1 i2 : Inst} {E F : Mat} (hi : Level i.setup E F) {q : Query} (hq : q.Len m)
    (hS : i.setup.settings.Valid m) (hp : Points i.setup F q) {S T : Fin n → Point → ℝ} {pref : Option (Pref n)} {nargout : ℤ} {method : Method}
    {acc : Accuracy} {seed : Option ℕ} {l1 l2 : List ℝ} (h : ∀ j x, S j x ≤ T j x) (hf : ∀ f, prefactor pref nargout = .ok f → ∀ p j, 0 ≤ f.factor p j)
    (h1 : convolve R g i S pref nargout (.list q.H) (.list q.K) (.list q.L) (.list q.W) method acc seed = (i1, .ok (l1, g1)))
    (h2 : convolve R g i T pref nargout (.list q.H) (.list q.K) (.list q.L) (.list q.W) method acc seed = (i2, .ok (l2, g2))) :
    List.Forall₂ (· ≤ ·) l1 l2 := by
  obtain ⟨i', rs, hc, -, hres, -, hgood⟩ := calc_points hi hq hS hp
  refine convolve_mono h hf ?_ h1 h2
  rw [hc, hres]
  exact fun r hr => (hgood r hr).2.2.le

/-- C218, sign.  For both methods, every `ACCURACY` and seed: the convolution of a cross section that is nowhere negative, with factors of the modes and a
background that are not negative, is not negative at any of the points. -/
theorem C218_nonneg {G : Type} {n m : ℕ} {R : Random G} {g g1 : G} {i i1 : Inst} {E F : Mat} (hi : Level i.setup E F) {q : Query} (hq : q.Len m)
    (hS : i.setup.settings.Valid m) (hp : Points i.setup F q) {S : Fin n → Point → ℝ} {pref : Option (Pref n)} {nargout : ℤ} {method : Method}
    {acc : Accuracy} {seed : Option ℕ} {l1 : List ℝ} (h : ∀ j x, 0 ≤ S j x)
    (hf : ∀ f, prefactor pref nargout = .ok f → (∀ p j, 0 ≤ f.factor p j) ∧ ∀ p, 0 ≤ f.background p)
    (h1 : convolve R g i S pref nargout (.list q.H) (.list q.K) (.list q.L) (.list q.W) method acc seed = (i1, .ok (l1, g1))) :
    ∀ y ∈ l1, 0 ≤ y := by
  obtain ⟨i', rs, hc, -, hres, -, hgood⟩ := calc_points hi hq hS hp
  obtain ⟨hc', _, _, _, _, _, _, -, -, h1⟩ := convolve_ok_iff.1 h1
  rw [hc] at hc'
  obtain ⟨rfl, -⟩ := Prod.mk.inj hc'
  refine convolveAt_nonneg h hf ?_ h1
  rw [hres]
  exact fun r hr => (hgood r hr).2.2.le

/-- A Lorentzian and twice the Lorentzian at two points of the demonstration instrument, with a factor and a background. -/
example {G : Type} (gen : Random G) (g : G) : ∃ i' l1 l2,
    convolve gen g (Verif.Resolution.new demoSetup) (fun _ : Fin 1 => lorentzian) (some ⟨fun _ _ => 3, fun _ => 1⟩) 2 (.list twoPoints.H)
      (.list twoPoints.K) (.list twoPoints.L) (.list twoPoints.W) .fix (.list [3, 2]) none = (i', .ok (l1, g)) ∧
    convolve gen g (Verif.Resolution.new demoSetup) (fun (_ : Fin 1) p => 2 * lorentzian p) (some ⟨fun _ _ => 3, fun _ => 1⟩) 2 (.list twoPoints.H)
      (.list twoPoints.K) (.list twoPoints.L) (.list twoPoints.W) .fix (.list [3, 2]) none = (i', .ok (l2, g)) ∧
    List.Forall₂ (· ≤ ·) l1 l2 ∧ ∀ y ∈ l1, 0 ≤ y := by
  have hc := fun S : Fin 1 → Point → ℝ => convolve_fix gen g (i := Verif.Resolution.new demoSetup) (.of demoSetup_valid) (q := twoPoints) (m := 2)
    ⟨rfl, rfl, rfl, rfl⟩ (by norm_num) (demo_valid 2) twoPoints_ok S (some ⟨fun _ _ => 3, fun _ => 1⟩) 2 rfl none
  obtain ⟨i1, _, _, _, _, a1, -, -, -, -, b1⟩ := hc fun _ => lorentzian
  obtain ⟨i2, _, _, _, _, a2, -, -, -, -, b2⟩ := hc fun _ p => 2 * lorentzian p
  rw [a1] at a2
  obtain ⟨rfl, -⟩ := Prod.mk.inj a2
  have hl : ∀ p : Point, 0 ≤ lorentzian p := fun p => by
    unfold lorentzian
    positivity
  have hf : ∀ f : Pref 1, prefactor (some ⟨fun _ _ => 3, fun _ => 1⟩) 2 = .ok f → (∀ p j, 0 ≤ f.factor p j) ∧ ∀ p, 0 ≤ f.background p := by
    intro f hf
    rw [← Except.ok.inj hf]
    exact ⟨fun _ _ => by norm_num, fun _ => by norm_num⟩
  exact ⟨i1, _, _, b1 3 2, b2 3 2, C218_order (i := Verif.Resolution.new demoSetup) (.of demoSetup_valid) (q := twoPoints) (m := 2)
    ⟨rfl, rfl, rfl, rfl⟩ (demo_valid 2) twoPoints_ok (fun _ p => by linarith [hl p]) (fun f h => (hf f h).1) (b1 3 2) (b2 3 2),
    C218_nonneg (i := Verif.Resolution.new demoSetup) (.of demoSetup_valid) (q := twoPoints) (m := 2)
    ⟨rfl, rfl, rfl, rfl⟩ (demo_valid 2) twoPoints_ok (fun _ p => hl p) hf (b1 3 2)⟩

end Verif.Convolution
