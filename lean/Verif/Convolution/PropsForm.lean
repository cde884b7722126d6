import Verif.Convolution.PropsMore

/-!
# Property theorems C146 (linearity, points), C147 (arguments) and C149 (grids of one point)
-/

namespace Verif.Convolution

open Real Matrix MeasureTheory Filter Topology
open Verif.Crystal (Fail Vec Mat npSqrt npDiv npDiv_ok npSqrt_ok standardSystem vecOf len)
open Verif.Resolution (M4 Decoupled Inst Res calcResolution hkls Query InPlane demoSetup demoSetup_valid demo_valid demo_reaches demo_len)
open Verif.Tools (quad SPD Arg cleanArgs)

theorem lift_ok {α : Type} {x : Except Fail α} {a : α} (h : lift x = .ok a) : x = .ok a := by
  cases x with
  | error e => exact nomatch h
  | ok b => rw [Except.ok.inj h]

theorem npDiv_some {x y z : ℝ} (h : npDiv x y = .ok z) : y ≠ 0 ∧ z = x / y := by
  unfold npDiv at h
  by_cases hy : y = 0
  · rw [if_pos hy] at h
    by_cases hx : x = 0
    · rw [if_pos hx] at h
      exact nomatch h
    · rw [if_neg hx] at h
      exact nomatch h
  · rw [if_neg hy] at h
    exact ⟨hy, (Except.ok.inj h).symm⟩

/-! ## C146 -/

/-- The combination of two cross sections. -/
def combine {n : ℕ} (a b : ℝ) (S T : Fin n → Point → ℝ) : Fin n → Point → ℝ := fun j p => a * S j p + b * T j p

theorem gridSum_combine (c : Coeffs) (ax : Vec × Vec × Vec) (p : Point) (S T : Point → ℝ) (a b : ℝ) (M0 M1 : ℕ) :
    gridSum c ax p (fun q => a * S q + b * T q) M0 M1 = a * gridSum c ax p S M0 M1 + b * gridSum c ax p T M0 M1 := by
  unfold gridSum
  simp only [sum_nodes, Finset.mul_sum, ← Finset.sum_add_distrib]
  refine Finset.sum_congr rfl fun _ _ => Finset.sum_congr rfl fun _ _ => Finset.sum_congr rfl fun _ _ => Finset.sum_congr rfl fun _ _ => ?_
  ring

theorem fixAt_combine {n : ℕ} {c : Coeffs} {ax : Vec × Vec × Vec} {p : Point} {S T : Fin n → Point → ℝ} {f : Fin n → ℝ} {a b x y : ℝ} {M0 M1 : ℕ}
    (h1 : fixAt c ax p S f M0 M1 = .ok x) (h2 : fixAt c ax p T f M0 M1 = .ok y) :
    fixAt c ax p (combine a b S T) f M0 M1 = .ok (a * x + b * y) := by
  unfold fixAt at *
  obtain ⟨root, hr, h1⟩ := bind_eq_ok.1 h1
  rw [hr, ok_bind] at h2
  obtain ⟨u, hu, h1⟩ := bind_eq_ok.1 h1
  obtain ⟨v, hv, h2⟩ := bind_eq_ok.1 h2
  obtain ⟨hne, rfl⟩ := npDiv_some hu
  obtain ⟨-, rfl⟩ := npDiv_some hv
  rw [hr, ok_bind, npDiv_ok hne, ok_bind]
  have e : ∑ j, gridSum c ax p (combine a b S T j) M0 M1 * f j =
      a * (∑ j, gridSum c ax p (S j) M0 M1 * f j) + b * ∑ j, gridSum c ax p (T j) M0 M1 * f j := by
    rw [Finset.mul_sum, Finset.mul_sum, ← Finset.sum_add_distrib]
    refine Finset.sum_congr rfl fun j _ => ?_
    unfold combine
    rw [gridSum_combine]
    ring
  rw [e]
  rw [← Except.ok.inj h1, ← Except.ok.inj h2]
  by_cases h0 : M0 = 0 <;> by_cases h1 : M1 = 0 <;> simp only [h0, h1, if_true, if_false, pure_ok, Except.ok.injEq] <;> field_simp

theorem blocks_combine {G : Type} {n : ℕ} (R : Random G) (seed : Option ℕ) (c : Coeffs) (ax : Vec × Vec × Vec) (p : Point)
    (S T : Fin n → Point → ℝ) (a b : ℝ) : ∀ (m : ℕ) (u v : Fin n → ℝ) (g : G),
    blocks R seed c ax p (combine a b S T) m (fun j => a * u j + b * v j, g) =
      (fun j => a * (blocks R seed c ax p S m (u, g)).1 j + b * (blocks R seed c ax p T m (v, g)).1 j, (blocks R seed c ax p S m (u, g)).2) ∧
    (blocks R seed c ax p S m (u, g)).2 = (blocks R seed c ax p T m (v, g)).2
  | 0, u, v, g => ⟨rfl, rfl⟩
  | m + 1, u, v, g => by
    simp only [blocks]
    have e : ∀ r, (fun j => a * u j + b * v j + blockSum c ax p (combine a b S T j) r) =
        fun j => a * (u j + blockSum c ax p (S j) r) + b * (v j + blockSum c ax p (T j) r) := fun r => by
      funext j
      have : blockSum c ax p (combine a b S T j) r = a * blockSum c ax p (S j) r + b * blockSum c ax p (T j) r := by
        unfold blockSum combine
        rw [Finset.mul_sum, Finset.mul_sum, ← Finset.sum_add_distrib]
        refine Finset.sum_congr rfl fun k _ => ?_
        ring
      rw [this]
      ring
    rw [e]
    exact blocks_combine R seed c ax p S T a b m _ _ _

theorem mcAt_combine {G : Type} {n : ℕ} {R : Random G} {seed : Option ℕ} {c : Coeffs} {ax : Vec × Vec × Vec} {p : Point}
    {S T : Fin n → Point → ℝ} {f : Fin n → ℝ} {a b x y : ℝ} {M : ℕ} {g g1 g2 : G} (h1 : mcAt R seed c ax p S f M g = .ok (x, g1))
    (h2 : mcAt R seed c ax p T f M g = .ok (y, g2)) : mcAt R seed c ax p (combine a b S T) f M g = .ok (a * x + b * y, g1) ∧ g1 = g2 := by
  unfold mcAt at *
  obtain ⟨hb, hg⟩ := blocks_combine R seed c ax p S T a b M (fun _ => 0) (fun _ => 0) g
  simp only [mul_zero, add_zero] at hb
  rw [hb]
  revert h1 h2 hg
  generalize blocks R seed c ax p S M (fun _ => 0, g) = s
  generalize blocks R seed c ax p T M (fun _ => 0, g) = t
  obtain ⟨u, gu⟩ := s
  obtain ⟨v, gv⟩ := t
  intro h1 h2 hg
  dsimp only at *
  obtain ⟨q1, hq1, h1⟩ := bind_eq_ok.1 h1
  obtain ⟨q2, hq2, h2⟩ := bind_eq_ok.1 h2
  obtain ⟨root, hr, h1⟩ := bind_eq_ok.1 h1
  rw [hr, ok_bind] at h2
  obtain ⟨w1, hw1, h1⟩ := bind_eq_ok.1 h1
  obtain ⟨w2, hw2, h2⟩ := bind_eq_ok.1 h2
  obtain ⟨hM, rfl⟩ := npDiv_some hq1
  obtain ⟨-, rfl⟩ := npDiv_some hq2
  obtain ⟨hne, rfl⟩ := npDiv_some hw1
  obtain ⟨-, rfl⟩ := npDiv_some hw2
  obtain ⟨rfl, rfl⟩ := Prod.mk.inj (Except.ok.inj h1)
  obtain ⟨rfl, rfl⟩ := Prod.mk.inj (Except.ok.inj h2)
  refine ⟨?_, hg⟩
  rw [npDiv_ok hM, ok_bind, hr, ok_bind, npDiv_ok hne, ok_bind, pure_ok]
  congr 2
  have e : ∑ j, (a * u j + b * v j) * f j = a * (∑ j, u j * f j) + b * ∑ j, v j * f j := by
    rw [Finset.mul_sum, Finset.mul_sum, ← Finset.sum_add_distrib]
    exact Finset.sum_congr rfl fun j _ => by ring
  rw [e]
  field_simp

theorem fixAll_combine {n : ℕ} {ax : Vec × Vec × Vec} {S T : Fin n → Point → ℝ} {f : Pref n} (hf : f.background = fun _ => 0) {a b : ℝ} {M : ℕ × ℕ} :
    ∀ {l : List (Point × Res × Coeffs)} {l1 l2 : List ℝ}, fixAll ax S f M l = .ok l1 → fixAll ax T f M l = .ok l2 →
      fixAll ax (combine a b S T) f M l = .ok (List.zipWith (fun x y => a * x + b * y) l1 l2)
  | [], l1, l2, h1, h2 => by
    rw [← Except.ok.inj h1, ← Except.ok.inj h2]
    rfl
  | x :: l, l1, l2, h1, h2 => by
    unfold fixAll at *
    rw [List.mapM_cons] at *
    obtain ⟨x1, hx1, h1⟩ := bind_eq_ok.1 h1
    obtain ⟨x2, hx2, h2⟩ := bind_eq_ok.1 h2
    obtain ⟨y1, hy1, h1⟩ := bind_eq_ok.1 h1
    obtain ⟨y2, hy2, h2⟩ := bind_eq_ok.1 h2
    have ih := fixAll_combine hf (a := a) (b := b) hy1 hy2
    unfold fixAll at ih
    obtain ⟨z1, hz1, hx1⟩ := bind_eq_ok.1 hx1
    obtain ⟨z2, hz2, hx2⟩ := bind_eq_ok.1 hx2
    rw [fixAt_combine (a := a) (b := b) (lift_ok hz1) (lift_ok hz2), ih, ← Except.ok.inj h1, ← Except.ok.inj h2, ← Except.ok.inj hx1, ← Except.ok.inj hx2]
    simp only [lift, ok_bind, pure_ok, List.zipWith_cons_cons, hf, Except.ok.injEq, List.cons.injEq, and_true]
    ring

theorem mcAll_combine {G : Type} {n : ℕ} {R : Random G} {seed : Option ℕ} {ax : Vec × Vec × Vec} {S T : Fin n → Point → ℝ} {f : Pref n}
    (hf : f.background = fun _ => 0) {a b : ℝ} {M : ℕ} :
    ∀ {l : List (Point × Res × Coeffs)} {g g1 g2 : G} {l1 l2 : List ℝ}, mcAll R seed ax S f M l g = .ok (l1, g1) →
      mcAll R seed ax T f M l g = .ok (l2, g2) →
      mcAll R seed ax (combine a b S T) f M l g = .ok (List.zipWith (fun x y => a * x + b * y) l1 l2, g1) ∧ g1 = g2
  | [], g, g1, g2, l1, l2, h1, h2 => by
    obtain ⟨rfl, rfl⟩ := Prod.mk.inj (Except.ok.inj h1)
    obtain ⟨rfl, rfl⟩ := Prod.mk.inj (Except.ok.inj h2)
    exact ⟨rfl, rfl⟩
  | x :: l, g, g1, g2, l1, l2, h1, h2 => by
    unfold mcAll at h1 h2 ⊢
    obtain ⟨⟨x1, k1⟩, hx1, h1⟩ := bind_eq_ok.1 h1
    obtain ⟨⟨x2, k2⟩, hx2, h2⟩ := bind_eq_ok.1 h2
    obtain ⟨hc, rfl⟩ := mcAt_combine (a := a) (b := b) (lift_ok hx1) (lift_ok hx2)
    dsimp only at h1 h2
    obtain ⟨⟨y1, m1⟩, hy1, h1⟩ := bind_eq_ok.1 h1
    obtain ⟨⟨y2, m2⟩, hy2, h2⟩ := bind_eq_ok.1 h2
    obtain ⟨ih, rfl⟩ := mcAll_combine hf (a := a) (b := b) hy1 hy2
    obtain ⟨rfl, rfl⟩ := Prod.mk.inj (Except.ok.inj h1)
    obtain ⟨rfl, rfl⟩ := Prod.mk.inj (Except.ok.inj h2)
    rw [hc]
    simp only [lift, ok_bind, ih, pure_ok, List.zipWith_cons_cons, hf, and_true]
    congr 3
    ring

theorem convolveAt_combine {G : Type} {n : ℕ} {R : Random G} {g g1 g2 : G} {ax : Vec × Vec × Vec} {rs : List Res} {ps : List Point}
    {S T : Fin n → Point → ℝ} {pref : Option (Pref n)} {nargout : ℤ} {method : Method} {acc : Accuracy} {seed : Option ℕ} {l1 l2 : List ℝ}
    (hbg : ∀ f, prefactor pref nargout = .ok f → f.background = fun _ => 0) (a b : ℝ)
    (h1 : convolveAt R g ax rs ps S pref nargout method acc seed = .ok (l1, g1))
    (h2 : convolveAt R g ax rs ps T pref nargout method acc seed = .ok (l2, g2)) :
    convolveAt R g ax rs ps (combine a b S T) pref nargout method acc seed = .ok (List.zipWith (fun x y => a * x + b * y) l1 l2, g1) ∧ g1 = g2 := by
  unfold convolveAt at *
  by_cases hl : rs.length = 1
  · rw [if_pos hl] at h1
    exact nomatch h1
  · rw [if_neg hl] at *
    obtain ⟨cs, hcs, h1⟩ := bind_eq_ok.1 h1
    rw [hcs] at h2 ⊢
    simp only [ok_bind] at h2 ⊢
    obtain ⟨f, hf, h1⟩ := bind_eq_ok.1 h1
    rw [hf] at h2 ⊢
    simp only [ok_bind] at h2 ⊢
    cases method with
    | fix =>
      dsimp only at h1 h2 ⊢
      obtain ⟨M, hM, h1⟩ := bind_eq_ok.1 h1
      rw [hM] at h2 ⊢
      simp only [ok_bind] at h2 ⊢
      obtain ⟨u, hu, h1⟩ := bind_eq_ok.1 h1
      obtain ⟨v, hv, h2⟩ := bind_eq_ok.1 h2
      obtain ⟨rfl, rfl⟩ := Prod.mk.inj (Except.ok.inj h1)
      obtain ⟨rfl, rfl⟩ := Prod.mk.inj (Except.ok.inj h2)
      rw [fixAll_combine (hbg f hf) hu hv]
      exact ⟨rfl, rfl⟩
    | mc =>
      dsimp only at h1 h2 ⊢
      obtain ⟨M, hM, h1⟩ := bind_eq_ok.1 h1
      rw [hM] at h2 ⊢
      simp only [ok_bind] at h2 ⊢
      exact mcAll_combine (hbg f hf) h1 h2
    | other => exact nomatch h1

/-- When a convolution succeeds. -/
theorem convolve_ok_iff {G : Type} {n : ℕ} {R : Random G} {g : G} {i i' : Inst} {S : Fin n → Point → ℝ} {pref : Option (Pref n)} {nargout : ℤ}
    {H K L W : Arg ℝ} {method : Method} {acc : Accuracy} {seed : Option ℕ} {r : List ℝ × G} :
    convolve R g i S pref nargout H K L W method acc seed = (i', .ok r) ↔
      calcResolution i H K L W = (i', none) ∧ ∃ z h k l w ax, cleanArgs [H, K, L, W] = .ok (z, [h, k, l, w]) ∧
        standardSystem i'.setup.lattice i'.setup.u i'.setup.v = .ok ax ∧
        convolveAt R g ax (i'.result.getD []) ((hkls h k l).zip w) S pref nargout method acc seed = .ok r := by
  unfold convolve
  constructor
  · intro h1
    split at h1
    · exact nomatch (Prod.mk.inj h1).2
    · rename_i j z h k l w hc hca
      obtain ⟨rfl, h1'⟩ := Prod.mk.inj h1
      obtain ⟨ax, hax, h1⟩ := bind_eq_ok.1 h1'
      exact ⟨hc, z, h, k, l, w, ax, hca, lift_ok hax, h1⟩
    · exact nomatch (Prod.mk.inj h1).2
  · rintro ⟨hc, z, h, k, l, w, ax, hca, hax, h1⟩
    rw [hc, hca]
    simp only [hax, lift, ok_bind, h1]

/-- C146, linearity.  For both methods, every `ACCURACY` and seed, every instrument and all points: where two cross sections can
be convolved without background, their combination can, from the same state of the random numbers, and the result is the
combination of the results; the random numbers used do not depend on the cross section. -/
theorem C146_linear {G : Type} {n : ℕ} {R : Random G} {g g1 g2 : G} {i i' : Inst} {S T : Fin n → Point → ℝ} {pref : Option (Pref n)} {nargout : ℤ}
    {H K L W : Arg ℝ} {method : Method} {acc : Accuracy} {seed : Option ℕ} {l1 l2 : List ℝ}
    (hbg : ∀ f, prefactor pref nargout = .ok f → ∀ p, f.background p = 0) (a b : ℝ)
    (h1 : convolve R g i S pref nargout H K L W method acc seed = (i', .ok (l1, g1)))
    (h2 : convolve R g i T pref nargout H K L W method acc seed = (i', .ok (l2, g2))) :
    convolve R g i (fun j p => a * S j p + b * T j p) pref nargout H K L W method acc seed =
      (i', .ok (List.zipWith (fun x y => a * x + b * y) l1 l2, g1)) ∧ g1 = g2 := by
  obtain ⟨hc, z, h, k, l, w, ax, hca, hax, h1⟩ := convolve_ok_iff.1 h1
  obtain ⟨-, z', h', k', l', w', ax', hca', hax', h2⟩ := convolve_ok_iff.1 h2
  rw [hca] at hca'
  obtain ⟨-, rfl, rfl, rfl, rfl⟩ : z = z' ∧ h = h' ∧ k = k' ∧ l = l' ∧ w = w' := by
    have := Except.ok.inj hca'
    simpa only [Prod.mk.injEq, List.cons.injEq, and_true] using this
  rw [hax] at hax'
  obtain rfl := Except.ok.inj hax'
  obtain ⟨e1, e2⟩ := convolveAt_combine (fun f hf => funext (hbg f hf)) a b h1 h2
  exact ⟨convolve_ok_iff.2 ⟨hc, z, h, k, l, w, ax, hca, hax, e1⟩, e2⟩

example {G : Type} (gen : Random G) (g : G) : ∃ i' l1 l2,
    convolve gen g (Verif.Resolution.new demoSetup) (fun _ : Fin 1 => lorentzian) none 0 (.list twoPoints.H) (.list twoPoints.K)
      (.list twoPoints.L) (.list twoPoints.W) .fix (.list [3, 2]) none = (i', .ok (l1, g)) ∧
    convolve gen g (Verif.Resolution.new demoSetup) (fun (_ : Fin 1) _ => 1) none 0 (.list twoPoints.H) (.list twoPoints.K)
      (.list twoPoints.L) (.list twoPoints.W) .fix (.list [3, 2]) none = (i', .ok (l2, g)) := by
  have hc := fun S : Fin 1 → Point → ℝ => convolve_fix gen g (i := Verif.Resolution.new demoSetup) (.of demoSetup_valid) (q := twoPoints) (m := 2)
    ⟨rfl, rfl, rfl, rfl⟩ (by norm_num) (demo_valid 2) twoPoints_ok S none 0 rfl none
  obtain ⟨i1, _, _, _, _, a1, -, -, -, -, b1⟩ := hc fun _ => lorentzian
  obtain ⟨i2, _, _, _, _, a2, -, -, -, -, b2⟩ := hc fun _ _ => 1
  rw [a1] at a2
  obtain ⟨rfl, -⟩ := Prod.mk.inj a2
  exact ⟨i1, _, _, b1 3 2, b2 3 2⟩

theorem fixAll_background {n : ℕ} {ax : Vec × Vec × Vec} {S : Fin n → Point → ℝ} {f : Pref n} {M : ℕ × ℕ} :
    ∀ {ps : List Point} {rs : List (Res × Coeffs)} {l1 : List ℝ}, fixAll ax S ⟨f.factor, fun _ => 0⟩ M (ps.zip rs) = .ok l1 →
      fixAll ax S f M (ps.zip rs) = .ok (List.zipWith (fun p x => x + f.background p) ps l1)
  | [], _, l1, h1 => by
    rw [List.zip_nil_left] at h1 ⊢
    rfl
  | p :: ps, [], l1, h1 => by
    rw [List.zip_nil_right] at h1 ⊢
    rw [← Except.ok.inj h1]
    rfl
  | p :: ps, x :: rs, l1, h1 => by
    rw [List.zip_cons_cons] at h1 ⊢
    unfold fixAll at *
    rw [List.mapM_cons] at *
    obtain ⟨x1, hx1, h1⟩ := bind_eq_ok.1 h1
    obtain ⟨y1, hy1, h1⟩ := bind_eq_ok.1 h1
    have ih := fixAll_background (f := f) hy1
    unfold fixAll at ih
    obtain ⟨z1, hz1, hx1⟩ := bind_eq_ok.1 hx1
    rw [ih, ← Except.ok.inj h1, ← Except.ok.inj hx1, lift_ok hz1]
    simp only [lift, ok_bind, pure_ok, List.zipWith_cons_cons, add_zero]

theorem mcAll_background {G : Type} {n : ℕ} {R : Random G} {seed : Option ℕ} {ax : Vec × Vec × Vec} {S : Fin n → Point → ℝ} {f : Pref n} {M : ℕ} :
    ∀ {ps : List Point} {rs : List (Res × Coeffs)} {g g1 : G} {l1 : List ℝ},
      mcAll R seed ax S ⟨f.factor, fun _ => 0⟩ M (ps.zip rs) g = .ok (l1, g1) →
      mcAll R seed ax S f M (ps.zip rs) g = .ok (List.zipWith (fun p x => x + f.background p) ps l1, g1)
  | [], _, g, g1, l1, h1 => by
    rw [List.zip_nil_left] at h1 ⊢
    obtain ⟨rfl, rfl⟩ := Prod.mk.inj (Except.ok.inj h1)
    rfl
  | p :: ps, [], g, g1, l1, h1 => by
    rw [List.zip_nil_right] at h1 ⊢
    obtain ⟨rfl, rfl⟩ := Prod.mk.inj (Except.ok.inj h1)
    rfl
  | p :: ps, x :: rs, g, g1, l1, h1 => by
    rw [List.zip_cons_cons] at h1 ⊢
    unfold mcAll at h1 ⊢
    obtain ⟨⟨x1, k1⟩, hx1, h1⟩ := bind_eq_ok.1 h1
    dsimp only at h1
    obtain ⟨⟨y1, m1⟩, hy1, h1⟩ := bind_eq_ok.1 h1
    obtain ⟨rfl, rfl⟩ := Prod.mk.inj (Except.ok.inj h1)
    rw [lift_ok hx1]
    simp only [lift, ok_bind, mcAll_background (f := f) hy1, pure_ok, List.zipWith_cons_cons, add_zero]

/-- C146, background.  With `nargout == 2` the results are those of `nargout == 1` and the background at each point, once,
whatever the method, its accuracy and the intensity of the instrument. -/
theorem C146_background {G : Type} {n : ℕ} {R : Random G} {g g1 : G} {i i' : Inst} {S : Fin n → Point → ℝ} {f : Pref n}
    {H K L W : Arg ℝ} {method : Method} {acc : Accuracy} {seed : Option ℕ} {l1 : List ℝ}
    (h1 : convolve R g i S (some f) 1 H K L W method acc seed = (i', .ok (l1, g1))) :
    ∃ z h k l w, cleanArgs [H, K, L, W] = .ok (z, [h, k, l, w]) ∧
      convolve R g i S (some f) 2 H K L W method acc seed =
        (i', .ok (List.zipWith (fun p x => x + f.background p) ((hkls h k l).zip w) l1, g1)) := by
  obtain ⟨hc, z, h, k, l, w, ax, hca, hax, h1⟩ := convolve_ok_iff.1 h1
  refine ⟨z, h, k, l, w, hca, convolve_ok_iff.2 ⟨hc, z, h, k, l, w, ax, hca, hax, ?_⟩⟩
  unfold convolveAt at *
  generalize (hkls h k l).zip w = ps at *
  generalize i'.result.getD [] = rs at *
  by_cases hl : rs.length = 1
  · rw [if_pos hl] at h1
    exact nomatch h1
  · rw [if_neg hl] at *
    obtain ⟨cs, hcs, h1⟩ := bind_eq_ok.1 h1
    rw [hcs]
    have p1 : prefactor (some f) 1 = .ok ⟨f.factor, fun _ => 0⟩ := rfl
    have p2 : prefactor (some f) 2 = .ok f := rfl
    rw [p1] at h1
    rw [p2]
    simp only [ok_bind] at h1 ⊢
    cases method with
    | fix =>
      dsimp only at h1 ⊢
      obtain ⟨M, hM, h1⟩ := bind_eq_ok.1 h1
      rw [hM]
      simp only [ok_bind]
      obtain ⟨u, hu, h1⟩ := bind_eq_ok.1 h1
      obtain ⟨rfl, rfl⟩ := Prod.mk.inj (Except.ok.inj h1)
      rw [fixAll_background hu]
      rfl
    | mc =>
      dsimp only at h1 ⊢
      obtain ⟨M, hM, h1⟩ := bind_eq_ok.1 h1
      rw [hM]
      simp only [ok_bind]
      exact mcAll_background h1
    | other => exact nomatch h1

example {G : Type} (gen : Random G) (g : G) : ∃ i' l1,
    convolve gen g (Verif.Resolution.new demoSetup) (fun _ : Fin 1 => lorentzian) (some ⟨fun _ _ => 2, fun p => 1 + p.2⟩) 1 (.list twoPoints.H)
      (.list twoPoints.K) (.list twoPoints.L) (.list twoPoints.W) .fix (.list [3, 2]) none = (i', .ok (l1, g)) := by
  obtain ⟨i1, _, _, _, _, -, -, -, -, -, b1⟩ := convolve_fix gen g (i := Verif.Resolution.new demoSetup) (.of demoSetup_valid) (q := twoPoints) (m := 2)
    ⟨rfl, rfl, rfl, rfl⟩ (by norm_num) (demo_valid 2) twoPoints_ok (fun _ : Fin 1 => lorentzian) (some ⟨fun _ _ => 2, fun p => 1 + p.2⟩) 1 rfl none
  exact ⟨i1, _, b1 3 2⟩

/-- What one point contributes: independent of the others by the method `'fix'`, and by the method `'mc'` with a seed. -/
theorem fixAll_get {n : ℕ} {ax : Vec × Vec × Vec} {S : Fin n → Point → ℝ} {f : Pref n} {M : ℕ × ℕ} :
    ∀ {l : List (Point × Res × Coeffs)} {l1 : List ℝ} {k : ℕ} {x : Point × Res × Coeffs}, fixAll ax S f M l = .ok l1 → l[k]? = some x →
      ∃ y, lift (fixAt x.2.2 ax x.1 S (f.factor x.1) M.1 M.2) = .ok y ∧ l1[k]? = some (y * x.2.1.r0 + f.background x.1)
  | [], _, _, _, _, h => by simp at h
  | a :: l, l1, k, x, h1, h => by
    unfold fixAll at h1
    rw [List.mapM_cons] at h1
    obtain ⟨x1, hx1, h1⟩ := bind_eq_ok.1 h1
    obtain ⟨y1, hy1, h1⟩ := bind_eq_ok.1 h1
    rw [← Except.ok.inj h1]
    cases k with
    | zero =>
      rw [List.getElem?_cons_zero, Option.some.injEq] at h
      subst h
      obtain ⟨z1, hz1, hx1⟩ := bind_eq_ok.1 hx1
      exact ⟨z1, hz1, by rw [← Except.ok.inj hx1]; rfl⟩
    | succ k =>
      rw [List.getElem?_cons_succ] at h ⊢
      exact fixAll_get (l := l) hy1 h

theorem mcAll_get {G : Type} {n : ℕ} {R : Random G} {seed : ℕ} {ax : Vec × Vec × Vec} {S : Fin n → Point → ℝ} {f : Pref n} {M : ℕ} :
    ∀ {l : List (Point × Res × Coeffs)} {g g1 : G} {l1 : List ℝ} {k : ℕ} {x : Point × Res × Coeffs},
      mcAll R (some seed) ax S f M l g = .ok (l1, g1) → l[k]? = some x →
      ∃ g y g', lift (mcAt R (some seed) x.2.2 ax x.1 S (f.factor x.1) M g) = .ok (y, g') ∧ l1[k]? = some (y * x.2.1.r0 + f.background x.1)
  | [], _, _, _, _, _, _, h => by simp at h
  | a :: l, g, g1, l1, k, x, h1, h => by
    unfold mcAll at h1
    obtain ⟨⟨x1, k1⟩, hx1, h1⟩ := bind_eq_ok.1 h1
    dsimp only at h1
    obtain ⟨⟨y1, m1⟩, hy1, h1⟩ := bind_eq_ok.1 h1
    obtain ⟨rfl, rfl⟩ := Prod.mk.inj (Except.ok.inj h1)
    cases k with
    | zero =>
      rw [List.getElem?_cons_zero, Option.some.injEq] at h
      subst h
      exact ⟨g, x1, k1, hx1, rfl⟩
    | succ k =>
      rw [List.getElem?_cons_succ] at h ⊢
      exact mcAll_get (l := l) hy1 h

theorem blocks_state {G : Type} {n : ℕ} (R : Random G) (seed : ℕ) (c : Coeffs) (ax : Vec × Vec × Vec) (p : Point) (S : Fin n → Point → ℝ) :
    ∀ (m : ℕ) (u : Fin n → ℝ) (g g' : G), (blocks R (some seed) c ax p S m (u, g)).1 = (blocks R (some seed) c ax p S m (u, g')).1
  | 0, _, _, _ => rfl
  | m + 1, u, g, g' => by simp only [blocks]

theorem mcAt_state {G : Type} {n : ℕ} {R : Random G} {seed : ℕ} {c : Coeffs} {ax : Vec × Vec × Vec} {p : Point} {S : Fin n → Point → ℝ}
    {f : Fin n → ℝ} {M : ℕ} {g g' k k' : G} {x y : ℝ} (h1 : mcAt R (some seed) c ax p S f M g = .ok (x, k))
    (h2 : mcAt R (some seed) c ax p S f M g' = .ok (y, k')) : x = y := by
  unfold mcAt at *
  have := blocks_state R seed c ax p S M (fun _ => 0) g g'
  revert h1 h2 this
  generalize blocks R (some seed) c ax p S M (fun _ => 0, g) = s
  generalize blocks R (some seed) c ax p S M (fun _ => 0, g') = t
  obtain ⟨u, gu⟩ := s
  obtain ⟨v, gv⟩ := t
  rintro h1 h2 rfl
  dsimp only at *
  obtain ⟨q1, hq1, h1⟩ := bind_eq_ok.1 h1
  rw [hq1, ok_bind] at h2
  obtain ⟨root, hr, h1⟩ := bind_eq_ok.1 h1
  rw [hr, ok_bind] at h2
  obtain ⟨w1, hw1, h1⟩ := bind_eq_ok.1 h1
  rw [hw1, ok_bind] at h2
  rw [← (Prod.mk.inj (Except.ok.inj h1)).1, ← (Prod.mk.inj (Except.ok.inj h2)).1]

theorem coeffs_get : ∀ {rs : List Res} {cs : List Coeffs} {k : ℕ} {r : Res}, rs.mapM (fun r => coeffs r.rms) = .ok cs → rs[k]? = some r →
    ∃ c, coeffs r.rms = .ok c ∧ cs[k]? = some c
  | [], _, _, _, _, h => by simp at h
  | a :: rs, cs, k, r, h1, h => by
    rw [List.mapM_cons] at h1
    obtain ⟨c, hc, h1⟩ := bind_eq_ok.1 h1
    obtain ⟨cs', hcs, h1⟩ := bind_eq_ok.1 h1
    rw [← Except.ok.inj h1]
    cases k with
    | zero =>
      rw [List.getElem?_cons_zero, Option.some.injEq] at h
      subst h
      exact ⟨c, hc, rfl⟩
    | succ k =>
      rw [List.getElem?_cons_succ] at h ⊢
      exact coeffs_get (rs := rs) hcs h

theorem convolveAt_own {G : Type} {n : ℕ} {R : Random G} {g g1 g' g1' : G} {ax : Vec × Vec × Vec} {rs rs' : List Res} {ps ps' : List Point}
    {S : Fin n → Point → ℝ} {pref : Option (Pref n)} {nargout : ℤ} {method : Method} {acc : Accuracy} {seed : Option ℕ} {l l' : List ℝ}
    (hm : method = .fix ∨ seed.isSome)
    (h1 : convolveAt R g ax rs ps S pref nargout method acc seed = .ok (l, g1))
    (h2 : convolveAt R g' ax rs' ps' S pref nargout method acc seed = .ok (l', g1'))
    {k k' : ℕ} {p : Point} {r : Res} (hp : ps[k]? = some p) (hp' : ps'[k']? = some p) (hr : rs[k]? = some r) (hr' : rs'[k']? = some r) :
    ∃ x, l[k]? = some x ∧ l'[k']? = some x := by
  unfold convolveAt at *
  by_cases hl : rs.length = 1
  · rw [if_pos hl] at h1
    exact nomatch h1
  by_cases hl' : rs'.length = 1
  · rw [if_pos hl'] at h2
    exact nomatch h2
  rw [if_neg hl] at h1
  rw [if_neg hl'] at h2
  obtain ⟨cs, hcs, h1⟩ := bind_eq_ok.1 h1
  obtain ⟨cs', hcs', h2⟩ := bind_eq_ok.1 h2
  obtain ⟨f, hf, h1⟩ := bind_eq_ok.1 h1
  rw [hf, ok_bind] at h2
  obtain ⟨c, hc, hck⟩ := coeffs_get (lift_ok hcs) hr
  obtain ⟨c', hc', hck'⟩ := coeffs_get (lift_ok hcs') hr'
  rw [hc] at hc'
  obtain rfl := Except.ok.inj hc'
  have hz : (ps.zip (rs.zip cs))[k]? = some (p, r, c) := by
    rw [List.getElem?_zip_eq_some, List.getElem?_zip_eq_some]
    exact ⟨hp, hr, hck⟩
  have hz' : (ps'.zip (rs'.zip cs'))[k']? = some (p, r, c) := by
    rw [List.getElem?_zip_eq_some, List.getElem?_zip_eq_some]
    exact ⟨hp', hr', hck'⟩
  cases method with
  | fix =>
    dsimp only at h1 h2
    obtain ⟨M, hM, h1⟩ := bind_eq_ok.1 h1
    rw [hM, ok_bind] at h2
    obtain ⟨u, hu, h1⟩ := bind_eq_ok.1 h1
    obtain ⟨v, hv, h2⟩ := bind_eq_ok.1 h2
    obtain ⟨rfl, rfl⟩ := Prod.mk.inj (Except.ok.inj h1)
    obtain ⟨rfl, rfl⟩ := Prod.mk.inj (Except.ok.inj h2)
    obtain ⟨y, hy, e⟩ := fixAll_get hu hz
    obtain ⟨y', hy', e'⟩ := fixAll_get hv hz'
    rw [hy] at hy'
    obtain rfl := Except.ok.inj hy'
    exact ⟨_, e, e'⟩
  | mc =>
    obtain ⟨sd, rfl⟩ := Option.isSome_iff_exists.1 (hm.resolve_left (by simp))
    dsimp only at h1 h2
    obtain ⟨M, hM, h1⟩ := bind_eq_ok.1 h1
    rw [hM, ok_bind] at h2
    obtain ⟨_, y, _, hy, e⟩ := mcAll_get h1 hz
    obtain ⟨_, y', _, hy', e'⟩ := mcAll_get h2 hz'
    obtain rfl := mcAt_state (lift_ok hy) (lift_ok hy')
    exact ⟨_, e, e'⟩
  | other => exact nomatch h1

/-- C146, points.  By the method `'fix'`, and by `'mc'` with a seed, the value at a point depends on the other points, their
number and order, the earlier calls and the state of the random numbers only through the resolution at the point: in two calls
for instruments with the same cell and orientation, points with the same coordinates, resolution matrix and intensity have the
same value. -/
theorem C146_own {G : Type} {n : ℕ} {R : Random G} {g g1 g' g1' : G} {i i1 j j1 : Inst} {S : Fin n → Point → ℝ} {pref : Option (Pref n)} {nargout : ℤ}
    {H K L W H' K' L' W' : Arg ℝ} {method : Method} {acc : Accuracy} {seed : Option ℕ} {v v' : List ℝ} (hm : method = .fix ∨ seed.isSome)
    (h1 : convolve R g i S pref nargout H K L W method acc seed = (i1, .ok (v, g1)))
    (h2 : convolve R g' j S pref nargout H' K' L' W' method acc seed = (j1, .ok (v', g1')))
    (hset : i1.setup.lattice = j1.setup.lattice ∧ i1.setup.u = j1.setup.u ∧ i1.setup.v = j1.setup.v)
    {z z' : ℕ} {h k l w h' k' l' w' : List ℝ} (hca : cleanArgs [H, K, L, W] = .ok (z, [h, k, l, w]))
    (hca' : cleanArgs [H', K', L', W'] = .ok (z', [h', k', l', w']))
    {a b : ℕ} {p : Point} {r : Res} (hp : ((hkls h k l).zip w)[a]? = some p) (hp' : ((hkls h' k' l').zip w')[b]? = some p)
    (hr : (i1.result.getD [])[a]? = some r) (hr' : (j1.result.getD [])[b]? = some r) :
    ∃ x, v[a]? = some x ∧ v'[b]? = some x := by
  obtain ⟨-, y, h0, k0, l0, w0, ax, hc0, hax, h1⟩ := convolve_ok_iff.1 h1
  obtain ⟨-, y', h0', k0', l0', w0', ax', hc0', hax', h2⟩ := convolve_ok_iff.1 h2
  rw [hca] at hc0
  rw [hca'] at hc0'
  obtain ⟨-, rfl, rfl, rfl, rfl⟩ : z = y ∧ h = h0 ∧ k = k0 ∧ l = l0 ∧ w = w0 := by
    have := Except.ok.inj hc0
    simpa only [Prod.mk.injEq, List.cons.injEq, and_true] using this
  obtain ⟨-, rfl, rfl, rfl, rfl⟩ : z' = y' ∧ h' = h0' ∧ k' = k0' ∧ l' = l0' ∧ w' = w0' := by
    have := Except.ok.inj hc0'
    simpa only [Prod.mk.injEq, List.cons.injEq, and_true] using this
  rw [← hset.1, ← hset.2.1, ← hset.2.2, hax] at hax'
  obtain rfl := Except.ok.inj hax'
  exact convolveAt_own hm h1 h2 hp hp' hr hr'

example {G : Type} (gen : Random G) (g : G) : ∃ i' l1, ∃ (P : Fin 2 → Point) (r : Fin 2 → Res),
    convolve gen g (Verif.Resolution.new demoSetup) (fun _ : Fin 1 => lorentzian) none 0 (.list twoPoints.H) (.list twoPoints.K)
      (.list twoPoints.L) (.list twoPoints.W) .fix (.list [3, 2]) none = (i', .ok (l1, g)) ∧
    (∃ z, cleanArgs [.list twoPoints.H, .list twoPoints.K, .list twoPoints.L, .list twoPoints.W] =
      .ok (z, [twoPoints.H, twoPoints.K, twoPoints.L, twoPoints.W])) ∧
    (∀ k : Fin 2, ((hkls twoPoints.H twoPoints.K twoPoints.L).zip twoPoints.W)[(k : ℕ)]? = some (P k)) ∧
    ∀ k : Fin 2, (i'.result.getD [])[(k : ℕ)]? = some (r k) := by
  obtain ⟨i1, _, P, r, _, -, b2, -, b4, -, b1⟩ := convolve_fix gen g (i := Verif.Resolution.new demoSetup) (.of demoSetup_valid) (q := twoPoints) (m := 2)
    ⟨rfl, rfl, rfl, rfl⟩ (by norm_num) (demo_valid 2) twoPoints_ok (fun _ : Fin 1 => lorentzian) none 0 rfl none
  exact ⟨i1, _, P, r, b1 3 2, ⟨_, Verif.Resolution.clean_query (n := 2) ⟨rfl, rfl, rfl, rfl⟩⟩, fun k => by rw [b4, List.getElem?_ofFn]; simp; omega,
    fun k => by rw [b2, Option.getD_some, List.getElem?_ofFn]; simp; omega⟩

/-! ## C147 -/

/-- What `resolution_convolution` accepts, for `m` points that the instrument can reach: the exception (or `nan`), or nothing
where there is a result. -/
def refusal (m : ℕ) (prefGiven : Bool) (nargout : ℤ) (method : Method) (acc : Accuracy) : Option Err :=
  if m = 1 then some .indexError
  else if prefGiven ∧ nargout ≠ 1 ∧ nargout ≠ 2 then some .valueError
  else match method, acc with
    | .other, _ => some .valueError
    | .fix, .none => none
    | .fix, .number _ => some .typeError
    | .fix, .list l => if l.length < 2 then some .indexError else none
    | .mc, .none => none
    | .mc, .number k => if k = 0 ∧ m ≠ 0 then some (.fail .nan) else none
    | .mc, .list l => if l.length ≠ 1 then some .valueError else if l = [0] ∧ m ≠ 0 then some (.fail .nan) else none

/-- The outcome agrees with the table. -/
def Agrees {α : Type} (x : Except Err α) : Option Err → Prop
  | none => ∃ a, x = .ok a
  | some e => x = .error e

theorem fixAll_total {n : ℕ} (ax : Vec × Vec × Vec) (S : Fin n → Point → ℝ) (f : Pref n) (M : ℕ × ℕ) :
    ∀ l : List (Point × Res × Coeffs), (∀ x ∈ l, 0 < x.2.2.detM) → ∃ l1, fixAll ax S f M l = .ok l1
  | [], _ => ⟨[], rfl⟩
  | x :: l, h => by
    obtain ⟨l1, h1⟩ := fixAll_total ax S f M l fun y hy => h y (by simp [hy])
    unfold fixAll at *
    rw [List.mapM_cons, h1, fixAt_ok (h x (by simp))]
    exact ⟨_, rfl⟩

theorem mcAll_total {G : Type} {n : ℕ} (R : Random G) (seed : Option ℕ) (ax : Vec × Vec × Vec) (S : Fin n → Point → ℝ) (f : Pref n) {M : ℕ} (hM : M ≠ 0) :
    ∀ (l : List (Point × Res × Coeffs)) (g : G), (∀ x ∈ l, 0 < x.2.2.detM) → ∃ r, mcAll R seed ax S f M l g = .ok r
  | [], g, _ => ⟨([], g), rfl⟩
  | x :: l, g, h => by
    have d0 := h x (by simp)
    obtain ⟨y, g', hy⟩ : ∃ y g', mcAt R seed x.2.2 ax x.1 S (f.factor x.1) M g = .ok (y, g') := by
      unfold mcAt
      rw [npSqrt_ok d0.le]
      simp only [npDiv_ok (Nat.cast_ne_zero.2 hM : (M : ℝ) ≠ 0), npDiv_ok (sqrt_pos.2 d0).ne', ok_bind]
      exact ⟨_, _, rfl⟩
    obtain ⟨⟨l1, g1⟩, h1⟩ := mcAll_total R seed ax S f hM l g' fun y hy => h y (by simp [hy])
    unfold mcAll
    rw [hy]
    simp only [lift, ok_bind, h1]
    exact ⟨_, rfl⟩

theorem mcAll_none {G : Type} {n : ℕ} (R : Random G) (seed : Option ℕ) (ax : Vec × Vec × Vec) (S : Fin n → Point → ℝ) (f : Pref n)
    {l : List (Point × Res × Coeffs)} (g : G) (hl : l ≠ []) : mcAll R seed ax S f 0 l g = .error (.fail .nan) := by
  obtain ⟨x, l, rfl⟩ := List.exists_cons_of_ne_nil hl
  unfold mcAll
  have : mcAt R seed x.2.2 ax x.1 S (f.factor x.1) 0 g = .error .nan := by
    unfold mcAt
    simp only [blocks, zero_mul, Finset.sum_const_zero, Nat.cast_zero, npDiv, if_true]
    rfl
  rw [this]
  rfl

theorem convolveAt_agrees {G : Type} {n : ℕ} (R : Random G) (g : G) (ax : Vec × Vec × Vec) {rs : List Res} {ps : List Point} {m : ℕ}
    (hrs : rs.length = m) (hps : ps.length = m) (hR : ∀ r ∈ rs, SPD r.rms) (S : Fin n → Point → ℝ) (pref : Option (Pref n)) (nargout : ℤ)
    (method : Method) (acc : Accuracy) (seed : Option ℕ) :
    Agrees (convolveAt R g ax rs ps S pref nargout method acc seed) (refusal m pref.isSome nargout method acc) := by
  unfold convolveAt refusal
  rw [hrs]
  by_cases hm : m = 1
  · rw [if_pos hm, if_pos hm]
    rfl
  rw [if_neg hm, if_neg hm]
  obtain ⟨cs, hcs, hall⟩ := coeffs_all hR
  have hlc : cs.length = m := by rw [← hall.length_eq, hrs]
  have hd : ∀ x ∈ ps.zip (rs.zip cs), 0 < x.2.2.detM := by
    intro x hx
    have hx := (List.of_mem_zip hx).2
    obtain ⟨k, hk, e⟩ := List.mem_iff_getElem.1 hx
    rw [List.getElem_zip] at e
    have hk1 : k < rs.length := by rw [List.length_zip] at hk; omega
    have hk2 : k < cs.length := by rw [List.length_zip] at hk; omega
    have := List.forall₂_iff_get.1 hall |>.2 k hk1 hk2
    obtain ⟨c, hc, -, -, -, -, -, d0, -⟩ := coeffs_ok (hR rs[k] (List.getElem_mem _))
    have e2 : coeffs rs[k].rms = .ok cs[k] := this
    rw [hc] at e2
    rw [← e, ← Except.ok.inj e2]
    exact d0
  have hlen : (ps.zip (rs.zip cs)).length = m := by simp [hps, hrs, hlc]
  rw [hcs]
  simp only [lift, ok_bind]
  have main : ∀ f, prefactor pref nargout = .ok f → Agrees (do
      let f ← prefactor pref nargout
      match method with
        | .fix => do return (← fixAll ax S f (← gridSize acc) (ps.zip (rs.zip cs)), g)
        | .mc => mcAll R seed ax S f (← blockNumber acc) (ps.zip (rs.zip cs)) g
        | .other => (.error .valueError : Except Err (List ℝ × G)))
      (match method, acc with
        | .other, _ => some .valueError
        | .fix, .none => none
        | .fix, .number _ => some .typeError
        | .fix, .list l => if l.length < 2 then some .indexError else none
        | .mc, .none => none
        | .mc, .number k => if k = 0 ∧ m ≠ 0 then some (.fail .nan) else none
        | .mc, .list l => if l.length ≠ 1 then some .valueError else if l = [0] ∧ m ≠ 0 then some (.fail .nan) else none) := by
    intro f hf
    rw [hf]
    simp only [ok_bind]
    have fx : ∀ M, ∃ a, (do return (← fixAll ax S f M (ps.zip (rs.zip cs)), g) : Except Err (List ℝ × G)) = .ok a := fun M => by
      obtain ⟨l1, h1⟩ := fixAll_total ax S f M _ hd
      exact ⟨(l1, g), by rw [h1]; rfl⟩
    have mcx : ∀ k : ℕ, Agrees (mcAll R seed ax S f k (ps.zip (rs.zip cs)) g) (if k = 0 ∧ m ≠ 0 then some (.fail .nan) else none) := fun k => by
      by_cases hk : k = 0
      · subst hk
        by_cases hm0 : m = 0
        · rw [if_neg (by simp [hm0])]
          rw [List.length_eq_zero_iff.1 (hlen.trans hm0)]
          exact ⟨_, rfl⟩
        · rw [if_pos ⟨rfl, hm0⟩]
          exact mcAll_none R seed ax S f g fun h => hm0 (by rw [← hlen, h]; rfl)
      · rw [if_neg (by simp [hk])]
        exact mcAll_total R seed ax S f hk _ g hd
    cases method with
    | other => rfl
    | fix =>
      cases acc with
      | none => exact fx _
      | number k => rfl
      | list l =>
        match l with
        | [] => rfl
        | [_] => rfl
        | a :: b :: l => exact fx (a, b)
    | mc =>
      cases acc with
      | none => exact mcx 10
      | number k => exact mcx k
      | list l =>
        match l with
        | [] => rfl
        | [a] =>
          have := mcx a
          simpa [blockNumber, ok_bind] using this
        | a :: b :: l => rfl
  cases pref with
  | none =>
    simp only [Option.isSome_none, Bool.false_eq_true, false_and, if_false]
    exact main _ rfl
  | some f =>
    simp only [Option.isSome_some, true_and]
    by_cases hn : nargout ≠ 1 ∧ nargout ≠ 2
    · rw [if_pos hn]
      unfold prefactor
      dsimp only
      rw [if_neg hn.2, if_neg hn.1]
      rfl
    · rw [if_neg hn]
      by_cases h2 : nargout = 2
      · exact main f (by unfold prefactor; dsimp only; rw [if_pos h2])
      · have h1 : nargout = 1 := by
          by_contra h
          exact hn ⟨h, h2⟩
        exact main ⟨f.factor, fun _ => 0⟩ (by unfold prefactor; dsimp only; rw [if_neg h2, if_pos h1])

/-- C147.  For every valid instrument and points in the plane that it can reach, `resolution_convolution` has the outcome of
the table, whatever the cross section, the prefactor, the seed and the state of the random numbers. -/
theorem C147_outcome {G : Type} {n m : ℕ} (gen : Random G) (g : G) {i : Inst} {E F : Mat} (h : Level i.setup E F) {q : Query}
    (hq : q.Len m) (hS : i.setup.settings.Valid m) (hp : Points i.setup F q) (sqw : Fin n → Point → ℝ) (pref : Option (Pref n)) (nargout : ℤ)
    (method : Method) (acc : Accuracy) (seed : Option ℕ) :
    Agrees (convolve gen g i sqw pref nargout (.list q.H) (.list q.K) (.list q.L) (.list q.W) method acc seed).2
      (refusal m pref.isSome nargout method acc) := by
  obtain ⟨i', rs, hc, hset, hres, hlen, hgood⟩ := calc_points h hq hS hp
  obtain ⟨x, y, z, hax, -⟩ := h.axes
  unfold convolve
  rw [hc, Verif.Resolution.clean_query hq]
  dsimp only
  rw [hset.1, hset.2.1, hset.2.2, hax, hres]
  simp only [lift, ok_bind, Option.getD_some]
  refine convolveAt_agrees gen g _ hlen ?_ (fun r hr => (hgood r hr).1) sqw pref nargout method acc seed
  rw [List.length_zip, Verif.Resolution.hkls_length hq.H hq.K hq.L, hq.W, min_self]

/-- C147. A call without `ACCURACY` gives what `[7, 0]` gives for `'fix'` and what `10` gives for `'mc'`, the defaults of the
source. -/
theorem C147_default {G : Type} {n : ℕ} (gen : Random G) (g : G) (i : Inst) (sqw : Fin n → Point → ℝ) (pref : Option (Pref n)) (nargout : ℤ)
    (H K L W : Arg ℝ) (seed : Option ℕ) :
    convolve gen g i sqw pref nargout H K L W .fix .none seed = convolve gen g i sqw pref nargout H K L W .fix (.list [7, 0]) seed ∧
    convolve gen g i sqw pref nargout H K L W .mc .none seed = convolve gen g i sqw pref nargout H K L W .mc (.number 10) seed :=
  ⟨rfl, rfl⟩

/-- C147, single points: the only number of points for which there is never a result. -/
theorem C147_single {G : Type} {n m : ℕ} (gen : Random G) (g : G) {i : Inst} {E F : Mat} (h : Level i.setup E F) {q : Query}
    (hq : q.Len m) (hS : i.setup.settings.Valid m) (hp : Points i.setup F q) (sqw : Fin n → Point → ℝ) :
    m = 1 ↔ ∀ pref nargout method acc seed,
      (convolve gen g i sqw pref nargout (.list q.H) (.list q.K) (.list q.L) (.list q.W) method acc seed).2 = .error .indexError := by
  constructor
  · rintro rfl pref nargout method acc seed
    simpa [refusal, Agrees] using C147_outcome gen g h hq hS hp sqw pref nargout method acc seed
  · intro h1
    by_contra hm
    have h2 := C147_outcome gen g h hq hS hp sqw none 0 .fix .none none
    rw [h1] at h2
    simp only [refusal, if_neg hm, Option.isSome_none, Bool.false_eq_true, false_and, if_false, Agrees] at h2
    obtain ⟨a, ha⟩ := h2
    exact nomatch ha

/-- A single point that an instrument can reach. -/
example : ∃ (q : Query), q.Len 1 ∧ demoSetup.settings.Valid 1 ∧ Points demoSetup 1 q := by
  refine ⟨⟨[3 / 5], [4 / 5], [0], [1]⟩, ⟨rfl, rfl, rfl, rfl⟩, demo_valid 1, fun p hp => ?_⟩
  refine twoPoints_ok p ?_
  have e : p ∈ ((hkls ([3 / 5] : List ℝ) [4 / 5] [0]).zip [(1 : ℝ)]) := hp
  simp only [hkls, twoPoints] at e ⊢
  simp at e ⊢
  exact Or.inl e

/-! ## C149 -/

theorem quadrature4_one (f : ℝ → ℝ → ℝ → ℝ → ℝ) : quadrature4 0 0 f = π ^ 4 * f 0 0 0 0 := by
  have one : ∀ g : ℝ → ℝ, quadrature 0 g = g 0 * π := fun g => by
    rw [quadrature]
    have e : node 0 0 = 0 := by
      unfold node step
      simp
      ring
    simp [e, weight, step]
  unfold quadrature4
  simp only [one]
  ring

theorem kappa_four : kappa ^ 4 < 1 ∧ 1 < kappa ^ 4 * (1 + 1e-4) := by
  have hk4 : kappa ^ 4 = (0.79788 ^ 2 * (π / 2)) ^ 2 := by
    unfold kappa
    rw [mul_pow, show √(π / 2) ^ 4 = (√(π / 2) ^ 2) ^ 2 by ring, sq_sqrt (by have := pi_pos; positivity)]
    ring
  have h2 := pi_gt_d6
  have h3 := pi_lt_d6
  obtain ⟨a, ha⟩ : ∃ a, a = 0.79788 ^ 2 * (π / 2) := ⟨_, rfl⟩
  rw [hk4, ← ha]
  have l : 0.99998 < a := by rw [ha]; linarith
  have u : a < 0.99999 := by rw [ha]; linarith
  constructor <;> nlinarith

/-- C149.  With `ACCURACY` `[0, 0]` the method `'fix'` gives at each point the cross sections at the point itself, times the
volume of the resolution function, times a number that differs from one by less than `1e-4`. -/
theorem C149_centre {G : Type} {n m : ℕ} (gen : Random G) (g : G) {i : Inst} {E F : Mat} (h : Level i.setup E F) {q : Query}
    (hq : q.Len m) (hm : m ≠ 1) (hS : i.setup.settings.Valid m) (hp : Points i.setup F q) (sqw : Fin n → Point → ℝ)
    (pref : Option (Pref n)) (nargout : ℤ) {f : Pref n} (hf : prefactor pref nargout = .ok f) (seed : Option ℕ) :
    ∃ (i' : Inst) (P : Fin m → Point) (r : Fin m → Res),
      calcResolution i (.list q.H) (.list q.K) (.list q.L) (.list q.W) = (i', none) ∧ i'.result = some (List.ofFn r) ∧
      (hkls q.H q.K q.L).zip q.W = List.ofFn P ∧
      convolve gen g i sqw pref nargout (.list q.H) (.list q.K) (.list q.L) (.list q.W) .fix (.list [0, 0]) seed =
        (i', .ok (List.ofFn fun k => kappa ^ 4 * (∑ j, f.factor (P k) j * sqw j (P k)) *
          (∫ d : Fin 4 → ℝ, (r k).r0 * exp (-(1 / 2) * quad (r k).rms d)) + f.background (P k), g)) ∧ |kappa ^ 4 - 1| < 1e-4 := by
  obtain ⟨i', ax, P, r, c, h1, h2, h3, h4, h5, h6⟩ := convolve_fix gen g h hq hm hS hp sqw pref nargout hf seed
  refine ⟨i', P, r, h1, h2, h4, ?_, ?_⟩
  · rw [h6]
    congr 4
    funext k
    obtain ⟨s1, s2, s3⟩ := h5 k
    obtain ⟨c', hc', -, -, -, -, hdet, d0, -⟩ := coeffs_ok s1
    rw [s3] at hc'
    obtain rfl := Except.ok.inj hc'
    rw [cut_of_decoupled s2] at hdet
    rw [integral_const_mul, integral_quad s1, fixValue, hdet]
    have e : ∀ S : Point → ℝ, quadrature4 0 0 (fun x y z w => S (sampled (c k) ax (P k) x y z w)) = π ^ 4 * S (P k) := fun S => by
      rw [quadrature4_one]
      simp [sampled]
    simp only [e, if_true]
    have hk4 : kappa ^ 4 = 0.79788 ^ 4 * (π / 2) ^ 2 := by
      unfold kappa
      rw [mul_pow, show √(π / 2) ^ 4 = (√(π / 2) ^ 2) ^ 2 by ring, sq_sqrt (by have := pi_pos; positivity)]
    have e2 : ∑ j, π ^ 4 * sqw j (P k) * f.factor (P k) j = π ^ 4 * ∑ j, f.factor (P k) j * sqw j (P k) := by
      rw [Finset.mul_sum]
      exact Finset.sum_congr rfl fun j _ => by ring
    rw [hk4, e2]
    ring
  · obtain ⟨a, b⟩ := kappa_four
    rw [abs_lt]
    constructor <;> nlinarith

/-- C149, constant cross sections: for a cross section of one, no instrument and point with this accuracy gives the convolution
itself, the volume of the resolution function. -/
theorem C149_constant {G : Type} {m : ℕ} (gen : Random G) (g : G) {i : Inst} {E F : Mat} (h : Level i.setup E F) {q : Query}
    (hq : q.Len m) (hm : m ≠ 1) (hS : i.setup.settings.Valid m) (hp : Points i.setup F q) (seed : Option ℕ) :
    ∃ (v u : Fin m → ℝ) (i' : Inst) (ax : Vec × Vec × Vec) (P : Fin m → Point) (r : Fin m → Res),
      convolve gen g i (fun (_ : Fin 1) _ => 1) none 0 (.list q.H) (.list q.K) (.list q.L) (.list q.W) .fix (.list [0, 0]) seed =
        (i', .ok (List.ofFn v, g)) ∧ i'.result = some (List.ofFn r) ∧ (hkls q.H q.K q.L).zip q.W = List.ofFn P ∧
      ∀ k, u k = expected ax (fun (_ : Fin 1) _ => 1) ⟨fun _ _ => 1, fun _ => 0⟩ (P k) (r k) ∧ v k < u k ∧ u k < v k * (1 + 1e-4) := by
  obtain ⟨i', ax, P, r, c, h1, h2, h3, h4, h5, -⟩ := convolve_fix gen g h hq hm hS hp (fun (_ : Fin 1) _ => 1) none 0 rfl seed
  obtain ⟨i2, P2, r2, a1, a2, a3, a4, -⟩ := C149_centre gen g h hq hm hS hp (fun (_ : Fin 1) _ => 1) none 0 rfl seed
  obtain ⟨j, rs, b1, -, b3, -, hgood⟩ := calc_points h hq hS hp
  rw [a1] at b1
  obtain ⟨rfl, -⟩ := Prod.mk.inj b1
  rw [b3] at a2
  obtain rfl := Option.some.inj a2
  refine ⟨_, fun k => expected ax (fun (_ : Fin 1) _ => 1) ⟨fun _ _ => 1, fun _ => 0⟩ (P2 k) (r2 k), i2, ax, P2, r2, a4, b3, a3, fun k => ⟨rfl, ?_⟩⟩
  obtain ⟨s1, -, s3⟩ := hgood (r2 k) ((List.mem_ofFn' _ _).2 ⟨k, rfl⟩)
  have q0 : 0 < (r2 k).rms.det := ((Verif.Resolution.posDef_iff_spd _).2 s1).det_pos
  have e : ∫ d : Fin 4 → ℝ, (r2 k).r0 * exp (-(1 / 2) * quad (r2 k).rms d) = (r2 k).r0 * ((2 * π) ^ 2 / √(r2 k).rms.det) := by
    rw [integral_const_mul, integral_quad s1]
  have e2 : expected ax (fun (_ : Fin 1) _ => 1) ⟨fun _ _ => 1, fun _ => 0⟩ (P2 k) (r2 k) = (r2 k).r0 * ((2 * π) ^ 2 / √(r2 k).rms.det) := by
    rw [← e]
    unfold expected
    simp only [one_mul, add_zero, Finset.univ_unique, Finset.sum_const, Finset.card_singleton, one_smul]
  simp only [e2, e, mul_one, Finset.univ_unique, Finset.sum_const, Finset.card_singleton, one_smul, add_zero]
  have pos : 0 < (r2 k).r0 * ((2 * π) ^ 2 / √(r2 k).rms.det) := by
    have := pi_pos
    have := sqrt_pos.2 q0
    positivity
  obtain ⟨l, u⟩ := kappa_four
  constructor <;> nlinarith

end Verif.Convolution
