import Verif.Convolution.PropsForm
import Verif.Single.Props

/-!
# Property C219: the convolution of single modes is linear in the intensities and acts on each point separately
-/

namespace Verif.Single

open Real Matrix
open Verif.Crystal (Fail Vec Mat npSqrt npDiv npDiv_ok npSqrt_ok standardSystem)
open Verif.Resolution (M4 Inst Res calcResolution hkls Query demoSetup demoSetup_valid demo_valid)
open Verif.Tools (Arg cleanArgs)
open Verif.Convolution (Err lift Point Pref weight step nodes Accuracy Method gridSize blockNumber lift_ok npDiv_some twoPoints twoPoints_ok)

/-! ## Lemmas -/

/-- Modes with the same dispersions and widths, and a combination of the intensities. -/
def mixed {n : ℕ} (a b : ℝ) (D Γ I J : Fin n → Vec → ℝ) : Fin n → Vec → Mode := fun j q => ⟨D j q, a * I j q + b * J j q, Γ j q⟩

/-- Modes with given dispersions, widths and intensities. -/
def modes {n : ℕ} (D Γ I : Fin n → Vec → ℝ) : Fin n → Vec → Mode := fun j q => ⟨D j q, I j q, Γ j q⟩

theorem term_mixed {n : ℕ} (c : Coeffs) (ax : Vec × Vec × Vec) (p : Point) (D Γ I J : Fin n → Vec → ℝ) (a b : ℝ) (j : Fin n) (x y z : ℝ) :
    term c ax p (mixed a b D Γ I J j) x y z = a * term c ax p (modes D Γ I j) x y z + b * term c ax p (modes D Γ J j) x y z := by
  unfold term mixed modes
  dsimp only
  ring

theorem gridSum_mixed {n : ℕ} (c : Coeffs) (ax : Vec × Vec × Vec) (p : Point) (D Γ I J : Fin n → Vec → ℝ) (a b : ℝ) (j : Fin n) (M0 M1 : ℕ) :
    gridSum c ax p (mixed a b D Γ I J j) M0 M1 = a * gridSum c ax p (modes D Γ I j) M0 M1 + b * gridSum c ax p (modes D Γ J j) M0 M1 := by
  unfold gridSum
  simp only [Verif.Convolution.sum_nodes, term_mixed, Finset.mul_sum, ← Finset.sum_add_distrib]
  refine Finset.sum_congr rfl fun _ _ => Finset.sum_congr rfl fun _ _ => Finset.sum_congr rfl fun _ _ => ?_
  ring

theorem blockSum_mixed {n : ℕ} (c : Coeffs) (ax : Vec × Vec × Vec) (p : Point) (D Γ I J : Fin n → Vec → ℝ) (a b : ℝ) (j : Fin n)
    (r : Fin 3 → Fin 1000 → ℝ) :
    blockSum c ax p (mixed a b D Γ I J j) r = a * blockSum c ax p (modes D Γ I j) r + b * blockSum c ax p (modes D Γ J j) r := by
  unfold blockSum
  simp only [term_mixed, Finset.mul_sum, ← Finset.sum_add_distrib]
  refine Finset.sum_congr rfl fun _ _ => ?_
  ring

theorem fixAt_mixed {n : ℕ} (c : Coeffs) (ax : Vec × Vec × Vec) (p : Point) (D Γ I J : Fin n → Vec → ℝ) (a b : ℝ) (f : Fin n → ℝ) (M0 M1 : ℕ) :
    fixAt c ax p (mixed a b D Γ I J) f M0 M1 = a * fixAt c ax p (modes D Γ I) f M0 M1 + b * fixAt c ax p (modes D Γ J) f M0 M1 := by
  have e : ∑ j, gridSum c ax p (mixed a b D Γ I J j) M0 M1 * f j =
      a * (∑ j, gridSum c ax p (modes D Γ I j) M0 M1 * f j) + b * ∑ j, gridSum c ax p (modes D Γ J j) M0 M1 * f j := by
    rw [Finset.mul_sum, Finset.mul_sum, ← Finset.sum_add_distrib]
    exact Finset.sum_congr rfl fun j _ => by rw [gridSum_mixed]; ring
  unfold fixAt
  rw [e]
  by_cases h0 : M0 = 0 <;> by_cases h1 : M1 = 0 <;> simp only [h0, h1, if_true, if_false] <;> ring

theorem blocks_mixed {G : Type} {n : ℕ} (R : Random G) (seed : Option ℕ) (c : Coeffs) (ax : Vec × Vec × Vec) (p : Point)
    (D Γ I J : Fin n → Vec → ℝ) (a b : ℝ) : ∀ (m : ℕ) (u v : Fin n → ℝ) (g : G),
    blocks R seed c ax p (mixed a b D Γ I J) m (fun j => a * u j + b * v j, g) =
      (fun j => a * (blocks R seed c ax p (modes D Γ I) m (u, g)).1 j + b * (blocks R seed c ax p (modes D Γ J) m (v, g)).1 j,
        (blocks R seed c ax p (modes D Γ I) m (u, g)).2) ∧
    (blocks R seed c ax p (modes D Γ I) m (u, g)).2 = (blocks R seed c ax p (modes D Γ J) m (v, g)).2
  | 0, u, v, g => ⟨rfl, rfl⟩
  | m + 1, u, v, g => by
    simp only [blocks]
    have e : ∀ r, (fun j => a * u j + b * v j + blockSum c ax p (mixed a b D Γ I J j) r) =
        fun j => a * (u j + blockSum c ax p (modes D Γ I j) r) + b * (v j + blockSum c ax p (modes D Γ J j) r) := fun r => by
      funext j
      rw [blockSum_mixed]
      ring
    rw [e]
    exact blocks_mixed R seed c ax p D Γ I J a b m _ _ _

theorem mcAt_mixed {G : Type} {n : ℕ} {R : Random G} {seed : Option ℕ} {c : Coeffs} {ax : Vec × Vec × Vec} {p : Point}
    {D Γ I J : Fin n → Vec → ℝ} {f : Fin n → ℝ} {a b x y : ℝ} {M : ℕ} {g g1 g2 : G} (h1 : mcAt R seed c ax p (modes D Γ I) f M g = .ok (x, g1))
    (h2 : mcAt R seed c ax p (modes D Γ J) f M g = .ok (y, g2)) :
    mcAt R seed c ax p (mixed a b D Γ I J) f M g = .ok (a * x + b * y, g1) ∧ g1 = g2 := by
  unfold mcAt at *
  obtain ⟨hb, hg⟩ := blocks_mixed R seed c ax p D Γ I J a b M (fun _ => 0) (fun _ => 0) g
  simp only [mul_zero, add_zero] at hb
  rw [hb]
  revert h1 h2 hg
  generalize blocks R seed c ax p (modes D Γ I) M (fun _ => 0, g) = s
  generalize blocks R seed c ax p (modes D Γ J) M (fun _ => 0, g) = t
  obtain ⟨u, gu⟩ := s
  obtain ⟨v, gv⟩ := t
  intro h1 h2 hg
  dsimp only at *
  obtain ⟨q1, hq1, h1⟩ := bind_eq_ok.1 h1
  obtain ⟨q2, hq2, h2⟩ := bind_eq_ok.1 h2
  obtain ⟨hM, rfl⟩ := npDiv_some hq1
  obtain ⟨-, rfl⟩ := npDiv_some hq2
  obtain ⟨rfl, rfl⟩ := Prod.mk.inj (Except.ok.inj h1)
  obtain ⟨rfl, rfl⟩ := Prod.mk.inj (Except.ok.inj h2)
  refine ⟨?_, hg⟩
  rw [npDiv_ok hM, ok_bind, pure_ok]
  congr 2
  have e : ∑ j, (a * u j + b * v j) * f j = a * (∑ j, u j * f j) + b * ∑ j, v j * f j := by
    rw [Finset.mul_sum, Finset.mul_sum, ← Finset.sum_add_distrib]
    exact Finset.sum_congr rfl fun j _ => by ring
  rw [e]
  field_simp

theorem map_zipWith {α : Type} (a b : ℝ) (F F1 F2 : α → ℝ) : ∀ l : List α, (∀ x ∈ l, F x = a * F1 x + b * F2 x) →
    l.map F = List.zipWith (fun x y => a * x + b * y) (l.map F1) (l.map F2)
  | [], _ => rfl
  | x :: l, h => by
    rw [List.map_cons, List.map_cons, List.map_cons, List.zipWith_cons_cons, h x List.mem_cons_self,
      map_zipWith a b F F1 F2 l fun y hy => h y (List.mem_cons_of_mem _ hy)]

theorem mcAll_mixed {G : Type} {n : ℕ} {R : Random G} {seed : Option ℕ} {ax : Vec × Vec × Vec} {D Γ I J : Fin n → Vec → ℝ} {f : Pref n}
    (hf : f.background = fun _ => 0) {a b : ℝ} {M : ℕ} :
    ∀ {l : List (Point × Res × Coeffs)} {g g1 g2 : G} {l1 l2 : List ℝ}, mcAll R seed ax (modes D Γ I) f M l g = .ok (l1, g1) →
      mcAll R seed ax (modes D Γ J) f M l g = .ok (l2, g2) →
      mcAll R seed ax (mixed a b D Γ I J) f M l g = .ok (List.zipWith (fun x y => a * x + b * y) l1 l2, g1) ∧ g1 = g2
  | [], g, g1, g2, l1, l2, h1, h2 => by
    obtain ⟨rfl, rfl⟩ := Prod.mk.inj (Except.ok.inj h1)
    obtain ⟨rfl, rfl⟩ := Prod.mk.inj (Except.ok.inj h2)
    exact ⟨rfl, rfl⟩
  | x :: l, g, g1, g2, l1, l2, h1, h2 => by
    unfold mcAll at h1 h2 ⊢
    obtain ⟨⟨x1, k1⟩, hx1, h1⟩ := bind_eq_ok.1 h1
    obtain ⟨⟨x2, k2⟩, hx2, h2⟩ := bind_eq_ok.1 h2
    obtain ⟨hc, rfl⟩ := mcAt_mixed (a := a) (b := b) (lift_ok hx1) (lift_ok hx2)
    dsimp only at h1 h2
    obtain ⟨⟨y1, m1⟩, hy1, h1⟩ := bind_eq_ok.1 h1
    obtain ⟨⟨y2, m2⟩, hy2, h2⟩ := bind_eq_ok.1 h2
    obtain ⟨ih, rfl⟩ := mcAll_mixed hf (a := a) (b := b) hy1 hy2
    obtain ⟨rfl, rfl⟩ := Prod.mk.inj (Except.ok.inj h1)
    obtain ⟨rfl, rfl⟩ := Prod.mk.inj (Except.ok.inj h2)
    rw [hc]
    simp only [lift, ok_bind, ih, pure_ok, List.zipWith_cons_cons, hf, and_true]
    congr 3
    ring

theorem convolveAt_mixed {G : Type} {n : ℕ} {R : Random G} {g g1 g2 : G} {ax : Vec × Vec × Vec} {rs : List Res} {ps : List Point}
    {D Γ I J : Fin n → Vec → ℝ} {pref : Option (Pref n)} {nargout : ℤ} {method : Method} {acc : Accuracy} {seed : Option ℕ} {l1 l2 : List ℝ}
    (hbg : ∀ f, prefactor pref nargout = .ok f → f.background = fun _ => 0) (a b : ℝ)
    (h1 : convolveAt R g ax rs ps (modes D Γ I) pref nargout method acc seed = .ok (l1, g1))
    (h2 : convolveAt R g ax rs ps (modes D Γ J) pref nargout method acc seed = .ok (l2, g2)) :
    convolveAt R g ax rs ps (mixed a b D Γ I J) pref nargout method acc seed = .ok (List.zipWith (fun x y => a * x + b * y) l1 l2, g1) ∧ g1 = g2 := by
  unfold convolveAt at *
  by_cases hl : rs.length = 1
  · rw [if_pos hl] at h1
    exact nomatch h1
  · rw [if_neg hl] at *
    obtain ⟨cs, hcs, h1⟩ := bind_eq_ok.1 h1
    rw [hcs] at h2 ⊢
    simp only [ok_bind] at h2 ⊢
    obtain ⟨f, hf, h1⟩ := bind_eq_ok.1 h1
    rw [hf] at h2 ⊢
    simp only [ok_bind] at h2 ⊢
    cases method with
    | fix =>
      dsimp only at h1 h2 ⊢
      obtain ⟨M, hM, h1⟩ := bind_eq_ok.1 h1
      rw [hM] at h2 ⊢
      simp only [ok_bind] at h2 ⊢
      obtain ⟨rfl, rfl⟩ := Prod.mk.inj (Except.ok.inj h1)
      obtain ⟨rfl, rfl⟩ := Prod.mk.inj (Except.ok.inj h2)
      refine ⟨?_, rfl⟩
      rw [pure_ok, map_zipWith a b _ _ _ _ fun x _ => ?_]
      rw [fixAt_mixed, hbg f hf]
      ring
    | mc =>
      dsimp only at h1 h2 ⊢
      obtain ⟨M, hM, h1⟩ := bind_eq_ok.1 h1
      rw [hM] at h2 ⊢
      simp only [ok_bind] at h2 ⊢
      exact mcAll_mixed (hbg f hf) h1 h2
    | other => exact nomatch h1

/-- When a convolution succeeds. -/
theorem single_ok_iff {G : Type} {n : ℕ} {R : Random G} {g : G} {i i' : Inst} {S : Fin n → Vec → Mode} {pref : Option (Pref n)} {nargout : ℤ}
    {H K L W : Arg ℝ} {method : Method} {acc : Accuracy} {seed : Option ℕ} {r : List ℝ × G} :
    convolve R g i S pref nargout H K L W method acc seed = (i', .ok r) ↔
      calcResolution i H K L W = (i', none) ∧ ∃ z h k l w ax, cleanArgs [H, K, L, W] = .ok (z, [h, k, l, w]) ∧
        standardSystem i'.setup.lattice i'.setup.u i'.setup.v = .ok ax ∧
        convolveAt R g ax (i'.result.getD []) ((hkls h k l).zip w) S pref nargout method acc seed = .ok r := by
  unfold convolve
  constructor
  · intro h1
    split at h1
    · exact nomatch (Prod.mk.inj h1).2
    · rename_i j z h k l w hc hca
      obtain ⟨rfl, h1'⟩ := Prod.mk.inj h1
      obtain ⟨ax, hax, h1⟩ := bind_eq_ok.1 h1'
      exact ⟨hc, z, h, k, l, w, ax, hca, lift_ok hax, h1⟩
    · exact nomatch (Prod.mk.inj h1).2
  · rintro ⟨hc, z, h, k, l, w, ax, hca, hax, h1⟩
    rw [hc, hca]
    simp only [hax, lift, ok_bind, h1]

theorem mcAll_background {G : Type} {n : ℕ} {R : Random G} {seed : Option ℕ} {ax : Vec × Vec × Vec} {S : Fin n → Vec → Mode} {f : Pref n} {M : ℕ} :
    ∀ {ps : List Point} {rs : List (Res × Coeffs)} {g g1 : G} {l1 : List ℝ},
      mcAll R seed ax S ⟨f.factor, fun _ => 0⟩ M (ps.zip rs) g = .ok (l1, g1) →
      mcAll R seed ax S f M (ps.zip rs) g = .ok (List.zipWith (fun p x => x + f.background p) ps l1, g1)
  | [], _, g, g1, l1, h1 => by
    rw [List.zip_nil_left] at h1 ⊢
    obtain ⟨rfl, rfl⟩ := Prod.mk.inj (Except.ok.inj h1)
    rfl
  | p :: ps, [], g, g1, l1, h1 => by
    rw [List.zip_nil_right] at h1 ⊢
    obtain ⟨rfl, rfl⟩ := Prod.mk.inj (Except.ok.inj h1)
    rfl
  | p :: ps, x :: rs, g, g1, l1, h1 => by
    rw [List.zip_cons_cons] at h1 ⊢
    unfold mcAll at h1 ⊢
    obtain ⟨⟨x1, k1⟩, hx1, h1⟩ := bind_eq_ok.1 h1
    dsimp only at h1
    obtain ⟨⟨y1, m1⟩, hy1, h1⟩ := bind_eq_ok.1 h1
    obtain ⟨rfl, rfl⟩ := Prod.mk.inj (Except.ok.inj h1)
    rw [lift_ok hx1]
    simp only [lift, ok_bind, mcAll_background (f := f) hy1, pure_ok, List.zipWith_cons_cons, add_zero]

theorem mcAll_get {G : Type} {n : ℕ} {R : Random G} {seed : ℕ} {ax : Vec × Vec × Vec} {S : Fin n → Vec → Mode} {f : Pref n} {M : ℕ} :
    ∀ {l : List (Point × Res × Coeffs)} {g g1 : G} {l1 : List ℝ} {k : ℕ} {x : Point × Res × Coeffs},
      mcAll R (some seed) ax S f M l g = .ok (l1, g1) → l[k]? = some x →
      ∃ g y g', lift (mcAt R (some seed) x.2.2 ax x.1 S (f.factor x.1) M g) = .ok (y, g') ∧ l1[k]? = some (y * x.2.1.r0 + f.background x.1)
  | [], _, _, _, _, _, _, h => by simp at h
  | a :: l, g, g1, l1, k, x, h1, h => by
    unfold mcAll at h1
    obtain ⟨⟨x1, k1⟩, hx1, h1⟩ := bind_eq_ok.1 h1
    dsimp only at h1
    obtain ⟨⟨y1, m1⟩, hy1, h1⟩ := bind_eq_ok.1 h1
    obtain ⟨rfl, rfl⟩ := Prod.mk.inj (Except.ok.inj h1)
    cases k with
    | zero =>
      rw [List.getElem?_cons_zero, Option.some.injEq] at h
      subst h
      exact ⟨g, x1, k1, hx1, rfl⟩
    | succ k =>
      rw [List.getElem?_cons_succ] at h ⊢
      exact mcAll_get (l := l) hy1 h

theorem blocks_state {G : Type} {n : ℕ} (R : Random G) (seed : ℕ) (c : Coeffs) (ax : Vec × Vec × Vec) (p : Point) (S : Fin n → Vec → Mode) :
    ∀ (m : ℕ) (u : Fin n → ℝ) (g g' : G), (blocks R (some seed) c ax p S m (u, g)).1 = (blocks R (some seed) c ax p S m (u, g')).1
  | 0, _, _, _ => rfl
  | m + 1, u, g, g' => by simp only [blocks]

theorem mcAt_state {G : Type} {n : ℕ} {R : Random G} {seed : ℕ} {c : Coeffs} {ax : Vec × Vec × Vec} {p : Point} {S : Fin n → Vec → Mode}
    {f : Fin n → ℝ} {M : ℕ} {g g' k k' : G} {x y : ℝ} (h1 : mcAt R (some seed) c ax p S f M g = .ok (x, k))
    (h2 : mcAt R (some seed) c ax p S f M g' = .ok (y, k')) : x = y := by
  unfold mcAt at *
  have := blocks_state R seed c ax p S M (fun _ => 0) g g'
  revert h1 h2 this
  generalize blocks R (some seed) c ax p S M (fun _ => 0, g) = s
  generalize blocks R (some seed) c ax p S M (fun _ => 0, g') = t
  obtain ⟨u, gu⟩ := s
  obtain ⟨v, gv⟩ := t
  rintro h1 h2 rfl
  dsimp only at *
  obtain ⟨q1, hq1, h1⟩ := bind_eq_ok.1 h1
  rw [hq1, ok_bind] at h2
  rw [← (Prod.mk.inj (Except.ok.inj h1)).1, ← (Prod.mk.inj (Except.ok.inj h2)).1]

theorem coeffs_get : ∀ {rs : List Res} {cs : List Coeffs} {k : ℕ} {r : Res}, rs.mapM (fun r => coeffs r.rms) = .ok cs → rs[k]? = some r →
    ∃ c, coeffs r.rms = .ok c ∧ cs[k]? = some c
  | [], _, _, _, _, h => by simp at h
  | a :: rs, cs, k, r, h1, h => by
    rw [List.mapM_cons] at h1
    obtain ⟨c, hc, h1⟩ := bind_eq_ok.1 h1
    obtain ⟨cs', hcs, h1⟩ := bind_eq_ok.1 h1
    rw [← Except.ok.inj h1]
    cases k with
    | zero =>
      rw [List.getElem?_cons_zero, Option.some.injEq] at h
      subst h
      exact ⟨c, hc, rfl⟩
    | succ k =>
      rw [List.getElem?_cons_succ] at h ⊢
      exact coeffs_get (rs := rs) hcs h

theorem convolveAt_own {G : Type} {n : ℕ} {R : Random G} {g g1 g' g1' : G} {ax : Vec × Vec × Vec} {rs rs' : List Res} {ps ps' : List Point}
    {S : Fin n → Vec → Mode} {pref : Option (Pref n)} {nargout : ℤ} {method : Method} {acc : Accuracy} {seed : Option ℕ} {l l' : List ℝ}
    (hm : method = .fix ∨ seed.isSome)
    (h1 : convolveAt R g ax rs ps S pref nargout method acc seed = .ok (l, g1))
    (h2 : convolveAt R g' ax rs' ps' S pref nargout method acc seed = .ok (l', g1'))
    {k k' : ℕ} {p : Point} {r : Res} (hp : ps[k]? = some p) (hp' : ps'[k']? = some p) (hr : rs[k]? = some r) (hr' : rs'[k']? = some r) :
    ∃ x, l[k]? = some x ∧ l'[k']? = some x := by
  unfold convolveAt at *
  by_cases hl : rs.length = 1
  · rw [if_pos hl] at h1
    exact nomatch h1
  by_cases hl' : rs'.length = 1
  · rw [if_pos hl'] at h2
    exact nomatch h2
  rw [if_neg hl] at h1
  rw [if_neg hl'] at h2
  obtain ⟨cs, hcs, h1⟩ := bind_eq_ok.1 h1
  obtain ⟨cs', hcs', h2⟩ := bind_eq_ok.1 h2
  obtain ⟨f, hf, h1⟩ := bind_eq_ok.1 h1
  rw [hf, ok_bind] at h2
  obtain ⟨c, hc, hck⟩ := coeffs_get (lift_ok hcs) hr
  obtain ⟨c', hc', hck'⟩ := coeffs_get (lift_ok hcs') hr'
  rw [hc] at hc'
  obtain rfl := Except.ok.inj hc'
  have hz : (ps.zip (rs.zip cs))[k]? = some (p, r, c) := by
    rw [List.getElem?_zip_eq_some, List.getElem?_zip_eq_some]
    exact ⟨hp, hr, hck⟩
  have hz' : (ps'.zip (rs'.zip cs'))[k']? = some (p, r, c) := by
    rw [List.getElem?_zip_eq_some, List.getElem?_zip_eq_some]
    exact ⟨hp', hr', hck'⟩
  cases method with
  | fix =>
    dsimp only at h1 h2
    obtain ⟨M, hM, h1⟩ := bind_eq_ok.1 h1
    rw [hM, ok_bind] at h2
    obtain ⟨rfl, rfl⟩ := Prod.mk.inj (Except.ok.inj h1)
    obtain ⟨rfl, rfl⟩ := Prod.mk.inj (Except.ok.inj h2)
    rw [List.getElem?_map, List.getElem?_map, hz, hz']
    exact ⟨_, rfl, rfl⟩
  | mc =>
    obtain ⟨sd, rfl⟩ := Option.isSome_iff_exists.1 (hm.resolve_left (by simp))
    dsimp only at h1 h2
    obtain ⟨M, hM, h1⟩ := bind_eq_ok.1 h1
    rw [hM, ok_bind] at h2
    obtain ⟨_, y, _, hy, e⟩ := mcAll_get h1 hz
    obtain ⟨_, y', _, hy', e'⟩ := mcAll_get h2 hz'
    obtain rfl := mcAt_state (lift_ok hy) (lift_ok hy')
    exact ⟨_, e, e'⟩
  | other => exact nomatch h1

/-! ## C219 -/

/-- C219, linearity.  For both methods, every `ACCURACY` and seed, every instrument and all points: for modes with the same dispersions and widths, where two
sets of intensities can be convolved without background, their combination can, from the same state of the random numbers, and the result is the combination
of the results; the random numbers used do not depend on the intensities. -/
theorem C219_linear {G : Type} {n : ℕ} {R : Random G} {g g1 g2 : G} {i i' : Inst} {D Γ I J : Fin n → Vec → ℝ} {pref : Option (Pref n)} {nargout : ℤ}
    {H K L W : Arg ℝ} {method : Method} {acc : Accuracy} {seed : Option ℕ} {l1 l2 : List ℝ}
    (hbg : ∀ f, prefactor pref nargout = .ok f → ∀ p, f.background p = 0) (a b : ℝ)
    (h1 : convolve R g i (fun j q => ⟨D j q, I j q, Γ j q⟩) pref nargout H K L W method acc seed = (i', .ok (l1, g1)))
    (h2 : convolve R g i (fun j q => ⟨D j q, J j q, Γ j q⟩) pref nargout H K L W method acc seed = (i', .ok (l2, g2))) :
    convolve R g i (fun j q => ⟨D j q, a * I j q + b * J j q, Γ j q⟩) pref nargout H K L W method acc seed =
      (i', .ok (List.zipWith (fun x y => a * x + b * y) l1 l2, g1)) ∧ g1 = g2 := by
  obtain ⟨hc, z, h, k, l, w, ax, hca, hax, h1⟩ := single_ok_iff.1 h1
  obtain ⟨-, z', h', k', l', w', ax', hca', hax', h2⟩ := single_ok_iff.1 h2
  rw [hca] at hca'
  obtain ⟨-, rfl, rfl, rfl, rfl⟩ : z = z' ∧ h = h' ∧ k = k' ∧ l = l' ∧ w = w' := by
    have := Except.ok.inj hca'
    simpa only [Prod.mk.injEq, List.cons.injEq, and_true] using this
  rw [hax] at hax'
  obtain rfl := Except.ok.inj hax'
  obtain ⟨e1, e2⟩ := convolveAt_mixed (fun f hf => funext (hbg f hf)) a b h1 h2
  exact ⟨single_ok_iff.2 ⟨hc, z, h, k, l, w, ax, hca, hax, e1⟩, e2⟩

theorem map_background {β : Type} (F : Point × β → ℝ) (B : Point → ℝ) : ∀ (ps : List Point) (rs : List β),
    (ps.zip rs).map (fun x => F x + B x.1) = List.zipWith (fun p x => x + B p) ps ((ps.zip rs).map fun x => F x + 0)
  | [], _ => by simp
  | _ :: _, [] => by simp
  | p :: ps, r :: rs => by
    rw [List.zip_cons_cons, List.map_cons, List.map_cons, List.zipWith_cons_cons, map_background F B ps rs, add_zero]

/-- C219, background.  With `nargout == 2` the results are those of `nargout == 1` and the background at each point, once,
whatever the method, its accuracy and the intensity of the instrument. -/
theorem C219_background {G : Type} {n : ℕ} {R : Random G} {g g1 : G} {i i' : Inst} {S : Fin n → Vec → Mode} {f : Pref n}
    {H K L W : Arg ℝ} {method : Method} {acc : Accuracy} {seed : Option ℕ} {l1 : List ℝ}
    (h1 : convolve R g i S (some f) 1 H K L W method acc seed = (i', .ok (l1, g1))) :
    ∃ z h k l w, cleanArgs [H, K, L, W] = .ok (z, [h, k, l, w]) ∧
      convolve R g i S (some f) 2 H K L W method acc seed =
        (i', .ok (List.zipWith (fun p x => x + f.background p) ((hkls h k l).zip w) l1, g1)) := by
  obtain ⟨hc, z, h, k, l, w, ax, hca, hax, h1⟩ := single_ok_iff.1 h1
  refine ⟨z, h, k, l, w, hca, single_ok_iff.2 ⟨hc, z, h, k, l, w, ax, hca, hax, ?_⟩⟩
  unfold convolveAt at *
  generalize (hkls h k l).zip w = ps at *
  generalize i'.result.getD [] = rs at *
  by_cases hl : rs.length = 1
  · rw [if_pos hl] at h1
    exact nomatch h1
  · rw [if_neg hl] at *
    obtain ⟨cs, hcs, h1⟩ := bind_eq_ok.1 h1
    rw [hcs]
    have p1 : prefactor (some f) 1 = .ok ⟨f.factor, fun _ => 0⟩ := rfl
    have p2 : prefactor (some f) 2 = .ok f := rfl
    rw [p1] at h1
    rw [p2]
    simp only [ok_bind] at h1 ⊢
    cases method with
    | fix =>
      dsimp only at h1 ⊢
      obtain ⟨M, hM, h1⟩ := bind_eq_ok.1 h1
      rw [hM]
      simp only [ok_bind]
      obtain ⟨rfl, rfl⟩ := Prod.mk.inj (Except.ok.inj h1)
      rw [pure_ok, map_background]
    | mc =>
      dsimp only at h1 ⊢
      obtain ⟨M, hM, h1⟩ := bind_eq_ok.1 h1
      rw [hM]
      simp only [ok_bind]
      exact mcAll_background h1
    | other => exact nomatch h1

/-- C219, points.  By the method `'fix'`, and by `'mc'` with a seed, the value at a point depends on the other points, their
number and order, the earlier calls and the state of the random numbers only through the resolution at the point: in two calls
for instruments with the same cell and orientation, points with the same coordinates, resolution matrix and intensity have the
same value. -/
theorem C219_own {G : Type} {n : ℕ} {R : Random G} {g g1 g' g1' : G} {i i1 j j1 : Inst} {S : Fin n → Vec → Mode} {pref : Option (Pref n)} {nargout : ℤ}
    {H K L W H' K' L' W' : Arg ℝ} {method : Method} {acc : Accuracy} {seed : Option ℕ} {v v' : List ℝ} (hm : method = .fix ∨ seed.isSome)
    (h1 : convolve R g i S pref nargout H K L W method acc seed = (i1, .ok (v, g1)))
    (h2 : convolve R g' j S pref nargout H' K' L' W' method acc seed = (j1, .ok (v', g1')))
    (hset : i1.setup.lattice = j1.setup.lattice ∧ i1.setup.u = j1.setup.u ∧ i1.setup.v = j1.setup.v)
    {z z' : ℕ} {h k l w h' k' l' w' : List ℝ} (hca : cleanArgs [H, K, L, W] = .ok (z, [h, k, l, w]))
    (hca' : cleanArgs [H', K', L', W'] = .ok (z', [h', k', l', w']))
    {a b : ℕ} {p : Point} {r : Res} (hp : ((hkls h k l).zip w)[a]? = some p) (hp' : ((hkls h' k' l').zip w')[b]? = some p)
    (hr : (i1.result.getD [])[a]? = some r) (hr' : (j1.result.getD [])[b]? = some r) :
    ∃ x, v[a]? = some x ∧ v'[b]? = some x := by
  obtain ⟨-, y, h0, k0, l0, w0, ax, hc0, hax, h1⟩ := single_ok_iff.1 h1
  obtain ⟨-, y', h0', k0', l0', w0', ax', hc0', hax', h2⟩ := single_ok_iff.1 h2
  rw [hca] at hc0
  rw [hca'] at hc0'
  obtain ⟨-, rfl, rfl, rfl, rfl⟩ : z = y ∧ h = h0 ∧ k = k0 ∧ l = l0 ∧ w = w0 := by
    have := Except.ok.inj hc0
    simpa only [Prod.mk.injEq, List.cons.injEq, and_true] using this
  obtain ⟨-, rfl, rfl, rfl, rfl⟩ : z' = y' ∧ h' = h0' ∧ k' = k0' ∧ l' = l0' ∧ w' = w0' := by
    have := Except.ok.inj hc0'
    simpa only [Prod.mk.injEq, List.cons.injEq, and_true] using this
  rw [← hset.1, ← hset.2.1, ← hset.2.2, hax] at hax'
  obtain rfl := Except.ok.inj hax'
  exact convolveAt_own hm h1 h2 hp hp' hr hr'

/-- Two intensities of a mode with the dispersion `1 + q₀²` and the width `1/2`, at two points of the demonstration instrument. -/
example {G : Type} (gen : Random G) (g : G) : ∃ i' l1 l2, ∃ (P : Fin 2 → Point) (r : Fin 2 → Res),
    convolve gen g (Verif.Resolution.new demoSetup) (fun (_ : Fin 1) q => ⟨1 + q 0 ^ 2, 2, 1 / 2⟩) (some ⟨fun _ _ => 3, fun p => 1 + p.2⟩) 1
      (.list twoPoints.H) (.list twoPoints.K) (.list twoPoints.L) (.list twoPoints.W) .fix (.list [3, 2]) none = (i', .ok (l1, g)) ∧
    convolve gen g (Verif.Resolution.new demoSetup) (fun (_ : Fin 1) q => ⟨1 + q 0 ^ 2, q 1 ^ 2, 1 / 2⟩) (some ⟨fun _ _ => 3, fun p => 1 + p.2⟩) 1
      (.list twoPoints.H) (.list twoPoints.K) (.list twoPoints.L) (.list twoPoints.W) .fix (.list [3, 2]) none = (i', .ok (l2, g)) ∧
    (∀ f : Pref 1, prefactor (some ⟨fun _ _ => 3, fun p => 1 + p.2⟩) 1 = .ok f → ∀ p, f.background p = 0) ∧
    (∃ z, cleanArgs [.list twoPoints.H, .list twoPoints.K, .list twoPoints.L, .list twoPoints.W] =
      .ok (z, [twoPoints.H, twoPoints.K, twoPoints.L, twoPoints.W])) ∧
    (∀ k : Fin 2, ((hkls twoPoints.H twoPoints.K twoPoints.L).zip twoPoints.W)[(k : ℕ)]? = some (P k)) ∧
    ∀ k : Fin 2, (i'.result.getD [])[(k : ℕ)]? = some (r k) := by
  have hc := fun S : Fin 1 → Vec → Mode => convolve_fix gen g (i := Verif.Resolution.new demoSetup) (.of demoSetup_valid) (q := twoPoints) (m := 2)
    ⟨rfl, rfl, rfl, rfl⟩ (by norm_num) (demo_valid 2) twoPoints_ok S (some ⟨fun _ _ => 3, fun p => 1 + p.2⟩) 1 rfl none
  obtain ⟨i1, _, P, r, _, a1, b2, -, b4, -, b1⟩ := hc fun _ q => ⟨1 + q 0 ^ 2, 2, 1 / 2⟩
  obtain ⟨i2, _, _, _, _, a2, -, -, -, -, c1⟩ := hc fun _ q => ⟨1 + q 0 ^ 2, q 1 ^ 2, 1 / 2⟩
  rw [a1] at a2
  obtain ⟨rfl, -⟩ := Prod.mk.inj a2
  exact ⟨i1, _, _, P, r, b1 3 2, c1 3 2, fun f hf p => by rw [← Except.ok.inj hf], ⟨_, Verif.Resolution.clean_query (n := 2) ⟨rfl, rfl, rfl, rfl⟩⟩,
    fun k => by rw [b4, List.getElem?_ofFn]; simp; omega, fun k => by rw [b2, Option.getD_some, List.getElem?_ofFn]; simp; omega⟩

end Verif.Single
