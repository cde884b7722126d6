import Verif.Resolution.PropsFrame

/-!
# Property C126: queries as numbers and lists

`get_resolution` accepts numbers and lists, brings them to one length and keeps the last answer.  The answer has to be
the one for the points asked for, in whatever form they are given and whatever was asked before.
-/

namespace Verif.Resolution

open Matrix Verif.Tools Verif.Crystal

/-- The points meant by four arguments: the longest one gives the number of points, the others are
continued with their last value. -/
structure Means (H K L W : Arg ℝ) (q : Query) (n : ℕ) : Prop where
  len : q.Len n
  longest : n = H.toList.length ∨ n = K.toList.length ∨ n = L.toList.length ∨ n = W.toList.length
  H : Continued n H.toList q.H
  K : Continued n K.toList q.K
  L : Continued n L.toList q.L
  W : Continued n W.toList q.W

theorem recompute_means (i : Inst) {H K L W : Arg ℝ} (hH : H.toList ≠ []) (hK : K.toList ≠ []) (hL : L.toList ≠ [])
    (hW : W.toList ≠ []) : ∃ q n, Means H K L W q n ∧ recompute i H K L W = compute i q := by
  obtain ⟨n, out, h1, -, h3, h4⟩ := C54_clean (args := [H, K, L, W]) (by simp) (by
    intro a ha
    simp only [List.mem_cons, List.not_mem_nil, or_false] at ha
    rcases ha with rfl | rfl | rfl | rfl <;> assumption)
  obtain ⟨h, o1, c1, r1, rfl⟩ := List.forall₂_cons_left_iff.1 h4
  obtain ⟨k, o2, c2, r2, rfl⟩ := List.forall₂_cons_left_iff.1 r1
  obtain ⟨l, o3, c3, r3, rfl⟩ := List.forall₂_cons_left_iff.1 r2
  obtain ⟨w, o4, c4, r4, rfl⟩ := List.forall₂_cons_left_iff.1 r3
  obtain rfl := List.forall₂_nil_left_iff.1 r4
  have hq : (⟨h, k, l, w⟩ : Query).Len n := ⟨c1.1, c2.1, c3.1, c4.1⟩
  refine ⟨⟨h, k, l, w⟩, n, ⟨hq, ?_, c1, c2, c3, c4⟩, ?_⟩
  · obtain ⟨a, ha, e⟩ := h3
    simp only [List.mem_cons, List.not_mem_nil, or_false] at ha
    rcases ha with rfl | rfl | rfl | rfl <;> simp [e]
  · rw [← recompute_eq i hq]
    unfold recompute calcResolution
    rw [h1, clean_query hq]

/-- C126.  On a new instrument a query in any form is answered as the query for the lists of points it means. -/
theorem C126_form (s : Setup) {H K L W : Arg ℝ} (hH : H.toList ≠ []) (hK : K.toList ≠ []) (hL : L.toList ≠ [])
    (hW : W.toList ≠ []) : ∃ q n, Means H K L W q n ∧ (getResolution (new s) H K L W).2 = fresh s q := by
  obtain ⟨q, n, h1, h2⟩ := recompute_means (new s) hH hK hL hW
  refine ⟨q, n, h1, ?_⟩
  rw [fresh_eq s h1.len, ← h2]
  rfl

/-- The meaning of four numbers is the one point. -/
theorem means_numbers {h k l w : ℝ} {q : Query} {n : ℕ} (m : Means (.scalar h) (.scalar k) (.scalar l) (.scalar w) q n) :
    q = one h k l w ∧ n = 1 := by
  have hn : n = 1 := by
    rcases m.longest with h | h | h | h <;> exact h
  have single {x : ℝ} {l' : List ℝ} (c : Continued n [x] l') : l' = [x] := by
    obtain ⟨c1, t, rfl, -⟩ := c
    rw [hn] at c1
    have : t = [] := by simpa using c1
    rw [this]; rfl
  refine ⟨?_, hn⟩
  have e1 := single m.H
  have e2 := single m.K
  have e3 := single m.L
  have e4 := single m.W
  cases q
  simp only at e1 e2 e3 e4
  rw [e1, e2, e3, e4]
  rfl

/-- The argument and the stored list agree: they are equal, or one of them is a single value and the other has no other
value. -/
def Agrees (a stored : List ℝ) : Prop := a = stored ∨ ∃ x, (a = [x] ∨ stored = [x]) ∧ (∀ y ∈ a, y = x) ∧ ∀ y ∈ stored, y = x

theorem agrees_of_eqAll {a : Arg ℝ} {l : List ℝ} (h : eqAll a l = true) : Agrees a.toList l := by
  cases a with
  | scalar x =>
    refine Or.inr ⟨x, Or.inl rfl, by simp [Arg.toList], ?_⟩
    simpa [eqAll] using h
  | list a =>
    change Agrees a l
    by_cases e : a.length = l.length
    · exact Or.inl ((eqAll_list _ _ e).1 h)
    · unfold eqAll at h
      dsimp only at h
      rw [if_neg e] at h
      split at h
      · next x => exact Or.inr ⟨x, Or.inl rfl, by simp, by simpa using h⟩
      · next y _ => exact Or.inr ⟨y, Or.inr rfl, by simpa using h, by simp⟩
      · cases h

theorem eqAll_scalar {x : ℝ} {l : List ℝ} : eqAll (.scalar x) l = true ↔ ∀ y ∈ l, y = x := by
  simp [eqAll]

/-- C126 (partial).  Whatever was asked before, a query in any form is either computed anew for the points it means, with the
answer of a new instrument with the same settings, or it is answered with what is stored, and then each argument agrees with
the stored points.  Missing: in the second case the number of results may be the stored one (`C126_false`). -/
theorem C126_any_partial (i : Inst) {H K L W : Arg ℝ} (hH : H.toList ≠ []) (hK : K.toList ≠ []) (hL : L.toList ≠ [])
    (hW : W.toList ≠ []) :
    (∃ q n, Means H K L W q n ∧ (getResolution i H K L W).2 = fresh i.setup q) ∨
      ∃ h k l w r, i.keys = some (h, k, l, w) ∧ i.result = some r ∧ getResolution i H K L W = (i, .ok r) ∧
        Agrees H.toList h ∧ Agrees K.toList k ∧ Agrees L.toList l ∧ Agrees W.toList w := by
  obtain ⟨q, n, h1, h2⟩ := recompute_means i hH hK hL hW
  have h3 : (recompute i H K L W).2 = fresh i.setup q := by
    rw [h2, compute_answer, fresh_eq _ h1.len]
  unfold getResolution
  split
  · next h k l w r e1 e2 =>
    split_ifs with hc
    · simp only [Bool.and_eq_true] at hc
      obtain ⟨⟨⟨a, b⟩, c⟩, d⟩ := hc
      exact Or.inr ⟨h, k, l, w, r, e1, e2, rfl, agrees_of_eqAll a, agrees_of_eqAll b, agrees_of_eqAll c, agrees_of_eqAll d⟩
    · exact Or.inl ⟨q, n, h1, h3⟩
  · exact Or.inl ⟨q, n, h1, h3⟩

/-- C126.  After a query for a list of points that differ, a query for one point given as numbers is answered for
that point alone, as by a new instrument. -/
theorem C126_number {i : Inst} {q : Query} (h1 : i.keys = some (q.H, q.K, q.L, q.W)) {h k l w : ℝ}
    (hne : (∃ y ∈ q.H, y ≠ h) ∨ (∃ y ∈ q.K, y ≠ k) ∨ (∃ y ∈ q.L, y ≠ l) ∨ ∃ y ∈ q.W, y ≠ w) :
    (getResolution i (.scalar h) (.scalar k) (.scalar l) (.scalar w)).2 = fresh i.setup (one h k l w) := by
  rcases C126_any_partial i (H := .scalar h) (K := .scalar k) (L := .scalar l) (W := .scalar w) (by simp [Arg.toList])
    (by simp [Arg.toList]) (by simp [Arg.toList]) (by simp [Arg.toList]) with ⟨q', n', m, e⟩ | ⟨a, b, c, d, r', e1, -, -, g1, g2, g3, g4⟩
  · rw [e, (means_numbers m).1]
  · exfalso
    rw [h1] at e1
    simp only [Option.some.injEq, Prod.mk.injEq] at e1
    obtain ⟨rfl, rfl, rfl, rfl⟩ := e1
    have all {x : ℝ} {s : List ℝ} (g : Agrees [x] s) : ∀ y ∈ s, y = x := by
      rcases g with g | ⟨z, -, g1, g2⟩
      · rw [← g]; simp
      · intro y hy
        rw [g2 y hy, g1 x (by simp)]
    rcases hne with ⟨y, hy, h⟩ | ⟨y, hy, h⟩ | ⟨y, hy, h⟩ | ⟨y, hy, h⟩
    exacts [h (all g1 y hy), h (all g2 y hy), h (all g3 y hy), h (all g4 y hy)]

/-- The same point twice. -/
def twice (h k l w : ℝ) : Query := ⟨[h, h], [k, k], [l, l], [w, w]⟩

theorem twice_len (h k l w : ℝ) : (twice h k l w).Len 2 := ⟨rfl, rfl, rfl, rfl⟩

theorem compute_twice {s : Setup} {E F : Mat} (h : s.Valid E F) (hS : s.settings.Valid 2) {a b c w : ℝ}
    (hne : ![a, b, c] ≠ (0 : Vec)) (hr : Reaches s.settings (len (vecOf F ![a, b, c])) w) :
    ∃ r, (compute (new s) (twice a b c w)).2 = .ok r ∧ r.length = 2 := by
  obtain ⟨x, y, z, hs, -⟩ := axes h
  have hf := frame_ok h.cell h.real h.dual hs hne
  obtain ⟨rs, h1, h2, -⟩ := C61_spd s.settings [(len (vecOf F ![a, b, c]), w), (len (vecOf F ![a, b, c]), w)] hS (by
    intro p hp
    simp only [List.mem_cons, List.not_mem_nil, or_false, or_self] at hp
    rw [hp]
    exact hr)
  obtain ⟨f, ef⟩ : ∃ f, f = (len (vecOf F ![a, b, c]), vecOf F x ⬝ᵥ direction F ![a, b, c], vecOf F y ⬝ᵥ direction F ![a, b, c]) :=
    ⟨_, rfl⟩
  rw [← ef] at hf
  have e0 : f.1 = len (vecOf F ![a, b, c]) := by rw [ef]
  have e : { s.settings with sample.shape := none } = s.settings := by
    conv_rhs => rw [show s.settings = { s.settings with sample.shape := s.settings.sample.shape } from rfl, h.noShape]
  have e1 : (hkls [a, a] [b, b] [c, c]).mapM (frame s) = .ok [f, f] := by
    simp only [hkls, List.mapM_cons, List.mapM_nil, hf, ok_bind]
    rfl
  refine ⟨List.zipWith toCrystal [f, f] rs, ?_, by rw [List.length_zipWith, h2]; rfl⟩
  unfold compute
  simp only [new, twice, e1, h.noShape, turnSample, List.map_cons, List.map_nil, List.zip_cons_cons, List.zip_nil_right, e0]
  rw [show ({ s.settings with sample := { s.settings.sample with shape := none } } : Settings) = s.settings from e, h1]

/-- C126 fails.  After the same point has been asked for twice in one query, asking for the point as numbers gives two
results; a new instrument gives one. -/
theorem C126_false {s : Setup} {E F : Mat} (h : s.Valid E F) (hS : s.settings.Valid 2) (hS1 : s.settings.Valid 1) {a b c w : ℝ}
    (hne : ![a, b, c] ≠ (0 : Vec)) (hr : Reaches s.settings (len (vecOf F ![a, b, c])) w) :
    ∃ r r1, (getResolution (ask (new s) (twice a b c w)).1 (.scalar a) (.scalar b) (.scalar c) (.scalar w)).2 = .ok r ∧
      r.length = 2 ∧ (getResolution (new s) (.scalar a) (.scalar b) (.scalar c) (.scalar w)).2 = .ok [r1] := by
  obtain ⟨r, h1, h2⟩ := compute_twice h hS hne hr
  obtain ⟨x, y, z, hs, -⟩ := axes h
  obtain ⟨r1, h3, -⟩ := fresh_point h hS1 hs hne hr
  refine ⟨r, r1, ?_, h2, ?_⟩
  · rw [ask_new (twice_len a b c w) (Or.inl rfl)]
    obtain ⟨k1, k2⟩ := compute_ok h1
    unfold getResolution
    rw [k1, k2]
    have t (x : ℝ) : eqAll (.scalar x) [x, x] = true := eqAll_scalar.2 (by simp)
    simp only [twice, t, Bool.and_self, if_true]
  · obtain ⟨q, n, m, e⟩ := C126_form s (H := .scalar a) (K := .scalar b) (L := .scalar c) (W := .scalar w) (by simp [Arg.toList])
      (by simp [Arg.toList]) (by simp [Arg.toList]) (by simp [Arg.toList])
    rw [e, (means_numbers m).1, h3]

/-- The hypotheses are met. -/
example : ∃ r r1, (getResolution (ask (new demoSetup) (twice 1 0 0 0)).1 (.scalar 1) (.scalar 0) (.scalar 0) (.scalar 0)).2 = .ok r ∧
    r.length = 2 ∧ (getResolution (new demoSetup) (.scalar 1) (.scalar 0) (.scalar 0) (.scalar 0)).2 = .ok [r1] := by
  have e := demo_len 1 0 0
  norm_num at e
  exact C126_false demoSetup_valid (demo_valid 2) (demo_valid 1) (by simp)
    (by rw [e]; exact demo_reaches (by norm_num) (by norm_num) (by norm_num) (by norm_num))

/-- Three points along a line, the others as numbers. -/
example : ∃ q n, Means (.list [1, 1.1, 1.2]) (.scalar 0) (.scalar 0) (.list [0, 1]) q n ∧
    (getResolution (new demoSetup) (.list [1, 1.1, 1.2]) (.scalar 0) (.scalar 0) (.list [0, 1])).2 = fresh demoSetup q :=
  C126_form demoSetup (by simp [Arg.toList]) (by simp [Arg.toList]) (by simp [Arg.toList]) (by simp [Arg.toList])

end Verif.Resolution
