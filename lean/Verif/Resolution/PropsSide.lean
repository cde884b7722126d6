import Verif.Resolution.PropsStale

/-! # Property theorems: side effects of a resolution calculation (C60, C63) -/

namespace Verif.Resolution

open Real Matrix
open Verif.Crystal (Fail Vec Mat npDiv npSqrt Lattice getLattice standardSystem modvec scalar Realises Dual vecOf len Indep)
open Verif.Tools (quad SPD)

/-- A point the default instrument cannot reach raises an error the first time and, asked again, returns the
result of the point before: the hypotheses of `C60_after_error` are met. -/
theorem C60_after_error_false : ∃ r i, fresh demoSetup (one 1 0 0 0) = .ok r ∧ i = (ask (new demoSetup) (one 1 0 0 0)).1 ∧
    (ask i (one 9 0 0 0)).2 = .error .scatteringTriangleError ∧ (ask (ask i (one 9 0 0 0)).1 (one 9 0 0 0)).2 = .ok r ∧
    fresh demoSetup (one 9 0 0 0) = .error .scatteringTriangleError := by
  have e (x : ℝ) (hx : 0 < x) : len (vecOf 1 ![x, 0, 0]) = x := by
    rw [demo_len]
    rw [show x ^ 2 + 0 ^ 2 + 0 ^ 2 = x ^ 2 by ring, Real.sqrt_sq hx.le]
  have ne (x : ℝ) (hx : 0 < x) : ![x, 0, 0] ≠ (0 : Vec) := fun h => by
    have := congrFun h 0
    simp at this
    linarith
  obtain ⟨x, y, z, hs, -, -, -⟩ := axes demoSetup_valid
  obtain ⟨r, hr, -⟩ := fresh_point (w := 0) demoSetup_valid (demo_valid 1) hs (ne 1 one_pos)
    (by rw [e 1 one_pos]; exact demo_reaches (by norm_num) (by norm_num) (by norm_num) (by norm_num))
  have hfar : fresh demoSetup (one 9 0 0 0) = .error .scatteringTriangleError := by
    rw [fresh_one rfl (frame_ok demoSetup_valid.cell demoSetup_valid.real demoSetup_valid.dual hs (ne 9 (by norm_num)))]
    rw [e 9 (by norm_num)]
    change (calcInQ demo [(9, 0)]).map _ = _
    rw [demo_far]
    rfl
  have l1 := one_len 1 0 0 0
  have l9 := one_len 9 0 0 0
  have a1 := ask_new (i := new demoSetup) l1 (Or.inl rfl)
  have hr' := hr
  rw [fresh_eq _ l1] at hr'
  obtain ⟨c1, c2⟩ := compute_ok hr'
  have hne : one 9 0 0 0 ≠ one 1 0 0 0 := by simp [one]
  have hfail : (ask (ask (new demoSetup) (one 1 0 0 0)).1 (one 9 0 0 0)).2 = .error .scatteringTriangleError := by
    rw [a1, ask_cached l9 l1 c1 c2, if_neg hne, compute_answer, compute_setup _ _ rfl, ← fresh_eq _ l9]
    exact hfar
  refine ⟨[r], _, hr, rfl, hfail, ?_, hfar⟩
  refine C60_after_error _ 1 _ (one 1 0 0 0) l9 l1 [r] _ ?_ ?_ hne hfail (Or.inr (Or.inr rfl))
  · rw [a1]; exact c1
  · rw [a1]; exact c2

/-- The hypotheses of `C60_queries_partial` are met by queries at two points, one of them asked twice. -/
example : answers (new demoSetup) [one 1 0 0 0, one 1 0 0 1, one 1 0 0 0] =
    [one 1 0 0 0, one 1 0 0 1, one 1 0 0 0].map (fresh demoSetup) := by
  have e : len (vecOf 1 ![1, 0, 0]) = 1 := by
    rw [demo_len]
    norm_num
  have ok (w : ℝ) (h0 : 0 ≤ w) (h1 : w ≤ 1) : ∃ r, fresh demoSetup (one 1 0 0 w) = .ok r := by
    obtain ⟨x, y, z, hs, -, -, -⟩ := axes demoSetup_valid
    obtain ⟨r, hr, -⟩ := fresh_point (w := w) demoSetup_valid (demo_valid 1) hs (a := 1) (b := 0) (c := 0)
      (fun h => by have := congrFun h 0; simp at this)
      (by rw [e]; exact demo_reaches (by norm_num) (by norm_num) h0 h1)
    exact ⟨_, hr⟩
  refine C60_queries_partial demoSetup 1 rfl _ ?_ ?_
  · intro q hq
    simp only [List.mem_cons, List.not_mem_nil, or_false] at hq
    rcases hq with rfl | rfl | rfl <;> exact one_len _ _ _ _
  · intro q hq
    simp only [List.mem_cons, List.not_mem_nil, or_false] at hq
    rcases hq with rfl | rfl | rfl
    · exact ok 0 (by norm_num) (by norm_num)
    · exact ok 1 (by norm_num) (by norm_num)
    · exact ok 0 (by norm_num) (by norm_num)

/-! ## C63 -/

/-- `calc_resolution` with four lists, and what it then returns. -/
noncomputable def calculate (i : Inst) (q : Query) : Inst × Except Fail (List Res) :=
  recompute i (.list q.H) (.list q.K) (.list q.L) (.list q.W)

/-- C63 (partial).  For a sample without `shape`, a calculation changes neither the instrument nor the sample,
and a second one with the same arguments leads to the same object and the same answer.  Missing: samples with a shape
(`C63_shape_second_fails`, `C63_shape_turned_again`). -/
theorem C63_repeat_partial (i : Inst) (n : ℕ) (q : Query) (hq : q.Len n) (h : i.setup.settings.sample.shape = none) :
    (calculate i q).1.setup = i.setup ∧ calculate (calculate i q).1 q = calculate i q := by
  have hset := compute_setup i q h
  have c1 : calculate i q = compute i q := recompute_eq i hq
  have c2 : calculate (compute i q).1 q = compute (compute i q).1 q := recompute_eq _ hq
  rw [c1, c2]
  refine ⟨hset, ?_⟩
  have hans := compute_answer (compute i q).1 q
  rw [hset, ← compute_answer] at hans
  refine Prod.ext ?_ hans
  have hset' := compute_setup (compute i q).1 q (by rw [hset]; exact h)
  have keys (j : Inst) : (compute j q).1.keys = some (q.H, q.K, q.L, q.W) := by
    unfold compute
    cases (hkls q.H q.K q.L).mapM (frame j.setup) with
    | error e => rfl
    | ok fr =>
      dsimp only
      cases turnSample j.setup.settings.sample.shape fr with
      | error e => rfl
      | ok sh =>
        dsimp only
        cases calcInQ { j.setup.settings with sample.shape := sh } ((fr.map Prod.fst).zip q.W) with
        | error e => rfl
        | ok rs => rfl
  have res (j : Inst) : (compute j q).1.result = match (compute j q).2 with
      | .ok r => some r
      | .error _ => j.result := by
    unfold compute
    cases (hkls q.H q.K q.L).mapM (frame j.setup) with
    | error e => rfl
    | ok fr =>
      dsimp only
      cases turnSample j.setup.settings.sample.shape fr with
      | error e => rfl
      | ok sh =>
        dsimp only
        cases calcInQ { j.setup.settings with sample.shape := sh } ((fr.map Prod.fst).zip q.W) with
        | error e => rfl
        | ok rs => rfl
  have r1 := res i
  have r2 := res (compute i q).1
  rw [hans] at r2
  generalize hA : compute i q = A at *
  generalize hB : compute A.1 q = B at *
  have hr : B.1.result = A.1.result := by
    cases hA2 : A.2 with
    | ok r => rw [hA2] at r1 r2; rw [r1, r2]
    | error e => rw [hA2] at r2; exact r2
  have k1 := keys i
  have k2 := keys A.1
  rw [hA] at k1
  rw [hB] at k2
  obtain ⟨⟨sA, kA, rA⟩, oA⟩ := A
  obtain ⟨⟨sB, kB, rB⟩, oB⟩ := B
  simp only at *
  rw [hr, k1, k2, hset', hset]

/-- A turned shape matrix. -/
def turned (f : ℝ × ℝ × ℝ) (M : M3) : M3 := rot3 f.2.1 f.2.2 * M * (rot3 f.2.1 f.2.2)ᵀ

/-- What a calculation leaves as the sample shape, if the point can be expressed in the crystal frame. -/
theorem compute_shape {i : Inst} {q : Query} {fr : List (ℝ × ℝ × ℝ)} (hf : (hkls q.H q.K q.L).mapM (frame i.setup) = .ok fr) {M : M3}
    (h : i.setup.settings.sample.shape = some (.one M) ∨ i.setup.settings.sample.shape = some (.stack [M])) :
    (compute i q).1.setup = { i.setup with settings.sample.shape := some (.stack (fr.map fun f => turned f M)) } := by
  have ht : turnSample i.setup.settings.sample.shape fr = .ok (some (.stack (fr.map fun f => turned f M))) := by
    rcases h with h | h <;> rw [h] <;> rfl
  unfold compute
  rw [hf]
  dsimp only
  rw [ht]
  dsimp only
  cases calcInQ { i.setup.settings with sample.shape := some (.stack (fr.map fun f => turned f M)) } ((fr.map Prod.fst).zip q.W) with
  | error e => rfl
  | ok rs => rfl

theorem frame_shape (s : Setup) (sh : Option Shape) : frame { s with settings.sample.shape := sh } = frame s := rfl

/-- C63, the failing side.  If the sample has a shape matrix, a calculation for two or more points replaces it
by a stack of matrices, after which every further calculation, also the same one again, raises `ValueError`. -/
theorem C63_shape_second_fails (i : Inst) (n : ℕ) (q : Query) (hq : q.Len n) (hn : 2 ≤ n) (M : M3)
    (h : i.setup.settings.sample.shape = some (.one M)) (fr : List (ℝ × ℝ × ℝ))
    (hf : (hkls q.H q.K q.L).mapM (frame i.setup) = .ok fr) (hlen : fr.length = n) (q' : Query) (n' : ℕ) (hq' : q'.Len n')
    (fr' : List (ℝ × ℝ × ℝ)) (hf' : (hkls q'.H q'.K q'.L).mapM (frame i.setup) = .ok fr') (hne : fr' ≠ []) :
    (calculate (calculate i q).1 q').2 = .error .valueError := by
  have c1 : calculate i q = compute i q := recompute_eq i hq
  have c2 : calculate (compute i q).1 q' = compute (compute i q).1 q' := recompute_eq _ hq'
  rw [c1, c2]
  have hs := compute_shape hf (Or.inl h)
  unfold compute
  dsimp only
  have e : (hkls q'.H q'.K q'.L).mapM (frame (compute i q).1.setup) = .ok fr' := by
    rw [hs, frame_shape, hf']
  have e2 : turnSample (compute i q).1.setup.settings.sample.shape fr' = .error .valueError := by
    rw [hs]
    match fr, hlen with
    | [], hl => simp at hl; omega
    | [_], hl => simp at hl; omega
    | a :: b :: rest, _ => exact if_neg hne
  unfold compute at e e2
  rw [e]
  dsimp only
  rw [e2]

/-- C63, one point.  Each calculation at a point turns the shape matrix again: after two of them it has been
turned twice. -/
theorem C63_shape_turned_again (i : Inst) (a b c w w' : ℝ) (M : M3) (h : i.setup.settings.sample.shape = some (.one M))
    (f : ℝ × ℝ × ℝ) (hf : frame i.setup ![a, b, c] = .ok f) :
    (calculate i (one a b c w)).1.setup.settings.sample.shape = some (.stack [turned f M]) ∧
    (calculate (calculate i (one a b c w)).1 (one a b c w')).1.setup.settings.sample.shape = some (.stack [turned f (turned f M)]) := by
  have c1 : calculate i (one a b c w) = compute i (one a b c w) := recompute_eq i (one_len a b c w)
  have c2 : calculate (compute i (one a b c w)).1 (one a b c w') = compute (compute i (one a b c w)).1 (one a b c w') :=
    recompute_eq _ (one_len a b c w')
  have hm (s : Setup) (hs : frame s ![a, b, c] = .ok f) (w : ℝ) :
      (hkls (one a b c w).H (one a b c w).K (one a b c w).L).mapM (frame s) = .ok [f] := by
    simp only [one, hkls, List.mapM_cons, List.mapM_nil, hs, ok_bind]
    rfl
  have s1 := compute_shape (hm i.setup hf w) (Or.inl h)
  rw [c1, c2]
  have s2 := compute_shape (i := (compute i (one a b c w)).1) (q := one a b c w') (fr := [f]) (M := turned f M)
    (hm _ (by rw [s1, frame_shape]; exact hf) w') (Or.inr (by rw [s1]; rfl))
  rw [s1, s2]
  exact ⟨rfl, rfl⟩

/-- The default setup with a flat sample. -/
noncomputable def flat : Setup := { demoSetup with settings.sample.shape := some (.one (diagonal ![1, 2, 3])) }

theorem flat_frame {h k l : ℝ} (hne : ![h, k, l] ≠ (0 : Vec)) (hp : h ^ 2 + k ^ 2 + l ^ 2 = 1) : frame flat ![h, k, l] = .ok (1, h, k) := by
  obtain ⟨x, y, z, hs, hfr, ⟨r, hr, hu⟩, r', t, ht, hv⟩ := axes demoSetup_valid
  have e := frame_ok demoSetup_valid.cell demoSetup_valid.real demoSetup_valid.dual hs hne
  have hv1 (v : Vec) : vecOf 1 v = v := by
    ext i
    fin_cases i <;> simp [vecOf]
  have hl : len (vecOf 1 ![h, k, l]) = 1 := by rw [demo_len, hp, Real.sqrt_one]
  have d : direction 1 ![h, k, l] = ![h, k, l] := by
    unfold direction
    rw [hl, hv1, inv_one, one_smul]
  have xx := hfr.xx
  have xy := hfr.xy
  have yy := hfr.yy
  rw [hv1] at xx
  rw [hv1, hv1] at xy
  rw [hv1] at yy
  have hx : x = ![1, 0, 0] := by
    have u0 := congrFun hu 0
    have u1 := congrFun hu 1
    have u2 := congrFun hu 2
    simp [demoSetup] at u0 u1 u2
    have x1 := u1.resolve_left hr.ne'
    have x2 := u2.resolve_left hr.ne'
    simp only [dotProduct, Fin.sum_univ_three, x1, x2] at xx
    have x0 : 0 < x 0 := by
      by_contra hc
      nlinarith
    have x0' : x 0 = 1 := by nlinarith
    ext i
    fin_cases i <;> simp [x0', x1, x2]
  have hy : y = ![0, 1, 0] := by
    have v0 := congrFun hv 0
    have v1 := congrFun hv 1
    have v2 := congrFun hv 2
    simp [demoSetup, hx] at v0 v1 v2
    have y2 := v2.resolve_left ht.ne'
    simp [dotProduct, Fin.sum_univ_three, hx] at xy
    simp only [dotProduct, Fin.sum_univ_three, xy, y2] at yy
    have y1 : 0 < y 1 := by
      by_contra hc
      nlinarith
    have y1' : y 1 = 1 := by nlinarith
    ext i
    fin_cases i <;> simp [xy, y1', y2]
  have e' : frame flat ![h, k, l] = frame demoSetup ![h, k, l] := rfl
  rw [e', e, hl, d, hv1, hv1, hx, hy]
  simp [dotProduct, Fin.sum_univ_three]

/-- The shape used by the second calculation at a point differs from the one used by the first. -/
example : ∃ f M, frame (new flat).setup ![3 / 5, 4 / 5, 0] = .ok f ∧ (new flat).setup.settings.sample.shape = some (.one M) ∧
    turned f (turned f M) ≠ turned f M := by
  refine ⟨(1, 3 / 5, 4 / 5), diagonal ![1, 2, 3], flat_frame (fun h => by have := congrFun h 0; norm_num at this) (by norm_num), rfl, ?_⟩
  have d : (diagonal ![1, 2, 3] : M3) = !![1, 0, 0; 0, 2, 0; 0, 0, 3] := by
    ext i j
    fin_cases i <;> fin_cases j <;> rfl
  have t : (rot3 (3 / 5) (4 / 5))ᵀ = !![3 / 5, -(4 / 5), 0; 4 / 5, 3 / 5, 0; 0, 0, 1] := by
    ext i j
    fin_cases i <;> fin_cases j <;> rfl
  intro h
  have := congrFun (congrFun h 0) 0
  simp only [turned, t, d] at this
  simp only [rot3, Matrix.mul_fin_three] at this
  norm_num at this

/-- Two points meet the hypotheses of `C63_shape_second_fails`. -/
example : (calculate (calculate (new flat) ⟨[1, 0], [0, 1], [0, 0], [0, 0]⟩).1 (one 1 0 0 0)).2 = .error .valueError := by
  have f1 : frame flat ![1, 0, 0] = _ := flat_frame (fun h => by have := congrFun h 0; simp at this) (by norm_num)
  have f2 : frame flat ![0, 1, 0] = _ := flat_frame (fun h => by have := congrFun h 1; simp at this) (by norm_num)
  refine C63_shape_second_fails (new flat) 2 _ ⟨rfl, rfl, rfl, rfl⟩ le_rfl (diagonal ![1, 2, 3]) rfl [(1, 1, 0), (1, 0, 1)] ?_ rfl _ 1
    (one_len 1 0 0 0) [(1, 1, 0)] ?_ (by simp)
  · simp only [new, hkls, List.mapM_cons, List.mapM_nil, f1, f2, ok_bind]
    rfl
  · simp only [new, one, hkls, List.mapM_cons, List.mapM_nil, f1, ok_bind]
    rfl

end Verif.Resolution
