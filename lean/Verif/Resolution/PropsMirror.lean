import Verif.Resolution.PropsProjections

/-!
# Property C133: the vertical component of the resolution is independent of the others
-/

namespace Verif.Resolution

open Real Matrix
open Verif.Crystal (Fail Vec Mat npDiv npSqrt)
open Verif.Tools (Arg SPD)

theorem bind_ok {ε α β : Type} {x : Except ε α} {f : α → Except ε β} {b : β} (h : x >>= f = .ok b) : ∃ a, x = .ok a ∧ f a = .ok b := by
  cases x with
  | error e => exact nomatch h
  | ok a => exact ⟨a, rfl, h⟩

/-- `M` maps quantities with the signs `t` under a reflection to quantities with the signs `s`. -/
def Mirror {m n : ℕ} (s : Fin m → ℝ) (t : Fin n → ℝ) (M : Matrix (Fin m) (Fin n) ℝ) : Prop := ∀ i j, s i * M i j = M i j * t j

theorem mirror_iff {m n : ℕ} {s : Fin m → ℝ} {t : Fin n → ℝ} {M : Matrix (Fin m) (Fin n) ℝ} :
    Mirror s t M ↔ diagonal s * M = M * diagonal t := by
  constructor
  · intro h
    ext i j
    rw [diagonal_mul, mul_diagonal, h]
  · intro h i j
    have := congrFun (congrFun h i) j
    rwa [diagonal_mul, mul_diagonal] at this

theorem Mirror.mul {l m n : ℕ} {r : Fin l → ℝ} {s : Fin m → ℝ} {t : Fin n → ℝ} {A : Matrix (Fin l) (Fin m) ℝ}
    {B : Matrix (Fin m) (Fin n) ℝ} (h : Mirror r s A) (h' : Mirror s t B) : Mirror r t (A * B) := by
  rw [mirror_iff] at *
  rw [← Matrix.mul_assoc, h, Matrix.mul_assoc, h', Matrix.mul_assoc]

theorem Mirror.transpose {m n : ℕ} {s : Fin m → ℝ} {t : Fin n → ℝ} {M : Matrix (Fin m) (Fin n) ℝ} (h : Mirror s t M) : Mirror t s Mᵀ := by
  intro i j
  rw [transpose_apply, mul_comm, ← h j i, mul_comm]

theorem Mirror.add {m n : ℕ} {s : Fin m → ℝ} {t : Fin n → ℝ} {M N : Matrix (Fin m) (Fin n) ℝ} (h : Mirror s t M) (h' : Mirror s t N) :
    Mirror s t (M + N) := by
  intro i j
  rw [Matrix.add_apply, mul_add, add_mul, h, h']

theorem mirror_diagonal {n : ℕ} (s d : Fin n → ℝ) : Mirror s s (diagonal d) := by
  intro i j
  by_cases h : i = j
  · rw [h, mul_comm]
  · rw [diagonal_apply_ne _ h]; ring

theorem Mirror.inv {n : ℕ} {s : Fin n → ℝ} {M X : Matrix (Fin n) (Fin n) ℝ} (h : Mirror s s M) (hX : npInv M = .ok X) : Mirror s s X := by
  unfold npInv at hX
  split_ifs at hX with h0
  have e : X = M⁻¹ := (Except.ok.inj hX).symm
  have u : IsUnit M.det := isUnit_iff_ne_zero.2 h0
  rw [mirror_iff] at *
  rw [e]
  calc diagonal s * M⁻¹ = M⁻¹ * (M * diagonal s) * M⁻¹ := by rw [← Matrix.mul_assoc, Matrix.nonsing_inv_mul _ u, Matrix.one_mul]
    _ = M⁻¹ * diagonal s := by rw [← h, Matrix.mul_assoc, Matrix.mul_assoc, Matrix.mul_nonsing_inv _ u, Matrix.mul_one]

theorem mirror_blkdiag {m n : ℕ} {s : Fin m → ℝ} {t : Fin n → ℝ} {X : Matrix (Fin m) (Fin m) ℝ} {Y : Matrix (Fin n) (Fin n) ℝ}
    (hX : Mirror s s X) (hY : Mirror t t Y) : Mirror (Fin.append s t) (Fin.append s t) (blkdiag X Y) := by
  intro i j
  induction i using Fin.addCases <;> induction j using Fin.addCases <;>
    simp [blkdiag, Fin.append_left, Fin.append_right, hX _ _, hY _ _]

/-- Signs of the components of `Q` and the energy, of the two wavevectors, of the collimator angles, of the mosaic
blocks and of the coordinates of guide, monochromator, sample, analyzer and detector when up and down are exchanged. -/
def s4 : Fin 4 → ℝ := ![1, 1, -1, 1]
@[inherit_doc s4] def s6 : Fin 6 → ℝ := ![1, 1, -1, 1, 1, -1]
@[inherit_doc s4] def s8 : Fin 8 → ℝ := ![1, 1, -1, -1, 1, 1, -1, -1]
@[inherit_doc s4] def sF : Fin 4 → ℝ := ![1, -1, 1, -1]
@[inherit_doc s4] def s13 : Fin 13 → ℝ := ![1, -1, 1, 1, -1, 1, 1, -1, 1, 1, -1, 1, -1]

theorem mirror_A (k : Kin) : Mirror s6 s8 (matA k) := by
  intro i j
  fin_cases i <;> fin_cases j <;> simp [s6, s8, matA]

theorem mirror_B (k : Kin) : Mirror s4 s6 (matB k) := by
  intro i j
  fin_cases i <;> fin_cases j <;> simp [s6, s4, matB]

theorem mirror_C (k : Kin) : Mirror sF s8 (matC k) := by
  intro i j
  fin_cases i <;> fin_cases j <;> simp [s8, sF, matC]

theorem mirror_T (c : Conf) (l : Loop) (k : Kin) : Mirror sF s13 (matT c l k) := by
  intro i j
  fin_cases i <;> fin_cases j <;> simp [s13, sF, matT]

theorem mirror_D (c : Conf) (k : Kin) : Mirror s8 s13 (matD c k) := by
  intro i j
  fin_cases i <;> fin_cases j <;> simp [s13, s8, matD]

theorem mirror_Sinv (c : Conf) {S : M3} (h : Mirror ![1, 1, -1] ![1, 1, -1] S) : Mirror s13 s13 (matSinv c S) := by
  have := mirror_blkdiag (mirror_diagonal ![1, -1] c.bshape) (mirror_blkdiag (mirror_diagonal ![1, 1, -1] c.mshape)
    (mirror_blkdiag h (mirror_blkdiag (mirror_diagonal ![1, 1, -1] c.ashape) (mirror_diagonal ![1, -1] c.dshape))))
  have e : (s13 : Fin (2 + (3 + (3 + (3 + 2)))) → ℝ) = Fin.append ![1, -1] (Fin.append ![1, 1, -1] (Fin.append ![1, 1, -1] (Fin.append ![1, 1, -1] ![1, -1]))) := by
    funext i
    fin_cases i <;> rfl
  unfold matSinv
  rw [← e] at this
  exact this

theorem mirror_turn (k : Kin) {S : M3} (h : Mirror ![1, 1, -1] ![1, 1, -1] S) : Mirror ![1, 1, -1] ![1, 1, -1] (turnShape k S) := by
  have r : Mirror ![1, 1, -1] ![1, 1, -1] (!![cos (k.s2theta / 2 - k.phi), sin (k.s2theta / 2 - k.phi), 0;
      -sin (k.s2theta / 2 - k.phi), cos (k.s2theta / 2 - k.phi), 0; 0, 0, 1] : M3) := by
    intro i j
    fin_cases i <;> fin_cases j <;> simp
  exact (r.mul h).mul r.transpose

theorem mirror_focus (c : Conf) (l : Loop) (k : Kin) {N : Matrix (Fin 6) (Fin 6) ℝ} (h : Mirror s6 s6 N) : Mirror s6 s6 (focusBlock c l k N) := by
  intro i j
  have := h i j
  unfold focusBlock
  rw [of_apply]
  split_ifs with h1 h2 h3
  · rw [h1.1, h1.2, mul_comm]
  · rw [h2.1, h2.2, mul_comm]
  · rw [mul_zero, zero_mul]
  · exact this

theorem mirror_popovici {c : Conf} {l : Loop} {k : Kin} {S : Matrix (Fin 13) (Fin 13) ℝ} (h : Mirror s13 s13 S)
    {r : Matrix (Fin 6) (Fin 6) ℝ × ℝ} (e : popoviciN c l k S = .ok r) : Mirror s6 s6 r.1 := by
  unfold popoviciN at e
  split_ifs at e
  obtain ⟨Ki, e1, e⟩ := bind_ok e
  obtain ⟨H, e2, e⟩ := bind_ok e
  obtain ⟨J, e3, e⟩ := bind_ok e
  have e' := Except.ok.inj e
  subst e'
  have m1 := (h.add (((mirror_T c l k).transpose.mul (mirror_diagonal sF _)).mul (mirror_T c l k))).inv e1
  have m2 := (((mirror_D c k).mul m1).mul (mirror_D c k).transpose).inv e2
  have m3 := (m2.add (mirror_diagonal s8 _)).inv e3
  exact ((mirror_A k).mul m3).mul (mirror_A k).transpose

theorem mirror_cooperNathans {c : Conf} {l : Loop} {k : Kin} {r : Matrix (Fin 6) (Fin 6) ℝ × ℝ} (e : cooperNathansN c l k = .ok r) :
    Mirror s6 s6 r.1 := by
  unfold cooperNathansN at e
  obtain ⟨Hi, e1, e⟩ := bind_ok e
  have m1 := ((mirror_diagonal s8 _).add (((mirror_C k).transpose.mul (mirror_diagonal sF _)).mul (mirror_C k))).inv e1
  have m2 := ((mirror_A k).mul m1).mul (mirror_A k).transpose
  split_ifs at e
  · obtain ⟨N, e2, e⟩ := bind_ok e
    obtain ⟨N', e3, e⟩ := bind_ok e
    rw [← Except.ok.inj e]
    exact (mirror_focus c l k (m2.inv e2)).inv e3
  · rw [← Except.ok.inj e]
    exact m2

theorem mirror_point {c : Conf} {l : Loop} {S : M3} {k : Kin} {q : ℝ} (h : Mirror ![1, 1, -1] ![1, 1, -1] S) {r : ℝ × M4}
    (e : pointAt c l S k q = .ok r) : Mirror s4 s4 r.2 := by
  unfold pointAt at e
  split_ifs at e
  obtain ⟨Si, e1, e⟩ := bind_ok e
  obtain ⟨⟨Mi, dH⟩, e2, e⟩ := bind_ok e
  obtain ⟨RM, e3, e⟩ := bind_ok e
  obtain ⟨r0, -, e⟩ := bind_ok e
  obtain ⟨⟨r0', RM'⟩, e4, e⟩ := bind_ok e
  obtain ⟨r0'', -, e⟩ := bind_ok e
  rw [← Except.ok.inj e]
  have m1 := (mirror_Sinv c (mirror_turn k h)).inv e1
  have m2 : Mirror s4 s4 Mi := by
    unfold coreMatrix at e2
    have m : ∃ N, Mirror s6 s6 N ∧ matB k * N * (matB k)ᵀ = Mi := by
      dsimp only at e2
      split_ifs at e2
      · obtain ⟨⟨N, d⟩, g, e2⟩ := bind_ok e2
        exact ⟨N, mirror_popovici m1 g, (Prod.mk.inj (Except.ok.inj e2)).1⟩
      · obtain ⟨⟨N, d⟩, g, e2⟩ := bind_ok e2
        exact ⟨N, mirror_cooperNathans g, (Prod.mk.inj (Except.ok.inj e2)).1⟩
    obtain ⟨N, m, rfl⟩ := m
    exact ((mirror_B k).mul m).mul (mirror_B k).transpose
  show Mirror s4 s4 RM'
  unfold withMosaic at e4
  split at e4
  · unfold sampleMosaic at e4
    obtain ⟨_, -, e4⟩ := bind_ok e4
    obtain ⟨_, -, e4⟩ := bind_ok e4
    obtain ⟨R, g, e4⟩ := bind_ok e4
    rw [← (Prod.mk.inj (Except.ok.inj e4)).2]
    exact (m2.add (mirror_diagonal s4 _)).inv g
  · rw [← (Prod.mk.inj (Except.ok.inj e4)).2]
    exact m2.inv e3

theorem mirror_decoupled {A : M4} (h : Mirror s4 s4 A) : Decoupled A := by
  intro k hk
  have h1 : s4 k * A k 2 = A k 2 * -1 := h k 2
  have h2 : -1 * A 2 k = A 2 k * s4 k := h 2 k
  have h3 : s4 k = 1 := by
    fin_cases k
    exacts [rfl, rfl, absurd rfl hk, rfl]
  rw [h3] at h1 h2
  constructor <;> linarith

/-- A matrix of second moments of a sample that is the same seen from above and below. -/
def Flat (M : M3) : Prop := M 0 2 = 0 ∧ M 1 2 = 0 ∧ M 2 0 = 0 ∧ M 2 1 = 0

theorem Flat.mirror {M : M3} (h : Flat M) : Mirror ![1, 1, -1] ![1, 1, -1] M := by
  obtain ⟨a, b, c, d⟩ := h
  intro i j
  fin_cases i <;> fin_cases j <;> simp [a, b, c, d]

theorem mirror_flat {M : M3} (h : Mirror ![1, 1, -1] ![1, 1, -1] M) : Flat M := by
  have a := h 0 2
  have b := h 1 2
  have c := h 2 0
  have d := h 2 1
  simp at a b c d
  exact ⟨by linarith, by linarith, by linarith, by linarith⟩

/-- The shape matrices of a sample, if it has any, are flat. -/
def FlatShape : Option Shape → Prop
  | none => True
  | some (.one M) => Flat M
  | some (.stack l) => ∀ M ∈ l, Flat M

theorem mirror_sshape {a : SampleAttrs} (h : FlatShape a.shape) {n : ℕ} {S : M3} (e : sshapeAt a n = .ok S) : Mirror ![1, 1, -1] ![1, 1, -1] S := by
  have sm (c : ℝ) {M : M3} (hM : Flat M) : Mirror ![1, 1, -1] ![1, 1, -1] (c • M) := by
    intro i j
    have := hM.mirror i j
    rw [Matrix.smul_apply, smul_eq_mul]
    linear_combination c * this
  have dm (w d t : ℝ) : Mirror ![1, 1, -1] ![1, 1, -1] (diagonal ![w, d, t] : M3) := mirror_diagonal _ _
  have om : Mirror ![1, 1, -1] ![1, 1, -1] (1 : M3) := by
    rw [← diagonal_one]
    exact mirror_diagonal _ _
  unfold sshapeAt at e
  dsimp only at e
  cases hs : a.shape with
  | none =>
    rw [hs] at e
    split at e
    · rw [← Except.ok.inj e]; exact dm _ _ _
    · rename_i hn _; exact nomatch hn
    · rename_i hn _; exact nomatch hn
    · rw [← Except.ok.inj e]; exact om
  | some sh =>
    rw [hs] at e h
    cases sh with
    | one M =>
      split at e
      · rw [← Except.ok.inj e]; exact dm _ _ _
      · rename_i hn _
        rw [← Except.ok.inj e]
        have := Shape.one.inj (Option.some.inj hn)
        subst this
        exact sm _ h
      · rename_i hn _; exact nomatch hn
      · rename_i hn _; exact nomatch hn
    | stack l =>
      split at e
      · rw [← Except.ok.inj e]; exact dm _ _ _
      · rename_i hn _; exact nomatch hn
      · rename_i hn _
        have := Shape.stack.inj (Option.some.inj hn)
        subst this
        split at e
        · rename_i M hM
          rw [← Except.ok.inj e]
          exact sm _ (h M (List.mem_of_getElem? hM))
        · exact nomatch e
      · rename_i hn _; exact nomatch hn

theorem mirror_loop {c : Conf} {a : SampleAttrs} (h : FlatShape a.shape) (pts : List (ℝ × ℝ)) (n : ℕ) (l : Loop) {rs : List (ℝ × M4)}
    (e : runLoop c a n l pts = .ok rs) : ∀ r ∈ rs, Mirror s4 s4 r.2 := by
  induction pts generalizing n l rs with
  | nil =>
    rw [← Except.ok.inj e]
    exact fun r hr => nomatch hr
  | cons p pts ih =>
    obtain ⟨q, w⟩ := p
    unfold runLoop at e
    obtain ⟨S, e1, e⟩ := bind_ok e
    obtain ⟨k, e2, e⟩ := bind_ok e
    obtain ⟨r, e3, e⟩ := bind_ok e
    obtain ⟨rs', e4, e⟩ := bind_ok e
    rw [← Except.ok.inj e]
    intro r' hr'
    rcases List.mem_cons.1 hr' with rfl | hr'
    · exact mirror_point (mirror_sshape h e1) e3
    · exact ih _ _ e4 r' hr'

/-- C133, in the frame of Q: whatever the method, the settings and the points, each matrix that is calculated for a flat
sample has no elements between the vertical component of Q and the others. -/
theorem C133_Q {s : Settings} (h : FlatShape s.sample.shape) {pts : List (ℝ × ℝ)} {rs : List (ℝ × M4)} (e : calcInQ s pts = .ok rs) :
    ∀ r ∈ rs, Decoupled r.2 := by
  unfold calcInQ at e
  obtain ⟨c, -, e⟩ := bind_ok e
  exact fun r hr => mirror_decoupled (mirror_loop h _ _ _ e r hr)

theorem Decoupled.turned {A : M4} (h : Decoupled A) (x y : ℝ) : Decoupled ((tmat x y)ᵀ * A * tmat x y) := by
  have h0 := h 0 (by decide)
  have h1 := h 1 (by decide)
  have h3 := h 3 (by decide)
  intro k hk
  constructor <;> fin_cases k <;> simp_all [Matrix.mul_apply, Fin.sum_univ_four, tmat]

/-- What is kept true of an instrument: its sample is flat and the stored matrices have a vertical component of their own. -/
def LevelInst (i : Inst) : Prop :=
  FlatShape i.setup.settings.sample.shape ∧ ∀ rs, i.result = some rs → ∀ r ∈ rs, Decoupled r.rm ∧ Decoupled r.rms

theorem flat_turn {sh sh' : Option Shape} (h : FlatShape sh) {fr : List (ℝ × ℝ × ℝ)} (e : turnSample sh fr = .ok sh') : FlatShape sh' := by
  have turn (M : M3) (hM : Flat M) : FlatShape (some (Shape.stack (fr.map fun f => rot3 f.2.1 f.2.2 * M * (rot3 f.2.1 f.2.2)ᵀ))) := by
    intro N hN
    obtain ⟨f, -, rfl⟩ := List.mem_map.1 hN
    have r : Mirror ![1, 1, -1] ![1, 1, -1] (rot3 f.2.1 f.2.2) := by
      intro i j
      fin_cases i <;> fin_cases j <;> simp [rot3]
    exact mirror_flat ((r.mul hM.mirror).mul r.transpose)
  unfold turnSample at e
  dsimp only at e
  split at e
  · rw [← Except.ok.inj e]; trivial
  · rw [← Except.ok.inj e]; exact turn _ h
  · rw [← Except.ok.inj e]; exact turn _ (h _ (by simp))
  · split_ifs at e
    rw [← Except.ok.inj e]
    exact fun M hM => nomatch hM

theorem level_calc {i : Inst} (h : LevelInst i) (H K L W : Arg ℝ) : LevelInst (calcResolution i H K L W).1 := by
  unfold calcResolution
  split
  · dsimp only
    split
    · exact h
    · split
      · exact h
      · rename_i e2
        have f := flat_turn h.1 e2
        split
        · exact ⟨f, h.2⟩
        · rename_i rs e3
          refine ⟨f, ?_⟩
          intro rs' hrs r hr
          rw [← Option.some.inj hrs] at hr
          have hQ := C133_Q f e3
          obtain ⟨n, hn, rfl⟩ := List.getElem_of_mem hr
          rw [List.getElem_zipWith]
          have := hQ _ (List.getElem_mem (l := rs) (n := n) (by
            rw [List.length_zipWith] at hn; omega))
          exact ⟨this, this.turned _ _⟩
  · exact h

theorem level_get {i : Inst} (h : LevelInst i) (H K L W : Arg ℝ) :
    LevelInst (getResolution i H K L W).1 ∧ ∀ rs, (getResolution i H K L W).2 = .ok rs → ∀ r ∈ rs, Decoupled r.rm ∧ Decoupled r.rms := by
  have key : LevelInst (recompute i H K L W).1 ∧ ∀ rs, (recompute i H K L W).2 = .ok rs → ∀ r ∈ rs, Decoupled r.rm ∧ Decoupled r.rms := by
    have l := level_calc h H K L W
    unfold recompute
    split
    · rename_i i' e e1
      rw [e1] at l
      exact ⟨l, fun rs hrs => nomatch hrs⟩
    · rename_i i' e1
      rw [e1] at l
      refine ⟨l, fun rs hrs r hr => ?_⟩
      have := Except.ok.inj hrs
      cases e : i'.result with
      | none =>
        rw [e] at this
        rw [← this] at hr
        exact nomatch hr
      | some rs' =>
        rw [e] at this
        exact l.2 rs' e r (by rw [← this] at hr; exact hr)
  unfold getResolution
  split
  · rename_i e1 e2
    split_ifs
    · exact ⟨h, fun rs hrs r hr => h.2 _ e2 r (by rw [← Except.ok.inj hrs] at hr; exact hr)⟩
    · exact key
  · exact key

/-- The instrument after any sequence of queries. -/
noncomputable def afterQueries : List (Arg ℝ × Arg ℝ × Arg ℝ × Arg ℝ) → Inst → Inst
  | [], i => i
  | (H, K, L, W) :: qs, i => afterQueries qs (getResolution i H K L W).1

/-- C133.  After any sequence of queries to a new instrument with a flat sample (or with a sample without shape matrix),
each matrix returned by a further query, in the frame of Q and in that of the crystal, has no element between the
vertical component of Q and the other three.  This holds for every method, every setting and every point, also
for those at which the matrix is not positive definite. -/
theorem C133_vertical {s : Setup} (h : FlatShape s.settings.sample.shape) (qs : List (Arg ℝ × Arg ℝ × Arg ℝ × Arg ℝ)) (H K L W : Arg ℝ) :
    ∀ rs, (getResolution (afterQueries qs (new s)) H K L W).2 = .ok rs → ∀ r ∈ rs, ∀ k, k ≠ 2 →
      r.rm k 2 = 0 ∧ r.rm 2 k = 0 ∧ r.rms k 2 = 0 ∧ r.rms 2 k = 0 := by
  have inv : ∀ i, LevelInst i → LevelInst (afterQueries qs i) := by
    induction qs with
    | nil => exact fun i hi => hi
    | cons q qs ih => exact fun i hi => ih _ (level_get hi _ _ _ _).1
  have l := inv (new s) ⟨h, fun rs hrs => nomatch hrs⟩
  intro rs e r hr k hk
  obtain ⟨a, b⟩ := (level_get l H K L W).2 rs e r hr
  exact ⟨(a k hk).1, (a k hk).2, (b k hk).1, (b k hk).2⟩

/-- The hypotheses are met and there is a result. -/
example : FlatShape demoSetup.settings.sample.shape ∧ ∃ r, (getResolution (new demoSetup) (.list [1]) (.list [0]) (.list [0]) (.list [0])).2 = .ok [r] := by
  have e := demo_len 1 0 0
  norm_num at e
  obtain ⟨x, y, z, hs, -⟩ := axes demoSetup_valid
  obtain ⟨r, h, -⟩ := fresh_point demoSetup_valid (demo_valid 1) hs (a := 1) (b := 0) (c := 0) (w := 0) (by simp)
    (by rw [e]; exact demo_reaches (by norm_num) (by norm_num) (by norm_num) (by norm_num))
  exact ⟨trivial, r, h⟩

end Verif.Resolution
