import Verif.Resolution.PropsMirror

/-!
# Property C134: wider divergences give a wider resolution in proportion
-/

namespace Verif.Resolution

open Real Matrix
open Verif.Crystal (Fail npDiv npSqrt)
open Verif.Tools (SPD quad)

/-- A monochromator or analyzer with mosaics and sizes `t` times as large. -/
noncomputable def Blade.stretch (t : ℝ) (b : Blade) : Blade :=
  { b with mosaic := t * b.mosaic, vmosaic := b.vmosaic.map (t * ·), width := b.width.map (t * ·), height := b.height.map (t * ·),
           depth := b.depth.map (t * ·) }

noncomputable def Window.stretch (t : ℝ) (w : Window) : Window := ⟨w.width.map (t * ·), w.height.map (t * ·)⟩

noncomputable def Shape.stretch (t : ℝ) : Shape → Shape
  | .one M => .one (t ^ 2 • M)
  | .stack l => .stack (l.map (t ^ 2 • ·))

noncomputable def SampleAttrs.stretch (t : ℝ) (a : SampleAttrs) : SampleAttrs :=
  { a with mosaic := a.mosaic.map (t * ·), vmosaic := a.vmosaic.map (t * ·), width := a.width.map (t * ·), depth := a.depth.map (t * ·),
           height := a.height.map (t * ·), shape := a.shape.map (Shape.stretch t) }

/-- The instrument with collimations, mosaics and sizes `t` times as large; energies, crystals, distances, curvatures and
senses of scattering are the same. -/
noncomputable def Settings.stretch (t : ℝ) (s : Settings) : Settings :=
  { s with hcol := fun i => t * s.hcol i, vcol := fun i => t * s.vcol i, mono := s.mono.stretch t, ana := s.ana.stretch t,
           sample := s.sample.stretch t, guide := s.guide.stretch t, monitor := s.monitor.stretch t, detector := s.detector.stretch t }

/-- All sizes are given. -/
structure Settings.Sized (s : Settings) : Prop where
  guide : s.guide.width.isSome ∧ s.guide.height.isSome
  mono : s.mono.depth.isSome ∧ s.mono.width.isSome ∧ s.mono.height.isSome
  ana : s.ana.depth.isSome ∧ s.ana.width.isSome ∧ s.ana.height.isSome
  detector : s.detector.width.isSome ∧ s.detector.height.isSome
  sample : s.sample.shape.isSome ∨ (s.sample.width.isSome ∧ s.sample.depth.isSome ∧ s.sample.height.isSome)

/-! ### Validity and reach -/

theorem Pos.stretch {x : Option ℝ} (h : Pos x) {t : ℝ} (ht : 0 < t) : Pos (x.map (t * ·)) := by
  intro v hv
  obtain ⟨u, hu, rfl⟩ := Option.map_eq_some_iff.1 hv
  exact mul_pos ht (h u hu)

theorem SPD.scaled {n : ℕ} {M : Matrix (Fin n) (Fin n) ℝ} (h : SPD M) {c : ℝ} (hc : 0 < c) : SPD (c • M) := by
  rw [← posDef_iff_spd] at *
  exact h.smul hc

theorem Blade.Valid.stretch {b : Blade} (h : b.Valid) {t : ℝ} (ht : 0 < t) : (b.stretch t).Valid :=
  ⟨h.tau, mul_pos ht h.mosaic, h.vmosaic.stretch ht, h.width.stretch ht, h.height.stretch ht, h.depth.stretch ht, h.rv, h.rh, h.dir,
    h.thickness, h.reflQ⟩

theorem Settings.Valid.stretch {s : Settings} {n : ℕ} (h : s.Valid n) {t : ℝ} (ht : 0 < t) : (s.stretch t).Valid n where
  mono := h.mono.stretch ht
  ana := h.ana.stretch ht
  guide := ⟨h.guide.width.stretch ht, h.guide.height.stretch ht⟩
  monitor := ⟨h.monitor.width.stretch ht, h.monitor.height.stretch ht⟩
  detector := ⟨h.detector.width.stretch ht, h.detector.height.stretch ht⟩
  sample := by
    refine ⟨h.sample.width.stretch ht, h.sample.depth.stretch ht, h.sample.height.stretch ht, ?_, ?_, h.sample.dir⟩
    · intro M hM
      obtain ⟨sh, h1, h2⟩ := Option.map_eq_some_iff.1 hM
      cases sh with
      | one N =>
        rw [← Shape.one.inj h2]
        exact SPD.scaled (h.sample.one N h1) (by positivity)
      | stack l => exact nomatch h2
    · intro l hl
      obtain ⟨sh, h1, h2⟩ := Option.map_eq_some_iff.1 hl
      cases sh with
      | one N => exact nomatch h2
      | stack l' =>
        obtain ⟨g1, g2⟩ := h.sample.stack l' h1
        rw [← Shape.stack.inj h2]
        refine ⟨by rwa [List.length_map], ?_⟩
        intro M hM
        obtain ⟨N, hN, rfl⟩ := List.mem_map.1 hM
        exact SPD.scaled (g2 N hN) (by positivity)
  hcol i := mul_ne_zero ht.ne' (h.hcol i)
  vcol i := mul_ne_zero ht.ne' (h.vcol i)
  arms := h.arms

theorem Reaches.stretch {s : Settings} {q w : ℝ} (h : Reaches s q w) (t : ℝ) : Reaches (s.stretch t) q w :=
  ⟨h.ei, h.ef, h.mono, h.ana, h.closes, h.q⟩

/-! ### The matrices -/

theorem inv_scaled {n : ℕ} {M X X' : Matrix (Fin n) (Fin n) ℝ} {c d : ℝ} (hcd : d * c = 1) (e : npInv M = .ok X)
    (e' : npInv (c • M) = .ok X') : X' = d • X := by
  unfold npInv at e e'
  split_ifs at e e' with h1 h2
  rw [← Except.ok.inj e, ← Except.ok.inj e']
  refine Matrix.inv_eq_left_inv ?_
  rw [Matrix.smul_mul, Matrix.mul_smul, smul_smul, hcd, one_smul, Matrix.nonsing_inv_mul _ (isUnit_iff_ne_zero.2 h1)]

/-- How the values before the loop, and the variables of the loop, are related. -/
structure Wider (t : ℝ) (c c' : Conf) : Prop where
  popovici : c'.popovici = c.popovici
  horifoc : c'.horifoc = c.horifoc
  etam : c'.etam = t * c.etam
  etamv : c'.etamv = t * c.etamv
  etaa : c'.etaa = t * c.etaa
  etaav : c'.etaav = t * c.etaav
  etas : c'.etas = c.etas.map fun p => (t * p.1, t * p.2)
  arms : c'.L0 = c.L0 ∧ c'.L1 = c.L1 ∧ c'.L2 = c.L2 ∧ c'.L3 = c.L3
  senses : c'.sm = c.sm ∧ c'.sa = c.sa
  kin : ∀ q w, kinematics c' q w = kinematics c q w
  sizes : c.popovici = true → c'.bshape = t ^ 2 • c.bshape ∧ c'.mshape = t ^ 2 • c.mshape ∧ c'.ashape = t ^ 2 • c.ashape ∧
    c'.dshape = t ^ 2 • c.dshape

structure WiderLoop (t : ℝ) (l l' : Loop) : Prop where
  alpha : ∀ i, l'.alpha i = t * l.alpha i
  beta : ∀ i, l'.beta i = t * l.beta i
  radii : l'.monorh = l.monorh ∧ l'.monorv = l.monorv ∧ l'.anarh = l.anarh ∧ l'.anarv = l.anarv

theorem wider_G {t : ℝ} {l l' : Loop} (h : WiderLoop t l l') : matG l' = (1 / t ^ 2) • matG l := by
  unfold matG
  rw [← diagonal_smul]
  congr 1
  funext i
  rw [Pi.smul_apply, smul_eq_mul, one_div_mul_one_div, ← mul_pow]
  congr 2
  fin_cases i <;> simp [h.alpha, h.beta]

theorem wider_F {t : ℝ} {c c' : Conf} (h : Wider t c c') : matF c' = (1 / t ^ 2) • matF c := by
  unfold matF
  rw [← diagonal_smul]
  congr 1
  funext i
  rw [Pi.smul_apply, smul_eq_mul, one_div_mul_one_div, ← mul_pow]
  congr 2
  fin_cases i <;> simp [h.etam, h.etamv, h.etaa, h.etaav]

theorem wider_focus {t : ℝ} {c c' : Conf} (h : Wider t c c') {l l' : Loop} (hl : WiderLoop t l l') (k : Kin) (N : Matrix (Fin 6) (Fin 6) ℝ) :
    focusBlock c' l' k ((1 / t ^ 2) • N) = (1 / t ^ 2) • focusBlock c l k N := by
  ext i j
  simp only [focusBlock, of_apply, Matrix.smul_apply, smul_eq_mul]
  split_ifs
  · rw [h.etaa, mul_assoc t, div_mul_eq_div_div_swap, div_pow _ t, div_eq_mul_one_div, mul_comm]
  · rw [hl.alpha, mul_left_comm, one_div_mul_eq_div, div_pow, div_pow, one_pow, mul_pow, div_div, mul_comm]
  · rw [mul_zero]
  · rfl

theorem scale_sandwich {m n : ℕ} (A : Matrix (Fin m) (Fin n) ℝ) (N : Matrix (Fin n) (Fin n) ℝ) (d : ℝ) :
    A * (d • N) * Aᵀ = d • (A * N * Aᵀ) := by
  rw [Matrix.mul_smul, Matrix.smul_mul]

theorem wider_cooperNathans {t : ℝ} (ht : 0 < t) {c c' : Conf} (h : Wider t c c') {l l' : Loop} (hl : WiderLoop t l l') {k : Kin}
    {r r' : Matrix (Fin 6) (Fin 6) ℝ × ℝ} (e : cooperNathansN c l k = .ok r) (e' : cooperNathansN c' l' k = .ok r') : r'.1 = t ^ 2 • r.1 := by
  have hcd : t ^ 2 * (1 / t ^ 2) = 1 := by field_simp
  have hdc : 1 / t ^ 2 * t ^ 2 = 1 := by field_simp
  have eH : matG l' + (matC k)ᵀ * matF c' * matC k = (1 / t ^ 2) • (matG l + (matC k)ᵀ * matF c * matC k) := by
    rw [wider_G hl, wider_F h, Matrix.mul_smul, Matrix.smul_mul, smul_add]
  unfold cooperNathansN at e e'
  rw [eH, h.horifoc] at e'
  obtain ⟨X, e1, e⟩ := bind_ok e
  obtain ⟨X', e1', e'⟩ := bind_ok e'
  have i1 := inv_scaled hcd e1 e1'
  subst i1
  rw [scale_sandwich] at e'
  split_ifs at e e'
  · obtain ⟨N, e2, e⟩ := bind_ok e
    obtain ⟨N', e2', e'⟩ := bind_ok e'
    have i2 := inv_scaled hdc e2 e2'
    subst i2
    rw [wider_focus h hl] at e'
    obtain ⟨Y, e3, e⟩ := bind_ok e
    obtain ⟨Y', e3', e'⟩ := bind_ok e'
    rw [← Except.ok.inj e, ← Except.ok.inj e']
    exact inv_scaled hcd e3 e3'
  · rw [← Except.ok.inj e, ← Except.ok.inj e']

theorem wider_popovici {t : ℝ} (ht : 0 < t) {c c' : Conf} (h : Wider t c c') {l l' : Loop} (hl : WiderLoop t l l') {k : Kin}
    {S : Matrix (Fin 13) (Fin 13) ℝ} {r r' : Matrix (Fin 6) (Fin 6) ℝ × ℝ} (e : popoviciN c l k S = .ok r)
    (e' : popoviciN c' l' k ((1 / t ^ 2) • S) = .ok r') : r'.1 = t ^ 2 • r.1 := by
  have hcd : t ^ 2 * (1 / t ^ 2) = 1 := by field_simp
  have hdc : 1 / t ^ 2 * t ^ 2 = 1 := by field_simp
  have eT : matT c' l' k = matT c l k := by
    unfold matT
    rw [h.arms.1, h.arms.2.1, h.arms.2.2.1, h.arms.2.2.2, hl.radii.1, hl.radii.2.1, hl.radii.2.2.1, hl.radii.2.2.2]
  have eD : matD c' k = matD c k := by
    unfold matD
    rw [h.arms.1, h.arms.2.1, h.arms.2.2.1, h.arms.2.2.2]
  have eK : (1 / t ^ 2) • S + (matT c l k)ᵀ * matF c' * matT c l k = (1 / t ^ 2) • (S + (matT c l k)ᵀ * matF c * matT c l k) := by
    rw [wider_F h, Matrix.mul_smul, Matrix.smul_mul, smul_add]
  unfold popoviciN at e e'
  split_ifs at e e'
  dsimp only at e e'
  rw [eT, eD, eK] at e'
  obtain ⟨X, e1, e⟩ := bind_ok e
  obtain ⟨X', e1', e'⟩ := bind_ok e'
  have i1 := inv_scaled hcd e1 e1'
  subst i1
  rw [scale_sandwich] at e'
  obtain ⟨H, e2, e⟩ := bind_ok e
  obtain ⟨H', e2', e'⟩ := bind_ok e'
  have i2 := inv_scaled hdc e2 e2'
  subst i2
  rw [wider_G hl, ← smul_add] at e'
  obtain ⟨Y, e3, e⟩ := bind_ok e
  obtain ⟨Y', e3', e'⟩ := bind_ok e'
  have i3 := inv_scaled hcd e3 e3'
  subst i3
  rw [← Except.ok.inj e, ← Except.ok.inj e']
  exact scale_sandwich _ _ _

theorem blkdiag_smul {m n : ℕ} (d : ℝ) (X : Matrix (Fin m) (Fin m) ℝ) (Y : Matrix (Fin n) (Fin n) ℝ) :
    blkdiag (d • X) (d • Y) = d • blkdiag X Y := by
  ext i j
  induction i using Fin.addCases <;> induction j using Fin.addCases <;> simp [blkdiag]

theorem wider_Sinv {t : ℝ} {c c' : Conf} (h : Wider t c c') (hp : c.popovici = true) (k : Kin) (X : M3) :
    matSinv c' (turnShape k (t ^ 2 • X)) = t ^ 2 • matSinv c (turnShape k X) := by
  obtain ⟨h1, h2, h3, h4⟩ := h.sizes hp
  have e : turnShape k (t ^ 2 • X) = t ^ 2 • turnShape k X := scale_sandwich _ _ _
  unfold matSinv
  rw [e, h1, h2, h3, h4, diagonal_smul, diagonal_smul, diagonal_smul, diagonal_smul, blkdiag_smul, blkdiag_smul, blkdiag_smul, blkdiag_smul]

theorem wider_core {t : ℝ} (ht : 0 < t) {c c' : Conf} (h : Wider t c c') {l l' : Loop} (hl : WiderLoop t l l') {k : Kin}
    {S S' : Matrix (Fin 13) (Fin 13) ℝ} (hS : c.popovici = true → S' = (1 / t ^ 2) • S) {r r' : M4 × ℝ} (e : coreMatrix c l k S = .ok r)
    (e' : coreMatrix c' l' k S' = .ok r') : r'.1 = t ^ 2 • r.1 := by
  unfold coreMatrix at e e'
  dsimp only at e e'
  rw [h.popovici] at e'
  split_ifs at e e' with hp
  · rw [hS hp] at e'
    obtain ⟨⟨N, d⟩, g, e⟩ := bind_ok e
    obtain ⟨⟨N', d'⟩, g', e'⟩ := bind_ok e'
    have i := wider_popovici ht h hl g g'
    dsimp only at i
    rw [← Except.ok.inj e, ← Except.ok.inj e', i]
    exact scale_sandwich _ _ _
  · obtain ⟨⟨N, d⟩, g, e⟩ := bind_ok e
    obtain ⟨⟨N', d'⟩, g', e'⟩ := bind_ok e'
    have i := wider_cooperNathans ht h hl g g'
    dsimp only at i
    rw [← Except.ok.inj e, ← Except.ok.inj e', i]
    exact scale_sandwich _ _ _

theorem wider_point {t : ℝ} (ht : 0 < t) {c c' : Conf} (h : Wider t c c') {l l' : Loop} (hl : WiderLoop t l l') {k : Kin} {X X' : M3}
    (hX : c.popovici = true → X' = t ^ 2 • X) {q : ℝ} {r r' : ℝ × M4} (e : pointAt c l X k q = .ok r) (e' : pointAt c' l' X' k q = .ok r') :
    r'.2 = (1 / t ^ 2) • r.2 := by
  have hcd : t ^ 2 * (1 / t ^ 2) = 1 := by field_simp
  have hdc : 1 / t ^ 2 * t ^ 2 = 1 := by field_simp
  unfold pointAt at e e'
  split_ifs at e e'
  obtain ⟨S, e1, e⟩ := bind_ok e
  obtain ⟨S', e1', e'⟩ := bind_ok e'
  have hS : c.popovici = true → S' = (1 / t ^ 2) • S := by
    intro hp
    rw [hX hp, wider_Sinv h hp] at e1'
    exact inv_scaled hdc e1 e1'
  obtain ⟨⟨Mi, dH⟩, e2, e⟩ := bind_ok e
  obtain ⟨⟨Mi', dH'⟩, e2', e'⟩ := bind_ok e'
  have hM := wider_core ht h hl hS e2 e2'
  dsimp only at hM
  subst hM
  obtain ⟨RM, e3, e⟩ := bind_ok e
  obtain ⟨RM', e3', e'⟩ := bind_ok e'
  have hR := inv_scaled hdc e3 e3'
  obtain ⟨r0, -, e⟩ := bind_ok e
  obtain ⟨r0', -, e'⟩ := bind_ok e'
  obtain ⟨⟨s0, RS⟩, e4, e⟩ := bind_ok e
  obtain ⟨⟨s0', RS'⟩, e4', e'⟩ := bind_ok e'
  obtain ⟨u0, -, e⟩ := bind_ok e
  obtain ⟨u0', -, e'⟩ := bind_ok e'
  rw [← Except.ok.inj e, ← Except.ok.inj e']
  show RS' = (1 / t ^ 2) • RS
  unfold withMosaic at e4 e4'
  rw [h.etas] at e4'
  cases hm : c.etas with
  | none =>
    rw [hm] at e4 e4'
    have g1 := (Prod.mk.inj (Except.ok.inj e4)).2
    have g2 := (Prod.mk.inj (Except.ok.inj e4')).2
    rw [← g1, ← g2, hR]
  | some p =>
    rw [hm] at e4 e4'
    simp only [Option.map_some] at e4'
    unfold sampleMosaic at e4 e4'
    obtain ⟨_, -, e4⟩ := bind_ok e4
    obtain ⟨_, -, e4⟩ := bind_ok e4
    obtain ⟨Y, g, e4⟩ := bind_ok e4
    obtain ⟨_, -, e4'⟩ := bind_ok e4'
    obtain ⟨_, -, e4'⟩ := bind_ok e4'
    obtain ⟨Y', g', e4'⟩ := bind_ok e4'
    have ed : t ^ 2 • Mi + diagonal ![0, q ^ 2 * (t * p.1) ^ 2, q ^ 2 * (t * p.2) ^ 2, 0] =
        t ^ 2 • (Mi + diagonal ![0, q ^ 2 * p.1 ^ 2, q ^ 2 * p.2 ^ 2, 0]) := by
      rw [smul_add, ← diagonal_smul]
      congr 2
      funext i
      fin_cases i <;> simp <;> ring
    rw [ed] at g'
    rw [← (Prod.mk.inj (Except.ok.inj e4)).2, ← (Prod.mk.inj (Except.ok.inj e4')).2]
    exact inv_scaled hdc g g'

theorem wider_advance {t : ℝ} (ht : 0 < t) {c c' : Conf} (h : Wider t c c') {l l' : Loop} (hl : WiderLoop t l l') (ki : ℝ) :
    WiderLoop t (l.advance c ki) (l'.advance c' ki) := by
  have g (a : ℝ) : guideDivergence (t * a) ki = t * guideDivergence a ki := by
    unfold guideDivergence
    have : t * a < 0 ↔ a < 0 := by
      constructor
      · intro h
        by_contra hc
        exact absurd h (not_lt.2 (mul_nonneg ht.le (not_lt.1 hc)))
      · exact fun h => mul_neg_of_pos_of_neg ht h
    split_ifs <;> first | tauto | ring
  refine ⟨fun i => ?_, fun i => ?_, ?_⟩
  · show guideDivergence (l'.alpha i) ki = _
    rw [hl.alpha, g]; rfl
  · show guideDivergence (l'.beta i) ki = _
    rw [hl.beta, g]; rfl
  · obtain ⟨r1, r2, r3, r4⟩ := hl.radii
    refine ⟨?_, ?_, ?_, ?_⟩ <;> simp only [Loop.advance, r1, r2, r3, r4, h.senses.1, h.senses.2]

theorem wider_loop {t : ℝ} (ht : 0 < t) {c c' : Conf} (h : Wider t c c') {a a' : SampleAttrs}
    (ha : c.popovici = true → ∀ n X X', sshapeAt a n = .ok X → sshapeAt a' n = .ok X' → X' = t ^ 2 • X) :
    ∀ (pts : List (ℝ × ℝ)) (n : ℕ) {l l' : Loop}, WiderLoop t l l' → ∀ {rs rs' : List (ℝ × M4)}, runLoop c a n l pts = .ok rs →
      runLoop c' a' n l' pts = .ok rs' → ∀ (k : ℕ) (r r' : ℝ × M4), rs[k]? = some r → rs'[k]? = some r' → r'.2 = (1 / t ^ 2) • r.2
  | [], n, l, l', hl, rs, rs', e, e' => by
    rw [← Except.ok.inj e]
    intro k r r' h
    simp at h
  | (q, w) :: pts, n, l, l', hl, rs, rs', e, e' => by
    unfold runLoop at e e'
    obtain ⟨X, e1, e⟩ := bind_ok e
    obtain ⟨X', e1', e'⟩ := bind_ok e'
    obtain ⟨k, e2, e⟩ := bind_ok e
    obtain ⟨k', e2', e'⟩ := bind_ok e'
    rw [h.kin, e2] at e2'
    have := Except.ok.inj e2'
    subst this
    obtain ⟨r, e3, e⟩ := bind_ok e
    obtain ⟨r', e3', e'⟩ := bind_ok e'
    obtain ⟨rs1, e4, e⟩ := bind_ok e
    obtain ⟨rs1', e4', e'⟩ := bind_ok e'
    rw [← Except.ok.inj e, ← Except.ok.inj e']
    have hl' := wider_advance ht h hl k.ki
    intro i p p' hp hp'
    cases i with
    | zero =>
      simp only [List.getElem?_cons_zero, Option.some.injEq] at hp hp'
      rw [← hp, ← hp']
      exact wider_point ht h hl' (fun hpop => ha hpop n X X' e1 e1') e3 e3'
    | succ i =>
      simp only [List.getElem?_cons_succ] at hp hp'
      exact wider_loop ht h ha pts (n + 1) hl' e4 e4' i p p' hp hp'

theorem extent_stretch {x : Option ℝ} (h : x.isSome) (t : ℝ) : extent (x.map (t * ·)) = t ^ 2 * extent x := by
  cases x with
  | none => simp at h
  | some v =>
    simp only [Option.map_some, extent]
    ring

theorem wider_shape {t : ℝ} {a : SampleAttrs} (h : a.shape.isSome ∨ (a.width.isSome ∧ a.depth.isSome ∧ a.height.isSome)) (n : ℕ)
    (X X' : M3) (e : sshapeAt a n = .ok X) (e' : sshapeAt (a.stretch t) n = .ok X') : X' = t ^ 2 • X := by
  have dg (w d g f : ℝ) : (diagonal ![(t * d) ^ 2 / f, (t * w) ^ 2 / f, (t * g) ^ 2 / f] : M3) = t ^ 2 • diagonal ![d ^ 2 / f, w ^ 2 / f, g ^ 2 / f] := by
    rw [← diagonal_smul]
    congr 1
    funext i
    fin_cases i <;> simp <;> ring
  obtain ⟨m, vm, w, d, g, st, sh, dir⟩ := a
  change sshapeAt ⟨m.map (t * ·), vm.map (t * ·), w.map (t * ·), d.map (t * ·), g.map (t * ·), st, sh.map (Shape.stretch t), dir⟩ n = .ok X' at e'
  unfold sshapeAt at e e'
  dsimp only at e e' h
  obtain ⟨f, hf⟩ : ∃ f : ℝ, f = if st = some ['c', 'y', 'l', 'i', 'n', 'd', 'r', 'i', 'c', 'a', 'l'] then 16 else 12 := ⟨_, rfl⟩
  rw [← hf] at e e'
  rcases w with _ | w <;> rcases d with _ | d <;> rcases g with _ | g <;> rcases sh with _ | M | l <;>
    simp only [Shape.stretch, Option.map_some, Option.map_none, Option.isSome_some, Option.isSome_none, Bool.false_eq_true, and_false, false_and, or_self,
      List.getElem?_map] at e e' h ⊢ <;>
    first
    | (rw [← Except.ok.inj e, ← Except.ok.inj e']; exact smul_comm _ _ _)
    | (rw [← Except.ok.inj e, ← Except.ok.inj e']; exact dg _ _ _ _)
    | (cases hn : l[n]? with
       | none => rw [hn] at e; exact nomatch e
       | some N =>
         rw [hn] at e e'
         rw [← Except.ok.inj e, ← Except.ok.inj e']
         exact smul_comm _ _ _)

theorem wider_decode {t : ℝ} {s : Settings} (hs : s.popovici = true → s.Sized) {c c' : Conf} (e : decode s = .ok c)
    (e' : decode (s.stretch t) = .ok c') : Wider t c c' := by
  unfold decode at e e'
  obtain ⟨⟨l0, l1, lm, l2, l3⟩, g, e⟩ := bind_ok e
  rw [show decodeArms (s.stretch t) = decodeArms s from rfl, g] at e'
  simp only [ok_bind] at e'
  rw [← Except.ok.inj e, ← Except.ok.inj e']
  have vm (b : Blade) : (b.stretch t).vmosaic.getD (b.stretch t).mosaic = t * b.vmosaic.getD b.mosaic := by
    unfold Blade.stretch
    cases b.vmosaic <;> rfl
  refine ⟨rfl, rfl, ?_, ?_, ?_, ?_, ?_, ⟨rfl, rfl, rfl, rfl⟩, ⟨rfl, rfl⟩, fun _ _ => rfl, ?_⟩
  · show t * s.mono.mosaic * convert1 = t * (s.mono.mosaic * convert1)
    ring
  · show (if s.vmosaicUsed then (s.mono.stretch t).vmosaic.getD (s.mono.stretch t).mosaic else t * s.mono.mosaic) * convert1 =
      t * ((if s.vmosaicUsed then s.mono.vmosaic.getD s.mono.mosaic else s.mono.mosaic) * convert1)
    rw [vm]
    split_ifs <;> ring
  · show t * s.ana.mosaic * convert1 = t * (s.ana.mosaic * convert1)
    ring
  · show (s.ana.stretch t).vmosaic.getD (s.ana.stretch t).mosaic * convert1 = t * (s.ana.vmosaic.getD s.ana.mosaic * convert1)
    rw [vm]
    ring
  · show ((s.sample.mosaic.map (t * ·)).map fun m => (m * convert1, (s.sample.vmosaic.map (t * ·)).getD m * convert1)) =
      (s.sample.mosaic.map fun m => (m * convert1, s.sample.vmosaic.getD m * convert1)).map fun p => (t * p.1, t * p.2)
    cases s.sample.mosaic with
    | none => rfl
    | some m =>
      simp only [Option.map_some]
      cases s.sample.vmosaic <;> simp <;> ring_nf <;> simp
  · intro hp
    have z := hs hp
    refine ⟨?_, ?_, ?_, ?_⟩ <;> dsimp only <;> funext i <;> fin_cases i <;>
      simp [Settings.stretch, Window.stretch, Blade.stretch, extent_stretch, z.guide, z.mono, z.ana, z.detector]

/-- C134.  Let all collimations (or guide m-values), mosaics and sizes of a valid instrument be made `t` times as large.  Then at
every point that it can reach the region where the resolution function is above any given fraction of its maximum is
`t` times as wide in every direction.  With the Popovici method all sizes have to be given; with the method of Cooper and
Nathans, with or without a focusing analyzer, the sizes do not matter. -/
theorem C134_stretch {s : Settings} {pts : List (ℝ × ℝ)} (h : s.Valid pts.length) (hr : ∀ p ∈ pts, Reaches s p.1 p.2)
    (hs : s.popovici = true → s.Sized) {t : ℝ} (ht : 0 < t) :
    ∃ rs rs', calcInQ s pts = .ok rs ∧ calcInQ (s.stretch t) pts = .ok rs' ∧ rs.length = pts.length ∧ rs'.length = pts.length ∧
      ∀ (k : ℕ) (r r' : ℝ × M4), rs[k]? = some r → rs'[k]? = some r' → ∀ d, quad r'.2 (t • d) = quad r.2 d := by
  obtain ⟨rs, e, l, -⟩ := C61_spd s pts h hr
  obtain ⟨rs', e', l', -⟩ := C61_spd (s.stretch t) pts (h.stretch ht) (fun p hp => (hr p hp).stretch t)
  refine ⟨rs, rs', e, e', l, l', ?_⟩
  unfold calcInQ at e e'
  obtain ⟨c, g, e⟩ := bind_ok e
  obtain ⟨c', g', e'⟩ := bind_ok e'
  have w := wider_decode hs g g'
  have hpop : c.popovici = s.popovici := by
    unfold decode at g
    obtain ⟨x, -, g⟩ := bind_ok g
    rw [← Except.ok.inj g]
  have st : WiderLoop t (Loop.start s) (Loop.start (s.stretch t)) := by
    refine ⟨fun i => ?_, fun i => ?_, ⟨rfl, rfl, rfl, rfl⟩⟩
    · show t * s.hcol i * convert1 * _ = t * (s.hcol i * convert1 * _)
      rw [mul_assoc t, mul_assoc t]
      rfl
    · show t * s.vcol i * convert1 = t * (s.vcol i * convert1)
      ring
  intro k r r' hk hk' d
  have := wider_loop ht w (fun hp n X X' => wider_shape (hs (hpop ▸ hp)).sample n X X') pts 0 st e e' k r r' hk hk'
  rw [this]
  simp only [quad, Matrix.smul_apply, Pi.smul_apply, smul_eq_mul]
  refine Finset.sum_congr rfl fun i _ => Finset.sum_congr rfl fun j _ => ?_
  field_simp

/-- The hypotheses are met by the default instrument. -/
example : ∃ rs rs', calcInQ demo [(1, 0), (1 / 2, 1)] = .ok rs ∧ calcInQ (demo.stretch 3) [(1, 0), (1 / 2, 1)] = .ok rs' ∧
    rs.length = 2 ∧ rs'.length = 2 := by
  obtain ⟨rs, rs', h1, h2, h3, h4, -⟩ := C134_stretch (pts := [(1, 0), (1 / 2, 1)]) (demo_valid 2) (by
    intro p hp
    simp only [List.mem_cons, List.not_mem_nil, or_false] at hp
    rcases hp with rfl | rfl <;> exact demo_reaches (by norm_num) (by norm_num) (by norm_num) (by norm_num)) (fun h => nomatch h)
    (t := 3) (by norm_num)
  exact ⟨rs, rs', h1, h2, h3, h4⟩

/-- The default instrument with the Popovici method and all sizes. -/
noncomputable def demoSized : Settings :=
  { demo with
      method := some (.number 1), arms := some [150, 200, 150, 50]
      mono := ⟨1.87325, 25, none, some 10, some 10, some (1 / 5), none, none, -1, none, none⟩
      ana := ⟨1.87325, 25, none, some 10, some 10, some (1 / 5), none, none, -1, none, none⟩
      sample := ⟨none, none, some 1, some 1, some 1, some ['r'], none, 1⟩
      guide := ⟨some 5, some 10⟩, detector := ⟨some 3, some 10⟩ }

/-- The hypotheses are met with the Popovici method. -/
example : demoSized.popovici = true ∧ demoSized.Sized ∧ demoSized.Valid 1 ∧ Reaches demoSized 1 0 := by
  have pos {v : ℝ} (hv : 0 < v) : Pos (some v) := fun u hu => by rw [← Option.some.inj hu]; exact hv
  have d := demo_valid 1
  refine ⟨rfl, ⟨⟨rfl, rfl⟩, ⟨rfl, rfl, rfl⟩, ⟨rfl, rfl, rfl⟩, ⟨rfl, rfl⟩, Or.inr ⟨rfl, rfl, rfl⟩⟩, ?_, ?_⟩
  · exact ⟨{ d.mono with width := pos (by norm_num), height := pos (by norm_num), depth := pos (by norm_num) },
      { d.ana with width := pos (by norm_num), height := pos (by norm_num), depth := pos (by norm_num) },
      ⟨pos (by norm_num), pos (by norm_num)⟩, d.monitor, ⟨pos (by norm_num), pos (by norm_num)⟩,
      { d.sample with width := pos (by norm_num), height := pos (by norm_num), depth := pos (by norm_num) }, d.hcol, d.vcol, by
        intro L hL
        rw [← Option.some.inj hL]
        refine ⟨by simp, fun x hx => ?_⟩
        simp only [List.mem_cons, List.not_mem_nil, or_false] at hx
        rcases hx with rfl | rfl | rfl | rfl <;> norm_num⟩
  · have r := demo_reaches (q := 1) (w := 0) (by norm_num) (by norm_num) (by norm_num) (by norm_num)
    exact ⟨r.ei, r.ef, r.mono, r.ana, r.closes, r.q⟩

end Verif.Resolution
