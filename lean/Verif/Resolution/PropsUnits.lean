import Verif.Resolution.PropsScale
import Verif.Resolution.PropsMonitor

/-!
# Property C200: the unit of length
-/

namespace Verif.Resolution

open Real Matrix
open Verif.Crystal (Fail npDiv npSqrt)

/-! ## Specification -/

/-- A monochromator or analyzer whose lengths are given in a unit `t` times as small. -/
noncomputable def Blade.inUnits (t : ℝ) (b : Blade) : Blade :=
  { b with width := b.width.map (t * ·), height := b.height.map (t * ·), depth := b.depth.map (t * ·), rv := b.rv.map (t * ·),
           rh := b.rh.map (t * ·), thickness := b.thickness.map (t * ·), reflQ := b.reflQ.map (· / t) }

/-- A sample in a unit `t` times as small; the shape is a matrix of squares of lengths. -/
noncomputable def SampleAttrs.inUnits (t : ℝ) (a : SampleAttrs) : SampleAttrs :=
  { a with width := a.width.map (t * ·), depth := a.depth.map (t * ·), height := a.height.map (t * ·), shape := a.shape.map (Shape.stretch t) }

/-- The same instrument with all lengths given in a unit `t` times as small. -/
noncomputable def Settings.inUnits (t : ℝ) (s : Settings) : Settings :=
  { s with arms := s.arms.map (List.map (t * ·)), mono := s.mono.inUnits t, ana := s.ana.inUnits t, sample := s.sample.inUnits t,
           guide := s.guide.stretch t, monitor := s.monitor.stretch t, detector := s.detector.stretch t }

/-- The lengths that Popovici's method reads are all given: sizes, arms, radii, and the width of the monitor. -/
structure Settings.Measured (s : Settings) : Prop extends s.Sized where
  arms : s.arms.isSome
  monoRadii : s.mono.rv.isSome ∧ s.mono.rh.isSome
  anaRadii : s.ana.rv.isSome ∧ s.ana.rh.isSome
  monitor : s.monitor.width.isSome

/-! ## Matrices -/

theorem npInv_smul {n : ℕ} {a : ℝ} (ha : a ≠ 0) (M : Matrix (Fin n) (Fin n) ℝ) : npInv (a • M) = npInv M >>= fun N => pure (a⁻¹ • N) := by
  unfold npInv
  by_cases h : M.det = 0
  · rw [if_pos h, if_pos (by rw [det_smul, h, mul_zero])]
    rfl
  · rw [if_neg h, if_neg (by rw [det_smul]; exact mul_ne_zero (pow_ne_zero _ ha) h)]
    have := Matrix.inv_smul' M (Units.mk0 a ha) (isUnit_iff_ne_zero.2 h)
    exact congrArg Except.ok this

/-- The values before the loop, in another unit. -/
noncomputable def Conf.inUnits (t : ℝ) (c : Conf) : Conf :=
  { c with bshape := t ^ 2 • c.bshape, mshape := t ^ 2 • c.mshape, ashape := t ^ 2 • c.ashape, dshape := t ^ 2 • c.dshape,
           monitorshape := t ^ 2 • c.monitorshape, L0 := t * c.L0, L1 := t * c.L1, L1mon := t * c.L1mon, L2 := t * c.L2, L3 := t * c.L3,
           refl := c.refl.map fun p => (t * p.1, p.2 / t) }

/-- The variables of the loop, in another unit. -/
noncomputable def Loop.inUnits (t : ℝ) (l : Loop) : Loop :=
  { l with monorh := t * l.monorh, monorv := t * l.monorv, anarh := t * l.anarh, anarv := t * l.anarv }

theorem units_T (t : ℝ) (c : Conf) (l : Loop) (k : Kin) : matT (c.inUnits t) (l.inUnits t) k = t⁻¹ • matT c l k := by
  simp only [matT, Conf.inUnits, Loop.inUnits, smul_of, smul_cons, smul_empty, smul_eq_mul, mul_zero, div_eq_mul_inv, mul_inv]
  ring_nf

theorem units_D (t : ℝ) (c : Conf) (k : Kin) : matD (c.inUnits t) k = t⁻¹ • matD c k := by
  simp only [matD, Conf.inUnits, smul_of, smul_cons, smul_empty, smul_eq_mul, mul_zero, div_eq_mul_inv, mul_inv]
  ring_nf

theorem units_monT (t : ℝ) (c : Conf) (l : Loop) (k : Kin) : monT (c.inUnits t) (l.inUnits t) k = t⁻¹ • monT c l k := by
  simp only [monT, Conf.inUnits, Loop.inUnits, smul_of, smul_cons, smul_empty, smul_eq_mul, mul_zero, div_eq_mul_inv, mul_inv]
  ring_nf

theorem units_monD (t : ℝ) (c : Conf) (k : Kin) : monD (c.inUnits t) k = t⁻¹ • monD c k := by
  simp only [monD, Conf.inUnits, smul_of, smul_cons, smul_empty, smul_eq_mul, mul_zero, div_eq_mul_inv, mul_inv]
  ring_nf

/-- Matrices of the form that occurs, in another unit. -/
theorem units_form {m n : ℕ} {t : ℝ} (ht : t ≠ 0) (S : Matrix (Fin n) (Fin n) ℝ) (T : Matrix (Fin m) (Fin n) ℝ) (F : Matrix (Fin m) (Fin m) ℝ)
    {p : ℕ} (D : Matrix (Fin p) (Fin n) ℝ) {β : Type} (f : Matrix (Fin p) (Fin p) ℝ → Except Fail β) :
    (npInv ((t ^ 2)⁻¹ • S + (t⁻¹ • T)ᵀ * F * (t⁻¹ • T)) >>= fun K => npInv ((t⁻¹ • D) * K * (t⁻¹ • D)ᵀ) >>= f) =
      npInv (S + Tᵀ * F * T) >>= fun K => npInv (D * K * Dᵀ) >>= f := by
  have e1 : (t ^ 2)⁻¹ • S + (t⁻¹ • T)ᵀ * F * (t⁻¹ • T) = (t ^ 2)⁻¹ • (S + Tᵀ * F * T) := by
    rw [smul_add, transpose_smul, Matrix.smul_mul, Matrix.smul_mul, Matrix.mul_smul, smul_smul]
    congr 2
    field_simp
  rw [e1, npInv_smul (by positivity)]
  rw [bind_assoc]
  refine congrArg _ (funext fun K => ?_)
  rw [pure_bind]
  congr 2
  rw [transpose_smul, Matrix.mul_smul, Matrix.mul_smul, Matrix.smul_mul, Matrix.smul_mul, Matrix.smul_mul, smul_smul, smul_smul]
  convert one_smul ℝ _ using 2
  field_simp

theorem units_popovici {t : ℝ} (ht : t ≠ 0) (c : Conf) (l : Loop) (k : Kin) (S : Matrix (Fin 13) (Fin 13) ℝ) :
    popoviciN (c.inUnits t) (l.inUnits t) k ((t ^ 2)⁻¹ • S) = popoviciN c l k S := by
  have hz (x : ℝ) : t * x = 0 ↔ x = 0 := by simp [ht]
  have e := fun β => @units_form _ _ t ht S (matT c l k) (matF c) _ (matD c k) β
  unfold popoviciN
  rw [units_T, units_D]
  by_cases h : c.L0 = 0 ∨ c.L1 = 0 ∨ c.L2 = 0 ∨ c.L3 = 0 ∨ l.monorh = 0 ∨ l.monorv = 0 ∨ l.anarh = 0 ∨ l.anarv = 0
  · rw [if_pos h, if_pos (by simpa only [Conf.inUnits, Loop.inUnits, hz] using h)]
  · rw [if_neg h, if_neg (by simpa only [Conf.inUnits, Loop.inUnits, hz] using h)]
    exact e _ fun H => npInv (H + matG l) >>= fun HGinv => pure (matA k * HGinv * (matA k)ᵀ, (H + matG l).det)

theorem units_monitor {t : ℝ} (ht : t ≠ 0) (c : Conf) (l : Loop) (k : Kin) : monitorFlux (c.inUnits t) (l.inUnits t) k = monitorFlux c l k := by
  have hz (x : ℝ) : t * x = 0 ↔ x = 0 := by simp [ht]
  have e1 : blkdiag (diagonal (c.inUnits t).bshape) (blkdiag (diagonal (c.inUnits t).mshape) (diagonal (c.inUnits t).monitorshape)) =
      t ^ 2 • blkdiag (diagonal c.bshape) (blkdiag (diagonal c.mshape) (diagonal c.monitorshape)) := by
    rw [← blkdiag_smul, ← blkdiag_smul, ← diagonal_smul, ← diagonal_smul, ← diagonal_smul]
    rfl
  have e2 (s : Matrix (Fin 7) (Fin 7) ℝ) : monitorDen (c.inUnits t) (l.inUnits t) k ((t ^ 2)⁻¹ • s) = monitorDen c l k s := by
    unfold monitorDen
    rw [units_monT, units_monD]
    by_cases hp : c.popovici = true
    · rw [if_pos hp, if_pos (show (c.inUnits t).popovici = true from hp)]
      by_cases h : c.L1mon = 0
      · rw [if_pos h, if_pos (by simpa only [Conf.inUnits, hz] using h)]
      · rw [if_neg h, if_neg (by simpa only [Conf.inUnits, hz] using h)]
        exact units_form ht s (monT c l k) (monf c) (monD c k) fun H => pure (H + mong l).det
    · rw [if_neg hp, if_neg (show ¬ (c.inUnits t).popovici = true from hp)]
      rfl
  unfold monitorFlux
  dsimp only
  rw [e1, npInv_smul (by positivity), bind_assoc]
  refine congrArg _ (funext fun s => ?_)
  rw [pure_bind, e2]
  rfl

theorem units_refl {t : ℝ} (ht : t ≠ 0) (c : Conf) (l : Loop) (k : Kin) (r : ℝ) :
    withReflectivity (c.inUnits t) (l.inUnits t) k r = withReflectivity c l k r := by
  unfold withReflectivity Conf.inUnits
  dsimp only
  cases c.refl with
  | none => rfl
  | some p =>
    obtain ⟨a, b⟩ := p
    have e (x : ℝ) : t * a * (b / t * x) = a * (b * x) := by field_simp
    simp only [Option.map_some]
    unfold reflectivity
    simp only [e]
    rfl

/-- One point with Popovici's method. -/
theorem units_point {t : ℝ} (ht : t ≠ 0) {c : Conf} (hp : c.popovici = true) (l : Loop) (X : M3) (k : Kin) (q : ℝ) :
    pointAt (c.inUnits t) (l.inUnits t) (t ^ 2 • X) k q = pointAt c l X k q := by
  have e1 : matSinv (c.inUnits t) (turnShape k (t ^ 2 • X)) = t ^ 2 • matSinv c (turnShape k X) := by
    have e : turnShape k (t ^ 2 • X) = t ^ 2 • turnShape k X := scale_sandwich _ _ _
    unfold matSinv
    rw [e, ← blkdiag_smul, ← blkdiag_smul, ← blkdiag_smul, ← blkdiag_smul, ← diagonal_smul, ← diagonal_smul, ← diagonal_smul, ← diagonal_smul]
    rfl
  have e2 (S : Matrix (Fin 13) (Fin 13) ℝ) : coreMatrix (c.inUnits t) (l.inUnits t) k ((t ^ 2)⁻¹ • S) = coreMatrix c l k S := by
    unfold coreMatrix
    rw [if_pos hp, if_pos (show (c.inUnits t).popovici = true from hp), units_popovici ht]
  have e3 (d : ℝ) (R : M4) : prefactor (c.inUnits t) (l.inUnits t) k d R = prefactor c l k d R := by
    unfold prefactor
    rw [units_monitor ht]
    rfl
  unfold pointAt
  rw [e1, npInv_smul (by positivity)]
  refine if_congr Iff.rfl rfl ?_
  rw [bind_assoc]
  refine congrArg _ (funext fun S => ?_)
  rw [pure_bind, e2]
  simp only [e3, units_refl ht]
  rfl

/-! ## The loop over the points -/

theorem units_advance (t : ℝ) (c : Conf) (l : Loop) (ki : ℝ) : (l.inUnits t).advance (c.inUnits t) ki = (l.advance c ki).inUnits t := by
  unfold Loop.advance Loop.inUnits Conf.inUnits
  simp only [mul_assoc]

theorem units_shape (t : ℝ) {a : SampleAttrs} (h : a.shape.isSome ∨ (a.width.isSome ∧ a.depth.isSome ∧ a.height.isSome)) (n : ℕ) :
    sshapeAt (a.inUnits t) n = sshapeAt a n >>= fun X => pure (t ^ 2 • X) := by
  have dg (w d g f : ℝ) : (diagonal ![(t * d) ^ 2 / f, (t * w) ^ 2 / f, (t * g) ^ 2 / f] : M3) = t ^ 2 • diagonal ![d ^ 2 / f, w ^ 2 / f, g ^ 2 / f] := by
    rw [← diagonal_smul]
    congr 1
    funext i
    fin_cases i <;> simp <;> ring
  obtain ⟨m, vm, w, d, g, st, sh, dir⟩ := a
  change sshapeAt ⟨m, vm, w.map (t * ·), d.map (t * ·), g.map (t * ·), st, sh.map (Shape.stretch t), dir⟩ n = _
  unfold sshapeAt
  dsimp only at h ⊢
  generalize (if st = some ['c', 'y', 'l', 'i', 'n', 'd', 'r', 'i', 'c', 'a', 'l'] then (16 : ℝ) else 12) = f
  rcases w with _ | w <;> rcases d with _ | d <;> rcases g with _ | g <;> rcases sh with _ | M | l <;>
    simp only [Shape.stretch, Option.map_some, Option.map_none, Option.isSome_some, Option.isSome_none, Bool.false_eq_true, and_false, false_and, or_self,
      List.getElem?_map] at h ⊢ <;>
    first
    | exact congrArg Except.ok (smul_comm _ _ _)
    | exact congrArg Except.ok (dg _ _ _ _)
    | (cases hn : l[n]? with
       | none => rfl
       | some N => exact congrArg Except.ok (smul_comm _ _ _))

theorem units_loop {t : ℝ} (ht : t ≠ 0) {c : Conf} (hp : c.popovici = true) {a : SampleAttrs}
    (h : a.shape.isSome ∨ (a.width.isSome ∧ a.depth.isSome ∧ a.height.isSome)) :
    ∀ (pts : List (ℝ × ℝ)) (n : ℕ) (l : Loop), runLoop (c.inUnits t) (a.inUnits t) n (l.inUnits t) pts = runLoop c a n l pts
  | [], _, _ => rfl
  | (q, w) :: pts, n, l => by
    unfold runLoop
    rw [units_shape t h, bind_assoc]
    refine congrArg _ (funext fun X => ?_)
    rw [pure_bind]
    refine congrArg _ (funext fun k => ?_)
    dsimp only
    rw [units_advance, units_point ht hp]
    refine congrArg _ (funext fun r => ?_)
    rw [units_loop ht hp h pts]

theorem units_extent {x : Option ℝ} (h : x.isSome) (t : ℝ) : extent (x.map (t * ·)) = t ^ 2 * extent x := extent_stretch h t

theorem units_decode (t : ℝ) {s : Settings} (hm : s.theMethod = .number 1) (h : s.Measured) :
    decode (s.inUnits t) = decode s >>= fun c => pure (c.inUnits t) := by
  have ha : decodeArms (s.inUnits t) = decodeArms s >>= fun p => pure (t * p.1, t * p.2.1, t * p.2.2.1, t * p.2.2.2.1, t * p.2.2.2.2) := by
    unfold decodeArms
    rw [show (s.inUnits t).theMethod = s.theMethod from rfl, hm, decide_eq_true rfl, show (s.inUnits t).arms = s.arms.map (List.map (t * ·)) from rfl]
    obtain ⟨L, hL⟩ := Option.isSome_iff_exists.1 h.arms
    rw [hL]
    match L with
    | [] => rfl
    | [_] => rfl
    | [_, _] => rfl
    | [_, _, _] => rfl
    | [_, _, _, _] => rfl
    | _ :: _ :: _ :: _ :: _ :: _ => rfl
  unfold decode
  rw [ha, bind_assoc, bind_assoc]
  refine congrArg _ (funext fun p => ?_)
  obtain ⟨l0, l1, lm, l2, l3⟩ := p
  rw [pure_bind, pure_bind]
  refine congrArg Except.ok ?_
  have hr : (match (s.inUnits t).ana.thickness, (s.inUnits t).ana.reflQ with
      | some t, some q => some (t, q)
      | _, _ => none) = (match s.ana.thickness, s.ana.reflQ with
      | some t, some q => some (t, q)
      | _, _ => none : Option (ℝ × ℝ)).map fun p => (t * p.1, p.2 / t) := by
    show (match s.ana.thickness.map (t * ·), s.ana.reflQ.map (· / t) with
      | some t, some q => some (t, q)
      | _, _ => none) = _
    cases s.ana.thickness <;> cases s.ana.reflQ <;> rfl
  have hb : (![extent (s.inUnits t).guide.width, extent (s.inUnits t).guide.height] : Fin 2 → ℝ) = t ^ 2 • ![extent s.guide.width, extent s.guide.height] := by
    funext i
    fin_cases i
    · exact units_extent h.guide.1 t
    · exact units_extent h.guide.2 t
  have hmm : (![extent (s.inUnits t).mono.depth, extent (s.inUnits t).mono.width, extent (s.inUnits t).mono.height] : Fin 3 → ℝ) =
      t ^ 2 • ![extent s.mono.depth, extent s.mono.width, extent s.mono.height] := by
    funext i
    fin_cases i
    · exact units_extent h.mono.1 t
    · exact units_extent h.mono.2.1 t
    · exact units_extent h.mono.2.2 t
  have han : (![extent (s.inUnits t).ana.depth, extent (s.inUnits t).ana.width, extent (s.inUnits t).ana.height] : Fin 3 → ℝ) =
      t ^ 2 • ![extent s.ana.depth, extent s.ana.width, extent s.ana.height] := by
    funext i
    fin_cases i
    · exact units_extent h.ana.1 t
    · exact units_extent h.ana.2.1 t
    · exact units_extent h.ana.2.2 t
  have hd : (![extent (s.inUnits t).detector.width, extent (s.inUnits t).detector.height] : Fin 2 → ℝ) =
      t ^ 2 • ![extent s.detector.width, extent s.detector.height] := by
    funext i
    fin_cases i
    · exact units_extent h.detector.1 t
    · exact units_extent h.detector.2 t
  have hmo : (![extent (s.inUnits t).monitor.width, match (s.inUnits t).monitor.height with
      | some h => h ^ 2 / 12
      | none => extent (s.inUnits t).monitor.width] : Fin 2 → ℝ) = t ^ 2 • ![extent s.monitor.width, match s.monitor.height with
      | some h => h ^ 2 / 12
      | none => extent s.monitor.width] := by
    have e := units_extent h.monitor t
    funext i
    fin_cases i
    · exact e
    · show (match s.monitor.height.map (t * ·) with
        | some h => h ^ 2 / 12
        | none => extent (s.monitor.width.map (t * ·))) = t ^ 2 * (match s.monitor.height with
        | some h => h ^ 2 / 12
        | none => extent s.monitor.width)
      cases s.monitor.height with
      | none => exact e
      | some v =>
        simp only [Option.map_some]
        ring
  unfold Conf.inUnits
  rw [Conf.mk.injEq]
  exact ⟨rfl, rfl, rfl, rfl, rfl, rfl, rfl, rfl, rfl, rfl, rfl, rfl, rfl, rfl, hb, hmm, han, hd, hmo, rfl, rfl, rfl, rfl, rfl, rfl, hr⟩

/-- C200, Popovici's method.  Let the arms, the radii of the crystals and all sizes of an instrument be given, and let them all be given
in another unit (and the thickness and `Q` of the analyzer with them, if there are).  Then `calc_resolution_in_Q_coords` has the same outcome for every list of
points: the same prefactors and matrices, or the same exception. -/
theorem C200_popovici {s : Settings} (hm : s.theMethod = .number 1) (h : s.Measured) {t : ℝ} (ht : 0 < t) (pts : List (ℝ × ℝ)) :
    calcInQ (s.inUnits t) pts = calcInQ s pts := by
  unfold calcInQ
  rw [units_decode t hm h, bind_assoc]
  cases hc : decode s with
  | error e => rfl
  | ok c =>
    have hp : c.popovici = true := by
      unfold decode at hc
      obtain ⟨_, -, hc⟩ := bind_ok hc
      rw [← Except.ok.inj hc]
      simp [Settings.popovici, hm]
    have hl : Loop.start (s.inUnits t) = (Loop.start s).inUnits t := by
      have g {x : Option ℝ} (hx : x.isSome) : (x.map (t * ·)).getD (10 ^ 6) = t * x.getD (10 ^ 6) := by
        obtain ⟨v, rfl⟩ := Option.isSome_iff_exists.1 hx
        rfl
      unfold Loop.start Loop.inUnits
      simp only [Settings.inUnits, Blade.inUnits, g h.monoRadii.1, g h.monoRadii.2, g h.anaRadii.1, g h.anaRadii.2]
      rfl
    show runLoop (c.inUnits t) (s.sample.inUnits t) 0 (Loop.start (s.inUnits t)) pts = runLoop c s.sample 0 (Loop.start s) pts
    rw [hl, units_loop ht.ne' hp h.sample]

/-! ## The method of Cooper and Nathans -/

/-- Two numbers that are both zero or both not. -/
def BothZero (x y : ℝ) : Prop := x = 0 ↔ y = 0

/-- Values before the loop that differ in lengths only. -/
structure SameBut (t : ℝ) (c c' : Conf) : Prop where
  rest : c' = { c with bshape := c'.bshape, mshape := c'.mshape, ashape := c'.ashape, dshape := c'.dshape, monitorshape := c'.monitorshape,
                       refl := c.refl.map fun p => (t * p.1, p.2 / t) }
  b : ∀ i, BothZero (c.bshape i) (c'.bshape i)
  m : ∀ i, BothZero (c.mshape i) (c'.mshape i)
  a : ∀ i, BothZero (c.ashape i) (c'.ashape i)
  d : ∀ i, BothZero (c.dshape i) (c'.dshape i)
  mon : ∀ i, BothZero (c.monitorshape i) (c'.monitorshape i)

theorem det_diagonal_zero {n : ℕ} {v v' : Fin n → ℝ} (h : ∀ i, BothZero (v i) (v' i)) : BothZero (diagonal v).det (diagonal v').det := by
  unfold BothZero
  rw [det_diagonal, det_diagonal, Finset.prod_eq_zero_iff, Finset.prod_eq_zero_iff]
  exact exists_congr fun i => and_congr_right fun _ => h i

theorem BothZero.mul {x y x' y' : ℝ} (h : BothZero x x') (h' : BothZero y y') : BothZero (x * y) (x' * y') := by
  unfold BothZero at *
  rw [mul_eq_zero, mul_eq_zero, h, h']

/-- If nothing but the success of an inversion matters. -/
theorem npInv_blind {n : ℕ} {M M' : Matrix (Fin n) (Fin n) ℝ} (h : BothZero M.det M'.det) {β : Type} (x : Except Fail β) :
    (npInv M >>= fun _ => x) = npInv M' >>= fun _ => x := by
  unfold npInv
  by_cases h0 : M.det = 0
  · rw [if_pos h0, if_pos (h.1 h0)]
  · rw [if_neg h0, if_neg fun h' => h0 (h.2 h')]
    rfl

theorem blind_focus {t : ℝ} {c c' : Conf} (h : SameBut t c c') (l : Loop) (k : Kin) (N : Matrix (Fin 6) (Fin 6) ℝ) :
    focusBlock c' l k N = focusBlock c l k N := by
  rw [h.rest]
  rfl

theorem blind_core {t : ℝ} {c c' : Conf} (h : SameBut t c c') (hp : c.popovici = false) {l l' : Loop} (hl : l'.alpha = l.alpha ∧ l'.beta = l.beta) (k : Kin)
    (S S' : Matrix (Fin 13) (Fin 13) ℝ) : coreMatrix c' l' k S' = coreMatrix c l k S := by
  obtain ⟨al, be, _, _, _, _⟩ := l
  obtain ⟨al', be', _, _, _, _⟩ := l'
  obtain ⟨rfl, rfl⟩ := hl
  have hp' : c'.popovici = false := by rw [h.rest]; exact hp
  unfold coreMatrix
  rw [hp, hp', if_neg Bool.false_ne_true, if_neg Bool.false_ne_true]
  rw [h.rest]
  rfl

theorem blind_monitor {t : ℝ} {c c' : Conf} (h : SameBut t c c') (hp : c.popovici = false) {l l' : Loop}
    (hl : l'.alpha = l.alpha ∧ l'.beta = l.beta) (k : Kin) : monitorFlux c' l' k = monitorFlux c l k := by
  obtain ⟨al, be, _, _, _, _⟩ := l
  obtain ⟨al', be', _, _, _, _⟩ := l'
  obtain ⟨rfl, rfl⟩ := hl
  have hp' : c'.popovici = false := by rw [h.rest]; exact hp
  have hf : monf c' = monf c := by rw [h.rest]; rfl
  unfold monitorFlux monitorDen
  rw [hp, hp', hf]
  simp only [Bool.false_eq_true, if_false]
  refine (npInv_blind ?_ _).symm
  rw [det_blkdiag, det_blkdiag, det_blkdiag, det_blkdiag]
  exact (det_diagonal_zero h.b).mul ((det_diagonal_zero h.m).mul (det_diagonal_zero h.mon))

theorem blind_point {t : ℝ} (ht : t ≠ 0) {c c' : Conf} (h : SameBut t c c') (hp : c.popovici = false) {l l' : Loop}
    (hl : l'.alpha = l.alpha ∧ l'.beta = l.beta) {X X' : M3} {r : ℝ} (hr : r ≠ 0) (hX : X' = r • X) (k : Kin) (q : ℝ) :
    pointAt c' l' X' k q = pointAt c l X k q := by
  have e1 : BothZero (matSinv c (turnShape k X)).det (matSinv c' (turnShape k X')).det := by
    have e : turnShape k X' = r • turnShape k X := by
      rw [hX]
      exact scale_sandwich _ _ _
    unfold matSinv
    rw [e]
    rw [det_blkdiag, det_blkdiag, det_blkdiag, det_blkdiag, det_blkdiag, det_blkdiag, det_blkdiag, det_blkdiag]
    refine (det_diagonal_zero h.b).mul ((det_diagonal_zero h.m).mul (BothZero.mul ?_ ((det_diagonal_zero h.a).mul (det_diagonal_zero h.d))))
    unfold BothZero
    rw [det_smul]
    simp [hr]
  have e3 (d : ℝ) (R : M4) : prefactor c' l' k d R = prefactor c l k d R := by
    unfold prefactor
    rw [blind_monitor h hp hl, show matF c' = matF c by rw [h.rest]; rfl, show c'.moncor = c.moncor by rw [h.rest]]
  have e4 (r0 : ℝ) : withReflectivity c' l' k r0 = withReflectivity c l k r0 := by
    obtain ⟨al, be, m1, m2, a1, a2⟩ := l
    obtain ⟨al', be', m1', m2', a1', a2'⟩ := l'
    obtain ⟨rfl, rfl⟩ := hl
    have e : withReflectivity c' ⟨al', be', m1', m2', a1', a2'⟩ k r0 =
        withReflectivity (c.inUnits t) (Loop.inUnits t ⟨al', be', m1, m2, a1, a2⟩) k r0 := by
      rw [h.rest]
      rfl
    rw [e, units_refl ht]
  have e5 (r0 : ℝ) (R R' : M4) : withMosaic c' q r0 R R' = withMosaic c q r0 R R' := by
    rw [h.rest]
    rfl
  have e6 (S' : Matrix (Fin 13) (Fin 13) ℝ) : coreMatrix c' l' k S' = coreMatrix c l k 1 := blind_core h hp hl k 1 S'
  have e7 (S : Matrix (Fin 13) (Fin 13) ℝ) : coreMatrix c l k S = coreMatrix c l k 1 := coreMatrix_shapeless hp
  unfold pointAt
  rw [hl.1, hl.2]
  have g : (c'.etam, c'.etamv, c'.etaa, c'.etaav) = (c.etam, c.etamv, c.etaa, c.etaav) := by rw [h.rest]
  simp only [Prod.mk.injEq] at g
  obtain ⟨g1, g2, g3, g4⟩ := g
  rw [g1, g2, g3, g4]
  refine if_congr Iff.rfl rfl ?_
  refine Eq.trans ?_ ((npInv_blind e1 (coreMatrix c l k 1 >>= fun p => npInv p.1 >>= fun RM => prefactor c l k p.2 RM >>= fun r0 =>
    withMosaic c q r0 RM p.1 >>= fun r => withReflectivity c l k r.1 >>= fun r0 => pure (r0, r.2))).symm.trans ?_)
  · refine congrArg _ (funext fun S => ?_)
    rw [e6]
    simp only [e3, e4, e5]
  · refine congrArg _ (funext fun S => ?_)
    rw [e7 S]

theorem blind_shape {t : ℝ} (ht : t ≠ 0) (a : SampleAttrs) (n : ℕ) : ∃ r : ℝ, r ≠ 0 ∧ sshapeAt (a.inUnits t) n = sshapeAt a n >>= fun X => pure (r • X) := by
  by_cases h : a.shape.isSome ∨ (a.width.isSome ∧ a.depth.isSome ∧ a.height.isSome)
  · exact ⟨t ^ 2, pow_ne_zero _ ht, units_shape t h n⟩
  · refine ⟨1, one_ne_zero, ?_⟩
    obtain ⟨m, vm, w, d, g, st, sh, dir⟩ := a
    change sshapeAt ⟨m, vm, w.map (t * ·), d.map (t * ·), g.map (t * ·), st, sh.map (Shape.stretch t), dir⟩ n = _
    unfold sshapeAt
    rcases w with _ | w <;> rcases d with _ | d <;> rcases g with _ | g <;> rcases sh with _ | M | l <;>
      first
      | exact congrArg Except.ok (one_smul ℝ _).symm
      | exact absurd (Or.inl rfl) h
      | exact absurd (Or.inr ⟨rfl, rfl, rfl⟩) h

theorem blind_loop {t : ℝ} (ht : t ≠ 0) {c c' : Conf} (h : SameBut t c c') (hp : c.popovici = false) (a : SampleAttrs) :
    ∀ (pts : List (ℝ × ℝ)) (n : ℕ) {l l' : Loop}, l'.alpha = l.alpha ∧ l'.beta = l.beta →
      runLoop c' (a.inUnits t) n l' pts = runLoop c a n l pts
  | [], _, _, _, _ => rfl
  | (q, w) :: pts, n, l, l', hl => by
    unfold runLoop
    obtain ⟨r, hr, e⟩ := blind_shape ht a n
    have hk : kinematics c' q w = kinematics c q w := by
      rw [h.rest]
      rfl
    rw [e, bind_assoc, hk]
    refine congrArg _ (funext fun X => ?_)
    rw [pure_bind]
    refine congrArg _ (funext fun k => ?_)
    have hl' : (l'.advance c' k.ki).alpha = (l.advance c k.ki).alpha ∧ (l'.advance c' k.ki).beta = (l.advance c k.ki).beta := by
      unfold Loop.advance
      rw [hl.1, hl.2]
      exact ⟨rfl, rfl⟩
    dsimp only
    rw [blind_point ht h hp hl' hr rfl]
    refine congrArg _ (funext fun r => ?_)
    rw [blind_loop ht h hp a pts (n + 1) hl']

theorem extent_zero {t : ℝ} (ht : t ≠ 0) (x : Option ℝ) : BothZero (extent x) (extent (x.map (t * ·))) := by
  cases x with
  | none => exact Iff.rfl
  | some v =>
    rw [extent_stretch rfl]
    unfold BothZero
    simp [ht]

theorem blind_decode {t : ℝ} (ht : t ≠ 0) {s : Settings} (hp : s.popovici = false) :
    ∃ c c', decode s = .ok c ∧ decode (s.inUnits t) = .ok c' ∧ SameBut t c c' ∧ c.popovici = false := by
  have hm : ¬ s.theMethod = .number 1 := fun h => by simp [Settings.popovici, h] at hp
  have ha : decodeArms s = .ok (1, 1, 1, 1, 1) := by
    unfold decodeArms
    rw [decide_eq_false hm]
    rcases s.arms with _ | ⟨_ | ⟨_, _ | ⟨_, _ | ⟨_, _ | _⟩⟩⟩⟩ <;> rfl
  have ha' : decodeArms (s.inUnits t) = .ok (1, 1, 1, 1, 1) := by
    unfold decodeArms
    rw [show (s.inUnits t).theMethod = s.theMethod from rfl, decide_eq_false hm]
    rcases (s.inUnits t).arms with _ | ⟨_ | ⟨_, _ | ⟨_, _ | ⟨_, _ | _⟩⟩⟩⟩ <;> rfl
  have hr : (match (s.inUnits t).ana.thickness, (s.inUnits t).ana.reflQ with
      | some t, some q => some (t, q)
      | _, _ => none) = (match s.ana.thickness, s.ana.reflQ with
      | some t, some q => some (t, q)
      | _, _ => none : Option (ℝ × ℝ)).map fun p => (t * p.1, p.2 / t) := by
    show (match s.ana.thickness.map (t * ·), s.ana.reflQ.map (· / t) with
      | some t, some q => some (t, q)
      | _, _ => none) = _
    cases s.ana.thickness <;> cases s.ana.reflQ <;> rfl
  refine ⟨_, _, by unfold decode; rw [ha]; rfl, by unfold decode; rw [ha']; rfl, ?_, hp⟩
  constructor
  · rw [Conf.mk.injEq]
    exact ⟨rfl, rfl, rfl, rfl, rfl, rfl, rfl, rfl, rfl, rfl, rfl, rfl, rfl, rfl, rfl, rfl, rfl, rfl, rfl, rfl, rfl, rfl, rfl, rfl, rfl, hr⟩
  · intro i
    fin_cases i
    · exact extent_zero ht s.guide.width
    · exact extent_zero ht s.guide.height
  · intro i
    fin_cases i
    · exact extent_zero ht s.mono.depth
    · exact extent_zero ht s.mono.width
    · exact extent_zero ht s.mono.height
  · intro i
    fin_cases i
    · exact extent_zero ht s.ana.depth
    · exact extent_zero ht s.ana.width
    · exact extent_zero ht s.ana.height
  · intro i
    fin_cases i
    · exact extent_zero ht s.detector.width
    · exact extent_zero ht s.detector.height
  · intro i
    have e := extent_zero ht s.monitor.width
    fin_cases i
    · exact e
    · show BothZero (match s.monitor.height with
        | some h => h ^ 2 / 12
        | none => extent s.monitor.width) (match s.monitor.height.map (t * ·) with
        | some h => h ^ 2 / 12
        | none => extent (s.monitor.width.map (t * ·)))
      cases s.monitor.height with
      | none => exact e
      | some v =>
        unfold BothZero
        simp [ht]

/-- C200, Cooper and Nathans' method: the outcome is the same in every unit, whichever lengths are given. -/
theorem C200_cooperNathans {s : Settings} (hp : s.popovici = false) {t : ℝ} (ht : 0 < t) (pts : List (ℝ × ℝ)) :
    calcInQ (s.inUnits t) pts = calcInQ s pts := by
  obtain ⟨c, c', e, e', h, hc⟩ := blind_decode ht.ne' hp
  unfold calcInQ
  rw [e, e']
  exact blind_loop ht.ne' h hc s.sample pts 0 ⟨rfl, rfl⟩

/-- An instrument with all lengths, in centimetres. -/
noncomputable def demoMeasured : Settings :=
  { demoSized with
      mono := ⟨1.87325, 25, none, some 10, some 10, some (1 / 5), some 200, some 300, -1, none, none⟩
      ana := ⟨1.87325, 25, none, some 10, some 10, some (1 / 5), some 100, some 150, -1, some (1 / 5), some 8⟩
      monitor := ⟨some 5, some 12⟩ }

/-- The hypotheses are met, and in millimetres the numbers are others. -/
example : demoMeasured.theMethod = .number 1 ∧ demoMeasured.Measured ∧ demoMeasured.inUnits 10 ≠ demoMeasured ∧
    (demoMeasured.inUnits 10).arms = some [1500, 2000, 1500, 500] ∧ (demoMeasured.inUnits 10).mono.rv = some 2000 := by
  have a : (demoMeasured.inUnits 10).arms = some [1500, 2000, 1500, 500] := by
    show some [10 * (150 : ℝ), 10 * 200, 10 * 150, 10 * 50] = _
    norm_num
  have m : (demoMeasured.inUnits 10).mono.rv = some 2000 := by
    show some (10 * (200 : ℝ)) = _
    norm_num
  refine ⟨rfl, ⟨⟨⟨rfl, rfl⟩, ⟨rfl, rfl, rfl⟩, ⟨rfl, rfl, rfl⟩, ⟨rfl, rfl⟩, Or.inr ⟨rfl, rfl, rfl⟩⟩, rfl, ⟨rfl, rfl⟩, ⟨rfl, rfl⟩, rfl⟩, fun h => ?_, a, m⟩
  rw [h] at m
  exact absurd (Option.some.inj m) (by norm_num)

/-- The default instrument meets the hypothesis of the second theorem. -/
example : demo.popovici = false := rfl

end Verif.Resolution
