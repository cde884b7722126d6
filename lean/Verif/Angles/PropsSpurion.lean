import Verif.Angles.PropsQ
import Verif.Resolution.PropsFrame

/-!
# Property C130: Currat-Axe peaks; the hypotheses of C128-C130 are met
-/

namespace Verif.Angles

open Real Matrix
open Verif.Crystal (Vec Mat Lattice deg2rad rad2deg Valid Realises Dual vecOf len)
open Verif.Resolution (Setup demoSetup demoSetup_valid demo)
open Verif.Energy (Consts)

/-- The angles of two settings agree within the tolerance. -/
def Near (tol : ℝ) (a b : Answer) : Prop :=
  (∃ x y, a.a3 = some x ∧ b.a3 = some y ∧ |x - y| ≤ tol) ∧ ∃ x y, a.a4 = some x ∧ b.a4 = some y ∧ |x - y| ≤ tol

/-- The points of a scan: `n` points from the first to the last in equal steps. -/
def IsScan (p q : Vec × ℝ) (n : ℕ) (l : List (Vec × ℝ)) : Prop :=
  l.length = n ∧ (0 < n → l[0]? = some p) ∧ (1 < n → l.getLast? = some q) ∧
    ∀ i a b d, l[i]? = some a → l[i + 1]? = some b → l[i + 2]? = some d → d - b = b - a

theorem scanPoints_get (u v : Vec) (p0 p1 : ℝ × ℝ × ℝ) {n i : ℕ} (h : i < n) :
    (scanPoints u v p0 p1 n)[i]? =
      some (p0.1 • u + p0.2.1 • v + (if n = 1 then (0 : ℝ) else (i : ℝ) / ((n : ℝ) - 1)) • (p1.1 • u + p1.2.1 • v - (p0.1 • u + p0.2.1 • v)),
        p0.2.2 + (if n = 1 then (0 : ℝ) else (i : ℝ) / ((n : ℝ) - 1)) * (p1.2.2 - p0.2.2)) := by
  unfold scanPoints
  dsimp only
  rw [List.getElem?_map, List.getElem?_range h]
  rfl

theorem scanPoints_length (u v : Vec) (p0 p1 : ℝ × ℝ × ℝ) (n : ℕ) : (scanPoints u v p0 p1 n).length = n := by
  simp [scanPoints]

/-- C130.  The points examined are those of the scan: from the first to the last position in equal steps. -/
theorem C130_points (u v : Vec) (p0 p1 : ℝ × ℝ × ℝ) (n : ℕ) :
    IsScan (p0.1 • u + p0.2.1 • v, p0.2.2) (p1.1 • u + p1.2.1 • v, p1.2.2) n (scanPoints u v p0 p1 n) := by
  refine ⟨scanPoints_length .., fun h => ?_, fun h => ?_, fun i a b d ha hb hd => ?_⟩
  · rw [scanPoints_get u v p0 p1 h]
    simp
  · rw [List.getLast?_eq_getElem?, scanPoints_length, scanPoints_get u v p0 p1 (by omega), if_neg (by omega)]
    have e : ((n - 1 : ℕ) : ℝ) / ((n : ℝ) - 1) = 1 := by
      rw [Nat.cast_sub (by omega), Nat.cast_one, div_self]
      have : (1 : ℝ) < n := by exact_mod_cast h
      linarith
    rw [e]
    simp
  · have hn : i + 2 < n := by
      have := (List.getElem?_eq_some_iff.1 hd).1
      rwa [scanPoints_length] at this
    rw [scanPoints_get u v p0 p1 (by omega), if_neg (by omega)] at ha hb hd
    have ea := Option.some.inj ha
    have eb := Option.some.inj hb
    have ed := Option.some.inj hd
    rw [← ea, ← eb, ← ed]
    refine Prod.ext ?_ ?_
    · ext j
      simp only [Prod.mk_sub_mk, Pi.sub_apply, Pi.add_apply, Pi.smul_apply, smul_eq_mul]
      push_cast
      ring
    · simp only [Prod.mk_sub_mk]
      push_cast
      ring

theorem close_iff (tol : ℝ) (x y : Option ℝ) : close tol x y = true ↔ ∃ a b, x = some a ∧ y = some b ∧ |a - b| ≤ tol := by
  cases x <;> cases y <;> simp [close]

theorem insert3_unpack (a b c x : ℝ) : (insert3 [a, b, c] x >>= unpack) = .ok (![a, b, c], x) := rfl

theorem mapM_ok {ε α β : Type} {f : α → Except ε β} {g : α → β} : ∀ {l : List α}, (∀ x ∈ l, f x = .ok (g x)) → l.mapM f = .ok (l.map g)
  | [], _ => rfl
  | x :: l, h => by
    rw [List.mapM_cons, h x (by simp), mapM_ok (l := l) fun y hy => h y (by simp [hy])]
    rfl

/-- C130 (partial).  If the Bragg positions are given by three indices, a warning names exactly the points of the scan at which
both sample angles agree within the tolerance with those of one of the elastic peaks.  Missing: positions in the documented form
(`C130_documented_false`), and that the angles are right (C129). -/
theorem C130_warnings_partial (c : Consts) (s : Setup) (p0 p1 : ℝ × ℝ × ℝ) (n : ℕ) (peaks : List (ℝ × ℝ × ℝ)) (tol : ℝ) :
    ∃ w, curratAxe c s p0 p1 n (peaks.map fun p => [p.1, p.2.1, p.2.2]) tol = .ok w ∧
      ∀ x, x ∈ w ↔ x ∈ scanPoints s.u s.v p0 p1 n ∧
        ∃ p ∈ peaks, Near tol (anglesAndQ c s ![p.1, p.2.1, p.2.2] 0) (anglesAndQ c s x.1 x.2) := by
  have e : (peaks.map fun p => [p.1, p.2.1, p.2.2]).mapM (fun p => (do
      let (hkl, w) ← unpack (← insert3 p 0)
      return anglesAndQ c s hkl w : Except Err Answer)) = .ok (peaks.map fun p => anglesAndQ c s ![p.1, p.2.1, p.2.2] 0) := by
    rw [mapM_ok (g := fun p => anglesAndQ c s ![p.getD 0 0, p.getD 1 0, p.getD 2 0] 0)]
    · rw [List.map_map]
      rfl
    · intro x hx
      obtain ⟨p, -, rfl⟩ := List.mem_map.1 hx
      rfl
  refine ⟨_, by unfold curratAxe; rw [e]; rfl, fun x => ?_⟩
  rw [List.mem_flatMap]
  constructor
  · rintro ⟨q, hq, hx⟩
    obtain ⟨b, hb, rfl⟩ := List.mem_map.1 hx
    obtain ⟨hb, hc⟩ := List.mem_filter.1 hb
    obtain ⟨p, hp, rfl⟩ := List.mem_map.1 hb
    rw [Bool.and_eq_true, close_iff, close_iff] at hc
    exact ⟨hq, p, hp, hc⟩
  · rintro ⟨hx, p, hp, hn⟩
    refine ⟨x, hx, List.mem_map.2 ⟨anglesAndQ c s ![p.1, p.2.1, p.2.2] 0, List.mem_filter.2 ⟨List.mem_map_of_mem hp, ?_⟩, rfl⟩⟩
    rw [Bool.and_eq_true, close_iff, close_iff]
    exact hn

/-- C130, violated.  With Bragg positions of two components, the documented form, every call with at least one position raises
`IndexError`. -/
theorem C130_documented_false (c : Consts) (s : Setup) (p0 p1 : ℝ × ℝ × ℝ) (n : ℕ) (q : ℝ × ℝ) (peaks : List (ℝ × ℝ)) (tol : ℝ) :
    curratAxe c s p0 p1 n ((q :: peaks).map fun p => [p.1, p.2]) tol = .error .indexError := rfl

/-- C130.  A point that is one of the peaks is always reported, if the angles exist. -/
theorem C130_peak (c : Consts) (s : Setup) (p0 p1 : ℝ × ℝ × ℝ) (n : ℕ) {tol : ℝ} (ht : 0 ≤ tol) (peaks : List (ℝ × ℝ × ℝ))
    {p : ℝ × ℝ × ℝ} (hp : p ∈ peaks) {a3 a4 : ℝ} (h3 : (anglesAndQ c s ![p.1, p.2.1, p.2.2] 0).a3 = some a3)
    (h4 : (anglesAndQ c s ![p.1, p.2.1, p.2.2] 0).a4 = some a4) (hs : (![p.1, p.2.1, p.2.2], 0) ∈ scanPoints s.u s.v p0 p1 n) :
    ∃ w, curratAxe c s p0 p1 n (peaks.map fun p => [p.1, p.2.1, p.2.2]) tol = .ok w ∧ (![p.1, p.2.1, p.2.2], 0) ∈ w := by
  obtain ⟨w, e, h⟩ := C130_warnings_partial c s p0 p1 n peaks tol
  refine ⟨w, e, (h _).2 ⟨hs, p, hp, ⟨a3, a3, h3, h3, ?_⟩, a4, a4, h4, h4, ?_⟩⟩ <;> simpa using ht

/-! ## Examples -/

/-- The constants of scipy to a few digits. -/
noncomputable def si : Consts := ⟨6.62607e-34, 1.380649e-23, 1.674927e-27, 6.24151e21, by norm_num, by norm_num, by norm_num, by norm_num⟩

theorem si_physical : Physical si := by
  constructor <;> norm_num [si]

/-- The wave number of 14.7 meV. -/
theorem demo_wave : ∃ k, 0 < k ∧ Waves si demoSetup 0 k k ∧ 1.87325 ≤ 2 * k := by
  have he : (0 : ℝ) < demoSetup.settings.efixed := by norm_num [demoSetup, demo]
  obtain ⟨k, -, h1, h2⟩ := fixed_wave si he
  refine ⟨k, h1, ⟨h1, h1, ?_, by ring⟩, ?_⟩
  · split <;> exact h2
  · have t := transfer_const si_physical
    have e : energyOfWave si k = (si.hbar * 1e10) ^ 2 / (2 * si.m) * si.J * k ^ 2 := by
      unfold energyOfWave
      ring
    rw [e] at h2
    obtain ⟨t1, t2⟩ := abs_le.1 t
    obtain ⟨A, eA⟩ : ∃ A, A = (si.hbar * 1e10) ^ 2 / (2 * si.m) * si.J := ⟨_, rfl⟩
    rw [← eA] at h2 t1 t2
    have h2' : A * k ^ 2 = 14.7 := h2
    by_contra hlt
    push Not at hlt
    have : k ^ 2 < 1 := by nlinarith
    have : A ≤ 2.1 := by norm_num at t2 ⊢; linarith
    nlinarith [sq_nonneg k]

theorem demo_fixed : Fixed demoSetup := Or.inl rfl

theorem demo_ortho : Ortho demoSetup.lattice := by
  have := pi_pos
  constructor <;> simp only [demoSetup] <;> positivity

/-- Monochromator and analyzer of the default instrument. -/
example : ∃ k tm, Bragg k 1.87325 tm ∧ (anglesAndQ si demoSetup ![1, 0, 0] 0).a1 = some (-1 * tm) := by
  obtain ⟨k, k0, hw, hk⟩ := demo_wave
  obtain ⟨tm, ta, h1, -, h2, -⟩ := C128_bragg_partial si demo_fixed (by norm_num [demoSetup, demo]) hw (by norm_num [demoSetup, demo])
    (by norm_num [demoSetup, demo]) hk hk ![1, 0, 0]
  exact ⟨k, tm, h2, h1⟩

/-- A graphite crystal does not reflect neutrons of 0.5 1/Å. -/
example : braggAngle 1 1.87325 0.5 = none := braggAngle_none (by norm_num) (by norm_num) (by norm_num)

example (k k' w : ℝ) (h : Waves si demoSetup w k k') : |energyOfWave si k - energyOfWave si k' - w| ≤ 1e-4 * |w| :=
  C128_energy si_physical h

/-- The wave numbers exist for any positive final energy and every energy transfer that leaves the neutron moving. -/
theorem waves_exist (c : Consts) {s : Setup} (hi : s.settings.infin = none) (he : 0 < s.settings.efixed) :
    ∃ k, 0 < k ∧ ∀ w, 0 < k ^ 2 + 0.4826 * w → Waves c s w √(k ^ 2 + 0.4826 * w) k := by
  obtain ⟨k, -, h1, h2⟩ := fixed_wave c he
  refine ⟨k, h1, fun w hw => ⟨sqrt_pos.2 hw, h1, ?_, ?_⟩⟩
  · rw [hi, if_neg (by simp)]; exact h2
  · rw [sq_sqrt hw.le]; ring

theorem si_sharp : Sharp si := by
  constructor <;> norm_num [si]

/-- At 5 meV the energies do not differ by 5 meV. -/
example : ∃ k k', Waves si demoSetup 5 k k' ∧ energyOfWave si k - energyOfWave si k' ≠ 5 := by
  obtain ⟨k, k0, hw⟩ := waves_exist si (s := demoSetup) rfl (by norm_num [demoSetup, demo])
  have h := hw 5 (by positivity)
  refine ⟨_, _, h, fun e => ?_⟩
  have := C128_energy_false si_sharp h
  rw [e] at this
  norm_num at this

theorem vecOf_one (p : Vec) : vecOf (1 : Mat) p = p := by
  ext i
  fin_cases i <;> simp [vecOf]

theorem demo_axes : PlaneAxes 1 demoSetup.u demoSetup.v ![1, 0, 0] ![0, 1, 0] where
  unit_x := by simp [dotProduct, Fin.sum_univ_three]
  unit_y := by simp [dotProduct, Fin.sum_univ_three]
  perp := by simp [dotProduct, Fin.sum_univ_three]
  along := ⟨1, one_pos, by rw [vecOf_one, one_smul]; rfl⟩
  side := ⟨0, 1, one_pos, by rw [vecOf_one]; simp [demoSetup]⟩

/-- The point (1, 1/2, 0) is brought into the scattering condition by the default instrument. -/
example : ∃ k a3 a4, (anglesAndQ si demoSetup ![1, 1 / 2, 0] 0).a3 = some a3 ∧ (anglesAndQ si demoSetup ![1, 1 / 2, 0] 0).a4 = some a4 ∧
    Scatters k k 1 (1 / 2) a3 a4 := by
  obtain ⟨k, k0, hw, hk⟩ := demo_wave
  have hl : len (vecOf (1 : Mat) ![1, 1 / 2, 0]) = √(5 / 4) := by
    rw [vecOf_one]
    unfold len
    congr 1
    simp [dotProduct, Fin.sum_univ_three]
    norm_num
  obtain ⟨a3, a4, h1, h2, h3⟩ := C129_condition_partial si demo_fixed (by norm_num [demoSetup, demo]) hw demo_ortho (p := 1) (r := 0) (t := 1)
    one_ne_zero one_ne_zero rfl rfl rfl demoSetup_valid.real demoSetup_valid.dual demo_axes (hkl := ![1, 1 / 2, 0]) rfl
    (by rw [hl]; positivity) (by rw [hl, sub_self, abs_zero]; positivity) (by
      rw [hl]
      have : √(5 / 4 : ℝ) ≤ 1.2 := by
        rw [sqrt_le_left (by norm_num)]
        norm_num
      linarith)
  refine ⟨k, a3, a4, h1, h2, ?_⟩
  rw [vecOf_one] at h3
  simpa [dotProduct, Fin.sum_univ_three] using h3

/-- With the sample turning the other way it is not. -/
example : ∃ k a3 a4, (anglesAndQ si { demoSetup with settings.sample.dir := -1 } ![1, 1 / 2, 0] 0).a3 = some a3 ∧
    (anglesAndQ si { demoSetup with settings.sample.dir := -1 } ![1, 1 / 2, 0] 0).a4 = some a4 ∧ ¬ Scatters k k 1 (1 / 2) a3 a4 := by
  obtain ⟨k, k0, hw, hk⟩ := demo_wave
  have hw' : Waves si { demoSetup with settings.sample.dir := -1 } 0 k k := ⟨hw.1, hw.2, hw.3, hw.4⟩
  have hl : len (vecOf (1 : Mat) ![1, 1 / 2, 0]) = √(5 / 4) := by
    rw [vecOf_one]
    unfold len
    congr 1
    simp [dotProduct, Fin.sum_univ_three]
    norm_num
  obtain ⟨a3, a4, h1, h2, h3⟩ := C129_sense_false si (s := { demoSetup with settings.sample.dir := -1 }) demo_fixed
    (by norm_num [demoSetup, demo]) hw' demo_ortho (p := 1) (r := 0) (t := 1)
    one_ne_zero one_ne_zero rfl rfl rfl demoSetup_valid.real demoSetup_valid.dual demo_axes (hkl := ![1, 1 / 2, 0]) rfl
    (by norm_num) (by rw [hl, sub_self, abs_zero]; positivity) (by
      rw [hl]
      have : √(5 / 4 : ℝ) ≤ 1.2 := by
        rw [sqrt_le_left (by norm_num)]
        norm_num
      linarith)
  refine ⟨k, a3, a4, h1, h2, ?_⟩
  rw [vecOf_one] at h3
  simpa [dotProduct, Fin.sum_univ_three] using h3

example : (anglesAndQ si { demoSetup with u := ![1, 1, 0], v := ![0, 0, 1] } ![0, 0, 1] 0).q = some 0 :=
  (C129_q_false si (s := { demoSetup with u := ![1, 1, 0], v := ![0, 0, 1] }) demo_ortho rfl rfl demoSetup_valid.real demoSetup_valid.dual
    one_ne_zero 0).1

/-- A scan through a Bragg peak is reported there. -/
example : ∃ w, curratAxe si demoSetup (0, 1 / 2, 0) (2, 1 / 2, 0) 3 [[1, 1 / 2, 0]] 1 = .ok w ∧ (![1, 1 / 2, 0], 0) ∈ w := by
  obtain ⟨k, k0, hw, hk⟩ := demo_wave
  have hl : len (vecOf (1 : Mat) ![1, 1 / 2, 0]) = √(5 / 4) := by
    rw [vecOf_one]
    unfold len
    congr 1
    simp [dotProduct, Fin.sum_univ_three]
    norm_num
  obtain ⟨a3, a4, h1, h2, h3⟩ := C129_condition_partial si demo_fixed (by norm_num [demoSetup, demo]) hw demo_ortho (p := 1) (r := 0) (t := 1)
    one_ne_zero one_ne_zero rfl rfl rfl demoSetup_valid.real demoSetup_valid.dual demo_axes (hkl := ![1, 1 / 2, 0]) rfl
    (by rw [hl]; positivity) (by rw [hl, sub_self, abs_zero]; positivity) (by
      rw [hl]
      have : √(5 / 4 : ℝ) ≤ 1.2 := by
        rw [sqrt_le_left (by norm_num)]
        norm_num
      linarith)
  refine C130_peak si demoSetup (0, 1 / 2, 0) (2, 1 / 2, 0) 3 zero_le_one [(1, 1 / 2, 0)] (p := (1, 1 / 2, 0)) (by simp) h1 h2 ?_
  refine List.mem_of_getElem? (i := 1) ?_
  rw [scanPoints_get _ _ _ _ (by norm_num)]
  congr 1
  refine Prod.ext ?_ ?_
  · ext i
    fin_cases i <;> norm_num [demoSetup]
  · norm_num

end Verif.Angles
