import Verif.Convolution.PropsForm

/-!
# Property theorem C148, first part: Monte Carlo with a seed
-/

namespace Verif.Convolution

open Real Matrix
open Verif.Crystal (Fail Vec Mat npSqrt npDiv npDiv_ok npSqrt_ok standardSystem)
open Verif.Resolution (M4 Inst Res calcResolution hkls Query demoSetup demoSetup_valid demo_valid)
open Verif.Tools (Arg cleanArgs SPD)

theorem blocks_seed {G : Type} {n : ℕ} (R : Random G) (s : ℕ) (c : Coeffs) (ax : Vec × Vec × Vec) (p : Point) (S : Fin n → Point → ℝ) :
    ∀ (m : ℕ) (u : Fin n → ℝ) (g : G), blocks R (some s) c ax p S (m + 1) (u, g) =
      (fun j => u j + (m + 1 : ℕ) * blockSum c ax p (S j) (R.randn (R.seed s)).1, (R.randn (R.seed s)).2)
  | 0, u, g => by simp [blocks]
  | m + 1, u, g => by
    rw [blocks]
    simp only
    rw [blocks_seed R s c ax p S m]
    congr 1
    funext j
    push_cast
    ring

theorem mcAt_seed {G : Type} {n : ℕ} (R : Random G) (s : ℕ) (c : Coeffs) (ax : Vec × Vec × Vec) (p : Point) (S : Fin n → Point → ℝ)
    (f : Fin n → ℝ) (m : ℕ) (g : G) : mcAt R (some s) c ax p S f (m + 1) g = mcAt R (some s) c ax p S f 1 g := by
  unfold mcAt
  rw [blocks_seed, show (1 : ℕ) = 0 + 1 from rfl, blocks_seed]
  have h0 : ((m + 1 : ℕ) : ℝ) ≠ 0 := Nat.cast_ne_zero.2 (by omega)
  simp only [zero_add, Nat.cast_one, one_mul, npDiv_ok h0, npDiv_ok one_ne_zero, ok_bind, div_one]
  have e : (∑ j, ((m + 1 : ℕ) : ℝ) * blockSum c ax p (S j) (R.randn (R.seed s)).1 * f j) / ((m + 1 : ℕ) : ℝ) =
      ∑ j, blockSum c ax p (S j) (R.randn (R.seed s)).1 * f j := by
    rw [eq_comm, eq_div_iff h0, Finset.sum_mul]
    exact Finset.sum_congr rfl fun j _ => by ring
  rw [e]

theorem mcAll_seed {G : Type} {n : ℕ} (R : Random G) (s : ℕ) (ax : Vec × Vec × Vec) (S : Fin n → Point → ℝ) (f : Pref n) (m : ℕ) :
    ∀ (l : List (Point × Res × Coeffs)) (g : G), mcAll R (some s) ax S f (m + 1) l g = mcAll R (some s) ax S f 1 l g
  | [], _ => rfl
  | x :: l, g => by
    unfold mcAll
    rw [mcAt_seed]
    simp only [mcAll_seed R s ax S f m l]

/-- C148, with a seed.  The method `'mc'` starts the random numbers again from the seed for every block, so that `ACCURACY` has
no effect: whatever the instrument, the points, the cross section and the other arguments, a call with any number of blocks
does what the call with one block does. -/
theorem C148_seed {G : Type} {n : ℕ} (R : Random G) (g : G) (i : Inst) (S : Fin n → Point → ℝ) (pref : Option (Pref n)) (nargout : ℤ)
    (H K L W : Arg ℝ) (s : ℕ) {acc : Accuracy} {k : ℕ} (hacc : blockNumber acc = .ok k) (hk : k ≠ 0) :
    convolve R g i S pref nargout H K L W .mc acc (some s) = convolve R g i S pref nargout H K L W .mc (.number 1) (some s) := by
  obtain ⟨m, rfl⟩ := Nat.exists_eq_succ_of_ne_zero hk
  have : ∀ ax rs ps, convolveAt R g ax rs ps S pref nargout .mc acc (some s) = convolveAt R g ax rs ps S pref nargout .mc (.number 1) (some s) := by
    intro ax rs ps
    unfold convolveAt
    rw [hacc, show blockNumber (.number 1) = .ok 1 from rfl]
    simp only [ok_bind, Nat.succ_eq_add_one, mcAll_seed]
  unfold convolve
  simp only [this]

/-- The default, and a thousand blocks. -/
example : blockNumber .none = .ok 10 ∧ blockNumber (.list [1000]) = .ok 1000 := ⟨rfl, rfl⟩

end Verif.Convolution
