import Verif.Resolution.PropsDefaults

/-! # Property theorems: the distances between the components (C209) -/

namespace Verif.Resolution

open Real Matrix
open Verif.Crystal (Fail npSqrt npArcsin npDiv)
open Verif.Tools (SPD)

/-! ## Specification -/

/-- The instrument with other distances. -/
def Settings.withArms (s : Settings) (a : Option (List ℝ)) : Settings := { s with arms := a }

/-! ## Lemmas -/

theorem calcInQ_of_arms {s : Settings} {a b : Option (List ℝ)} (h : decodeArms (s.withArms a) = decodeArms (s.withArms b))
    (pts : List (ℝ × ℝ)) : calcInQ (s.withArms a) pts = calcInQ (s.withArms b) pts := by
  have hd : decode (s.withArms a) = decode (s.withArms b) := by
    unfold decode
    rw [h]
    rfl
  unfold calcInQ
  rw [hd]
  rfl

theorem decodeArms_other {s : Settings} (hm : s.theMethod ≠ .number 1) : decodeArms s = .ok (1, 1, 1, 1, 1) := by
  unfold decodeArms
  rw [decide_eq_false hm]
  rcases s.arms with _ | ⟨_ | ⟨_, _ | ⟨_, _ | ⟨_, _ | _⟩⟩⟩⟩ <;> rfl

theorem decodeArms_given {s : Settings} (hm : s.theMethod = .number 1) (a b c d : ℝ) (r : List ℝ) :
    decodeArms (s.withArms (some (a :: b :: c :: d :: r))) = .ok (a, b, r.headD b, c, d) := by
  unfold decodeArms
  rw [decide_eq_true (show (s.withArms (some (a :: b :: c :: d :: r))).theMethod = .number 1 from hm)]
  rfl

theorem decodeArms_none (s : Settings) : decodeArms (s.withArms none) = .ok (1, 1, 1, 1, 1) := by
  unfold decodeArms
  cases decide ((s.withArms none).theMethod = .number 1) <;> rfl

theorem decode_monitor {s : Settings} (hm : s.theMethod = .number 1) (a b c d e : ℝ) (r : List ℝ) :
    ∃ x : Conf, decode (s.withArms (some [a, b, c, d])) = .ok x ∧ x.moncor = s.moncor.getD 1 ∧
      decode (s.withArms (some (a :: b :: c :: d :: e :: r))) = .ok { x with L1mon := e } := by
  unfold decode
  rw [decodeArms_given hm, decodeArms_given hm]
  exact ⟨_, rfl, rfl, rfl⟩

theorem pointAt_mon {c : Conf} (h : c.moncor ≠ 1) (x : ℝ) (l : Loop) (X : M3) (k : Kin) (q : ℝ) :
    pointAt { c with L1mon := x } l X k q = pointAt c l X k q := by
  have hp : ∀ d RM, prefactor { c with L1mon := x } l k d RM = prefactor c l k d RM := fun d RM => by
    unfold prefactor
    simp only [if_neg h]
    rfl
  unfold pointAt
  simp only [hp]
  rfl

/-! ## Theorems -/

/-- C209, what holds: with Popovici's method a list of fewer than four distances is refused with a `ValueError`, for every
instrument and every list of points. -/
theorem C209_short_partial {s : Settings} (hm : s.theMethod = .number 1) {L : List ℝ} (hL : L.length < 4) (pts : List (ℝ × ℝ)) :
    calcInQ (s.withArms (some L)) pts = .error .valueError := by
  have h : decodeArms (s.withArms (some L)) = .error .valueError := by
    unfold decodeArms
    rw [decide_eq_true (show (s.withArms (some L)).theMethod = .number 1 from hm)]
    match L, hL with
    | [], _ => rfl
    | [_], _ => rfl
    | [_, _], _ => rfl
    | [_, _, _], _ => rfl
  unfold calcInQ decode
  rw [h]
  rfl

example : Settings.theMethod { demo with method := some (.number 1) } = .number 1 ∧ [(1 : ℝ), 2, 3].length < 4 := ⟨rfl, by decide⟩

/-- C209, the distance of the monitor: left out, it is that of the sample; and without normalisation to the monitor it has no
effect. -/
theorem C209_fifth {s : Settings} (a b c d e : ℝ) (rest : List ℝ) (pts : List (ℝ × ℝ)) :
    calcInQ (s.withArms (some [a, b, c, d])) pts = calcInQ (s.withArms (some [a, b, c, d, b])) pts ∧
    (s.moncor ≠ none → s.moncor ≠ some 1 →
      calcInQ (s.withArms (some (a :: b :: c :: d :: e :: rest))) pts = calcInQ (s.withArms (some [a, b, c, d])) pts) := by
  constructor
  · refine calcInQ_of_arms ?_ pts
    by_cases hm : s.theMethod = .number 1
    · rw [decodeArms_given hm, decodeArms_given hm]
      rfl
    · rw [decodeArms_other (s := s.withArms (some [a, b, c, d])) hm, decodeArms_other (s := s.withArms (some [a, b, c, d, b])) hm]
  · intro h0 h1
    by_cases hm : s.theMethod = .number 1
    · obtain ⟨x, hx, hmc, hy⟩ := decode_monitor hm a b c d e rest
      have hc : x.moncor ≠ 1 := by
        rw [hmc]
        cases hs : s.moncor with
        | none => exact absurd hs h0
        | some m => intro h; exact h1 (hs.trans (congrArg some h))
      unfold calcInQ
      rw [hx, hy]
      exact runLoop_conf (c := { x with L1mon := e }) (c' := x) (fun _ _ => rfl) (fun _ _ => rfl) (pointAt_mon hc e) _ pts 0 _
    · refine calcInQ_of_arms ?_ pts
      rw [decodeArms_other (s := s.withArms (some (a :: b :: c :: d :: e :: rest))) hm, decodeArms_other (s := s.withArms (some [a, b, c, d])) hm]

/-- C209, the other method: unless the method is the number 1 the distances have no effect. -/
theorem C209_unused {s : Settings} (hm : s.theMethod ≠ .number 1) (a b : Option (List ℝ)) (pts : List (ℝ × ℝ)) :
    calcInQ (s.withArms a) pts = calcInQ (s.withArms b) pts := by
  refine calcInQ_of_arms ?_ pts
  rw [decodeArms_other (s := s.withArms a) hm, decodeArms_other (s := s.withArms b) hm]

example : demo.theMethod ≠ .number 1 := fun h => by cases h

/-- C209 is false: with Popovici's method and no distances at all the instrument is taken to have four arms of one centimetre
each; at every point that a valid instrument can reach there is an answer. -/
theorem C209_missing_false (s : Settings) : (∀ pts, calcInQ (s.withArms none) pts = calcInQ (s.withArms (some [1, 1, 1, 1])) pts) ∧
    ∀ q w, s.Valid 1 → Reaches s q w → ∃ r M, calcInQ (s.withArms none) [(q, w)] = .ok [(r, M)] ∧ SPD M ∧ 0 < r := by
  refine ⟨fun pts => calcInQ_of_arms ?_ pts, fun q w v hr => ?_⟩
  · rw [decodeArms_none]
    by_cases hm : s.theMethod = .number 1
    · rw [decodeArms_given hm]
      rfl
    · rw [decodeArms_other (s := s.withArms (some [1, 1, 1, 1])) hm]
  · have v' : (s.withArms none).Valid 1 := { v with arms := fun _ h => nomatch h }
    obtain ⟨rs, h1, h2, h3⟩ := C61_spd (s.withArms none) [(q, w)] v' fun p hp => by
      rw [List.mem_singleton.1 hp]
      exact ⟨hr.ei, hr.ef, hr.mono, hr.ana, hr.closes, hr.q⟩
    obtain ⟨x, rfl⟩ := List.length_eq_one_iff.1 h2
    exact ⟨x.1, x.2, h1, h3 x (List.mem_singleton.2 rfl)⟩

/-- The hypotheses can be met with Popovici's method. -/
example : Settings.Valid { demo with method := some (.number 1) } 1 ∧ Reaches { demo with method := some (.number 1) } 1 0 := by
  have h := demo_reaches (q := 1) (w := 0) (by norm_num) (by norm_num) (by norm_num) (by norm_num)
  exact ⟨{ demo_valid 1 with }, h.ei, h.ef, h.mono, h.ana, h.closes, h.q⟩

/-- C209 is false also for the method given by its name: Popovici's formulas are used, and the distances that are given have no
effect. -/
theorem C209_named_false {s : Settings} (hm : s.theMethod = .name ['p', 'o', 'p', 'o', 'v', 'i', 'c', 'i']) :
    s.popovici = true ∧ ∀ L pts, calcInQ (s.withArms (some L)) pts = calcInQ (s.withArms (some [1, 1, 1, 1])) pts := by
  refine ⟨by unfold Settings.popovici; rw [hm]; rfl, fun L pts => C209_unused (by rw [hm]; exact fun h => nomatch h) _ _ pts⟩

example : Settings.theMethod { demo with method := some (.name ['p', 'o', 'p', 'o', 'v', 'i', 'c', 'i']) } =
    .name ['p', 'o', 'p', 'o', 'v', 'i', 'c', 'i'] := rfl

end Verif.Resolution
