import Mathlib.Algebra.Field.Rat
import Mathlib.Algebra.Order.Ring.Unbundled.Rat
import Verif.Fitter.Props

/-!
# The fitter: history, counts and kinds of parameters (C70, C100-C102)
-/

namespace Verif.Fitter

open Verif.FileIO (Text)

variable {α D : Type} [Field α]

/-- The object after a history of calls of `fit`, failed ones included. -/
def run (env : Env α D) (s : State α D) (ps : List (Seq α)) : State α D :=
  ps.foldl (fun s p => (fit env s p).1) s

theorem fit_infos_error {env : Env α D} {s : State α D} {p : Seq α} {e : Exc}
    (h : infosFor s p = .error e) : fit env s p = ({ s with params0 := some p }, .error e) := by
  have hsame : infosFor { s with params0 := some p } p = infosFor s p := rfl
  rw [fit, hsame, h]

/-- The part of `fit` after the parameter information is settled. -/
theorem fit_congr (env : Env α D) {s t : State α D} {p : Seq α} (hd : s.data = t.data)
    (hi : infosFor s p = infosFor t p) :
    (fit env s p).2 = (fit env t p).2 ∧
      ∀ b, (fit env t p).2 = .ok b → (fit env s p).1 = (fit env t p).1 := by
  have key : ∀ {s t : State α D}, s.data = t.data → infosFor s p = infosFor t p →
      ∀ s' b, fit env s p = (s', .ok b) → fit env t p = (s', .ok b) := by
    intro s t hd hi s' b h
    obtain ⟨infs, data, r, o, xe, xs, h1, h2, h3, ⟨q, hq, hv⟩, h5, h6, h7, h8, h9⟩ := fit_ok h
    have hsame : infosFor { t with params0 := some p } p = infosFor t p := rfl
    rw [fit, hsame, ← hi, h1]
    have hn : ¬ (((mkPars 0 p.vals infs).all fun q => !q.2.vary) = true) := by
      rw [List.all_eq_true]
      intro hall
      have := hall q hq
      rw [hv] at this
      cases this
    simp only [hn, ← hd, h2, h3, h5, store, h6, h7, h8, h9]
    simp
  have key2 : ∀ {s t : State α D}, s.data = t.data → infosFor s p = infosFor t p →
      ∀ e, (fit env s p).2 = .error e → (fit env t p).2 = .error e := by
    intro s t hd hi e h
    have hs1 : infosFor { s with params0 := some p } p = infosFor s p := rfl
    have ht1 : infosFor { t with params0 := some p } p = infosFor t p := rfl
    rw [fit, hs1] at h
    rw [fit, ht1, ← hi]
    cases hx : infosFor s p with
    | error e' => rw [hx] at h; exact h
    | ok infs =>
      rw [hx] at h
      simp only at h ⊢
      split
      · next hv => rw [if_pos hv] at h; exact h
      · next hv =>
        rw [if_neg hv] at h
        rw [← hd]
        cases hdd : s.data with
        | none => rw [hdd] at h; exact h
        | some data =>
          rw [hdd] at h
          simp only at h ⊢
          cases hr : residualsAt env data p with
          | error e' => rw [hr] at h; exact h
          | ok r =>
            rw [hr] at h
            simp only at h ⊢
            cases ho : env.solver (wrapped env data) (mkPars 0 p.vals infs) with
            | error e' => rw [ho] at h; exact h
            | ok o =>
              rw [ho] at h
              simp only [store] at h ⊢
              cases hx : inOrder o.stderr o.values.length <;>
                cases hy : inOrder o.values o.values.length <;>
                rw [hx, hy] at h <;> exact h
  constructor
  · cases h : (fit env t p).2 with
    | error e => exact key2 hd.symm hi.symm e h
    | ok b =>
      have := key hd.symm hi.symm (fit env t p).1 b (Prod.ext rfl h)
      rw [this]
  · intro b h
    have := key hd.symm hi.symm (fit env t p).1 b (Prod.ext rfl h)
    rw [this]

theorem fit_data (env : Env α D) (s : State α D) (p : Seq α) : (fit env s p).1.data = s.data := by
  have hs1 : infosFor { s with params0 := some p } p = infosFor s p := rfl
  rw [fit, hs1]
  cases infosFor s p with
  | error e => rfl
  | ok infs =>
    simp only
    split
    · rfl
    · cases s.data with
      | none => rfl
      | some data =>
        simp only
        cases residualsAt env data p with
        | error e => rfl
        | ok r =>
          simp only
          cases env.solver (wrapped env data) (mkPars 0 p.vals infs) with
          | error e => rfl
          | ok o =>
            simp only [store]
            cases inOrder o.stderr o.values.length <;> cases inOrder o.values o.values.length <;> rfl

theorem fit_parinfo (env : Env α D) {s : State α D} {p : Seq α} {infs : List (Option (Info α))}
    (h : infosFor s p = .ok infs) : (fit env s p).1.parinfo = some infs := by
  have hs1 : infosFor { s with params0 := some p } p = infosFor s p := rfl
  rw [fit, hs1, h]
  simp only
  split
  · rfl
  · cases s.data with
    | none => rfl
    | some data =>
      simp only
      cases residualsAt env data p with
      | error e => rfl
      | ok r =>
        simp only
        cases env.solver (wrapped env data) (mkPars 0 p.vals infs) with
        | error e => rfl
        | ok o =>
          simp only [store]
          cases inOrder o.stderr o.values.length <;> cases inOrder o.values o.values.length <;> rfl

theorem fit_parinfo_some (env : Env α D) {s : State α D} (p : Seq α)
    {infs : List (Option (Info α))} (h : s.parinfo = some infs) :
    (fit env s p).1.parinfo = some infs := by
  by_cases hl : p.vals.length = infs.length
  · exact fit_parinfo env (by rw [infosFor, h]; exact if_pos hl)
  · have : infosFor s p = .error .assertion := by rw [infosFor, h]; exact if_neg hl
    rw [fit_infos_error this]
    exact h

theorem run_data (env : Env α D) (s : State α D) (ps : List (Seq α)) :
    (run env s ps).data = s.data := by
  induction ps generalizing s with
  | nil => rfl
  | cons p ps ih => rw [run, List.foldl_cons, ← run, ih, fit_data]

theorem run_parinfo_some (env : Env α D) {s : State α D} (ps : List (Seq α))
    {infs : List (Option (Info α))} (h : s.parinfo = some infs) :
    (run env s ps).parinfo = some infs := by
  induction ps generalizing s with
  | nil => exact h
  | cons p ps ih =>
    rw [run, List.foldl_cons, ← run]
    exact ih (fit_parinfo_some env p h)

theorem run_parinfo_none (env : Env α D) {s : State α D} {ps : List (Seq α)} {n : Nat}
    (h : s.parinfo = none) (hps : ∀ q ∈ ps, q.vals.length = n) :
    (run env s ps).parinfo = none ∨ (run env s ps).parinfo = some (List.replicate n none) := by
  cases ps with
  | nil => exact .inl h
  | cons p ps =>
    right
    have hp := hps p (by simp)
    rw [run, List.foldl_cons, ← run]
    refine run_parinfo_some env ps (fit_parinfo env ?_)
    rw [infosFor, h, hp]

/-- C70.  A fit after any history of fits, failed ones included, gives the same
answer and the same results as on a new object, if the parameter information was
given to the constructor or all fits have the same number of parameters.  Missing
for the full claim: a different number of parameters, and calling the object, for
which it is false (below). -/
theorem C70_fresh_partial (env : Env α D) (data : Option D) (p0 p1 : Option (Seq α))
    (parinfo : Option (List (Option (Info α)))) (ps : List (Seq α)) (p : Seq α)
    (h : parinfo ≠ none ∨ ∀ q ∈ ps, q.vals.length = p.vals.length) :
    let s := run env (init data p0 parinfo) ps
    let t := init data p1 parinfo
    (fit env s p).2 = (fit env t p).2 ∧
      ∀ b, (fit env t p).2 = .ok b → (fit env s p).1 = (fit env t p).1 := by
  intro s t
  refine fit_congr env (run_data env _ ps) ?_
  cases hp : parinfo with
  | some infs =>
    have h1 : s.parinfo = some infs := run_parinfo_some env ps hp
    have h2 : t.parinfo = some infs := hp
    rw [infosFor, infosFor, h1, h2]
  | none =>
    have hps := h.resolve_left (fun h => h hp)
    have h2 : t.parinfo = none := hp
    have h1 : s.parinfo = none ∨ s.parinfo = some (List.replicate p.vals.length none) :=
      run_parinfo_none env hp hps
    rcases h1 with h1 | h1
    · rw [infosFor, infosFor, h1, h2]
    · rw [infosFor, infosFor, h1, h2]
      simp

/-- C70 is false: without parameter information the first fit settles the number
of parameters; every later fit with another number fails. -/
theorem C70_other_number (env : Env α D) (data : Option D) (p0 : Option (Seq α)) (q p : Seq α)
    (h : p.vals.length ≠ q.vals.length) :
    (fit env (fit env (init data p0 none) q).1 p).2 = .error .assertion := by
  have hq : (fit env (init data p0 none) q).1.parinfo = some (List.replicate q.vals.length none) :=
    fit_parinfo env rfl
  have : infosFor (fit env (init data p0 none) q).1 p = .error .assertion := by
    rw [infosFor, hq]
    exact if_neg (by simpa using h)
  rw [fit_infos_error this]

/-- C70 is false: once a fit has succeeded, calling the object returns the
parameters of that fit, whatever initial parameters are passed. -/
theorem C70_call_ignores {env : Env α D} {s s' : State α D} {q : Seq α} {b : Bool}
    (h : fit env s q = (s', .ok b)) (p : Option (Seq α)) :
    ∃ xs, s'.result.params = some xs ∧ call env s' p = (s', .ok xs) := by
  obtain ⟨infs, data, r, o, xe, xs, h1, h2, h3, h4, h5, h6, h7, rfl, h9⟩ := fit_ok h
  exact ⟨xs, rfl, rfl⟩

/-- C70.  Calling an object without a successful fit fits from the parameters passed, or else from those of the
constructor, and returns the parameters of that fit or its exception. -/
theorem C70_call (env : Env α D) {s : State α D} (h : s.result.params = none) (p : Seq α) :
    (call env s (some p)).1 = (fit env s p).1 ∧
      (∀ b, (fit env s p).2 = .ok b → ∃ xs, (fit env s p).1.result.params = some xs ∧ (call env s (some p)).2 = .ok xs) ∧
      (∀ e, (fit env s p).2 = .error e → (call env s (some p)).2 = .error e) ∧
      (s.params0 = some p → call env s none = call env s (some p)) := by
  have key : call env s (some p) = (match fit env s p with
      | (s', .error e) => (s', .error e)
      | (s', .ok _) => match s'.result.params with
        | some xs => (s', .ok xs)
        | none => (s', .error .attributeError)) := by
    rw [call, h]
    cases s.params0 <;> rfl
  refine ⟨?_, ?_, ?_, ?_⟩
  · rw [key]
    rcases fit env s p with ⟨s', e | b⟩
    · rfl
    · dsimp only
      cases s'.result.params <;> rfl
  · intro b hb
    rw [key]
    cases hf : fit env s p with
    | mk s' r =>
      rw [hf] at hb
      subst hb
      obtain ⟨xs, h1, -⟩ := C70_call_ignores hf none
      exact ⟨xs, h1, by simp only [h1]⟩
  · intro e he
    rw [key]
    cases hf : fit env s p with
    | mk s' r =>
      rw [hf] at he
      subst he
      rfl
  · intro hp
    unfold call
    rw [h, hp]

/-- C70.  A fit that fails leaves the parameters of the fit before. -/
theorem C70_failed_keeps {env : Env α D} {s s' : State α D} {p : Seq α} {e : Exc}
    (h : fit env s p = (s', .error e)) : s'.result.params = s.result.params := by
  have hs1 : infosFor { s with params0 := some p } p = infosFor s p := rfl
  have hfst : s' = (fit env s p).1 := by rw [h]
  have hsnd : (fit env s p).2 = .error e := by rw [h]
  rw [hfst]
  clear hfst h
  rw [fit, hs1] at hsnd ⊢
  cases hi : infosFor s p with
  | error e => rfl
  | ok infs =>
    rw [hi] at hsnd
    simp only at hsnd ⊢
    split
    · rfl
    · next hv =>
      rw [if_neg hv] at hsnd
      cases hd : s.data with
      | none => rfl
      | some data =>
        rw [hd] at hsnd
        simp only at hsnd ⊢
        cases hr : residualsAt env data p with
        | error e => rfl
        | ok r =>
          rw [hr] at hsnd
          simp only at hsnd ⊢
          cases ho : env.solver (wrapped env data) (mkPars 0 p.vals infs) with
          | error e => rfl
          | ok o =>
            rw [ho] at hsnd
            simp only [store] at hsnd ⊢
            cases hx : inOrder o.stderr o.values.length <;>
              cases hy : inOrder o.values o.values.length <;>
              rw [hx, hy] at hsnd <;> first | rfl | cases hsnd

/-! ### Kinds of initial parameters -/

/-- C100 is false: initial parameters given as a tuple, which the setter accepts
and the documentation names, always make the fit fail. -/
theorem C100_tuple (env : Env α D) (s : State α D) (xs : List α) :
    ∃ e, (fit env s (.tuple xs)).2 = .error e := by
  cases h : fit env s (.tuple xs) with
  | mk s' r =>
    cases r with
    | error e => exact ⟨e, rfl⟩
    | ok b =>
      obtain ⟨infs, data, r, o, xe, ys, h1, h2, h3, -⟩ := fit_ok h
      cases h3

/-- C100.  A list and an array are treated alike. -/
theorem C100_list_array_partial (env : Env α D) (s : State α D) (xs : List α) :
    (fit env s (.list xs)).2 = (fit env s (.array xs)).2 ∧
      (fit env s (.list xs)).1.result = (fit env s (.array xs)).1.result := by
  have hs1 : ∀ p : Seq α, infosFor { s with params0 := some p } p = infosFor s p := fun _ => rfl
  have hi : infosFor s (.list xs) = infosFor s (.array xs) := rfl
  rw [fit, fit, hs1, hs1, hi]
  cases infosFor s (.array xs) with
  | error e => exact ⟨rfl, rfl⟩
  | ok infs =>
    have hv : (Seq.list xs).vals = (Seq.array xs).vals := rfl
    simp only [hv]
    split
    · exact ⟨rfl, rfl⟩
    · cases s.data with
      | none => exact ⟨rfl, rfl⟩
      | some data =>
        have hr : residualsAt env data (.list xs) = residualsAt env data (.array xs) := rfl
        simp only [hr]
        cases residualsAt env data (.array xs) with
        | error e => exact ⟨rfl, rfl⟩
        | ok r =>
          simp only
          cases env.solver (wrapped env data) (mkPars 0 (Seq.array xs).vals infs) with
          | error e => exact ⟨rfl, rfl⟩
          | ok o =>
            simp only [store]
            cases inOrder o.stderr o.values.length <;>
              cases inOrder o.values o.values.length <;> exact ⟨rfl, rfl⟩

/-- C100 is false for the data: what is not a tuple is ignored without a word,
and every fit fails. -/
theorem C100_data_ignored (env : Env α D) (p0 : Option (Seq α))
    (parinfo : Option (List (Option (Info α)))) (p : Seq α) :
    ∃ e, (fit env (init none p0 parinfo) p).2 = .error e := by
  cases h : fit env (init none p0 parinfo) p with
  | mk s' r =>
    cases r with
    | error e => exact ⟨e, rfl⟩
    | ok b =>
      obtain ⟨infs, data, r, o, xe, ys, h1, h2, -⟩ := fit_ok h
      cases h2

/-! ### Counts -/

section
variable [LinearOrder α]

/-- The number of parameters that are not fixed. -/
def freeCount (infs : List (Option (Info α))) : Nat := infs.countP fun inf => ¬ Fixed inf

omit [Field α] [LinearOrder α] in
theorem countP_mkPars (i : Nat) {vs : List α} {infs : List (Option (Info α))}
    (h : vs.length = infs.length) :
    ((mkPars i vs infs).countP fun q => q.2.vary) = freeCount infs := by
  induction vs generalizing i infs with
  | nil => cases infs with
    | nil => rfl
    | cons x xs => simp at h
  | cons v vs ih =>
    cases infs with
    | nil => simp at h
    | cons inf infs =>
      have := ih (i + 1) (infs := infs) (by simpa using h)
      rw [mkPars, freeCount, List.countP_cons, List.countP_cons, this, freeCount]
      have hv := mkPar_vary v inf
      congr 1
      by_cases hf : Fixed inf
      · rw [if_neg (by rw [hv.2 hf]; simp), if_neg (by simpa using hf)]
      · rw [if_pos, if_pos (by simpa using hf)]
        cases hx : (mkPar v inf).vary with
        | true => rfl
        | false => exact absurd (hv.1 hx) hf

/-- C101 is false: `nfree`, documented as the number of free parameters, is the
number of degrees of freedom, and `dof`, documented as the degrees of freedom, is
the number of free parameters. -/
theorem C101_swapped {env : Env α D} (hl : env.Lawful) {s s' : State α D} {p : Seq α} {b : Bool}
    (h : fit env s p = (s', .ok b)) {infs : List (Option (Info α))} (hi : infosFor s p = .ok infs) :
    nfree s' = .ok ((s'.m : Int) - freeCount infs) ∧ dof s' = .ok (freeCount infs : Int) := by
  obtain ⟨infs', data, r, o, xe, xs, hi', -, -, -, ho, -, -, rfl, -⟩ := fit_ok h
  obtain rfl : infs' = infs := Except.ok.inj (hi'.symm.trans hi)
  have h1 := hl.nvarys _ _ _ ho
  rw [countP_mkPars 0 (infosFor_length hi)] at h1
  have h2 := hl.nfree _ _ _ ho
  simp only [nfree, dof]
  rw [h2, h1]
  refine ⟨rfl, ?_⟩
  congr 1
  omega

end

omit [Field α] in
/-- C101.  Before the first fit both raise. -/
theorem C101_before (data : Option D) (p0 : Option (Seq α))
    (parinfo : Option (List (Option (Info α)))) :
    nfree (init data p0 parinfo) = .error .attributeError ∧
      dof (init data p0 parinfo) = .error .attributeError := ⟨rfl, rfl⟩

/-! ### Standard errors -/

/-- `stderr` (lsfit/fitter.py 477-482): `√(diag(covar) * rchi2_min)`. -/
noncomputable def stderr (s : State ℝ D) : Except Exc (List ℝ) :=
  match s.result.covarDiag, s.result.redchi with
  | some c, some r => .ok (c.map fun x => Real.sqrt (x * r))
  | _, _ => .error .attributeError

/-- LMFIT scales the covariance matrix with the reduced `χ²` (its default), and
takes the standard errors of the varied parameters from it. -/
def Scaled (env : Env ℝ D) : Prop :=
  ∀ f pars o, env.solver f pars = .ok o → (∀ q ∈ pars, q.2.vary = true) →
    inOrder o.stderr o.values.length = .ok (o.covarDiag.map Real.sqrt) ∧ 0 ≤ o.redchi ∧
      ∀ c ∈ o.covarDiag, 0 ≤ c

/-- C102 is false: `stderr` is not the uncertainty `xerror` but larger by the root
of the reduced `χ²`, which was already applied. -/
theorem C102_scaled_twice {env : Env ℝ D} (hl : Scaled env) {s s' : State ℝ D} {p : Seq ℝ} {b : Bool}
    (h : fit env s p = (s', .ok b)) {infs : List (Option (Info ℝ))} (hi : infosFor s p = .ok infs)
    (hv : ∀ inf ∈ infs, ¬ Fixed inf) :
    ∃ xe r, s'.result.xerror = some xe ∧ s'.result.redchi = some r ∧
      stderr s' = .ok (xe.map fun x => x * Real.sqrt r) ∧
      ((∃ x ∈ xe, x ≠ 0) → r ≠ 1 → stderr s' ≠ .ok xe) := by
  obtain ⟨infs', data, r, o, xe, xs, hi', -, -, -, ho, hxe, -, rfl, -⟩ := fit_ok h
  obtain rfl : infs' = infs := Except.ok.inj (hi'.symm.trans hi)
  obtain ⟨h1, h2, h3⟩ := hl _ _ _ ho (by
    intro q hq
    obtain ⟨v, inf, h1, h2⟩ := mem_mkPars 0 hq
    cases hx : q.2.vary with
    | true => rfl
    | false => rw [h2] at hx; exact absurd ((mkPar_vary v inf).1 hx) (hv inf h1))
  obtain rfl : o.covarDiag.map Real.sqrt = xe := Except.ok.inj (h1.symm.trans hxe)
  have hs : (o.covarDiag.map fun x => Real.sqrt (x * o.redchi)) =
      (o.covarDiag.map Real.sqrt).map fun x => x * Real.sqrt o.redchi := by
    rw [List.map_map]
    apply List.map_congr_left
    intro c hc
    exact Real.sqrt_mul (h3 c hc) _
  refine ⟨_, o.redchi, rfl, rfl, ?_, ?_⟩
  · simp only [stderr]
    rw [hs]
  · rintro ⟨x, hx, hx0⟩ hr he
    simp only [stderr] at he
    have he := Except.ok.inj he
    rw [hs] at he
    obtain ⟨i, hi, rfl⟩ := List.mem_iff_getElem.1 hx
    have := congrArg (fun l : List ℝ => l[i]?) he
    simp only [List.getElem?_map] at this
    rw [List.getElem_map] at hx0
    have hi' : i < o.covarDiag.length := by simpa using hi
    rw [List.getElem?_eq_getElem hi'] at this
    simp only [Option.map_some, Option.some.injEq] at this
    have h4 : Real.sqrt o.redchi = 1 := mul_left_cancel₀ hx0 (by rw [this, mul_one])
    exact hr (by rwa [Real.sqrt_eq_one] at h4)

/-! ### An environment that meets the assumptions -/

/-- A minimiser that is content with the values it is given, ten data points. -/
def idle : Env ℚ Unit where
  residuals xs _ := .ok xs
  solver f pars := do
    let values := pars.map fun q => (q.1, clip q.2.min q.2.max q.2.val)
    let r ← f values
    return ⟨values, pars.map fun q => (q.1, 1), (r.map fun x => x ^ 2).sum, 2, 10,
      pars.countP fun q => q.2.vary, 10 - (pars.countP fun q => q.2.vary : Nat), [], r, true⟩

theorem idle_ok {f : List (Text × ℚ) → Except Exc (List ℚ)} {pars : List (Text × Par ℚ)}
    {o : Outcome ℚ} (h : idle.solver f pars = .ok o) :
    o.values = pars.map (fun q => (q.1, clip q.2.min q.2.max q.2.val)) ∧
      o.stderr = pars.map (fun q => (q.1, 1)) ∧ o.ndata = 10 ∧
      o.nvarys = (pars.countP fun q => q.2.vary) ∧
      o.nfree = 10 - ((pars.countP fun q => q.2.vary : Nat) : Int) := by
  simp only [idle, bind, Except.bind] at h
  split at h
  · cases h
  · obtain rfl := Except.ok.inj h
    exact ⟨rfl, rfl, rfl, rfl, rfl⟩

theorem idle_lawful : idle.Lawful where
  names f pars o h := by
    rw [(idle_ok h).1, List.map_map]
    exact List.Perm.refl _
  errors f pars o h := by
    rw [(idle_ok h).2.1, List.map_map]
    exact List.Perm.refl _
  fixed f pars o h q hq _ := by
    rw [(idle_ok h).1]
    exact List.mem_map.2 ⟨q, hq, rfl⟩
  varied f pars o h q hq _ hn hp x hx := by
    rw [(idle_ok h).1] at hx
    obtain ⟨q', hq', e⟩ := List.mem_map.1 hx
    obtain ⟨e1, e2⟩ := Prod.mk.inj e
    obtain rfl : q' = q := List.inj_on_of_nodup_map hn hq' hq e1
    rw [← e2]
    exact clip_between hp _
  nvarys f pars o h := (idle_ok h).2.2.2.1
  nfree f pars o h := by
    obtain ⟨-, -, h3, h4, h5⟩ := idle_ok h
    rw [h5, h3, h4]
    rfl

open Classical in
/-- A minimiser with covariance matrix `1` and reduced `χ²` of 2. -/
noncomputable def scaledEnv : Env ℝ Unit where
  residuals xs _ := .ok xs
  solver _ pars :=
    let o : Outcome ℝ := ⟨pars.map fun q => (q.1, q.2.val), pars.map fun q => (q.1, 1), 1, 2, 10,
      pars.length, 10 - pars.length, pars.map fun _ => 1, [], true⟩
    if inOrder o.stderr o.values.length = .ok (o.covarDiag.map Real.sqrt) then .ok o
    else .error .solver

theorem scaledEnv_scaled : Scaled scaledEnv := by
  intro f pars o h _
  simp only [scaledEnv] at h
  split at h
  · next hx =>
    obtain rfl := Except.ok.inj h
    refine ⟨hx, by norm_num, ?_⟩
    intro c hc
    obtain ⟨q, -, rfl⟩ := List.mem_map.1 hc
    norm_num
  · cases h

example : ∃ s' b, fit scaledEnv (init (some ()) none none) (.list [3]) = (s', .ok b) ∧
    s'.result.xerror = some [1] := by
  have h0 : pname 0 = ['p', '0'] := by simp [pname, Verif.FileIO.natDigits]; decide
  refine ⟨_, true, Prod.ext rfl ?_, ?_⟩
  · simp [fit, init, infosFor, Seq.vals, mkPars, mkPar, residualsAt, scaledEnv, inOrder,
      look, List.range_succ, h0, store, bind, Except.bind, pure, Except.pure]
  · simp [fit, init, infosFor, Seq.vals, mkPars, mkPar, residualsAt, scaledEnv, inOrder,
      look, List.range_succ, h0, store, bind, Except.bind, pure, Except.pure]

/-- A successful fit with a fixed parameter and one with limits. -/
def someFitter : State ℚ Unit :=
  init (some ()) none (some [some ⟨none, some true⟩, some ⟨some (some 0, some 5), none⟩, none])

theorem two_names : pname 0 = ['p', '0'] ∧ pname 1 = ['p', '1'] ∧ pname 2 = ['p', '2'] := by
  refine ⟨?_, ?_, ?_⟩ <;> simp [pname, Verif.FileIO.natDigits] <;> decide

theorem someFitter_fits : ∃ s' b, fit idle someFitter (.list [3, 7, 1]) = (s', .ok b) := by
  obtain ⟨h0, h1, h2⟩ := two_names
  refine ⟨_, true, Prod.ext rfl ?_⟩
  simp [fit, someFitter, init, infosFor, Seq.vals, mkPars, mkPar, residualsAt, idle, wrapped, inOrder,
    look, List.range_succ, h0, h1, h2, store, bind, Except.bind, pure, Except.pure]

/-- C70 is false, with a witness: the second fit succeeds on a new object. -/
theorem C70_other_number_false :
    (fit idle (fit idle (init (some ()) none none) (.list [1])).1 (.list [1, 2])).2 =
        .error .assertion ∧
      ∃ b, (fit idle (init (some ()) none none) (.list [1, 2])).2 = .ok b := by
  obtain ⟨h0, h1, -⟩ := two_names
  refine ⟨C70_other_number idle _ _ _ _ (by decide), true, ?_⟩
  simp [fit, init, infosFor, Seq.vals, mkPars, mkPar, residualsAt, idle, wrapped, inOrder,
    look, List.range_succ, h0, h1, store, bind, Except.bind, pure, Except.pure,
    List.replicate]

end Verif.Fitter
