import Verif.Fitter.Results

/-! # Property C183: the results of a fitter belong to one fit -/

namespace Verif.Fitter

open Verif.FileIO (Text)

variable {α D : Type} [Field α]

/-! ## Specification -/

/-- What LMFIT reported, and the norm at the start: the value that each attribute should show.  The names of the values are `p0`, `p1`, …;
`m` is the number of data. -/
def Reported (norm : α) (o : Outcome α) (n : ℕ) (read : Attr → Except Exc (Shown α)) : Prop :=
  (∃ xs, read .params = .ok (.nums xs) ∧ xs.length = n ∧ ∀ (i : ℕ) x, xs[i]? = some x → (pname i, x) ∈ o.values) ∧
  (∃ es, read .xerror = .ok (.nums es) ∧ es.length = n ∧ ∀ (i : ℕ) x, es[i]? = some x → (pname i, x) ∈ o.stderr) ∧
  read .covar = .ok (.nums o.covarDiag) ∧ read .chi2Min = .ok (.num o.chisqr) ∧ read .rchi2Min = .ok (.num o.redchi) ∧
  read .resid = .ok (.nums o.residual) ∧ read .orignorm = .ok (.num norm) ∧ read .npar = .ok (.count n)

/-- The attributes that keep to the latest fit that ended. -/
def Kept : Attr → Prop
  | .orignorm | .npar => False
  | _ => True

/-- The fit was ended by an exception. -/
def Raises (env : Env α D) (s : State α D) (p : Seq α) : Prop := ∃ e, (fit env s p).2 = .error e

/-! ## Lemmas -/

/-- What a fit that raises leaves behind. -/
theorem raised {env : Env α D} {s : State α D} {p : Seq α} (h : Raises env s p) :
    (∃ n, (fit env s p).1.result = { s.result with orignorm := n }) ∧ (fit env s p).1.m = s.m ∧ (fit env s p).1.params0 = some p := by
  obtain ⟨e, h⟩ := h
  have hs1 : infosFor { s with params0 := some p } p = infosFor s p := rfl
  rw [fit, hs1] at h ⊢
  cases hi : infosFor s p with
  | error e => exact ⟨⟨s.result.orignorm, rfl⟩, rfl, rfl⟩
  | ok infs =>
    rw [hi] at h
    simp only at h ⊢
    split
    · exact ⟨⟨s.result.orignorm, rfl⟩, rfl, rfl⟩
    · next hv =>
      rw [if_neg hv] at h
      cases hd : s.data with
      | none => exact ⟨⟨s.result.orignorm, rfl⟩, rfl, rfl⟩
      | some data =>
        rw [hd] at h
        simp only at h ⊢
        cases hr : residualsAt env data p with
        | error e => exact ⟨⟨s.result.orignorm, rfl⟩, rfl, rfl⟩
        | ok r =>
          rw [hr] at h
          simp only at h ⊢
          cases ho : env.solver (wrapped env data) (mkPars 0 p.vals infs) with
          | error e => exact ⟨⟨_, rfl⟩, rfl, rfl⟩
          | ok o =>
            rw [ho] at h
            simp only [store] at h ⊢
            cases hx : inOrder o.stderr o.values.length <;> cases hy : inOrder o.values o.values.length <;> rw [hx, hy] at h <;>
              first | exact ⟨⟨_, rfl⟩, rfl, rfl⟩ | cases h

theorem raised_reads {env : Env α D} {s : State α D} {p : Seq α} (h : Raises env s p) {a : Attr} (ha : Kept a) :
    readAttr (fit env s p).1 a = readAttr s a := by
  obtain ⟨⟨n, h1⟩, h2, -⟩ := raised h
  cases a <;> first | exact ha.elim | simp only [readAttr, dof, h1, h2]

theorem run_append (env : Env α D) (s : State α D) (ps qs : List (Seq α)) : run env s (ps ++ qs) = run env (run env s ps) qs := by
  simp [run]

theorem run_single (env : Env α D) (s : State α D) (ps : List (Seq α)) (p : Seq α) :
    run env s (ps ++ [p]) = (fit env (run env s ps) p).1 := by
  simp [run]

theorem inOrder_length {β : Type} {d : List (Text × β)} {n : ℕ} {xs : List β} (h : inOrder d n = .ok xs) :
    xs.length = n ∧ ∀ (i : ℕ) x, xs[i]? = some x → (pname i, x) ∈ d := by
  obtain ⟨h1, h2⟩ := mapM_ok h
  refine ⟨by simpa using h1, fun i x hi => ?_⟩
  have hlt : i < n := by
    by_contra hn
    rw [List.getElem?_eq_none (by simp at h1; omega)] at hi
    cases hi
  obtain ⟨c, hc, hl⟩ := h2 i i (by rw [List.getElem?_range hlt])
  obtain rfl : x = c := Option.some.inj (hi.symm.trans hc)
  exact look_mem hl

/-! ## The property -/

variable [LinearOrder α]

/-- C183 (partial).  A fit that ends gives every attribute the value that LMFIT reported, in the order of the parameters, and `orignorm` that of
the starting values.  Missing: `niter`, `nfev` and `npegged` (`C183_never_false`). -/
theorem C183_ended_partial {env : Env α D} (hl : env.Lawful) {s s' : State α D} {p : Seq α} {b : Bool} (h : fit env s p = (s', .ok b)) :
    ∃ data r infs o, s.data = some data ∧ env.residuals p.vals data = .ok r ∧ infosFor s p = .ok infs ∧
      env.solver (wrapped env data) (mkPars 0 p.vals infs) = .ok o ∧ Reported (r.map fun x => x ^ 2).sum o p.vals.length (readAttr s') := by
  obtain ⟨infs, data, r, o, xe, xs, h1, h2, h3, h4, h5, h6, h7, rfl, h9⟩ := fit_ok h
  have hr : env.residuals p.vals data = .ok r := by
    cases p with
    | list => exact h3
    | array => exact h3
    | tuple => cases h3
  have hlen : o.values.length = p.vals.length := by
    have h := (hl.names _ _ _ h5).length_eq
    rw [mkPars_names 0 (infosFor_length h1)] at h
    simpa using h
  obtain ⟨g1, g2⟩ := inOrder_length h6
  obtain ⟨g3, g4⟩ := inOrder_length h7
  exact ⟨data, r, infs, o, h2, hr, h1, h5, ⟨xs, rfl, g3.trans hlen, g4⟩, ⟨xe, rfl, g1.trans hlen, g2⟩, rfl, rfl, rfl, rfl, rfl, rfl⟩

omit [LinearOrder α] in
/-- C183 (partial).  After any history of fits, attributes other than `orignorm` and `npar` show what the latest fit that ended gave them, and
if none has ended they do not exist.  Missing: `orignorm` and `npar`, which a fit that raises changes (`C183_orignorm_false`,
`C183_npar_false`). -/
theorem C183_latest_partial (env : Env α D) (data : Option D) (p0 : Option (Seq α)) (parinfo : Option (List (Option (Info α))))
    (ps : List (Seq α)) :
    (∃ before p after b, ps = before ++ p :: after ∧ (fit env (run env (init data p0 parinfo) before) p).2 = .ok b ∧
      ∀ a, Kept a → readAttr (run env (init data p0 parinfo) ps) a = readAttr (run env (init data p0 parinfo) (before ++ [p])) a) ∨
    ((∀ before p after, ps = before ++ p :: after → Raises env (run env (init data p0 parinfo) before) p) ∧
      ∀ a, Kept a → readAttr (run env (init data p0 parinfo) ps) a = .error .attributeError) := by
  induction ps using List.reverseRecOn with
  | nil =>
    refine Or.inr ⟨fun before p after h => ?_, fun a ha => ?_⟩
    · simp at h
    · cases a <;> first | exact ha.elim | rfl
  | append_singleton ps p ih =>
    cases hf : (fit env (run env (init data p0 parinfo) ps) p).2 with
    | ok b => exact Or.inl ⟨ps, p, [], b, rfl, hf, fun _ _ => rfl⟩
    | error e =>
      have hr : Raises env (run env (init data p0 parinfo) ps) p := ⟨e, hf⟩
      rcases ih with ⟨before, q, after, b, rfl, h2, h3⟩ | ⟨h1, h2⟩
      · refine Or.inl ⟨before, q, after ++ [p], b, by simp, h2, fun a ha => ?_⟩
        rw [run_single, raised_reads hr ha, h3 a ha]
      · refine Or.inr ⟨fun before q after h => ?_, fun a ha => ?_⟩
        · rcases List.eq_nil_or_concat after with rfl | ⟨l, x, rfl⟩
          · obtain ⟨rfl, e2⟩ := List.append_inj' h rfl
            cases e2
            exact hr
          · rw [List.concat_eq_append, ← List.cons_append, ← List.append_assoc] at h
            obtain ⟨e1, e2⟩ := List.append_inj' h rfl
            exact h1 _ _ _ e1
        · rw [run_single, raised_reads hr ha, h2 a ha]

omit [LinearOrder α] in
/-- C183 fails.  Three documented attributes can never be read, whatever was done. -/
theorem C183_never_false (env : Env α D) (data : Option D) (p0 : Option (Seq α)) (parinfo : Option (List (Option (Info α))))
    (ps : List (Seq α)) {a : Attr} (ha : a = .niter ∨ a = .nfev ∨ a = .npegged) :
    readAttr (run env (init data p0 parinfo) ps) a = .error .attributeError := by
  rcases ha with rfl | rfl | rfl <;> rfl

omit [LinearOrder α] in
/-- C183 fails.  A fit that LMFIT gives up leaves its own `orignorm` beside the other results of the fit before. -/
theorem C183_orignorm_false {env : Env α D} {s s' : State α D} {p q : Seq α} {b : Bool} {e : Exc} (h : fit env s p = (s', .ok b))
    (hlen : q.vals.length = p.vals.length) {data : D} (hd : s.data = some data) {r : List α} (hr : residualsAt env data q = .ok r)
    {infs : List (Option (Info α))} (hi : s'.parinfo = some infs) (hv : ∃ x ∈ mkPars 0 q.vals infs, x.2.vary = true)
    (he : env.solver (wrapped env data) (mkPars 0 q.vals infs) = .error e) :
    readAttr (fit env s' q).1 .orignorm = .ok (.num (r.map fun x => x ^ 2).sum) ∧
      ∀ a, Kept a → readAttr (fit env s' q).1 a = readAttr s' a := by
  obtain ⟨infs', data', r', o, xe, xs, h1, h2, h3, h4, h5, h6, h7, rfl, h9⟩ := fit_ok h
  obtain rfl : infs' = infs := Option.some.inj hi
  obtain rfl : data' = data := Option.some.inj (h2.symm.trans hd)
  have hl : q.vals.length = infs'.length := hlen.trans (infosFor_length h1)
  have hn : ¬ (((mkPars 0 q.vals infs').all fun q => !q.2.vary) = true) := by
    obtain ⟨x, hx, hv⟩ := hv
    rw [List.all_eq_true]
    intro hall
    have := hall x hx
    rw [hv] at this
    cases this
  have key : fit env ⟨s.data, some p, some infs', ⟨some (r'.map fun x => x ^ 2).sum, some o.chisqr,
        some o.redchi, some o.nfree, some o.residual, some o.covarDiag, some xe, some xs⟩, o.ndata⟩ q =
      (⟨s.data, some q, some infs', ⟨some (r.map fun x => x ^ 2).sum, some o.chisqr,
        some o.redchi, some o.nfree, some o.residual, some o.covarDiag, some xe, some xs⟩, o.ndata⟩, .error e) := by
    rw [fit]
    simp only [infosFor, if_pos hl, hn, hd, hr, he]
    rfl
  refine ⟨by rw [key]; rfl, fun a ha => raised_reads ⟨e, by rw [key]⟩ ha⟩

omit [LinearOrder α] in
/-- C183 fails.  After a fit that was refused because of the number of its parameters, `npar` is not the number of the parameters shown. -/
theorem C183_npar_false {env : Env α D} {s s' : State α D} {p q : Seq α} {b : Bool} (h : fit env s p = (s', .ok b))
    (hlen : q.vals.length ≠ p.vals.length) :
    (fit env s' q).2 = .error .assertion ∧ readAttr (fit env s' q).1 .npar = .ok (.count q.vals.length) ∧
      ∀ a, Kept a → readAttr (fit env s' q).1 a = readAttr s' a := by
  obtain ⟨infs, data, r, o, xe, xs, h1, h2, h3, h4, h5, h6, h7, rfl, h9⟩ := fit_ok h
  have hl : ¬ q.vals.length = infs.length := fun e => hlen (e.trans (infosFor_length h1).symm)
  have key := fit_infos_error (env := env) (p := q) (e := .assertion) (s := ⟨s.data, some p, some infs, ⟨some (r.map fun x => x ^ 2).sum,
    some o.chisqr, some o.redchi, some o.nfree, some o.residual, some o.covarDiag, some xe, some xs⟩, o.ndata⟩)
    (by rw [infosFor]; exact if_neg hl)
  refine ⟨by rw [key], by rw [key]; rfl, fun a ha => raised_reads ⟨.assertion, by rw [key]⟩ ha⟩

/-! ## Concrete cases -/

/-- A minimiser like `idle` that gives up if a value is above 5. -/
def picky : Env ℚ Unit := { idle with solver := fun f pars => if pars.any (fun q => decide (5 < q.2.val)) then .error .solver else idle.solver f pars }

/-- After a fit from 1 and another from 7 that fails, `orignorm` is 49, which belongs to 7, and `chi2_min` is 1, which belongs to 1. -/
example : let s := run picky (init (some ()) none none) [.list [1], .list [7]]
    readAttr s .orignorm = .ok (.num 49) ∧ readAttr s .chi2Min = .ok (.num 1) ∧ readAttr s .params = .ok (.nums [1]) := by
  obtain ⟨h0, -, -⟩ := two_names
  obtain ⟨s', b, h, h1, h2, h3, h4⟩ : ∃ s' b, fit picky (init (some ()) none none) (.list [1]) = (s', .ok b) ∧
      s'.parinfo = some [none] ∧ readAttr s' .chi2Min = .ok (.num 1) ∧ readAttr s' .params = .ok (.nums [1]) ∧ s'.data = some () := by
    refine ⟨_, true, Prod.ext rfl ?_, ?_, ?_, ?_, ?_⟩ <;>
      simp [fit, init, infosFor, Seq.vals, mkPars, mkPar, residualsAt, picky, idle, wrapped, inOrder, look, List.range_succ, h0, store, bind,
        Except.bind, pure, Except.pure, readAttr, attr, clip, atLeast, atMost]
  obtain ⟨g1, g2⟩ := C183_orignorm_false h (q := .list [7]) (r := [7]) (data := ()) (e := .solver) rfl rfl rfl h1
    ⟨_, List.mem_cons_self .., rfl⟩ (by norm_num [picky, mkPars, mkPar, Seq.vals])
  have e : run picky (init (some ()) none none) [.list [1], .list [7]] = (fit picky s' (.list [7])).1 := by
    simp only [run, List.foldl_cons, List.foldl_nil, h]
  rw [e]
  refine ⟨?_, (g2 .chi2Min trivial).trans h2, (g2 .params trivial).trans h3⟩
  rw [g1]
  norm_num

end Verif.Fitter
