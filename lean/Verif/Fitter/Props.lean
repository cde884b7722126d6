import Mathlib.Analysis.Real.Sqrt
import Mathlib.Data.List.Perm.Basic
import Verif.Fitter.Model
import Verif.FileIO.InstrWhole

/-!
# The fitter: fixed and limited parameters, and history (C69, C70, C100-C102)
-/

namespace Verif.Fitter

open Verif.FileIO (Text natDigits natOf natOf_digits)

variable {α D : Type}

/-! ### Specification -/

/-- The parameter was declared fixed. -/
def Fixed (inf : Option (Info α)) : Prop := ∃ i, inf = some i ∧ i.fixed = some true

instance (inf : Option (Info α)) : Decidable (Fixed inf) :=
  match inf with
  | none => isFalse (by rintro ⟨i, h, -⟩; cases h)
  | some i => decidable_of_iff (i.fixed = some true) ⟨fun h => ⟨i, rfl, h⟩, by
      rintro ⟨j, h, hj⟩; cases h; exact hj⟩

/-- The lower limit that was declared, if any. -/
def lower (inf : Option (Info α)) : Option α := inf.bind fun i => i.limits.bind Prod.fst

/-- The upper limit that was declared, if any. -/
def upper (inf : Option (Info α)) : Option α := inf.bind fun i => i.limits.bind Prod.snd

section
variable [LinearOrder α]

/-- A value is between limits that may be absent. -/
def Between (lo hi : Option α) (x : α) : Prop :=
  (∀ l, lo = some l → l ≤ x) ∧ ∀ h, hi = some h → x ≤ h

/-- Limits that leave room. -/
def Proper (lo hi : Option α) : Prop := ∀ l h, lo = some l → hi = some h → l < h

/-- The nearest value that is not above an upper limit. -/
def atMost (hi : Option α) (x : α) : α :=
  match hi with
  | some h => if h < x then h else x
  | none => x

/-- The nearest value that is not below a lower limit. -/
def atLeast (lo : Option α) (x : α) : α :=
  match lo with
  | some l => if x < l then l else x
  | none => x

/-- The value LMFIT reports for a parameter that is not varied: the one given,
moved to the nearest limit. -/
def clip (lo hi : Option α) (x : α) : α := atLeast lo (atMost hi x)

/-- What is assumed about LMFIT: it returns a value and a standard error for
each of the names it was given, in some order; parameters that are not varied
keep their value, moved to the nearest limit; varied parameters end between their
limits; and the counts are what LMFIT documents. -/
structure Env.Lawful (env : Env α D) : Prop where
  names : ∀ f pars o, env.solver f pars = .ok o → (o.values.map Prod.fst).Perm (pars.map Prod.fst)
  errors : ∀ f pars o, env.solver f pars = .ok o → (o.stderr.map Prod.fst).Perm (pars.map Prod.fst)
  fixed : ∀ f pars o, env.solver f pars = .ok o → ∀ q ∈ pars, q.2.vary = false →
    (q.1, clip q.2.min q.2.max q.2.val) ∈ o.values
  varied : ∀ f pars o, env.solver f pars = .ok o → ∀ q ∈ pars, q.2.vary = true →
    (pars.map Prod.fst).Nodup → Proper q.2.min q.2.max →
    ∀ x, (q.1, x) ∈ o.values → Between q.2.min q.2.max x
  nvarys : ∀ f pars o, env.solver f pars = .ok o → o.nvarys = pars.countP fun q => q.2.vary
  nfree : ∀ f pars o, env.solver f pars = .ok o → o.nfree = (o.ndata : Int) - o.nvarys

theorem clip_between {lo hi : Option α} (h : Proper lo hi) (x : α) : Between lo hi (clip lo hi x) := by
  constructor
  · rintro l rfl
    simp only [clip, atLeast]
    generalize atMost hi x = y
    split
    · exact le_refl l
    · next hy => exact not_lt.1 hy
  · rintro u rfl
    have h1 : atMost (some u) x ≤ u := by
      rw [atMost]
      split
      · exact le_refl u
      · next hy => exact not_lt.1 hy
    rw [clip]
    revert h1
    generalize atMost (some u) x = y
    intro h1
    cases lo with
    | none => exact h1
    | some l =>
      rw [atLeast]
      split
      · exact (h l u rfl rfl).le
      · exact h1

theorem clip_of_between {lo hi : Option α} {x : α} (h : Between lo hi x) : clip lo hi x = x := by
  have h1 : atMost hi x = x := by
    cases hi with
    | none => rfl
    | some u => exact if_neg (not_lt.2 (h.2 u rfl))
  rw [clip, h1]
  cases lo with
  | none => rfl
  | some l => exact if_neg (not_lt.2 (h.1 l rfl))

end

/-! ### Names -/

theorem pname_inj {i j : Nat} (h : pname i = pname j) : i = j := by
  have := (List.cons.inj h).2
  have hi := natOf_digits i
  rw [this, natOf_digits] at hi
  exact (Option.some.inj hi).symm

theorem mkPars_names (i : Nat) {vs : List α} {infs : List (Option (Info α))}
    (h : vs.length = infs.length) :
    (mkPars i vs infs).map Prod.fst = (List.range' i vs.length).map pname := by
  induction vs generalizing i infs with
  | nil => cases infs <;> rfl
  | cons v vs ih =>
    cases infs with
    | nil => simp at h
    | cons inf infs =>
      simp only [mkPars, List.map_cons, List.length_cons, List.range'_succ]
      rw [ih (i + 1) (by simpa using h)]

theorem mkPars_getElem? (i : Nat) {vs : List α} {infs : List (Option (Info α))} (k : Nat) {v : α}
    {inf : Option (Info α)} (hv : vs[k]? = some v) (hi : infs[k]? = some inf) :
    (mkPars i vs infs)[k]? = some (pname (i + k), mkPar v inf) := by
  induction vs generalizing i infs k with
  | nil => simp at hv
  | cons w ws ih =>
    cases infs with
    | nil => simp at hi
    | cons j js =>
      cases k with
      | zero =>
        simp only [List.getElem?_cons_zero, Option.some.injEq] at hv hi
        simp [mkPars, hv, hi]
      | succ k =>
        simp only [List.getElem?_cons_succ] at hv hi
        simp only [mkPars, List.getElem?_cons_succ, ih (i + 1) k hv hi]
        congr 3
        omega

theorem mem_mkPars (i : Nat) {vs : List α} {infs : List (Option (Info α))} {q : Text × Par α}
    (h : q ∈ mkPars i vs infs) : ∃ v inf, inf ∈ infs ∧ q.2 = mkPar v inf := by
  induction vs generalizing i infs with
  | nil => cases infs <;> simp [mkPars] at h
  | cons w ws ih =>
    cases infs with
    | nil => simp [mkPars] at h
    | cons j js =>
      rcases List.mem_cons.1 h with rfl | h
      · exact ⟨w, j, by simp, rfl⟩
      · obtain ⟨v, inf, h1, h2⟩ := ih _ h
        exact ⟨v, inf, by simp [h1], h2⟩

theorem mkPar_vary (v : α) (inf : Option (Info α)) : (mkPar v inf).vary = false ↔ Fixed inf := by
  cases inf with
  | none => simp [mkPar, Fixed]
  | some i =>
    rcases i with ⟨lim, fx⟩
    cases fx with
    | none => cases lim <;> simp [mkPar, Fixed]
    | some b => cases b <;> cases lim <;> simp [mkPar, Fixed]

theorem mkPar_fields (v : α) (inf : Option (Info α)) :
    (mkPar v inf).val = v ∧ (mkPar v inf).min = lower inf ∧ (mkPar v inf).max = upper inf := by
  cases inf with
  | none => exact ⟨rfl, rfl, rfl⟩
  | some i =>
    rcases i with ⟨lim, fx⟩
    cases fx <;> cases lim <;> exact ⟨rfl, rfl, rfl⟩

theorem look_mem {β : Type} {d : List (Text × β)} {n : Text} {x : β} (h : look d n = .ok x) :
    (n, x) ∈ d := by
  rw [look] at h
  cases hf : d.find? (fun p => p.1 = n) with
  | none => rw [hf] at h; cases h
  | some p =>
    rw [hf] at h
    have hm := List.mem_of_find?_eq_some hf
    have hp := List.find?_some hf
    simp only [decide_eq_true_eq] at hp
    have hx : p.2 = x := Except.ok.inj h
    rwa [← hp, ← hx]

theorem look_of_mem {β : Type} {d : List (Text × β)} {n : Text} {x : β}
    (hd : (d.map Prod.fst).Nodup) (h : (n, x) ∈ d) : look d n = .ok x := by
  induction d with
  | nil => simp at h
  | cons c cs ih =>
    rw [List.map_cons, List.nodup_cons] at hd
    rcases List.mem_cons.1 h with rfl | h
    · simp [look]
    · have hne : c.1 ≠ n := fun e => hd.1 (by rw [e]; exact List.mem_map.2 ⟨_, h, rfl⟩)
      have := ih hd.2 h
      rw [look] at this ⊢
      rw [List.find?_cons_of_neg (by simpa using hne)]
      exact this

theorem mapM_ok {β γ : Type} {f : β → Except Exc γ} {l : List β} {r : List γ}
    (h : l.mapM f = .ok r) : r.length = l.length ∧
      ∀ (i : Nat) b, l[i]? = some b → ∃ c, r[i]? = some c ∧ f b = .ok c := by
  induction l generalizing r with
  | nil =>
    have : r = [] := (Except.ok.inj h).symm
    subst this
    exact ⟨rfl, by simp⟩
  | cons b l ih =>
    rw [List.mapM_cons] at h
    cases hb : f b with
    | error e => rw [hb] at h; cases h
    | ok c =>
      cases hl : l.mapM f with
      | error e => rw [hb, hl] at h; cases h
      | ok cs =>
        rw [hb, hl] at h
        obtain rfl : c :: cs = r := Except.ok.inj h
        obtain ⟨h1, h2⟩ := ih hl
        refine ⟨by simp [h1], ?_⟩
        intro i b' hi
        cases i with
        | zero =>
          simp only [List.getElem?_cons_zero, Option.some.injEq] at hi ⊢
          exact ⟨c, rfl, hi ▸ hb⟩
        | succ i => exact h2 i b' (by simpa using hi)

theorem mapM_of {β γ : Type} {f : β → Except Exc γ} {l : List β} {r : List γ}
    (hl : r.length = l.length) (h : ∀ (i : Nat) b c, l[i]? = some b → r[i]? = some c → f b = .ok c) :
    l.mapM f = .ok r := by
  induction l generalizing r with
  | nil =>
    obtain rfl := List.eq_nil_of_length_eq_zero hl
    rfl
  | cons b l ih =>
    match r, hl with
    | c :: cs, hl =>
      rw [List.mapM_cons, h 0 b c rfl rfl, ih (by simpa using hl) fun i b' c' hb hc =>
        h (i + 1) b' c' (by simpa using hb) (by simpa using hc)]
      rfl

/-- The names of `n` parameters, in any order, are read back in the order
`p0, p1, …`. -/
theorem inOrder_of_perm {β : Type} {d : List (Text × β)} {xs : List β}
    (h : d.Perm (xs.zipIdx.map fun p => (pname p.2, p.1))) : inOrder d xs.length = .ok xs := by
  have hn : (d.map Prod.fst).Nodup := by
    have hp := h.map Prod.fst
    refine hp.nodup_iff.2 ?_
    rw [List.map_map]
    have : (Prod.fst ∘ fun p : β × Nat => (pname p.2, p.1)) = pname ∘ Prod.snd := rfl
    rw [this, ← List.map_map, List.zipIdx_map_snd]
    exact List.Nodup.map (fun a b h => pname_inj h) List.nodup_range'
  refine mapM_of (by simp) ?_
  intro i b c hb hc
  obtain rfl : i = b := by
    rw [List.getElem?_range] at hb
    · exact Option.some.inj hb
    · by_contra hlt
      rw [List.getElem?_eq_none (by simpa using hlt)] at hb
      cases hb
  refine look_of_mem hn (h.mem_iff.2 (List.mem_map.2 ⟨(c, i), ?_, rfl⟩))
  rw [List.mem_zipIdx_iff_getElem?]
  exact hc

/-- C69.  The residual function gets the values in the order of the initial
parameters, in whatever order the minimiser keeps them: `p10` comes after `p9`. -/
theorem C69_residual_order (env : Env α D) (data : D) {d : List (Text × α)} {xs : List α}
    (h : d.Perm (xs.zipIdx.map fun p => (pname p.2, p.1))) :
    wrapped env data d = env.residuals xs data := by
  have hl : d.length = xs.length := by simpa using h.length_eq
  rw [wrapped, hl, inOrder_of_perm h]
  rfl

section
variable [Field α]

/-- What a successful fit went through. -/
theorem fit_ok {env : Env α D} {s s' : State α D} {p : Seq α} {b : Bool}
    (h : fit env s p = (s', .ok b)) :
    ∃ infs data r o xe xs, infosFor s p = .ok infs ∧ s.data = some data ∧
      residualsAt env data p = .ok r ∧
      (∃ q ∈ mkPars 0 p.vals infs, q.2.vary = true) ∧
      env.solver (wrapped env data) (mkPars 0 p.vals infs) = .ok o ∧
      inOrder o.stderr o.values.length = .ok xe ∧ inOrder o.values o.values.length = .ok xs ∧
      s' = ⟨s.data, some p, some infs, ⟨some (r.map fun x => x ^ 2).sum, some o.chisqr,
        some o.redchi, some o.nfree, some o.residual, some o.covarDiag, some xe, some xs⟩,
        o.ndata⟩ ∧ b = o.success := by
  rw [fit] at h
  have hsame : infosFor { s with params0 := some p } p = infosFor s p := rfl
  rw [hsame] at h
  cases hi : infosFor s p with
  | error e => rw [hi] at h; cases (Prod.mk.inj h).2
  | ok infs =>
    rw [hi] at h
    simp only at h
    split at h
    · cases (Prod.mk.inj h).2
    · next hv =>
      cases hd : s.data with
      | none => rw [hd] at h; cases (Prod.mk.inj h).2
      | some data =>
        rw [hd] at h
        simp only at h
        cases hr : residualsAt env data p with
        | error e => rw [hr] at h; cases (Prod.mk.inj h).2
        | ok r =>
          rw [hr] at h
          simp only at h
          cases ho : env.solver (wrapped env data) (mkPars 0 p.vals infs) with
          | error e => rw [ho] at h; cases (Prod.mk.inj h).2
          | ok o =>
            rw [ho] at h
            simp only [store] at h
            cases hxe : inOrder o.stderr o.values.length with
            | error e => rw [hxe] at h; cases hxs : inOrder o.values o.values.length <;> rw [hxs] at h <;> cases (Prod.mk.inj h).2
            | ok xe =>
              cases hxs : inOrder o.values o.values.length with
              | error e => rw [hxe, hxs] at h; cases (Prod.mk.inj h).2
              | ok xs =>
                rw [hxe, hxs] at h
                obtain ⟨h1, h2⟩ := Prod.mk.inj h
                refine ⟨infs, data, r, o, xe, xs, rfl, rfl, hr, ?_, ho, hxe, hxs, ?_,
                  (Except.ok.inj h2).symm⟩
                · by_contra hno
                  apply hv
                  rw [List.all_eq_true]
                  intro q hq
                  cases hqv : q.2.vary with
                  | false => rfl
                  | true => exact absurd ⟨q, hq, hqv⟩ hno
                · exact h1.symm

omit [Field α] in
theorem infosFor_length {s : State α D} {p : Seq α} {infs : List (Option (Info α))}
    (h : infosFor s p = .ok infs) : p.vals.length = infs.length := by
  rw [infosFor] at h
  split at h
  · rw [← Except.ok.inj h]; simp
  · split at h
    · rw [← Except.ok.inj h]; assumption
    · cases h

variable [LinearOrder α]

theorem fit_values {env : Env α D} (hl : env.Lawful) {s s' : State α D} {p : Seq α} {b : Bool}
    (h : fit env s p = (s', .ok b)) {infs : List (Option (Info α))} (hi : infosFor s p = .ok infs) :
    ∃ xs, s'.result.params = some xs ∧ xs.length = p.vals.length ∧
      ∀ (i : Nat) v inf, p.vals[i]? = some v → infs[i]? = some inf → ∃ x, xs[i]? = some x ∧
        (Fixed inf → x = clip (lower inf) (upper inf) v) ∧
        (Proper (lower inf) (upper inf) → Between (lower inf) (upper inf) x) := by
  obtain ⟨infs', data, r, o, xe, xs, hi', -, -, -, ho, -, hxs, rfl, -⟩ := fit_ok h
  obtain rfl : infs' = infs := Except.ok.inj (hi'.symm.trans hi)
  have hn := hl.names _ _ _ ho
  have hlen := infosFor_length hi
  have hpn : ((mkPars 0 p.vals infs').map Prod.fst).Nodup := by
    rw [mkPars_names 0 hlen]
    exact List.Nodup.map (fun a b h => pname_inj h) List.nodup_range'
  have hnd : (o.values.map Prod.fst).Nodup := by
    exact hn.nodup_iff.2 hpn
  have hvl : o.values.length = p.vals.length := by
    have := hn.length_eq
    rw [mkPars_names 0 hlen] at this
    simpa using this
  obtain ⟨hx1, hx2⟩ := mapM_ok hxs
  refine ⟨xs, rfl, by rw [hx1]; simpa using hvl, ?_⟩
  intro i v inf hv hinf
  have hilt : i < p.vals.length := by
    by_contra hge
    rw [List.getElem?_eq_none (by omega)] at hv
    cases hv
  obtain ⟨x, hx, hlook⟩ := hx2 i i (by rw [List.getElem?_range]; omega)
  have hmem := look_mem hlook
  have hpar := mkPars_getElem? 0 i hv hinf
  rw [Nat.zero_add] at hpar
  have hq := List.mem_of_getElem? hpar
  obtain ⟨f1, f2, f3⟩ := mkPar_fields v inf
  have hfix : Fixed inf → x = clip (lower inf) (upper inf) v := by
    intro hf
    have h1 := hl.fixed _ _ _ ho _ hq ((mkPar_vary v inf).2 hf)
    simp only [f1, f2, f3] at h1
    have h2 := look_of_mem hnd h1
    exact Except.ok.inj (hlook.symm.trans h2)
  refine ⟨x, hx, hfix, ?_⟩
  intro hp
  cases hvary : (mkPar v inf).vary with
  | false =>
    rw [hfix ((mkPar_vary v inf).1 hvary)]
    exact clip_between hp v
  | true =>
    have := hl.varied _ _ _ ho _ hq hvary hpn (by simp only [f2, f3]; exact hp) x hmem
    simpa only [f2, f3] using this

/-- C69.  After a fit there is one value for each initial parameter, in their
order; a parameter declared fixed has its initial value if that was between its
limits; a parameter with limits, fixed or not, is between them.  Missing for the
full claim: a fixed parameter that starts outside its limits, for which it is
false (below). -/
theorem C69_fixed_and_limits_partial {env : Env α D} (hl : env.Lawful) {s s' : State α D}
    {p : Seq α} {b : Bool} (h : fit env s p = (s', .ok b)) {infs : List (Option (Info α))}
    (hi : infosFor s p = .ok infs) :
    ∃ xs, s'.result.params = some xs ∧ xs.length = p.vals.length ∧
      ∀ (i : Nat) v inf, p.vals[i]? = some v → infs[i]? = some inf → ∃ x, xs[i]? = some x ∧
        (Fixed inf → Between (lower inf) (upper inf) v → x = v) ∧
        (Proper (lower inf) (upper inf) → Between (lower inf) (upper inf) x) := by
  obtain ⟨xs, h1, h2, h3⟩ := fit_values hl h hi
  refine ⟨xs, h1, h2, fun i v inf hv hinf => ?_⟩
  obtain ⟨x, hx, h4, h5⟩ := h3 i v inf hv hinf
  exact ⟨x, hx, fun hf hb => by rw [h4 hf, clip_of_between hb], h5⟩

/-- C69 is false: a fixed parameter above its upper limit is moved to it. -/
theorem C69_fixed_moved {env : Env α D} (hl : env.Lawful) {s s' : State α D}
    {p : Seq α} {b : Bool} (h : fit env s p = (s', .ok b)) {infs : List (Option (Info α))}
    (hi : infosFor s p = .ok infs) {i : Nat} {v u : α} (hv : p.vals[i]? = some v)
    (hinf : infs[i]? = some (some ⟨some (none, some u), some true⟩)) (hu : u < v) :
    ∃ xs, s'.result.params = some xs ∧ xs[i]? = some u ∧ u ≠ v := by
  obtain ⟨xs, h1, h2, h3⟩ := fit_values hl h hi
  obtain ⟨x, hx, h4, h5⟩ := h3 i v _ hv hinf
  refine ⟨xs, h1, ?_, hu.ne⟩
  rw [hx, h4 ⟨_, rfl, rfl⟩]
  simp [clip, atLeast, atMost, lower, upper, hu]

omit [LinearOrder α] in
/-- C69.  A problem with all parameters fixed is rejected, before the residual
function is called, and a fit that succeeds had a parameter to vary. -/
theorem C69_all_fixed (env : Env α D) {s : State α D} {p : Seq α}
    {infs : List (Option (Info α))} (hi : infosFor s p = .ok infs) :
    ((∀ inf ∈ infs, Fixed inf) → (fit env s p).2 = .error .allFixed) ∧
      ∀ s' b, fit env s p = (s', .ok b) → ∃ inf ∈ infs, ¬ Fixed inf := by
  constructor
  · intro hf
    have hsame : infosFor { s with params0 := some p } p = infosFor s p := rfl
    rw [fit, hsame, hi]
    have : ((mkPars 0 p.vals infs).all fun q => !q.2.vary) = true := by
      rw [List.all_eq_true]
      intro q hq
      obtain ⟨v, inf, h1, h2⟩ := mem_mkPars 0 hq
      rw [h2, (mkPar_vary v inf).2 (hf inf h1)]
      rfl
    simp only [this, if_true]
  · intro s' b h
    obtain ⟨infs', data, r, o, xe, xs, hi', -, -, ⟨q, hq, hv⟩, -⟩ := fit_ok h
    obtain rfl : infs' = infs := Except.ok.inj (hi'.symm.trans hi)
    obtain ⟨v, inf, h1, h2⟩ := mem_mkPars 0 hq
    refine ⟨inf, h1, fun hf => ?_⟩
    rw [h2, (mkPar_vary v inf).2 hf] at hv
    cases hv

end

end Verif.Fitter
