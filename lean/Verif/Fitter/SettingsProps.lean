import Verif.Fitter.Settings

/-! # Settings of a fitter -/

namespace Verif.Fitter.Settings

/-! ## Specification -/

/-- The values a setting may have, as the documentation gives their kind. -/
inductive Fits : Setting → Value → Prop
  | ftol {v} (h : isNumber v) : Fits .ftol v
  | xtol {v} (h : isNumber v) : Fits .xtol v
  | gtol {v} (h : isNumber v) : Fits .gtol v
  | stepfactor {v} (h : isNumber v) : Fits .stepfactor v
  | covtol {v} (h : isNumber v) : Fits .covtol v
  | epsfcn {v} (h : isNumber v) : Fits .epsfcn v
  | epsfcnNone : Fits .epsfcn .none
  | maxiter {v} (h : isInt v) : Fits .maxiter v
  | maxfev {v} (h : isInt v) : Fits .maxfev v
  | maxfevNone : Fits .maxfev .none
  | nofinitecheck (b : Bool) : Fits .nofinitecheck (.bool b)
  | nanPolicy (s : String) : Fits .nanPolicy (.str s)

/-- What the value means: `None` stands for the documented default. -/
def Meaning (s : Setting) (v : Value) : Value :=
  if v = .none then (if s = .epsfcn then .float (1 / 2 ^ 52) else if s = .maxfev then .int 0 else v) else v

/-- The value that counts after a history of assignments, the latest first: the latest one that fits. -/
inductive Latest (s : Setting) (start : Value) : List (Setting × Value) → Value → Prop
  | start : Latest s start [] start
  | this {h v} (f : Fits s v) : Latest s start ((s, v) :: h) (Meaning s v)
  | unfit {h v w} (f : ¬ Fits s v) (l : Latest s start h w) : Latest s start ((s, v) :: h) w
  | elsewhere {h t v w} (n : t ≠ s) (l : Latest s start h w) : Latest s start ((t, v) :: h) w

/-! ## Lemmas -/

lemma stored_ok {s : Setting} {v : Value} (f : Fits s v) : stored s v = .ok (Meaning s v) := by
  have nn : ∀ {v : Value}, isNumber v = true → v ≠ .none := by intro v h e; subst e; simp [isNumber] at h
  have ni : ∀ {v : Value}, isInt v = true → v ≠ .none := by intro v h e; subst e; simp [isInt] at h
  cases f with
  | ftol h | xtol h | gtol h | stepfactor h | covtol h => simp [stored, Meaning, h, nn h]
  | epsfcn h => simp [stored, Meaning, h, nn h]
  | epsfcnNone => simp [stored, Meaning, eps, isNumber]
  | maxiter h => simp [stored, Meaning, h, ni h]
  | maxfev h => simp [stored, Meaning, h, ni h]
  | maxfevNone => simp [stored, Meaning, isInt]
  | nofinitecheck b => simp [stored, Meaning]
  | nanPolicy b => simp [stored, Meaning]

lemma stored_error {s : Setting} {v : Value} (f : ¬ Fits s v) : stored s v = .error .valueError := by
  cases s
  case ftol => have : isNumber v = false := by by_contra c; exact f (.ftol (by simpa using c))
               simp [stored, this]
  case xtol => have : isNumber v = false := by by_contra c; exact f (.xtol (by simpa using c))
               simp [stored, this]
  case gtol => have : isNumber v = false := by by_contra c; exact f (.gtol (by simpa using c))
               simp [stored, this]
  case stepfactor => have : isNumber v = false := by by_contra c; exact f (.stepfactor (by simpa using c))
                     simp [stored, this]
  case covtol => have : isNumber v = false := by by_contra c; exact f (.covtol (by simpa using c))
                 simp [stored, this]
  case epsfcn =>
    have h1 : isNumber v = false := by by_contra c; exact f (.epsfcn (by simpa using c))
    have h2 : v ≠ .none := by rintro rfl; exact f .epsfcnNone
    simp [stored, h1, h2]
  case maxiter => have : isInt v = false := by by_contra c; exact f (.maxiter (by simpa using c))
                  simp [stored, this]
  case maxfev =>
    have h1 : isInt v = false := by by_contra c; exact f (.maxfev (by simpa using c))
    have h2 : v ≠ .none := by rintro rfl; exact f .maxfevNone
    simp [stored, h1, h2]
  case nofinitecheck =>
    cases v with
    | bool b => exact absurd (.nofinitecheck b) f
    | _ => rfl
  case nanPolicy =>
    cases v with
    | str b => exact absurd (.nanPolicy b) f
    | _ => rfl

/-- Where the value of a setting is kept. -/
def kept (o : Object) (s : Setting) : Option Value := if s = .nanPolicy then o.nanPolicy else o.config s

lemma read_kept (o : Object) {s : Setting} (h : s ≠ .nofinitecheck) : read o s = field (kept o s) := by
  cases s <;> first | exact absurd rfl h | rfl

lemma kept_assign (o : Object) {s : Setting} {v : Value} (f : Fits s v) (t : Setting) :
    kept (assign o s v).1 t = if t = s then some (Meaning s v) else kept o t := by
  unfold assign
  rw [stored_ok f]
  by_cases hs : s = .nanPolicy
  · subst hs
    by_cases ht : t = .nanPolicy
    · subst ht; simp [kept]
    · simp [kept, ht]
  · by_cases ht : t = .nanPolicy
    · subst ht
      simp [kept, hs, Ne.symm hs]
    · simp [kept, hs, ht]

lemma assign_unfit (o : Object) {s : Setting} {v : Value} (f : ¬ Fits s v) : assign o s v = (o, some .valueError) := by
  unfold assign; rw [stored_error f]

lemma assign_fit (o : Object) {s : Setting} {v : Value} (f : Fits s v) : (assign o s v).2 = Option.none := by
  unfold assign; rw [stored_ok f]

lemma kept_many (o : Object) (ops : List (Setting × Value)) (s : Setting) (w v : Value) (hw : kept o s = some w)
    (l : Latest s w ops.reverse v) : kept (assignMany o ops) s = some v := by
  have key : ∀ (h : List (Setting × Value)) (v : Value), Latest s w h v →
      kept (h.foldr (fun p o => (assign o p.1 p.2).1) o) s = some v := by
    intro h v l
    induction l with
    | start => exact hw
    | this f => rw [List.foldr_cons, kept_assign _ f, if_pos rfl]
    | unfit f _ ih => rw [List.foldr_cons, assign_unfit _ f]; exact ih
    | @elsewhere h t v w n _ ih =>
      rw [List.foldr_cons]
      by_cases f : Fits t v
      · rw [kept_assign _ f, if_neg (Ne.symm n)]; exact ih
      · rw [assign_unfit _ f]; exact ih
  have := key _ v l
  unfold assignMany
  rwa [List.foldr_reverse] at this

lemma assignAll_ok (ops : List (Setting × Value)) (h : ∀ p ∈ ops, Fits p.1 p.2) (o : Object) :
    assignAll o ops = .ok (assignMany o ops) := by
  induction ops generalizing o with
  | nil => rfl
  | cons p ops ih =>
    obtain ⟨s, v⟩ := p
    have f := h (s, v) (by simp)
    have e := assign_fit o f
    unfold assignAll
    rcases k : assign o s v with ⟨o', e'⟩
    rw [k] at e
    obtain rfl : e' = Option.none := e
    show assignAll o' ops = _
    rw [ih (fun p hp => h p (by simp [hp]))]
    show _ = Except.ok (assignMany (assign o s v).1 ops)
    rw [k]

lemma assignAll_error (ops : List (Setting × Value)) (h : ∃ p ∈ ops, ¬ Fits p.1 p.2) (o : Object) :
    assignAll o ops = .error .valueError := by
  induction ops generalizing o with
  | nil => obtain ⟨p, hp, -⟩ := h; simp at hp
  | cons p ops ih =>
    obtain ⟨s, v⟩ := p
    by_cases f : Fits s v
    · have : ∃ p ∈ ops, ¬ Fits p.1 p.2 := by
        obtain ⟨q, hq, n⟩ := h
        rcases List.mem_cons.1 hq with rfl | hq
        · exact absurd f n
        · exact ⟨q, hq, n⟩
      have e := assign_fit o f
      unfold assignAll
      rcases k : assign o s v with ⟨o', e'⟩
      rw [k] at e
      obtain rfl : e' = Option.none := e
      exact ih this o'
    · unfold assignAll
      rw [assign_unfit o f]

lemma default_fits (s : Setting) : Fits s (default s) := by
  cases s
  · exact .ftol rfl
  · exact .xtol rfl
  · exact .gtol rfl
  · exact .epsfcnNone
  · exact .stepfactor rfl
  · exact .covtol rfl
  · exact .maxiter rfl
  · exact .maxfevNone
  · exact .nofinitecheck _
  · exact .nanPolicy _

lemma mem_order (s : Setting) : s ∈ order := by cases s <;> simp [order]

lemma kept_create (given : Setting → Option Value) (s : Setting) (l : List Setting) (o : Object) (hl : s ∈ l)
    (h : ∀ t, Fits t ((given t).getD (default t))) :
    kept (assignMany o (l.map fun s => (s, (given s).getD (default s)))) s = some (Meaning s ((given s).getD (default s))) := by
  induction l generalizing o with
  | nil => simp at hl
  | cons t l ih =>
    show kept (assignMany (assign o t _).1 (l.map _)) s = _
    by_cases hs : s ∈ l
    · exact ih _ hs
    · obtain rfl : s = t := by simpa [hs] using hl
      clear ih hl
      have k := kept_assign o (h s) s
      rw [if_pos rfl] at k
      revert k
      generalize (assign o s ((given s).getD (default s))).1 = o'
      intro k
      induction l generalizing o' with
      | nil => exact k
      | cons u l ih =>
        show kept (assignMany (assign o' u _).1 (l.map _)) s = _
        refine ih (fun c => hs (by simp [c])) _ ?_
        rw [kept_assign _ (h u), if_neg (fun c => hs (by simp [c])), k]

/-! ## C173 -/

/-- **C173**: a fitter is created exactly if all settings given fit; otherwise `ValueError` is raised. -/
theorem C173_create (given : Setting → Option Value) :
    ((∀ s v, given s = some v → Fits s v) → ∃ o, create given = .ok o) ∧
    ((∃ s v, given s = some v ∧ ¬ Fits s v) → create given = .error .valueError) := by
  constructor
  · intro h
    refine ⟨_, assignAll_ok _ ?_ _⟩
    intro p hp
    obtain ⟨s, -, rfl⟩ := List.mem_map.1 hp
    cases e : given s with
    | none => exact default_fits s
    | some v => exact h s v e
  · rintro ⟨s, v, e, n⟩
    refine assignAll_error _ ⟨(s, v), List.mem_map.2 ⟨s, mem_order s, by rw [e]; rfl⟩, n⟩ _

/-- **C173** (partial): after any history of assignments, some of which may have been refused, every setting other than `nofinitecheck`
reads as the latest value that fits, or as the one given in the beginning or its default.  Missing: `nofinitecheck`
(`C173_nofinitecheck_false`). -/
theorem C173_latest_partial {given : Setting → Option Value} {o : Object} (h : create given = .ok o) (ops : List (Setting × Value))
    {s : Setting} (hs : s ≠ .nofinitecheck) {v : Value}
    (l : Latest s (Meaning s ((given s).getD (default s))) ops.reverse v) : read (assignMany o ops) s = .ok v := by
  have fits : ∀ t, Fits t ((given t).getD (default t)) := by
    intro t
    by_contra n
    have := assignAll_error (order.map fun s => (s, (given s).getD (default s))) ⟨(t, _), List.mem_map.2 ⟨t, mem_order t, rfl⟩, n⟩ .new
    rw [show assignAll .new _ = create given from rfl, h] at this
    cases this
  have e : create given = .ok _ := assignAll_ok _ (by
    intro p hp
    obtain ⟨s, -, rfl⟩ := List.mem_map.1 hp
    exact fits s) .new
  rw [h] at e
  injection e with e
  have k := kept_create given s order .new (mem_order s) fits
  rw [← e] at k
  rw [read_kept _ hs, kept_many o ops s _ v k l]
  rfl

/-- Some value is always the latest. -/
theorem C173_latest_exists (s : Setting) (start : Value) (h : List (Setting × Value)) : ∃ v, Latest s start h v := by
  induction h with
  | nil => exact ⟨_, .start⟩
  | cons p h ih =>
    obtain ⟨t, v⟩ := p
    obtain ⟨w, l⟩ := ih
    by_cases e : t = s
    · subst e
      by_cases f : Fits t v
      · exact ⟨_, .this f⟩
      · exact ⟨w, .unfit f l⟩
    · exact ⟨w, .elsewhere e l⟩

/-- **C173**: a value that does not fit is refused with `ValueError` and changes nothing; one that fits is taken. -/
theorem C173_refused (o : Object) (s : Setting) (v : Value) :
    (¬ Fits s v → assign o s v = (o, some .valueError)) ∧ (Fits s v → (assign o s v).2 = Option.none) :=
  ⟨assign_unfit o, assign_fit o⟩

/-- **C173**: LMFIT gets the settings as they read: the tolerances, the number of evaluations, the step and the handling of NaN. -/
theorem C173_passed (o : Object) {p : Passed} (h : passed o = .ok p) :
    read o .ftol = .ok p.ftol ∧ read o .xtol = .ok p.xtol ∧ read o .gtol = .ok p.gtol ∧ read o .maxfev = .ok p.maxfev ∧
    read o .epsfcn = .ok p.epsfcn ∧ read o .stepfactor = .ok p.factor ∧ read o .nanPolicy = .ok p.nanPolicy := by
  unfold passed at h
  cases h1 : read o .nanPolicy with
  | error e => rw [h1] at h; cases h
  | ok a1 =>
  cases h2 : read o .ftol with
  | error e => rw [h1, h2] at h; cases h
  | ok a2 =>
  cases h3 : read o .xtol with
  | error e => rw [h1, h2, h3] at h; cases h
  | ok a3 =>
  cases h4 : read o .gtol with
  | error e => rw [h1, h2, h3, h4] at h; cases h
  | ok a4 =>
  cases h5 : read o .maxfev with
  | error e => rw [h1, h2, h3, h4, h5] at h; cases h
  | ok a5 =>
  cases h6 : read o .epsfcn with
  | error e => rw [h1, h2, h3, h4, h5, h6] at h; cases h
  | ok a6 =>
  cases h7 : read o .stepfactor with
  | error e => rw [h1, h2, h3, h4, h5, h6, h7] at h; cases h
  | ok a7 =>
  rw [h1, h2, h3, h4, h5, h6, h7] at h
  injection h with h
  subst h
  exact ⟨rfl, rfl, rfl, rfl, rfl, rfl, rfl⟩

/-- **C173**: a new fitter can always pass its settings. -/
theorem C173_passes {given : Setting → Option Value} {o : Object} (h : create given = .ok o) (ops : List (Setting × Value)) :
    ∃ p, passed (assignMany o ops) = .ok p := by
  have r : ∀ s, s ≠ .nofinitecheck → ∃ v, read (assignMany o ops) s = .ok v := by
    intro s hs
    obtain ⟨v, l⟩ := C173_latest_exists s (Meaning s ((given s).getD (default s))) ops.reverse
    exact ⟨v, C173_latest_partial h ops hs l⟩
  obtain ⟨a1, h1⟩ := r .nanPolicy (by decide)
  obtain ⟨a2, h2⟩ := r .ftol (by decide)
  obtain ⟨a3, h3⟩ := r .xtol (by decide)
  obtain ⟨a4, h4⟩ := r .gtol (by decide)
  obtain ⟨a5, h5⟩ := r .maxfev (by decide)
  obtain ⟨a6, h6⟩ := r .epsfcn (by decide)
  obtain ⟨a7, h7⟩ := r .stepfactor (by decide)
  unfold passed
  rw [h1, h2, h3, h4, h5, h6, h7]
  exact ⟨_, rfl⟩

/-- The defaults of the documentation (fitter.py 38-67; `gtol` is not described there). -/
def documented : Setting → Option Value
  | .ftol | .xtol => some (.float (1 / 10 ^ 10))
  | .gtol => Option.none
  | .epsfcn => some (.float (1 / 2 ^ 52))
  | .stepfactor => some (.float 100)
  | .covtol => some (.float (1 / 10 ^ 14))
  | .maxiter => some (.int 200)
  | .maxfev => some (.int 0)
  | .nofinitecheck => some (.bool false)
  | .nanPolicy => some (.str "omit")

/-- **C173**: a setting that was not given reads as the documented default, except `nofinitecheck`, also if others are assigned. -/
theorem C173_documented_partial {given : Setting → Option Value} {o : Object} (h : create given = .ok o) (ops : List (Setting × Value))
    {s : Setting} {v : Value} (hs : s ≠ .nofinitecheck) (hg : given s = Option.none) (ho : ∀ e ∈ ops, e.1 ≠ s) (hd : documented s = some v) :
    read (assignMany o ops) s = .ok v := by
  have m : Meaning s ((given s).getD (default s)) = v := by
    rw [hg]
    revert hd
    cases s <;> simp [documented, Meaning, default, eps]
  refine C173_latest_partial h ops hs (m ▸ ?_)
  have ho' : ∀ e ∈ ops.reverse, e.1 ≠ s := fun e he => ho e (List.mem_reverse.1 he)
  revert ho'
  generalize ops.reverse = l
  induction l with
  | nil => exact fun _ => .start
  | cons e l ih => exact fun ho => .elsewhere (ho e List.mem_cons_self) (ih fun x hx => ho x (List.mem_cons_of_mem _ hx))

/-- **C173 is false** in full: `nofinitecheck` can never be read, whatever was assigned. -/
theorem C173_nofinitecheck_false (o : Object) (b : Bool) :
    (assign o .nofinitecheck (.bool b)).2 = Option.none ∧
    read (assign o .nofinitecheck (.bool b)).1 .nofinitecheck = .error .attributeError := ⟨rfl, rfl⟩

/-- A history with a value that is refused: a tolerance is set, then a text is tried, and another setting changed. -/
example : Latest .ftol (.float (1 / 10 ^ 10)) [(.maxfev, .none), (.ftol, .str "1e-3"), (.ftol, .float (1 / 1000))] (.float (1 / 1000)) := by
  refine .elsewhere (by decide) (.unfit ?_ ?_)
  · intro h; cases h with | ftol h => simp [isNumber] at h
  · have : Meaning .ftol (.float (1 / 1000)) = .float (1 / 1000) := by simp [Meaning]
    have h := Latest.this (s := .ftol) (start := .float (1 / 10 ^ 10)) (h := []) (v := .float (1 / 1000)) (.ftol rfl)
    rwa [this] at h

/-- A fitter with a setting of its own. -/
example : ∃ o, create (fun s => if s = .maxfev then some (.int 50) else Option.none) = .ok o :=
  (C173_create _).1 fun s v h => by
    split_ifs at h with e
    subst e; injection h with h; subst h; exact .maxfev rfl

end Verif.Fitter.Settings
