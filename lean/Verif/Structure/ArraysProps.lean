import Verif.Structure.Arrays
import Mathlib.Data.List.GetD

/-! # Property theorems: structure factors of many reflections (C208) -/

namespace Verif.Structure

open Real Matrix Verif.Crystal

/-! ## Specification -/

/-- The value for reflection `i`: a number stands for all of them. -/
def NumArr.at (a : NumArr ℝ) (i : ℕ) : ℝ := match a with
  | .num x => x
  | .arr xs => xs.getD i 0

/-- A number, or an array of length `n`. -/
def NumArr.Fits (n : ℕ) : NumArr ℝ → Prop
  | .num _ => True
  | .arr xs => xs.length = n

def NumArr.IsArr : NumArr ℝ → Prop
  | .num _ => False
  | .arr _ => True

/-- The structure factors of the single reflections. -/
noncomputable def single (lat : Lattice) (w : ℝ) (atoms : List Atom) (h k l : NumArr ℝ) (n : ℕ) : Except Fail (List ℂ) :=
  (List.range n).mapM fun i => calcNucStrFac lat w atoms ![h.at i, k.at i, l.at i]

/-! ## Lemmas -/

variable {lat : Lattice} {w : ℝ}

/-- An array given by its entries. -/
theorem fits_eq {n : ℕ} {a : NumArr ℝ} (h : a.Fits n) (ha : a.IsArr) : a = .arr ((List.range n).map a.at) := by
  cases a with
  | num x => exact ha.elim
  | arr xs =>
    congr 1
    apply List.ext_getElem
    · simp only [List.length_map, List.length_range]; exact h
    · intro i h1 h2
      simp [NumArr.at, List.getElem?_eq_getElem h1]

theorem op_add {n : ℕ} {a b : NumArr ℝ} (ha : a.Fits n) (hb : b.Fits n) :
    ∃ c, NumArr.op (· + ·) a b = .ok c ∧ c.Fits n ∧ (c.IsArr ↔ a.IsArr ∨ b.IsArr) ∧ ∀ i, i < n ∨ ¬ c.IsArr → c.at i = a.at i + b.at i := by
  cases a with
  | num x =>
    cases b with
    | num y => exact ⟨_, rfl, trivial, by simp [NumArr.IsArr], fun i _ => rfl⟩
    | arr ys =>
      refine ⟨_, rfl, by simpa [NumArr.Fits] using hb, by simp [NumArr.IsArr], fun i hi => ?_⟩
      have hy : ys.length = n := hb
      have hi : i < n := hi.resolve_right (fun h => h trivial)
      simp only [NumArr.at]
      rw [List.getD_eq_getElem _ _ (by simp; omega), List.getD_eq_getElem _ _ (by omega), List.getElem_map]
  | arr xs =>
    have hx : xs.length = n := ha
    cases b with
    | num y =>
      refine ⟨_, rfl, by simpa [NumArr.Fits] using ha, by simp [NumArr.IsArr], fun i hi => ?_⟩
      have hi : i < n := hi.resolve_right (fun h => h trivial)
      simp only [NumArr.at]
      rw [List.getD_eq_getElem _ _ (by simp; omega), List.getD_eq_getElem _ _ (by omega), List.getElem_map]
    | arr ys =>
      have hy : ys.length = n := hb
      refine ⟨.arr (List.zipWith (· + ·) xs ys), by simp [NumArr.op, hx, hy], by simp [NumArr.Fits, hx, hy], by simp [NumArr.IsArr], fun i hi => ?_⟩
      have hi : i < n := hi.resolve_right (fun h => h trivial)
      simp only [NumArr.at]
      rw [List.getD_eq_getElem _ _ (by simp; omega), List.getD_eq_getElem _ _ (by omega), List.getD_eq_getElem _ _ (by omega), List.getElem_zipWith]

theorem map_fits {n : ℕ} {a : NumArr ℝ} (ha : a.Fits n) (f : ℝ → ℝ) :
    (a.map f).Fits n ∧ ((a.map f).IsArr ↔ a.IsArr) ∧ ∀ i, i < n ∨ ¬ a.IsArr → (a.map f).at i = f (a.at i) := by
  cases a with
  | num x => exact ⟨trivial, Iff.rfl, fun i _ => rfl⟩
  | arr xs =>
    have hx : xs.length = n := ha
    refine ⟨by simp [NumArr.map, NumArr.Fits, hx], Iff.rfl, fun i hi => ?_⟩
    have hi : i < n := hi.resolve_right (fun h => h trivial)
    simp only [NumArr.at, NumArr.map]
    rw [List.getD_eq_getElem _ _ (by simp; omega), List.getD_eq_getElem _ _ (by omega), List.getElem_map]

theorem phase_ok {n : ℕ} {h k l : NumArr ℝ} (hh : h.Fits n) (hk : k.Fits n) (hl : l.Fits n) (pos : Vec) :
    ∃ p, phaseArr h k l pos = .ok p ∧ p.Fits n ∧ (p.IsArr ↔ h.IsArr ∨ k.IsArr ∨ l.IsArr) ∧
      ∀ i, i < n ∨ ¬ p.IsArr → p.at i = h.at i * pos 0 + k.at i * pos 1 + l.at i * pos 2 := by
  obtain ⟨h1, h2, h3⟩ := map_fits hh (· * pos 0)
  obtain ⟨k1, k2, k3⟩ := map_fits hk (· * pos 1)
  obtain ⟨l1, l2, l3⟩ := map_fits hl (· * pos 2)
  obtain ⟨c, c0, c1, c2, c3⟩ := op_add h1 k1
  obtain ⟨p, p0, p1, p2, p3⟩ := op_add c1 l1
  refine ⟨p, ?_, p1, by rw [p2, c2, h2, k2, l2, or_assoc], fun i hi => ?_⟩
  · unfold phaseArr
    rw [c0]
    exact p0
  · have hi' : ∀ {q : NumArr ℝ}, (q.IsArr → p.IsArr) → i < n ∨ ¬ q.IsArr := fun hq => hi.imp id fun h hn => h (hq hn)
    rw [p3 i hi, c3 i (hi' fun h => p2.2 (.inl h)), h3 i (hi' fun h => p2.2 (.inl (c2.2 (.inl (h2.2 h))))),
      k3 i (hi' fun h => p2.2 (.inl (c2.2 (.inr (k2.2 h))))), l3 i (hi' fun h => p2.2 (.inr (l2.2 h)))]

/-- The value of one term. -/
noncomputable def termVal (a : Atom) (d : ℝ) (x : ℝ) : ℂ :=
  a.occupancy * a.b * Complex.exp (Complex.I * 2 * π * (x : ℂ)) * d * dwAniso a

theorem contribution_val (a : Atom) (v : Vec) : contribution lat w v a =
    (dwIso lat w a).map fun d => termVal a d (v 0 * a.pos 0 + v 1 * a.pos 1 + v 2 * a.pos 2) := by
  unfold contribution termVal
  cases dwIso lat w a with
  | error e => rfl
  | ok d =>
    show Except.ok _ = Except.ok _
    push_cast
    rfl

theorem contributionArr_val {n : ℕ} {h k l : NumArr ℝ} (hh : h.Fits n) (hk : k.Fits n) (hl : l.Fits n)
    (hs : h.IsArr ∨ k.IsArr ∨ l.IsArr) (a : Atom) :
    (∃ e, dwIso lat w a = .error e ∧ contributionArr lat w h k l a = .error (.value e)) ∨
    ∃ d, dwIso lat w a = .ok d ∧ contributionArr lat w h k l a =
      .ok (.arr ((List.range n).map fun i => termVal a d (h.at i * a.pos 0 + k.at i * a.pos 1 + l.at i * a.pos 2))) := by
  obtain ⟨p, p0, p1, p2, p3⟩ := phase_ok hh hk hl a.pos
  have hp := fits_eq p1 (p2.2 hs)
  unfold contributionArr
  rw [p0]
  cases hd : dwIso lat w a with
  | error e => exact .inl ⟨e, rfl, rfl⟩
  | ok d =>
    refine .inr ⟨d, rfl, ?_⟩
    show Except.ok (p.map (termVal a d)) = _
    rw [hp]
    show Except.ok (NumArr.arr _) = _
    rw [List.map_map]
    congr 2
    apply List.map_congr_left
    intro i hi
    rw [Function.comp_apply, p3 i (.inl (List.mem_range.1 hi))]

/-- The steps of the two computations. -/
noncomputable abbrev stepArr (lat : Lattice) (w : ℝ) (h k l : NumArr ℝ) : NumArr ℂ → Atom → Except ArrFail (NumArr ℂ) :=
  fun s a => do NumArr.op (· + ·) s (← contributionArr lat w h k l a)

noncomputable abbrev stepOne (lat : Lattice) (w : ℝ) (v : Vec) : ℂ → Atom → Except Fail ℂ :=
  fun s a => do pure (s + (← contribution lat w v a))

/-- Both fail with the same error, or the array holds the single results. -/
def Agree (n : ℕ) (x : Except ArrFail (NumArr ℂ)) (y : ℕ → Except Fail ℂ) : Prop :=
  (∃ e, x = .error (.value e) ∧ ∀ i, y i = .error e) ∨
    ∃ v : ℕ → ℂ, x = .ok (.arr ((List.range n).map v)) ∧ ∀ i, y i = .ok (v i)

theorem step_agree {n : ℕ} {h k l : NumArr ℝ} (hh : h.Fits n) (hk : k.Fits n) (hl : l.Fits n)
    (hs : h.IsArr ∨ k.IsArr ∨ l.IsArr) (a : Atom) (s : NumArr ℂ) (t : ℕ → ℂ)
    (hst : s = .arr ((List.range n).map t) ∨ ∃ z, s = .num z ∧ t = fun _ => z) :
    Agree n (stepArr lat w h k l s a) fun i => stepOne lat w ![h.at i, k.at i, l.at i] (t i) a := by
  rcases contributionArr_val (lat := lat) (w := w) hh hk hl hs a with ⟨e, hd, hc⟩ | ⟨d, hd, hc⟩
  · refine .inl ⟨e, ?_, fun i => ?_⟩
    · show (contributionArr lat w h k l a >>= _) = _
      rw [hc]; rfl
    · show (contribution lat w _ a >>= _) = _
      rw [contribution_val, hd]; rfl
  · refine .inr ⟨fun i => t i + termVal a d (h.at i * a.pos 0 + k.at i * a.pos 1 + l.at i * a.pos 2), ?_, fun i => ?_⟩
    · show (contributionArr lat w h k l a >>= fun c => NumArr.op (· + ·) s c) = _
      rw [hc]
      show NumArr.op (· + ·) s _ = _
      rcases hst with rfl | ⟨z, rfl, rfl⟩
      · simp only [NumArr.op, List.length_map, if_true]
        rw [List.zipWith_map, List.zipWith_self]
      · simp [NumArr.op, List.map_map, Function.comp_def]
    · show (contribution lat w _ a >>= _) = _
      rw [contribution_val, hd]; rfl

theorem fold_agree {n : ℕ} {h k l : NumArr ℝ} (hh : h.Fits n) (hk : k.Fits n) (hl : l.Fits n)
    (hs : h.IsArr ∨ k.IsArr ∨ l.IsArr) (atoms : List Atom) : ∀ (t : ℕ → ℂ),
    Agree n (atoms.foldlM (stepArr lat w h k l) (.arr ((List.range n).map t)))
      fun i => atoms.foldlM (stepOne lat w ![h.at i, k.at i, l.at i]) (t i) := by
  induction atoms with
  | nil => exact fun t => .inr ⟨t, rfl, fun i => rfl⟩
  | cons a as ih =>
    intro t
    simp only [List.foldlM_cons]
    rcases step_agree (lat := lat) (w := w) hh hk hl hs a _ t (.inl rfl) with ⟨e, h1, h2⟩ | ⟨v, h1, h2⟩
    · exact .inl ⟨e, by rw [h1]; rfl, fun i => (congrArg (· >>= _) (h2 i)).trans rfl⟩
    · rcases ih v with ⟨e, h3, h4⟩ | ⟨u, h3, h4⟩
      · exact .inl ⟨e, by rw [h1]; exact h3, fun i => (congrArg (· >>= _) (h2 i)).trans (h4 i)⟩
      · exact .inr ⟨u, by rw [h1]; exact h3, fun i => (congrArg (· >>= _) (h2 i)).trans (h4 i)⟩

theorem agree_mapM {n : ℕ} (hn : n ≠ 0) {x : Except ArrFail (NumArr ℂ)} {y : ℕ → Except Fail ℂ} (h : Agree n x y) :
    x = match (List.range n).mapM y with
      | .ok vs => .ok (.arr vs)
      | .error e => .error (.value e) := by
  rcases h with ⟨e, rfl, h⟩ | ⟨v, rfl, h⟩
  · have : (List.range n).mapM y = .error e := by
      obtain ⟨m, rfl⟩ := Nat.exists_eq_succ_of_ne_zero hn
      rw [List.range_succ_eq_map, List.mapM_cons, h]; rfl
    rw [this]
  · have : y = fun i => pure (v i) := funext h
    rw [this, List.mapM_pure]; rfl

/-! ## Theorems -/

/-- With lists or arrays of one length `n > 0` for h, k, l (or for some of them, numbers for the others) the structure
factor of a material with atoms is the array of the structure factors of the single reflections, in their order; if one of
these cannot be computed the call fails with the same error. -/
theorem C208_array_partial {n : ℕ} (hn : n ≠ 0) {h k l : NumArr ℝ} (hh : h.Fits n) (hk : k.Fits n) (hl : l.Fits n)
    (hs : h.IsArr ∨ k.IsArr ∨ l.IsArr) {atoms : List Atom} (ha : atoms ≠ []) :
    calcNucStrFacArr lat w atoms h k l = match single lat w atoms h k l n with
      | .ok vs => .ok (.arr vs)
      | .error e => .error (.value e) := by
  obtain ⟨a, as, rfl⟩ := List.exists_cons_of_ne_nil ha
  refine agree_mapM hn (y := fun i => calcNucStrFac lat w (a :: as) ![h.at i, k.at i, l.at i]) ?_
  show Agree n (List.foldlM (stepArr lat w h k l) (.num 0) (a :: as)) fun i => List.foldlM (stepOne lat w ![h.at i, k.at i, l.at i]) 0 (a :: as)
  simp only [List.foldlM_cons]
  rcases step_agree (lat := lat) (w := w) hh hk hl hs a (.num 0) (fun _ => 0) (.inr ⟨0, rfl, rfl⟩) with ⟨e, h1, h2⟩ | ⟨v, h1, h2⟩
  · exact .inl ⟨e, by rw [h1]; rfl, fun i => (congrArg (· >>= _) (h2 i)).trans rfl⟩
  · rcases fold_agree (lat := lat) (w := w) hh hk hl hs as v with ⟨e, h3, h4⟩ | ⟨u, h3, h4⟩
    · exact .inl ⟨e, by rw [h1]; exact h3, fun i => (congrArg (· >>= _) (h2 i)).trans (h4 i)⟩
    · exact .inr ⟨u, by rw [h1]; exact h3, fun i => (congrArg (· >>= _) (h2 i)).trans (h4 i)⟩

example : (NumArr.arr [1, 2, 3]).Fits 3 ∧ (NumArr.num 0).Fits 3 ∧ (NumArr.arr [1, 2, 3]).IsArr := ⟨rfl, trivial, trivial⟩

/-- With numbers the result is the number for the one reflection. -/
theorem C208_number (x y z : ℝ) (atoms : List Atom) : calcNucStrFacArr lat w atoms (.num x) (.num y) (.num z) =
    match calcNucStrFac lat w atoms ![x, y, z] with
      | .ok v => .ok (.num v)
      | .error e => .error (.value e) := by
  have key : ∀ (as : List Atom) (s : ℂ), as.foldlM (stepArr lat w (.num x) (.num y) (.num z)) (.num s) =
      match as.foldlM (stepOne lat w ![x, y, z]) s with
      | .ok v => .ok (.num v)
      | .error e => .error (.value e) := by
    intro as
    induction as with
    | nil => exact fun s => rfl
    | cons a as ih =>
      intro s
      have hc : contributionArr lat w (.num x) (.num y) (.num z) a = match dwIso lat w a with
          | .ok d => .ok (.num (termVal a d (x * a.pos 0 + y * a.pos 1 + z * a.pos 2)))
          | .error e => .error (.value e) := by
        unfold contributionArr
        cases dwIso lat w a <;> rfl
      simp only [List.foldlM_cons]
      cases hd : dwIso lat w a with
      | error e =>
        have h1 : stepArr lat w (.num x) (.num y) (.num z) (.num s) a = .error (.value e) := by
          show (contributionArr lat w _ _ _ a >>= _) = _
          rw [hc, hd]; rfl
        have h2 : stepOne lat w ![x, y, z] s a = .error e := by
          show (contribution lat w _ a >>= _) = _
          rw [contribution_val, hd]; rfl
        rw [h1, h2]; rfl
      | ok d =>
        have h1 : stepArr lat w (.num x) (.num y) (.num z) (.num s) a = .ok (.num (s + termVal a d (x * a.pos 0 + y * a.pos 1 + z * a.pos 2))) := by
          show (contributionArr lat w _ _ _ a >>= _) = _
          rw [hc, hd]; rfl
        have h2 : stepOne lat w ![x, y, z] s a = .ok (s + termVal a d (x * a.pos 0 + y * a.pos 1 + z * a.pos 2)) := by
          show (contribution lat w _ a >>= _) = _
          rw [contribution_val, hd]; rfl
        rw [h1, h2]
        exact ih _
  exact key atoms 0

/-- Arrays whose lengths differ, none of them one, are refused. -/
theorem C208_shapes {xs ys : List ℝ} (h1 : xs.length ≠ ys.length) (hx : xs.length ≠ 1) (hy : ys.length ≠ 1) (l : NumArr ℝ)
    {atoms : List Atom} (ha : atoms ≠ []) : calcNucStrFacArr lat w atoms (.arr xs) (.arr ys) l = .error .shape := by
  obtain ⟨a, as, rfl⟩ := List.exists_cons_of_ne_nil ha
  have hop : NumArr.op (· + ·) ((NumArr.arr xs).map (· * a.pos 0)) ((NumArr.arr ys).map (· * a.pos 1)) = .error .shape := by
    simp only [NumArr.map, NumArr.op, List.length_map, if_neg h1]
    match xs, ys, hx, hy with
    | [], [], _, _ => exact absurd rfl h1
    | [], _ :: _ :: _, _, _ => rfl
    | _ :: _ :: _, [], _, _ => rfl
    | _ :: _ :: _, _ :: _ :: _, _, _ => rfl
    | [_], _, h, _ => exact absurd rfl h
    | _, [_], _, h => exact absurd rfl h
  have hc : contributionArr lat w (.arr xs) (.arr ys) l a = .error .shape := by
    unfold contributionArr phaseArr
    rw [hop]; rfl
  show List.foldlM (stepArr lat w _ _ l) (.num 0) (a :: as) = _
  rw [List.foldlM_cons]
  show ((contributionArr lat w _ _ l a >>= _) >>= _) = _
  rw [hc]; rfl

example : ([1, 2] : List ℝ).length ≠ ([1, 2, 3] : List ℝ).length ∧ ([1, 2] : List ℝ).length ≠ 1 ∧ ([1, 2, 3] : List ℝ).length ≠ 1 := by simp

/-- The property fails for a material without atoms: the answer to a query for arrays is then the number 0. -/
theorem C208_empty_false : ¬ ∀ (lat : Lattice) (w : ℝ) (atoms : List Atom) (xs : List ℝ),
    ∃ vs : List ℂ, calcNucStrFacArr lat w atoms (.arr xs) (.num 0) (.num 0) = .ok (.arr vs) ∨
      ∃ e, calcNucStrFacArr lat w atoms (.arr xs) (.num 0) (.num 0) = .error e := by
  intro h
  obtain ⟨vs, h | ⟨e, h⟩⟩ := h ⟨4, 4, 4, 90, 90, 90⟩ 2 [] [1, 2]
  · have h : (Except.ok (NumArr.num 0) : Except ArrFail (NumArr ℂ)) = .ok (.arr vs) := h
    cases h
  · have h : (Except.ok (NumArr.num 0) : Except ArrFail (NumArr ℂ)) = .error e := h
    cases h

end Verif.Structure
