import Verif.Data.ArithProps

set_option linter.unusedSectionVars false

/-!
# Properties C07, C08, C20, C21, C73, C74, C75

Augmented assignment, histories of operations, comparison, construction from a
matrix, naming, sharing of arrays and background subtraction on an axis.
-/

namespace Verif.Data

variable {α : Type} [Field α] [LinearOrder α]

/-! ## C07 -/

/-- **C07 is false**: whatever the data set and the operand, an augmented
assignment that succeeds leaves `None` in the variable; a second one always
fails; `//=` always fails. -/
theorem C07_augmented_assignment_gives_None (sqrt : α → α) (d : DataObj α) (op : AugOp α) :
    (∀ v, augAssign sqrt (.data d) op = .ok v → v = .none ∧
      ∀ op', augAssign sqrt v op' = .error .typeError) ∧
    ∀ c, augAssign sqrt (.data d) (.floordiv c) = .error .nameError := by
  constructor
  · intro v hv
    have : v = .none := by
      unfold augAssign at hv
      obtain ⟨⟨d', r⟩, h1, h2⟩ := bind_eq_ok.1 hv
      have hr : r = .none := by
        cases op <;> simp only [inplace] at h1
        case floordiv => cases h1
        all_goals
          obtain ⟨x, -, h3⟩ := bind_eq_ok.1 h1
          cases h3; rfl
      simp only [pure_ok, Except.ok.injEq] at h2
      rw [← h2, hr]
    subst this
    exact ⟨rfl, fun _ => rfl⟩
  · intro c; rfl

/-- An augmented assignment that succeeds (and so loses the data). -/
example : augAssign (fun x : ℚ => x) (.data exA) (.mul 2) = .ok .none := by decide +kernel
example : augAssign (fun x : ℚ => x) (.data exA) (.add exB) = .ok .none := by decide +kernel

/-- **C07** (what does hold) the object itself is updated by `+=`, `-=`, `*=` and
`/=` to the columns that the binary operator returns, and fails when that fails.
Missing: the variable does not keep the object, and `//=`. -/
theorem C07_object_updated_partial (sqrt fl : α → α) (d : DataObj α) (op : AugOp α)
    (hop : ∀ c, op ≠ .floordiv c) :
    (inplace sqrt d op).map (fun r => r.1.cols) = (binary sqrt fl d op).map (fun r => r.cols) := by
  cases op with
  | floordiv c => exact absurd rfl (hop c)
  | add x =>
    simp only [inplace, binary, combineInPlace, combineRet]
    cases combineTable d x none <;> rfl
  | sub x =>
    simp only [inplace, binary]
    cases subtract sqrt d x <;> rfl
  | mul c =>
    simp only [inplace, binary]
    cases Data.mul d c <;> rfl
  | div c =>
    simp only [inplace, binary]
    cases Data.div d c <;> rfl

/-! ## C08 -/

/-- The normaliser is unset or the largest monitor value, and the intensity is
normalised to the monitor. -/
structure Current (d : DataObj α) : Prop where
  names : d.dk.values.Nodup
  mon : d.timeNorm = false
  m0 : d.m0 = 0 ∨ ∀ m, d.monitor = .ok m → m ≠ [] → d.m0 = maxOf m

/-- The operations of a history that do not change an object in place. -/
def HistOp.Pure : HistOp α → Prop
  | .addInPlace _ _ => False
  | .setMonitor _ => False
  | _ => True

theorem maxOf_replicate_one (n : Nat) : maxOf (List.replicate (n + 1) (1 : α)) = 1 := by
  simp only [maxOf, List.replicate_succ, List.tail_cons, List.headD_cons]
  induction n with
  | zero => rfl
  | succ n ih => simpa [List.replicate_succ] using ih

theorem normalise_current {d : DataObj α} (h : Current d) {d' : DataObj α} {m : List α} {m0 : α}
    (hn : normalise d = .ok (d', m, m0)) : Current d' ∧ d'.dk = d.dk ∧ d'.cols = d.cols ∧
      d.monitor = .ok m ∧ (m ≠ [] → m0 = maxOf m) := by
  unfold normalise at hn
  simp only [h.mon, Bool.false_eq_true, if_false] at hn
  obtain ⟨m', h1, h2⟩ := bind_eq_ok.1 hn
  obtain ⟨m0', h3, h4⟩ : ∃ m0', (if d.m0 = 0 then nanmax m' else .ok d.m0) = .ok m0' ∧
      (({ d with m0 := m0' }, m', m0') : DataObj α × List α × α) = (d', m, m0) := by
    split at h2
    · next h0 =>
      obtain ⟨m0', h3, h4⟩ := bind_eq_ok.1 h2
      rw [if_pos h0]
      simp only [pure_ok, Except.ok.injEq, ← h.mon] at h4
      exact ⟨m0', h3, h4⟩
    · next h0 =>
      obtain ⟨m0', h3, h4⟩ := bind_eq_ok.1 h2
      rw [if_neg h0]
      simp only [pure_ok, Except.ok.injEq, ← h.mon] at h4
      exact ⟨m0', h3, h4⟩
  simp only [Prod.mk.injEq] at h4
  obtain ⟨rfl, rfl, rfl⟩ := h4
  have key : m' ≠ [] → m0' = maxOf m' := by
    intro hne
    split at h3
    · exact (nanmax_eq h3).1
    · next h0 =>
      cases h3
      rcases h.m0 with h0' | h0'
      · exact absurd h0' h0
      · exact h0' _ h1 hne
  refine ⟨⟨h.names, h.mon, ?_⟩, rfl, rfl, h1, key⟩
  right
  intro m hm hne
  have : d.monitor = .ok m := hm
  rw [h1] at this; cases this
  exact key hne

theorem intensity_current {d : DataObj α} (h : Current d) {i : List α} {d' : DataObj α}
    (hi : intensity d = .ok (i, d')) : Current d' ∧ d'.dk = d.dk ∧ d'.cols = d.cols := by
  unfold intensity at hi
  obtain ⟨⟨d1, m, m0⟩, h1, h2⟩ := bind_eq_ok.1 hi
  obtain ⟨a, b, c, _⟩ := normalise_current h h1
  obtain ⟨det, _, h4⟩ := bind_eq_ok.1 h2
  obtain ⟨q, _, h6⟩ := bind_eq_ok.1 h4
  simp only [pure_ok, Except.ok.injEq, Prod.mk.injEq] at h6
  rw [← h6.2]
  exact ⟨a, b, c⟩

theorem error_current {sqrt : α → α} {d : DataObj α} (h : Current d) {i : List α} {d' : DataObj α}
    (hi : error sqrt d = .ok (i, d')) : Current d' := by
  unfold error at hi
  obtain ⟨e, _, h0⟩ := bind_eq_ok.1 hi
  obtain ⟨⟨d1, m, m0⟩, h1, h2⟩ := bind_eq_ok.1 h0
  obtain ⟨a, b, c, _⟩ := normalise_current h h1
  obtain ⟨q, _, h6⟩ := bind_eq_ok.1 h2
  simp only [pure_ok, Except.ok.injEq, Prod.mk.injEq] at h6
  rw [← h6.2]
  exact a

theorem Current.mul {d : DataObj α} (h : Current d) {v : List α} :
    Current { d with cols := d.cols.put d.dk.detector v } := by
  refine ⟨h.names, h.mon, ?_⟩
  rcases h.m0 with h0 | h0
  · exact Or.inl h0
  · right
    intro m hm hne
    apply h0 m _ hne
    have hne' : d.dk.monitor ≠ d.dk.detector := by
      have := h.names
      simp only [DataKeys.values, List.nodup_cons, List.mem_cons, not_or] at this
      exact this.1.1
    have : (d.cols.put d.dk.detector v).get d.dk.monitor = .ok m := hm
    rw [get_eq_ok, lookup_put, if_neg hne', ← get_eq_ok] at this
    exact this

theorem hist_current {sqrt : α → α} {ops : List (HistOp α)} (hops : ∀ op ∈ ops, op.Pure)
    {d d' : DataObj α} (h : Current d) (hd : hist sqrt d ops = .ok d') : Current d' := by
  induction ops generalizing d with
  | nil => cases hd; exact h
  | cons op ops ih =>
    unfold hist at hd
    rw [List.foldlM_cons] at hd
    obtain ⟨d1, h1, h2⟩ := bind_eq_ok.1 hd
    refine ih (fun o ho => hops o (by simp [ho])) ?_ h2
    have hp := hops op (by simp)
    cases op with
    | add x tols =>
      simp only [histStep, combineRet] at h1
      obtain ⟨t, _, h3⟩ := bind_eq_ok.1 h1
      cases h3
      exact ⟨(by decide : DataKeys.default.values.Nodup), rfl, Or.inl rfl⟩
    | sub x =>
      simp only [histStep] at h1
      obtain ⟨⟨r, a, b⟩, h3, h4⟩ := bind_eq_ok.1 h1
      cases h4
      unfold subtract at h3
      obtain ⟨⟨i1, s1⟩, g1, h3⟩ := bind_eq_ok.1 h3
      obtain ⟨⟨i2, b1⟩, g2, h3⟩ := bind_eq_ok.1 h3
      obtain ⟨int, g3, h3⟩ := bind_eq_ok.1 h3
      obtain ⟨⟨e1, s2⟩, g4, h3⟩ := bind_eq_ok.1 h3
      obtain ⟨⟨e2, b2⟩, g5, h3⟩ := bind_eq_ok.1 h3
      simp only [pure_ok, Except.ok.injEq, Prod.mk.injEq] at h3
      obtain ⟨rfl, rfl, rfl⟩ := h3
      have hs := error_current (intensity_current h g1).1 g4
      refine ⟨hs.names, hs.mon, Or.inr ?_⟩
      intro m hm hne
      have hl : (withSubtracted s2 int (List.zipWith (fun a b => sqrt (max (a ^ 2) (b ^ 2))) e1 e2)).cols.lookup
          s2.dk.monitor = some m := get_eq_ok.1 hm
      have : m = List.replicate int.length 1 := by
        simp only [withSubtracted, lookup_put] at hl
        split at hl
        · simpa using hl.symm
        · simpa using hl.symm
      subst this
      cases hlen : int.length with
      | zero => simp [hlen] at hne
      | succ n => exact (maxOf_replicate_one n).symm
    | mul c =>
      simp only [histStep, Data.mul] at h1
      obtain ⟨v, _, h3⟩ := bind_eq_ok.1 h1
      cases h3
      exact h.mul
    | div c =>
      simp only [histStep, Data.div] at h1
      obtain ⟨v, _, h3⟩ := bind_eq_ok.1 h1
      cases h3
      exact h.mul
    | readIntensity =>
      simp only [histStep] at h1
      obtain ⟨⟨i, r⟩, h3, h4⟩ := bind_eq_ok.1 h1
      cases h4
      exact (intensity_current h h3).1
    | addInPlace x tols => exact hp.elim
    | setMonitor m => exact hp.elim

/-- **C08** after any history of `+`, `-`, `*`, `/` and intensity reads, starting
from a freshly constructed data set, a reported intensity is detector / monitor
times the largest monitor value of the data set as it now is.
Missing from the full claim: combination in place and assignment of the monitor,
for which it is false (`C08_stale_normaliser`). -/
theorem C08_intensity_current_partial (sqrt : α → α) {args : CtorArgs α} {d d' : DataObj α}
    (hd : mkData args = .ok d) {ops : List (HistOp α)} (hops : ∀ op ∈ ops, op.Pure)
    (hh : hist sqrt d ops = .ok d') {i : List α} {d'' : DataObj α}
    (hi : intensity d' = .ok (i, d'')) :
    ∃ det mon, d'.cols.lookup d'.dk.detector = some det ∧ d'.cols.lookup d'.dk.monitor = some mon ∧
      (mon ≠ [] → bcast (fun x y => x / y * maxOf mon) det mon = .ok i) := by
  have hc : Current d := by
    unfold mkData at hd
    obtain ⟨_, h2, _, h4, h5, _, h7, _⟩ := finishCtor_ok hd
    refine ⟨by rw [h4]; decide, h5, Or.inr ?_⟩
    intro m hm _
    have : d.cols.lookup d.dk.monitor = some m := get_eq_ok.1 hm
    rw [h4] at this
    have h2' := h2.symm.trans this
    simp only [Option.some.injEq] at h2'
    rw [h2'] at h7
    exact (nanmax_eq h7).1
  have hc' := hist_current hops hc hh
  unfold intensity at hi
  obtain ⟨⟨d1, m, m0⟩, h1, h2⟩ := bind_eq_ok.1 hi
  obtain ⟨_, b, c, e, f⟩ := normalise_current hc' h1
  obtain ⟨det, h3, h4⟩ := bind_eq_ok.1 h2
  obtain ⟨q, h5, h6⟩ := bind_eq_ok.1 h4
  simp only [pure_ok, Except.ok.injEq, Prod.mk.injEq] at h6
  refine ⟨det, m, ?_, get_eq_ok.1 e, ?_⟩
  · have h3' := get_eq_ok.1 h3
    rw [b, c] at h3'
    exact h3'
  · intro hne
    rw [← f hne, ← h6.1]
    unfold bcast at h5 ⊢
    split
    · next hl =>
      rw [if_pos hl] at h5
      cases h5
      simp only [List.map_zipWith]
    · next hl =>
      rw [if_neg hl] at h5
      split at h5 <;> first | (cases h5; simp) | cases h5

/-- One measured point. -/
def onePoint (h det mon : ℚ) : CtorArgs ℚ :=
  ⟨.num h, .num 0, .num 0, .num 0, .num 0, .num det, .num mon, .num 1⟩

/-- The data set of one point at the origin. -/
def pt8 (det mon time m0 t0 : ℚ) : DataObj ℚ :=
  { emptyData with
    cols := [("h", [0]), ("k", [0]), ("l", [0]), ("e", [0]), ("temp", [0]), ("detector", [det]),
        ("monitor", [mon]), ("time", [time])]
    m0 := m0
    t0 := t0 }

/-- **C08 is false** for the full claim: after combining in place (or assigning
the monitor) the intensity still uses the old normaliser, so a point measured with
the largest monitor does not report its counts.  Here one point with 1 count and
monitor 1 is combined with an identical one: detector 2, monitor 2, but the
reported intensity is 1. -/
theorem C08_stale_normaliser : ∃ (d x : DataObj ℚ) (d' d'' : DataObj ℚ),
    mkData (onePoint 0 1 1) = .ok d ∧ mkData (onePoint 0 1 1) = .ok x ∧
    hist id d [.addInPlace x none] = .ok d' ∧
    d'.cols.lookup "detector" = some [2] ∧ d'.cols.lookup "monitor" = some [2] ∧
    intensity d' = .ok ([1], d'') := by
  refine ⟨pt8 1 1 1 1 1, pt8 1 1 1 1 1, pt8 2 2 2 1 1, pt8 2 2 2 1 1, ?_⟩
  decide +kernel

/-- A history that meets the hypotheses of `C08_intensity_current_partial`. -/
example : ∃ d d' i d'', mkData (onePoint 0 1 1) = .ok d ∧
    hist id d [.mul 3, .add d none, .readIntensity] = .ok d' ∧
    intensity d' = .ok (i, d'') ∧ i = [4] := by
  refine ⟨pt8 1 1 1 1 1, pt8 4 2 2 2 0, [4], pt8 4 2 2 2 0, ?_⟩
  decide +kernel

/-! ## C20 -/

theorem sameKeys_iff {a b : Table α} (ha : (a.map Prod.fst).Nodup) (hb : (b.map Prod.fst).Nodup) :
    isort (fun x y => decide (x ≤ y)) (a.map Prod.fst) =
      isort (fun x y => decide (x ≤ y)) (b.map Prod.fst) ↔
    ∀ k, k ∈ a.map Prod.fst ↔ k ∈ b.map Prod.fst := by
  constructor
  · intro h k
    rw [← (isort_perm (fun x y => decide (x ≤ y)) (a.map Prod.fst)).mem_iff, h,
      (isort_perm _ _).mem_iff]
  · intro h
    have hp : (a.map Prod.fst).Perm (b.map Prod.fst) := (List.perm_ext_iff_of_nodup ha hb).2 h
    have hp' := ((isort_perm (fun x y => decide (x ≤ y)) (a.map Prod.fst)).trans hp).trans
      (isort_perm (fun x y => decide (x ≤ y)) (b.map Prod.fst)).symm
    have tr : ∀ x y z : String, decide (x ≤ y) = true → decide (y ≤ z) = true →
        decide (x ≤ z) = true := by
      intro x y z h1 h2
      simp only [decide_eq_true_eq] at *
      exact String.le_trans h1 h2
    have tot : ∀ x y : String, (decide (x ≤ y) || decide (y ≤ x)) = true := by
      intro x y
      simp only [Bool.or_eq_true, decide_eq_true_eq]
      exact String.le_total x y
    refine hp'.eq_of_pairwise ?_ (isort_pairwise tr tot _) (isort_pairwise tr tot _)
    intro x y _ _ h1 h2
    simp only [decide_eq_true_eq] at h1 h2
    exact String.le_antisymm h1 h2

theorem mem_keys_iff (t : Table α) (k : String) :
    k ∈ t.map Prod.fst ↔ (t.lookup k).isSome = true := by
  constructor
  · intro h
    obtain ⟨c, _, _, h3⟩ := lookup_isSome_of_mem_keys h
    simp [h3]
  · intro h
    induction t with
    | nil => simp at h
    | cons c t ih =>
      obtain ⟨x, y⟩ := c
      by_cases hk : k = x
      · simp [hk]
      · have : (k == x) = false := by simpa using hk
        rw [List.lookup_cons, this] at h
        simp [ih h]

/-- `==` in terms of lookups. -/
theorem eqData_spec {a b : DataObj α} (ha : (a.cols.map Prod.fst).Nodup)
    (hb : (b.cols.map Prod.fst).Nodup) : ∃ r, eqData a b = .ok r ∧
      (r = true ↔ (∀ k, k ∈ a.cols.map Prod.fst ↔ k ∈ b.cols.map Prod.fst) ∧
        ∀ k x y, a.cols.lookup k = some x → b.cols.lookup k = some y → arrEq x y = true) := by
  unfold eqData
  split
  · next h =>
    have hk := (sameKeys_iff ha hb).1 h
    have hm : a.cols.mapM (fun c => do return arrEq c.2 (← b.cols.get c.1)) =
        .ok (a.cols.map fun c => arrEq c.2 ((b.cols.lookup c.1).getD [])) := by
      apply mapM_ok
      intro c hc
      obtain ⟨c', _, _, h3⟩ := lookup_isSome_of_mem_keys ((hk c.1).1 (List.mem_map_of_mem hc))
      rw [get_eq_ok.2 h3, h3]; rfl
    rw [hm]
    refine ⟨_, rfl, ?_⟩
    rw [List.all_map]
    simp only [List.all_eq_true, Function.comp, id]
    constructor
    · intro hall
      refine ⟨hk, ?_⟩
      intro k x y hx hy
      have hka : k ∈ a.cols.map Prod.fst := (mem_keys_iff _ _).2 (by simp [hx])
      obtain ⟨c, hc, hck, hl⟩ := lookup_isSome_of_mem_keys hka
      have := hall c hc
      rw [hck, hy] at this
      rw [hl] at hx
      cases hx
      exact this
    · rintro ⟨_, hall⟩ c hc
      obtain ⟨c', _, _, h3⟩ := lookup_isSome_of_mem_keys ((hk c.1).1 (List.mem_map_of_mem hc))
      rw [h3]
      exact hall c.1 _ _ (lookup_eq_of_mem ha hc) h3
  · next h =>
    refine ⟨false, rfl, ?_⟩
    simp only [Bool.false_eq_true, false_iff, not_and]
    intro hk
    exact absurd ((sameKeys_iff ha hb).2 hk) h

theorem arrEq_self (x : List α) : arrEq x x = true := by
  unfold arrEq bcast
  rw [if_pos rfl]
  simp only [List.all_eq_true, id]
  intro b hb
  induction x with
  | nil => simp at hb
  | cons y ys ih =>
    simp only [List.zipWith_cons_cons, decide_true, List.mem_cons] at hb
    rcases hb with hb | hb
    · exact hb
    · exact ih hb

theorem arrEq_of_length {x y : List α} (h : x.length = y.length) :
    arrEq x y = true ↔ x = y := by
  constructor
  · intro he
    unfold arrEq bcast at he
    rw [if_pos h] at he
    induction x generalizing y with
    | nil => cases y with
      | nil => rfl
      | cons => simp at h
    | cons a as ih => cases y with
      | nil => simp at h
      | cons b bs =>
        simp only [List.zipWith_cons_cons, List.all_cons, id, Bool.and_eq_true,
          decide_eq_true_eq] at he
        rw [he.1, ih (by simpa using h) he.2]
  · rintro rfl; exact arrEq_self x

theorem arrEq_comm (x y : List α) : arrEq x y = arrEq y x := by
  by_cases h : x.length = y.length
  · rw [Bool.eq_iff_iff, arrEq_of_length h, arrEq_of_length h.symm, eq_comm]
  · have h' : ¬ y.length = x.length := fun e => h e.symm
    unfold arrEq bcast
    rw [if_neg h, if_neg h']
    match x, y with
    | [], [] => exact absurd rfl h
    | [], [y] => rfl
    | [], _ :: _ :: _ => rfl
    | [x], [] => rfl
    | [x], [y] => exact absurd rfl h
    | [x], _ :: _ :: _ => simp [eq_comm]
    | _ :: _ :: _, [] => rfl
    | _ :: _ :: _, [y] => simp [eq_comm]
    | _ :: _ :: _, _ :: _ :: _ => rfl

/-- **C20** (reflexive) every data set equals itself. -/
theorem C20_reflexive {a : DataObj α} (ha : (a.cols.map Prod.fst).Nodup) :
    eqData a a = .ok true := by
  obtain ⟨r, h1, h2⟩ := eqData_spec ha ha
  rw [h1, h2.2 ⟨fun _ => Iff.rfl, fun k x y hx hy => by rw [hx] at hy; cases hy; exact arrEq_self x⟩]

/-- **C20** (symmetric) `a == b` and `b == a` give the same answer. -/
theorem C20_symmetric {a b : DataObj α} (ha : (a.cols.map Prod.fst).Nodup)
    (hb : (b.cols.map Prod.fst).Nodup) : eqData a b = eqData b a := by
  obtain ⟨r, h1, h2⟩ := eqData_spec ha hb
  obtain ⟨s, k1, k2⟩ := eqData_spec hb ha
  rw [h1, k1]
  congr 1
  rw [Bool.eq_iff_iff, h2, k2]
  constructor
  · rintro ⟨p, q⟩
    exact ⟨fun k => (p k).symm, fun k x y hx hy => by rw [arrEq_comm]; exact q k y x hy hx⟩
  · rintro ⟨p, q⟩
    exact ⟨fun k => (p k).symm, fun k x y hx hy => by rw [arrEq_comm]; exact q k y x hy hx⟩

/-- **C20** for data sets with the same number of points, `==` means the same
columns with the same values in whatever order, hence is an equivalence.
Missing from the full claim: sets of different lengths, for which it is false
(`C20_not_transitive`). -/
theorem C20_equal_lengths_partial {a b : DataObj α} {n : Nat} (ha : (a.cols.map Prod.fst).Nodup)
    (hb : (b.cols.map Prod.fst).Nodup) (ra : Rect n a.cols) (rb : Rect n b.cols) :
    ∃ r, eqData a b = .ok r ∧ (r = true ↔ ∀ k, a.cols.lookup k = b.cols.lookup k) := by
  obtain ⟨r, h1, h2⟩ := eqData_spec ha hb
  have hlen : ∀ {t : Table α} (_ : Rect n t) {k x}, t.lookup k = some x → x.length = n := by
    intro t ht k x hx
    obtain ⟨c, hc, _, h3⟩ := lookup_isSome_of_mem_keys ((mem_keys_iff t k).2 (by simp [hx]))
    rw [hx] at h3
    cases h3
    exact ht c hc
  refine ⟨r, h1, h2.trans ?_⟩
  constructor
  · rintro ⟨p, q⟩ k
    have hp := p k
    rw [mem_keys_iff, mem_keys_iff] at hp
    cases hx : a.cols.lookup k with
    | none =>
      rw [hx] at hp
      cases hy : b.cols.lookup k with
      | none => rfl
      | some y => rw [hy] at hp; simp at hp
    | some x =>
      rw [hx] at hp
      cases hy : b.cols.lookup k with
      | none => rw [hy] at hp; simp at hp
      | some y =>
        rw [(arrEq_of_length ((hlen ra hx).trans (hlen rb hy).symm)).1 (q k x y hx hy)]
  · intro h
    refine ⟨fun k => by rw [mem_keys_iff, mem_keys_iff, h k], ?_⟩
    intro k x y hx hy
    rw [h k, hy] at hx
    cases hx
    exact arrEq_self _

/-- What `==` compares the two columns of a name for: equal, or one of them a single number that all entries of the other have. -/
def Stretches (x y : List α) : Prop := x = y ∨ (∃ a, x = [a] ∧ ∀ b ∈ y, b = a) ∨ ∃ b, y = [b] ∧ ∀ a ∈ x, a = b

theorem arrEq_iff (x y : List α) : arrEq x y = true ↔ Stretches x y := by
  by_cases h : x.length = y.length
  · rw [arrEq_of_length h]
    constructor
    · exact Or.inl
    · rintro (h' | ⟨a, rfl, h'⟩ | ⟨b, rfl, h'⟩)
      · exact h'
      · obtain ⟨b, rfl⟩ := List.length_eq_one_iff.1 h.symm
        rw [h' b (by simp)]
      · obtain ⟨a, rfl⟩ := List.length_eq_one_iff.1 h
        rw [h' a (by simp)]
  · have hxy : x ≠ y := fun e => h (by rw [e])
    unfold arrEq bcast Stretches
    rw [if_neg h]
    match x, y with
    | [], [] => exact absurd rfl h
    | [], [y] => simp
    | [], _ :: _ :: _ => simp
    | [x], [] => simp
    | [x], [y] => exact absurd rfl h
    | [x], a :: b :: t =>
      have e : ∀ z, (x = z) = (z = x) := fun z => propext eq_comm
      simp [e]
    | a :: b :: t, [] => simp
    | a :: b :: t, [y] => simp
    | a :: b :: t, a' :: b' :: t' =>
      simp only [Bool.false_eq_true, false_iff]
      rintro (h' | ⟨a, h', -⟩ | ⟨b, h', -⟩)
      · exact hxy h'
      · simp at h'
      · simp at h'

/-- **C20**, what `==` means for any two data sets: the same names of columns, and under each name columns that are equal or of which
one is a single number to which all entries of the other are equal.  In particular data sets of different lengths, both of at least two
points, are never equal. -/
theorem C20_meaning_partial {a b : DataObj α} (ha : (a.cols.map Prod.fst).Nodup) (hb : (b.cols.map Prod.fst).Nodup) :
    ∃ r, eqData a b = .ok r ∧ (r = true ↔ (∀ k, a.cols.lookup k = none ↔ b.cols.lookup k = none) ∧
      ∀ k x y, a.cols.lookup k = some x → b.cols.lookup k = some y → Stretches x y) := by
  obtain ⟨r, h1, h2⟩ := eqData_spec ha hb
  refine ⟨r, h1, h2.trans (and_congr (forall_congr' fun k => ?_) ?_)⟩
  · rw [mem_keys_iff, mem_keys_iff, ← not_iff_not]
    cases a.cols.lookup k <;> cases b.cols.lookup k <;> simp
  · simp only [arrEq_iff]

/-- A data set with a single column. -/
def oneCol (xs : List ℚ) : DataObj ℚ := { emptyData with cols := [("h", xs)] }

/-- Two points and three points. -/
example : eqData (oneCol [1, 1]) (oneCol [1, 1, 1]) = .ok false := by
  obtain ⟨r, h1, h2⟩ := C20_meaning_partial (a := oneCol [1, 1]) (b := oneCol [1, 1, 1]) (by decide) (by decide)
  cases r with
  | false => exact h1
  | true =>
    rcases (h2.1 rfl).2 "h" _ _ rfl rfl with h | ⟨a, h, -⟩ | ⟨b, h, -⟩ <;> simp at h

/-- **C20 is false**: a data set with one point equals one with the same point
repeated, and an empty data set equals any one-point data set, so that `==` is not
transitive. -/
theorem C20_not_transitive :
    eqData (oneCol [1]) (oneCol [1, 1]) = .ok true ∧ oneCol [1] ≠ oneCol [1, 1] ∧
    eqData (oneCol [5]) (oneCol []) = .ok true ∧ eqData (oneCol []) (oneCol [6]) = .ok true ∧
    eqData (oneCol [5]) (oneCol [6]) = .ok false := by decide +kernel

/-- Same columns in a different order. -/
example : eqData ({ emptyData with cols := [("h", [1, 2]), ("k", [0, 0])] } : DataObj ℚ)
    { emptyData with cols := [("k", [0, 0]), ("h", [1, 2])] } = .ok true := by decide +kernel

/-! ## C21 -/

/-- **C21** (what `Q=` really does) with `ncols` columns and scalar counts the
count columns have length `ncols`, while the coordinates have one entry per row. -/
theorem C21_Q_matrix_lengths {Q : List (List α)} {ncols : Nat} (hQ : ∀ r ∈ Q, r.length = ncols)
    (hn : 0 < ncols) (det mon time : α) :
    ∃ d, mkDataQ Q ncols (.num det) (.num mon) (.num time) = .ok d ∧
      d.cols.lookup "detector" = some (List.replicate ncols det) ∧
      d.cols.lookup "monitor" = some (List.replicate ncols mon) ∧
      d.cols.lookup "h" = some (Q.map fun r => r.getD 0 0) := by
  have hcols : (List.range (min ncols 5)).mapM (fun j => do
      return (← getE ["h", "k", "l", "e", "temp"] j, ← Q.mapM fun row => getE row j)) =
      Except.ok (ε := Err) ((List.range (min ncols 5)).map fun j =>
        (["h", "k", "l", "e", "temp"].getD j "", Q.map fun r => r.getD j 0)) := by
    apply mapM_ok
    intro j hj
    have hj' : j < ncols ∧ j < 5 := by rw [List.mem_range] at hj; omega
    have e1 : getE ["h", "k", "l", "e", "temp"] j =
        .ok (["h", "k", "l", "e", "temp"].getD j "") := by
      rw [getE_ok (by simpa using hj'.2), List.getD_eq_getElem]
    have e2 : (Q.mapM fun row => getE row j) = .ok (Q.map fun r => r.getD j 0) := by
      apply mapM_ok
      intro r hr
      have : j < r.length := by rw [hQ r hr]; exact hj'.1
      rw [getE_ok this, List.getD_eq_getElem _ _ this]
    rw [e1, e2]
    rfl
  obtain ⟨m, rfl⟩ : ∃ m, ncols = m + 1 := ⟨ncols - 1, by omega⟩
  unfold mkDataQ
  simp only
  rw [hcols, ok_bind]
  have hne : ∀ x : α, nanmax ((Arg.num x).spread (m + 1)) =
      .ok (maxOf (List.replicate (m + 1) x)) := fun x => nanmax_ok (by simp [Arg.spread])
  have hfin : ∀ cols : Table α, ∃ d, finishCtor cols (m + 1) (.num det) (.num mon) (.num time) = .ok d := by
    intro cols
    unfold finishCtor
    simp only [hne, ok_bind]
    exact ⟨_, rfl⟩
  obtain ⟨d, hd⟩ := hfin ((List.range (min (m + 1) 5)).map fun j =>
        (["h", "k", "l", "e", "temp"].getD j "", Q.map fun r => r.getD j 0))
  obtain ⟨h1, h2, _, _, _, _, _, _, _, h3⟩ := finishCtor_ok hd
  refine ⟨d, hd, h1, h2, ?_⟩
  rw [h3 "h" (by decide) (by decide) (by decide)]
  have : min (m + 1) 5 = (min m 4) + 1 := by omega
  rw [this, List.range_succ_eq_map]
  simp

/-- **C21 is false**: seven points in five coordinates get five counts. -/
theorem C21_wrong_number_of_counts : ∃ d : DataObj ℚ,
    mkDataQ (List.replicate 7 [1, 0, 0, 2, 300]) 5 (.num 1) (.num 1) (.num 1) = .ok d ∧
    d.cols.lookup "h" = some (List.replicate 7 1) ∧
    d.cols.lookup "detector" = some (List.replicate 5 1) := by
  obtain ⟨d, h1, h2, _, h4⟩ := C21_Q_matrix_lengths (α := ℚ)
    (Q := List.replicate 7 [1, 0, 0, 2, 300]) (ncols := 5) (by simp) (by decide) 1 1 1
  exact ⟨d, h1, by rw [h4]; simp, h2⟩

/-- **C21** (separate coordinates) with scalars and arrays of one common length
every column gets that length.  Missing: construction from a `Q` matrix. -/
theorem C21_constructor_lengths_partial {a : CtorArgs α} {n : Nat} (hn : 0 < n)
    (hfit : ∀ x ∈ [a.h, a.k, a.l, a.e, a.temp, a.detector, a.monitor, a.time],
      ∀ xs, x = .arr xs → xs.length = n)
    (harr : n = 1 ∨ ∃ x ∈ [a.h, a.k, a.l, a.e, a.temp, a.detector, a.monitor, a.time],
      ∃ xs, x = .arr xs) :
    ∃ d, mkData a = .ok d ∧ Rect n d.cols ∧
      d.cols.lookup "h" = some (a.h.spread n) ∧ d.cols.lookup "k" = some (a.k.spread n) ∧
      d.cols.lookup "l" = some (a.l.spread n) ∧ d.cols.lookup "e" = some (a.e.spread n) ∧
      d.cols.lookup "temp" = some (a.temp.spread n) ∧
      d.cols.lookup "detector" = some (a.detector.spread n) ∧
      d.cols.lookup "monitor" = some (a.monitor.spread n) ∧
      d.cols.lookup "time" = some (a.time.spread n) := by
  generalize hL : [a.h, a.k, a.l, a.e, a.temp, a.detector, a.monitor, a.time] = L at hfit harr
  have hall : ∀ m ∈ L.filterMap Arg.len?, m = n := by
    intro m hm
    obtain ⟨x, hx, he⟩ := List.mem_filterMap.1 hm
    cases x with
    | num => simp [Arg.len?] at he
    | arr xs =>
      simp only [Arg.len?, Option.some.injEq] at he
      rw [← he]; exact hfit _ hx xs rfl
  have hlen : maxLen (L.filterMap Arg.len?) = n := by
    cases hf : L.filterMap Arg.len? with
    | nil =>
      rcases harr with h | ⟨x, hx, xs, rfl⟩
      · simp [maxLen, h]
      · have : xs.length ∈ L.filterMap Arg.len? := List.mem_filterMap.2 ⟨_, hx, rfl⟩
        rw [hf] at this; simp at this
    | cons x xs =>
      rw [hf] at hall
      have hx := hall x (by simp)
      simp only [maxLen]
      rw [hx]
      have : ∀ m ∈ xs, m = n := fun m hm => hall m (by simp [hm])
      clear hf hall hx
      induction xs with
      | nil => rfl
      | cons y ys ih =>
        rw [List.foldl_cons, this y (by simp), max_self]
        exact ih (fun m hm => this m (by simp [hm]))
  have hsp : ∀ x ∈ L, (x.spread n).length = n := by
    intro x hx
    rw [spread_length_iff]; exact fun xs h => hfit x hx xs h
  unfold mkData
  simp only
  rw [hL, hlen]
  subst hL
  have hm : nanmax (a.monitor.spread n) = .ok (maxOf (a.monitor.spread n)) :=
    nanmax_ok (by rw [hsp _ (by simp)]; exact hn)
  have ht : nanmax (a.time.spread n) = .ok (maxOf (a.time.spread n)) :=
    nanmax_ok (by rw [hsp _ (by simp)]; exact hn)
  refine ⟨⟨[("h", a.h.spread n), ("k", a.k.spread n), ("l", a.l.spread n), ("e", a.e.spread n),
      ("temp", a.temp.spread n), ("detector", a.detector.spread n), ("monitor", a.monitor.spread n),
      ("time", a.time.spread n)], .default, .default, maxOf (a.monitor.spread n),
      maxOf (a.time.spread n), false, none⟩, ?_, ?_, rfl, rfl, rfl, rfl, rfl, rfl, rfl, rfl⟩
  · unfold finishCtor
    rw [hm, ok_bind, ht, ok_bind]
    rfl
  · intro c hc
    simp only [List.mem_cons, List.not_mem_nil, or_false] at hc
    rcases hc with rfl | rfl | rfl | rfl | rfl | rfl | rfl | rfl <;> exact hsp _ (by simp)

/-! ## C73 -/

/-- **C73 is false**: `a + b` of data sets whose detector column has another name
(as produced by several file loaders) has the default naming, so the detector of
the sum cannot be read. -/
theorem C73_sum_loses_naming : ∃ (a r : DataObj ℚ), a.detector = .ok [7] ∧
    combineRet a a = .ok r ∧ r.detector = .error .keyError := by
  refine ⟨{ emptyData with
    cols := [("QX", [0]), ("DETECTOR", [7]), ("MONITOR", [1]), ("TIME", [1])]
    dk := ⟨"MONITOR", "DETECTOR", "TIME"⟩ }, { emptyData with
    cols := [("QX", [0]), ("DETECTOR", [14]), ("MONITOR", [2]), ("TIME", [2])] }, ?_, ?_, ?_⟩ <;>
    decide +kernel

/-- **C73** the in-place combination keeps the naming, and with the default naming
the sum does too.  Missing: sums of data sets with other names. -/
theorem C73_naming_partial {a b r : DataObj α} {tols : Option (Tols α)} :
    (combineInPlace a b tols = .ok r → r.dk = a.dk ∧ r.qk = a.qk) ∧
    (a.dk = .default → a.qk = .default → combineRet a b tols = .ok r →
      r.dk = a.dk ∧ r.qk = a.qk) := by
  constructor
  · intro h
    obtain ⟨t, _, h2⟩ := bind_eq_ok.1 h
    cases h2; exact ⟨rfl, rfl⟩
  · intro h1 h2 h
    obtain ⟨t, _, h3⟩ := bind_eq_ok.1 h
    cases h3; exact ⟨h1.symm, h2.symm⟩

/-! ## C74 -/

/-- **C74** the product of a data set and a number shares no array with it: all
its arrays are new, and nothing that existed before has changed. -/
theorem C74_product_independent_partial {H : Heap α} {a : HObj} (ha : Valid H a.dict)
    (det : List α) :
    (∀ c ∈ (mulH H a det).2.dict, H.length ≤ c.2) ∧
    ∀ addr < H.length, (mulH H a det).1.getD addr [] = H.getD addr [] := by
  obtain ⟨ext, h1, h2, h3⟩ := deepcopy_spec a.dict H ha
  unfold mulH alloc
  simp only
  constructor
  · intro c hc
    rcases Dict.mem_put hc with hc | hc
    · exact h3.new c hc
    · rw [hc, h1, List.length_append]; omega
  · intro addr haddr
    rw [h1, List.append_assoc]
    exact (Extends.append le_rfl _).2 addr haddr

theorem Dict.lookup_put_self (d : Dict) (key : String) (a : Nat) : (d.put key a).lookup key = some a := by
  unfold Dict.put
  split
  · rename_i h
    induction d with
    | nil => simp at h
    | cons c d ih =>
      by_cases hc : c.1 = key
      · simp [hc]
      · have hb : (key == c.1) = false := by simpa using fun e => hc e.symm
        rw [List.lookup_cons, hb] at h
        simp only [List.map_cons, hc, if_false]
        rw [List.lookup_cons, hb]
        exact ih h
  · rename_i h
    induction d with
    | nil => simp
    | cons c d ih =>
      by_cases hc : key = c.1
      · simp [List.lookup_cons, hc] at h
      · have hb : (key == c.1) = false := by simpa using hc
        rw [List.lookup_cons, hb] at h
        rw [List.cons_append, List.lookup_cons, hb]
        exact ih h

theorem Dict.lookup_put_ne (d : Dict) {key k : String} (a : Nat) (hk : k ≠ key) : (d.put key a).lookup k = d.lookup k := by
  unfold Dict.put
  split
  · clear * - hk
    induction d with
    | nil => rfl
    | cons c d ih =>
      by_cases hc : c.1 = key
      · have hb : (k == c.1) = false := by simpa [hc] using hk
        simp only [List.map_cons, hc, if_true]
        rw [← hc, List.lookup_cons, List.lookup_cons, hb, hc]
        exact ih
      · simp only [List.map_cons, hc, if_false]
        rw [List.lookup_cons, List.lookup_cons, ih]
  · clear * - hk
    induction d with
    | nil =>
      have hb : (k == key) = false := by simpa using hk
      rw [List.nil_append, List.lookup_cons, hb]
    | cons c d ih => rw [List.cons_append, List.lookup_cons, List.lookup_cons, ih]

/-- **C74** for differences (partial): exactly which arrays are new.  The three columns of counts are new arrays, one each, with
the intensities and ones; nothing that existed before has changed; all other columns are the arrays of the minuend.
Missing: new arrays for these too (`C74_difference_shares_arrays`). -/
theorem C74_difference_partial (H : Heap α) (a : HObj) (int : List α) (h1 : a.dk.detector ≠ a.dk.monitor)
    (h2 : a.dk.detector ≠ a.dk.time) (h3 : a.dk.monitor ≠ a.dk.time) :
    (∃ d m t, (subtractH H a int).2.dict.lookup a.dk.detector = some d ∧
      (subtractH H a int).2.dict.lookup a.dk.monitor = some m ∧ (subtractH H a int).2.dict.lookup a.dk.time = some t ∧
      H.length ≤ d ∧ H.length ≤ m ∧ H.length ≤ t ∧ d ≠ m ∧ d ≠ t ∧ m ≠ t ∧
      (subtractH H a int).1.getD d [] = int ∧ (subtractH H a int).1.getD m [] = List.replicate int.length 1 ∧
      (subtractH H a int).1.getD t [] = List.replicate int.length 1) ∧
    (∀ k, k ≠ a.dk.detector → k ≠ a.dk.monitor → k ≠ a.dk.time →
      (subtractH H a int).2.dict.lookup k = a.dict.lookup k) ∧
    ∀ addr < H.length, (subtractH H a int).1.getD addr [] = H.getD addr [] := by
  unfold subtractH alloc
  simp only
  refine ⟨⟨H.length, H.length + 1, H.length + 2, ?_, ?_, ?_, le_rfl, by omega, by omega, by omega, by omega, by omega, ?_, ?_, ?_⟩,
    ?_, ?_⟩
  · rw [Dict.lookup_put_ne _ _ h2, Dict.lookup_put_ne _ _ h1, Dict.lookup_put_self]
  · rw [Dict.lookup_put_ne _ _ h3, Dict.lookup_put_self]
    simp
  · rw [Dict.lookup_put_self]
    simp
  · simp
  · simp [List.getElem?_append]
  · simp [List.getElem?_append]
  · intro k e1 e2 e3
    rw [Dict.lookup_put_ne _ _ e3, Dict.lookup_put_ne _ _ e2, Dict.lookup_put_ne _ _ e1]
  · intro addr haddr
    rw [List.append_assoc, List.append_assoc]
    exact (Extends.append le_rfl _).2 addr haddr

/-- **C74 is false** for differences: the coordinate arrays of `a - b` are those
of `a`, so changing a coordinate of the result in place changes `a`. -/
theorem C74_difference_shares_arrays : ∃ (H : Heap ℚ) (a : HObj) (addr : Nat),
    Valid H a.dict ∧
    (subtractH H a [5, 6]).2.dict.lookup "h" = some addr ∧ a.dict.lookup "h" = some addr ∧
    view H a.dict = [("h", [0, 1]), ("detector", [7, 8]), ("monitor", [1, 1]), ("time", [1, 1])] ∧
    view (writeH (subtractH H a [5, 6]).1 addr 0 100) a.dict =
      [("h", [100, 1]), ("detector", [7, 8]), ("monitor", [1, 1]), ("time", [1, 1])] := by
  refine ⟨[[0, 1], [7, 8], [1, 1], [1, 1]],
    ⟨[("h", 0), ("detector", 1), ("monitor", 2), ("time", 3)], .default⟩, 0, ?_, ?_⟩
  · unfold Valid; decide
  · decide +kernel

/-! ## C75 -/

/-- **C75** subtraction of a background measured on another grid: at every point
the background is taken at a nearest background point.  `pick` is scipy's nearest
index, of which only that is used. -/
theorem C75_subtract_nearest {sqrt : α → α} {pick : List α → α → Nat} {a b : DataObj α}
    {x : String} {na nb : Nat} {da ma ta db mb tb xa xb : List α} (ha : Counted a na da ma ta)
    (hb : Counted b nb db mb tb) (hxa : a.cols.lookup x = some xa) (hxb : b.cols.lookup x = some xb)
    (la : xa.length = na) (lb : xb.length = nb)
    (hpick : ∀ v, pick xb v < xb.length ∧
      ∀ j (hj : j < xb.length), |v - xb[pick xb v]?.getD 0| ≤ |v - xb[j]|) :
    ∃ r ia ib ir a₁ b₁ r₁, subtractAt sqrt pick a b x = .ok r ∧
      intensity a = .ok (ia, a₁) ∧ intensity b = .ok (ib, b₁) ∧ intensity r = .ok (ir, r₁) ∧
      ir.length = na ∧
      ∀ i < na, ∃ j < nb, (∀ j' < nb, |xa.getD i 0 - xb.getD j 0| ≤ |xa.getD i 0 - xb.getD j' 0|) ∧
        ir.getD i 0 = ia.getD i 0 - ib.getD j 0 := by
  obtain ⟨a1, i1, ca1, da1, ea1, ta1, qa1, va1⟩ := ha.intensity
  obtain ⟨b1, i2, cb1, db1, eb1, tb1, qb1, vb1⟩ := hb.intensity
  have hb1 : Counted b1 nb db mb tb := hb.congr cb1 db1 eb1
  have ha1 : Counted a1 na da ma ta := ha.congr ca1 da1 ea1
  obtain ⟨b2, i3, _⟩ := hb1.error sqrt
  obtain ⟨a2, i4, ca2, da2, ea2, ta2, _⟩ := ha1.error sqrt
  set ia := List.zipWith (fun x y => x / y * normVal a ma ta) da (normCol a ma ta) with hia
  set ib := List.zipWith (fun x y => x / y * normVal b mb tb) db (normCol b mb tb) with hib
  set ea := List.zipWith (fun x y => x / y * normVal a1 ma ta) (errCol sqrt a1 da) (normCol a1 ma ta)
    with hea
  set eb := List.zipWith (fun x y => x / y * normVal b1 mb tb) (errCol sqrt b1 db) (normCol b1 mb tb)
    with heb
  have lia : ia.length = na := by simp [hia, ha.ldet, normCol_length ha]
  have lib : ib.length = nb := by simp [hib, hb.ldet, normCol_length hb]
  have lea : ea.length = na := by
    rw [hea, List.length_zipWith, errCol_length ha1, normCol_length ha1, min_self]
  have leb : eb.length = nb := by
    rw [heb, List.length_zipWith, errCol_length hb1, normCol_length hb1, min_self]
  have grid : ∀ v : List α, v.length = nb →
      nearestGrid pick xb v xa = .ok (xa.map fun y => v.getD (pick xb y) 0) := by
    intro v hv
    apply mapM_ok
    intro y _
    have : pick xb y < v.length := by rw [hv, ← lb]; exact (hpick y).1
    rw [getE_ok this, List.getD_eq_getElem _ _ this]
  have hbc : bcast (· - ·) ia (xa.map fun y => ib.getD (pick xb y) 0) =
      .ok (List.zipWith (· - ·) ia (xa.map fun y => ib.getD (pick xb y) 0)) := by
    unfold bcast
    rw [if_pos (by simp [lia, la])]
  set int := List.zipWith (· - ·) ia (xa.map fun y => ib.getD (pick xb y) 0) with hint
  have lint : int.length = na := by simp [hint, lia, la]
  set err := List.zipWith (fun a b => sqrt (max (a ^ 2) (b ^ 2))) ea
    ((xa.map fun y => (eb.map (· ^ 2)).getD (pick xb y) 0).map sqrt) with herr
  have lerr : err.length = na := by simp [herr, lea, la]
  have ha2 : Counted a2 na da ma ta := ha1.congr ca2 da2 ea2
  have hr := withSubtracted_counted ha2 lint lerr
  obtain ⟨r1, ir1, _⟩ := hr.intensity
  obtain ⟨wn, wv⟩ := withSubtracted_norm (d := a2) (n := na) (int := int) (err := err)
  rw [wn, wv, zipWith_one int na lint] at ir1
  refine ⟨withSubtracted a2 int err, ia, ib, int, a1, b1, r1, ?_, i1, i2, ir1, lint, ?_⟩
  · unfold subtractAt axis
    rw [get_eq_ok.2 hxa, get_eq_ok.2 hxb]
    simp only [ok_bind, i2, i1, i3, i4, grid ib lib, grid (eb.map (· ^ 2)) (by simp [leb]), hbc]
    rfl
  · intro i hi
    have hxi : i < xa.length := by omega
    refine ⟨pick xb (xa.getD i 0), by rw [← lb]; exact (hpick _).1, ?_, ?_⟩
    · intro j' hj'
      have hj'' : j' < xb.length := by omega
      have := (hpick (xa.getD i 0)).2 j' hj''
      rw [List.getD_eq_getElem?_getD (l := xb), List.getD_eq_getElem _ _ hj'']
      exact this
    · rw [hint, List.getD_eq_getElem _ _ (by rw [← hint, lint]; exact hi), List.getElem_zipWith,
        List.getElem_map, List.getD_eq_getElem ia _ (by omega), List.getD_eq_getElem xa _ hxi]

/-- Two scans on different grids and a nearest index for the grid `[0, 10]`. -/
example : ∀ v : ℚ, (fun (_ : List ℚ) (v : ℚ) => if |v - 0| ≤ |v - 10| then 0 else 1) [0, 10] v <
      [(0 : ℚ), 10].length ∧ ∀ j (hj : j < [(0 : ℚ), 10].length),
      |v - [(0 : ℚ), 10][(fun (_ : List ℚ) (v : ℚ) => if |v - 0| ≤ |v - 10| then 0 else 1)
        [0, 10] v]?.getD 0| ≤ |v - [(0 : ℚ), 10][j]| := by
  intro v
  dsimp only
  split
  · next h =>
    refine ⟨by simp, fun j hj => ?_⟩
    match j, hj with
    | 0, _ => simp
    | 1, _ => simpa using h
  · next h =>
    refine ⟨by simp, fun j hj => ?_⟩
    match j, hj with
    | 0, _ => simpa using (not_le.1 h).le
    | 1, _ => simp

/-- Three points against a two-point background: the middle point at 4 is nearest
to 0, the last at 9 to 10. -/
example : (subtractAt (fun x : ℚ => x)
    (fun (_ : List ℚ) (v : ℚ) => if |v - 0| ≤ |v - 10| then 0 else 1)
    { emptyData with cols := [("h", [1, 4, 9]), ("detector", [10, 20, 30]), ("monitor", [1, 1, 1]),
      ("time", [1, 1, 1])] }
    { emptyData with cols := [("h", [0, 10]), ("detector", [1, 2]), ("monitor", [1, 1]),
      ("time", [1, 1])] } "h").map (fun r => r.cols.lookup "detector") =
    .ok (some [9, 19, 28]) := by decide +kernel

/-- Arguments that meet the hypotheses of `C21_constructor_lengths_partial`. -/
example : mkData (α := ℚ) ⟨.arr [0, 1], .num 0, .num 0, .num 5, .num 300, .arr [10, 20],
    .num 2, .num 1⟩ = .ok ⟨[("h", [0, 1]), ("k", [0, 0]), ("l", [0, 0]), ("e", [5, 5]),
      ("temp", [300, 300]), ("detector", [10, 20]), ("monitor", [2, 2]), ("time", [1, 1])],
      .default, .default, 2, 1, false, none⟩ := by decide +kernel

end Verif.Data
