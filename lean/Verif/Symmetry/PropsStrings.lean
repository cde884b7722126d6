import Verif.Symmetry.Database
import Mathlib.Tactic.FinCases
import Mathlib.Tactic.IntervalCases

/-!
# Property C48: the string form of symmetry operations
-/

namespace Verif.Symmetry

/-- The translations that occur in space groups. -/
def crystTrans : List ℚ := [0, 1 / 6, 1 / 4, 1 / 3, 1 / 2, 2 / 3, 3 / 4, 5 / 6]

/-- The row is not "nothing but a translation", and no `+` sign stands before `y` or `z` inside the
row. -/
def Readable (r : Fin 3 → ℤ) (t : ℚ) : Prop :=
  ¬ ((∀ i, r i = 0) ∧ t ≠ 0) ∧ ¬ ∃ i j, i < j ∧ r i ≠ 0 ∧ r j = 1

instance (r : Fin 3 → ℤ) (t : ℚ) : Decidable (Readable r t) := by unfold Readable; infer_instance

/-- The whole finite table of rows. -/
theorem row_table : ∀ a ∈ [(-1 : ℤ), 0, 1], ∀ b ∈ [(-1 : ℤ), 0, 1], ∀ c ∈ [(-1 : ℤ), 0, 1], ∀ t ∈ crystTrans,
    (match fmtRow ![a, b, c] t with
      | .error _ => false
      | .ok s => !s.contains ',' && (match parseRow s with
        | .error _ => !decide (Readable ![a, b, c] t)
        | .ok (r, t') => decide (((∀ i, r i = ![a, b, c] i) ∧ t' = t) ↔ Readable ![a, b, c] t))) = true := by
  decide +kernel

/-- A row with entries -1, 0, 1 and a crystallographic translation. -/
def CrystRow (r : Fin 3 → ℤ) (t : ℚ) : Prop := (∀ i, r i ∈ [(-1 : ℤ), 0, 1]) ∧ t ∈ crystTrans

theorem row_roundtrip {r : Fin 3 → ℤ} {t : ℚ} (h : CrystRow r t) :
    ∃ s, fmtRow r t = .ok s ∧ ',' ∉ s ∧ (parseRow s = .ok (r, t) ↔ Readable r t) := by
  have hr : r = ![r 0, r 1, r 2] := by funext i; fin_cases i <;> rfl
  have := row_table _ (h.1 0) _ (h.1 1) _ (h.1 2) t h.2
  rw [← hr] at this
  cases hf : fmtRow r t with
  | error e => rw [hf] at this; cases this
  | ok s =>
    rw [hf] at this
    simp only [Bool.and_eq_true, Bool.not_eq_true', List.contains_eq_mem, decide_eq_false_iff_not] at this
    refine ⟨s, rfl, this.1, ?_⟩
    cases hp : parseRow s with
    | error e =>
      rw [hp] at this
      simp only [Bool.not_eq_true', decide_eq_false_iff_not] at this
      exact Iff.intro (fun h => nomatch h) (fun h => absurd h this.2)
    | ok p =>
      rw [hp] at this
      simp only [decide_eq_true_eq] at this
      rw [← this.2]
      constructor
      · intro h; cases h; exact ⟨fun _ => rfl, rfl⟩
      · rintro ⟨h1, h2⟩
        congr 1
        exact Prod.ext (funext h1) h2

theorem split_notin {c : Char} {s : List Char} (h : c ∉ s) : split c s = [s] := by
  induction s with
  | nil => rfl
  | cons x xs ih =>
    rw [List.mem_cons, not_or] at h
    simp [split, ih h.2, Ne.symm h.1]

theorem split_append {c : Char} {s : List Char} (h : c ∉ s) (u : List Char) :
    split c (s ++ c :: u) = s :: split c u := by
  induction s with
  | nil => simp [split]
  | cons x xs ih =>
    rw [List.mem_cons, not_or] at h
    simp [split, ih h.2, Ne.symm h.1]

/-- **C48** formatting an operation and parsing it gives the operation back exactly when none of its
rows is a pure translation or has a positive variable after another one. -/
theorem C48_roundtrip_partial {op : Op} (h : ∀ i, CrystRow (op.rot i) (op.trans i)) :
    ∃ s, fmtOp op = .ok s ∧ (parseOp s = .ok op ↔ ∀ i, Readable (op.rot i) (op.trans i)) := by
  obtain ⟨a, ha, ca, ra⟩ := row_roundtrip (h 0)
  obtain ⟨b, hb, cb, rb⟩ := row_roundtrip (h 1)
  obtain ⟨c, hc, cc, rc⟩ := row_roundtrip (h 2)
  refine ⟨a ++ [','] ++ b ++ [','] ++ c, ?_, ?_⟩
  · simp only [fmtOp, ha, hb, hc, ok_bind, pure_ok]
  have hs : split ',' (a ++ [','] ++ b ++ [','] ++ c) = [a, b, c] := by
    have : a ++ [','] ++ b ++ [','] ++ c = a ++ ',' :: (b ++ ',' :: c) := by simp
    rw [this, split_append ca, split_append cb, split_notin cc]
  have hp : parseOp (a ++ [','] ++ b ++ [','] ++ c) = (do
      let x ← parseRow a
      let y ← parseRow b
      let z ← parseRow c
      pure { rot := fun i => ([x, y, z].getD i (0, 0)).1, trans := fun i => ([x, y, z].getD i (0, 0)).2 }) := by
    unfold parseOp
    rw [hs]
    simp only [List.length_cons, List.length_nil, gt_iff_lt, lt_self_iff_false, if_false, List.mapM_cons,
      List.mapM_nil, bind_assoc, pure_bind]
  rw [hp]
  constructor
  · intro he
    cases hx : parseRow a with
    | error e => rw [hx] at he; cases he
    | ok x =>
    cases hy : parseRow b with
    | error e => rw [hx, hy] at he; cases he
    | ok y =>
    cases hz : parseRow c with
    | error e => rw [hx, hy, hz] at he; cases he
    | ok z =>
    rw [hx, hy, hz] at he
    simp only [ok_bind, pure_ok, Except.ok.injEq] at he
    rw [← he] at ra rb rc ⊢
    intro i
    fin_cases i
    · exact ra.1 hx
    · exact rb.1 hy
    · exact rc.1 hz
  · intro hr
    rw [ra.2 (hr 0), rb.2 (hr 1), rc.2 (hr 2)]
    simp only [ok_bind, pure_ok, Except.ok.injEq]
    rw [Op.ext_iff']
    constructor
    · intro i j
      fin_cases i <;> rfl
    · intro i
      fin_cases i <;> rfl

/-- A concrete case: `-x+1/2,-y,z+1/2`. -/
example : (∀ i, CrystRow (![![-1, 0, 0], ![0, -1, 0], ![0, 0, 1]] i) (![1 / 2, 0, 1 / 2] i)) ∧
    ∀ i, Readable (![![-1, 0, 0], ![0, -1, 0], ![0, 0, 1]] i) (![1 / 2, 0, 1 / 2] i) := by
  unfold CrystRow
  decide +kernel

/-- **C48** every generator string of the database is given back by parsing and formatting. -/
theorem C48_database : ∀ e ∈ database, ∀ g ∈ e.generators, ∃ op, parseOp g = .ok op ∧ fmtOp op = .ok g := by
  have : (database.all fun e => e.generators.all fun g => match parseOp g with
      | .error _ => false
      | .ok op => match fmtOp op with
        | .error _ => false
        | .ok s => decide (s = g)) = true := by decide +kernel
  intro e he g hg
  have := List.all_eq_true.1 (List.all_eq_true.1 this e he) g hg
  cases hp : parseOp g with
  | error _ => rw [hp] at this; cases this
  | ok op =>
    rw [hp] at this
    simp only at this
    cases hf : fmtOp op with
    | error _ => rw [hf] at this; cases this
    | ok s =>
      rw [hf] at this
      simp only [decide_eq_true_eq] at this
      exact ⟨op, rfl, by rw [hf, this]⟩

/-- **C48** is false in general: `-x+y,-x,z`, an operation of the space group `P3`, is formatted as a
string on which parsing raises. -/
theorem C48_not_hexagonal : ∃ op : Op, (∀ i, CrystRow (op.rot i) (op.trans i)) ∧
    fmtOp op = .ok cs!"-x+y,-x,z" ∧ parseOp cs!"-x+y,-x,z" = .error .evalError ∧
    ∃ e gens ops, spaceGroup database (.str cs!"P3") = .ok (e, gens, ops) ∧ op ∈ ops := by
  refine ⟨⟨![![-1, 1, 0], ![-1, 0, 0], ![0, 0, 1]], 0⟩, by unfold CrystRow; decide +kernel,
    by decide +kernel, ?_, ?_⟩
  · have : (match parseOp cs!"-x+y,-x,z" with | .error e => decide (e = Err.evalError) | .ok _ => false) = true := by
      decide +kernel
    split at this
    · rename_i e h; rw [h, of_decide_eq_true this]
    · cases this
  · have : (match spaceGroup database (.str cs!"P3") with
        | .error _ => false
        | .ok p => decide ((⟨![![-1, 1, 0], ![-1, 0, 0], ![0, 0, 1]], 0⟩ : Op) ∈ p.2.2)) = true := by
      decide +kernel
    split at this
    · cases this
    · rename_i p h
      exact ⟨p.1, p.2.1, p.2.2, h, of_decide_eq_true this⟩

/-- **C48** is false in a second way: with a translation the variable after a plus sign is dropped
without an error, so parsing gives another operation. -/
theorem C48_not_dropped : ∃ op op' : Op, (∀ i, CrystRow (op.rot i) (op.trans i)) ∧
    fmtOp op = .ok cs!"x+y+1/2,y,z" ∧ parseOp cs!"x+y+1/2,y,z" = .ok op' ∧ op'.rot 0 1 = 0 ∧ op.rot 0 1 = 1 := by
  refine ⟨⟨![![1, 1, 0], ![0, 1, 0], ![0, 0, 1]], ![1 / 2, 0, 0]⟩, ?_⟩
  have : (match parseOp cs!"x+y+1/2,y,z" with | .error _ => false | .ok o => decide (o.rot 0 1 = 0)) = true := by
    decide +kernel
  cases h : parseOp cs!"x+y+1/2,y,z" with
  | error _ => rw [h] at this; cases this
  | ok o =>
    rw [h] at this
    exact ⟨o, by unfold CrystRow; decide +kernel, by decide +kernel, rfl, of_decide_eq_true this, rfl⟩

end Verif.Symmetry
