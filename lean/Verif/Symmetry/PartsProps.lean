import Verif.Symmetry.Parts
import Verif.Symmetry.PropsDatabase

/-! # C181: rotations and translations of operations -/

namespace Verif.Symmetry

/-! ## Specification -/

/-- `r` and `t` are the rotation and the translation of `op`. -/
def PartsOf (op : Op) (r : Fin 3 → Fin 3 → ℚ) (t : Fin 3 → ℚ) : Prop :=
  (∀ i j, r i j = op.rot i j) ∧ t = op.trans

/-- The ways to give some operations, two or more, as a list. -/
inductive Gives : Operations → List Op → Prop
  | texts {l ops} : l.Forall₂ (fun s op => parseOp s = .ok op) ops → Gives (.texts l) ops
  | arrays (ops) : Gives (.arrays (ops.map Op.matrix)) ops

/-- The ways to give one operation. -/
inductive GivesOne : Operations → Op → Prop
  | text {s op} : parseOp s = .ok op → GivesOne (.text s) op
  | texts {s op} : parseOp s = .ok op → GivesOne (.texts [s]) op
  | array (op) : GivesOne (.array op.matrix) op
  | arrays (op) : GivesOne (.arrays [op.matrix]) op

/-! ## Lemmas -/

private def rotQ (op : Op) : Fin 3 → Fin 3 → ℚ := fun i j => op.rot i j

private theorem rotation_matrix (op : Op) : rotationOf (.array op.matrix) = .part (rotQ op) := by
  refine congrArg Piece.part (funext fun i => funext fun j => ?_)
  fin_cases i <;> fin_cases j <;> rfl

private theorem translation_matrix (op : Op) : translationOf (.array op.matrix) = .part op.trans := by
  refine congrArg Piece.part (funext fun i => ?_)
  fin_cases i <;> rfl

private theorem mapM_parse : ∀ {l : List (List Char)} {ops : List Op},
    l.Forall₂ (fun s op => parseOp s = .ok op) ops → l.mapM parseOp = .ok ops
  | _, _, .nil => rfl
  | _, _, .cons h hs => by
    rw [List.mapM_cons, h, ok_bind, mapM_parse hs]; rfl

private theorem parsed_ok {l : List (List Char)} {ops : List Op}
    (h : l.Forall₂ (fun s op => parseOp s = .ok op) ops) :
    parsed l = .ok (ops.map fun op => .array op.matrix) := by
  unfold parsed getGeneratorFromStr
  rw [mapM_parse h]

private theorem formatted_gives {o : Operations} {ops : List Op} (h : Gives o ops) (hne : ops ≠ []) :
    formatted o = .ok (ops.map fun op => .array op.matrix) := by
  cases h with
  | texts h =>
    cases h with
    | nil => exact absurd rfl hne
    | cons h hs => exact parsed_ok (.cons h hs)
  | arrays =>
    cases ops with
    | nil => exact absurd rfl hne
    | cons op ops => simp [formatted, List.map_map, Function.comp_def]

private theorem formatted_one {o : Operations} {op : Op} (h : GivesOne o op) :
    formatted o = .ok [.array op.matrix] := by
  cases h with
  | text h => exact parsed_ok (.cons h .nil)
  | texts h => exact parsed_ok (.cons h .nil)
  | array => rfl
  | arrays => rfl

private theorem unpack_many {α : Type} {l : List α} (h : 2 ≤ l.length) : unpack l = .many l := by
  match l, h with
  | _ :: _ :: _, _ => rfl

/-! ## C181 -/

/-- **C181 (partial).** For one operation — a text, a matrix, or a list of one of either — `get_rotation` gives its rotation and `get_translation` its translation. -/
theorem C181_one_partial {o : Operations} {op : Op} (h : GivesOne o op) :
    ∃ r t, getRotation o = .ok (.one (.part r)) ∧ getTranslation o = .ok (.one (.part t)) ∧ PartsOf op r t := by
  refine ⟨rotQ op, op.trans, ?_, ?_, fun i j => rfl, rfl⟩
  · simp only [getRotation, formatted_one h, ok_bind, List.map_cons, List.map_nil, rotation_matrix, unpack]; rfl
  · simp only [getTranslation, formatted_one h, ok_bind, List.map_cons, List.map_nil, translation_matrix, unpack]; rfl

/-- **C181 (partial).** For a list of two or more operations, as texts or matrices, they give the lists of the rotations and of the translations in the same order. -/
theorem C181_list_partial {o : Operations} {ops : List Op} (h : Gives o ops) (hl : 2 ≤ ops.length) :
    ∃ (rs : List (Fin 3 → Fin 3 → ℚ)) (ts : List (Fin 3 → ℚ)), getRotation o = .ok (.many (rs.map .part)) ∧ getTranslation o = .ok (.many (ts.map .part)) ∧
      rs.length = ops.length ∧ ts.length = ops.length ∧
      ∀ (i : ℕ) (op : Op), ops[i]? = some op → ∃ r t, rs[i]? = some r ∧ ts[i]? = some t ∧ PartsOf op r t := by
  have hne : ops ≠ [] := by rintro rfl; simp at hl
  refine ⟨ops.map rotQ, ops.map Op.trans, ?_, ?_, by simp, by simp, fun i op hi => ?_⟩
  · simp only [getRotation, formatted_gives h hne, ok_bind]
    rw [unpack_many (by simpa using hl)]
    simp only [List.map_map, Function.comp_def, rotation_matrix]; rfl
  · simp only [getTranslation, formatted_gives h hne, ok_bind]
    rw [unpack_many (by simpa using hl)]
    simp only [List.map_map, Function.comp_def, translation_matrix]; rfl
  · exact ⟨rotQ op, op.trans, by simp [List.getElem?_map, hi], by simp [List.getElem?_map, hi], fun i j => rfl, rfl⟩

private theorem parse_two : ∃ a b, parseOp ['x', ',', 'y', ',', 'z'] = .ok a ∧
    parseOp ['-', 'x', ',', '-', 'y', ',', 'z', '+', '1', '/', '2'] = .ok b := by
  have h : ∀ s, (match parseOp s with | .ok _ => true | .error _ => false) = true → ∃ a, parseOp s = .ok a := by
    intro s h
    cases hs : parseOp s with
    | error e => rw [hs] at h; cases h
    | ok a => exact ⟨a, rfl⟩
  obtain ⟨a, ha⟩ := h ['x', ',', 'y', ',', 'z'] (by decide +kernel)
  obtain ⟨b, hb⟩ := h ['-', 'x', ',', '-', 'y', ',', 'z', '+', '1', '/', '2'] (by decide +kernel)
  exact ⟨a, b, ha, hb⟩

/-- A list of two texts meets the hypotheses. -/
example : ∃ o ops, Gives o ops ∧ 2 ≤ ops.length := by
  obtain ⟨a, b, ha, hb⟩ := parse_two
  exact ⟨_, [a, b], .texts (.cons ha (.cons hb .nil)), by simp⟩

/-- **C181.** The rotation and the translation determine the operation, and act on a position as the operation does. -/
theorem C181_determined {K : Type} [Field K] [CharZero K] {op op' : Op} {r : Fin 3 → Fin 3 → ℚ} {t : Fin 3 → ℚ}
    (h : PartsOf op r t) :
    (PartsOf op' r t → op' = op) ∧
    ∀ (x : Fin 3 → K) (i : Fin 3), act op x i = (r i 0 : K) * x 0 + (r i 1 : K) * x 1 + (r i 2 : K) * x 2 + (t i : K) := by
  refine ⟨fun h' => ?_, fun x i => ?_⟩
  · rw [Op.ext_iff']
    refine ⟨fun i j => ?_, fun i => by rw [← h'.2, ← h.2]⟩
    have := (h'.1 i j).symm.trans (h.1 i j)
    exact_mod_cast this
  · simp only [act, Fin.sum_univ_three, h.1, h.2, Rat.cast_intCast]

/-- **C181 (counterexample).** For the operations of a space group, which are one array, they give neither: "rotations" of at most three of the operations, with the translations as a fourth column, and for every "translation" the last row (0, 0, 0, 1). -/
theorem C181_stack_false (ops : List Op) :
    (∃ l, getRotation (.stack (ops.map Op.matrix)) = .ok (.one (.block l)) ∧ l.length = min 3 ops.length ∧
      ∀ i op, i < 3 → ops[i]? = some op → ∃ m, l[i]? = some m ∧ (∀ a, m a 3 = op.trans a)) ∧
    (∃ l, getTranslation (.stack (ops.map Op.matrix)) = .ok (.one (.block l)) ∧ l.length = min 3 ops.length ∧
      ∀ t ∈ l, t = ![0, 0, 0, 1]) := by
  refine ⟨⟨_, rfl, by simp, fun i op hi hop => ?_⟩, ⟨_, rfl, by simp, fun t ht => ?_⟩⟩
  · refine ⟨fun a b => op.matrix a.castSucc b, ?_, fun a => ?_⟩
    · simp [List.getElem?_map, List.getElem?_take, hi, hop]
    · simp [Op.matrix]
  · simp only [List.mem_map] at ht
    obtain ⟨m, hm, rfl⟩ := ht
    obtain ⟨op, -, rfl⟩ := List.mem_map.mp (List.mem_of_mem_take hm)
    funext j
    fin_cases j <;> simp [Op.matrix]

/-- **C181 (counterexample).** For every space group of the database with more than three operations some are missing. -/
theorem C181_missing_false {e : Entry} {gens ops : List Op} {arg : Arg}
    (_ : spaceGroup database arg = .ok (e, gens, ops)) (h : 3 < ops.length) :
    ∃ l, getRotation (.stack (ops.map Op.matrix)) = .ok (.one (.block l)) ∧ l.length < ops.length := by
  obtain ⟨⟨l, hl, hlen, -⟩, -⟩ := C181_stack_false ops
  exact ⟨l, hl, by omega⟩

/-- **C181 (counterexample).** An empty list raises `IndexError`. -/
theorem C181_empty_false : getRotation (.arrays []) = .error .index ∧ getTranslation (.texts []) = .error .index :=
  ⟨rfl, rfl⟩

end Verif.Symmetry
