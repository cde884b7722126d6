import Mathlib.Tactic.Ring
import Mathlib.Tactic.Linarith
import Verif.Instrument.Printed

/-! # Lemmas about printed forms and their evaluation -/

namespace Verif.Instrument.Printed

open Verif.Instrument.Create (Name)

/-- Values whose text evaluates to themselves. -/
def Plain : Val → Prop
  | .num _ => True
  | .none => True
  | .list _ => True
  | .text _ => False
  | .arr _ => False

/-- What follows an argument. -/
def Ends (ts : List Tok) : Prop := ∃ r, ts = .comma :: r ∨ ts = .rpar :: r ∨ ts = .rbrack :: r

theorem diff_ends {ts : List Tok} (h : Ends ts) (n : ℕ) (v : Except PyErr Val) : diff (n + 1) v ts = some (v, ts) := by
  obtain ⟨r, rfl | rfl | rfl⟩ := h <;> rfl

theorem term_num (q : ℚ) (n : ℕ) (ts : List Tok) : term (n + 2) (showNum q ++ ts) = some (.ok (.num q), ts) := by
  unfold showNum
  split_ifs with h
  · simp [term, neg]
  · simp [term]

theorem showNum_pos (q : ℚ) : 0 < (showNum q).length := by
  unfold showNum
  split_ifs <;> simp

theorem items_succ (x : ℚ) (n : ℕ) (r : List Tok) : items (n + 1) (showNum x ++ r) = match term n (showNum x ++ r) with
    | none => none
    | some (v, ts) => match diff n v ts with
      | some (v, .comma :: ts) => (items n ts).map fun r => (v :: r.1, r.2)
      | some (v, .rbrack :: ts) => some ([v], ts)
      | _ => none := by
  unfold showNum
  split_ifs <;> rfl

theorem items_step (q : ℚ) (n : ℕ) (ts : List Tok) (h : Ends ts) : items (n + 3) (showNum q ++ ts) =
    match ts with
    | .comma :: ts => (items (n + 2) ts).map fun r => (.ok (.num q) :: r.1, r.2)
    | .rbrack :: ts => some ([.ok (.num q)], ts)
    | _ => none := by
  rw [items_succ, term_num]
  simp only [diff_ends h (n + 1)]
  obtain ⟨r, rfl | rfl | rfl⟩ := h <;> rfl

theorem items_list (l : List ℚ) : ∀ (n : ℕ) (ts : List Tok), (commas (l.map showNum)).length + 2 ≤ n →
    items n (commas (l.map showNum) ++ .rbrack :: ts) = some (l.map fun q => .ok (.num q), ts) := by
  induction l with
  | nil =>
    intro n ts hn
    obtain ⟨m, rfl⟩ : ∃ m, n = m + 1 := ⟨n - 1, by simp at hn; omega⟩
    rfl
  | cons q l ih =>
    intro n ts hn
    have hq := showNum_pos q
    cases l with
    | nil =>
      simp only [List.map_cons, List.map_nil, commas] at hn ⊢
      obtain ⟨m, rfl⟩ : ∃ m, n = m + 3 := ⟨n - 3, by omega⟩
      rw [items_step _ _ _ ⟨ts, .inr (.inr rfl)⟩]
    | cons p r =>
      simp only [List.map_cons, commas, List.length_append, List.length_cons] at hn ih ⊢
      obtain ⟨m, rfl⟩ : ∃ m, n = m + 3 := ⟨n - 3, by omega⟩
      rw [List.append_assoc, List.cons_append, items_step _ _ _ ⟨_, .inl rfl⟩]
      simp only
      rw [ih (m + 2) ts (by omega)]
      rfl

theorem listOf_nums (l : List ℚ) : listOf (l.map fun q => .ok (.num q)) = .ok l := by
  induction l with
  | nil => rfl
  | cons q l ih => simp [listOf, ih, Except.map]

/-- Plain values are read as themselves. -/
theorem term_plain {v : Val} (hv : Plain v) {n : ℕ} (hn : v.str.length + 1 ≤ n) {ts : List Tok} (h : Ends ts) :
    term n (v.str ++ ts) = some (.ok v, ts) := by
  match v, hv with
  | .num q, _ =>
    have := showNum_pos q
    simp only [Val.str] at hn ⊢
    obtain ⟨m, rfl⟩ : ∃ m, n = m + 2 := ⟨n - 2, by omega⟩
    exact term_num q m ts
  | .none, _ =>
    simp only [Val.str] at hn ⊢
    obtain ⟨m, rfl⟩ : ∃ m, n = m + 1 := ⟨n - 1, by omega⟩
    obtain ⟨r, rfl | rfl | rfl⟩ := h <;> rfl
  | .list l, _ =>
    simp only [Val.str, List.length_cons, List.length_append, List.length_nil] at hn ⊢
    obtain ⟨m, rfl⟩ : ∃ m, n = m + 1 := ⟨n - 1, by omega⟩
    simp only [List.cons_append, List.append_assoc, List.nil_append, term]
    rw [items_list l m ts (by omega)]
    simp [listOf_nums, Except.map]

/-- The text of an argument. -/
def argText : Option Name × Val → List Tok
  | (none, v) => v.str
  | (some k, v) => keyword (k, v)

theorem argText_pos {a : Option Name × Val} (h : Plain a.2) : 0 < (argText a).length := by
  obtain ⟨o, v⟩ := a
  match v, h with
  | .num q, _ => cases o <;> simp [argText, keyword, Val.str, showNum_pos]
  | .none, _ => cases o <;> simp [argText, keyword, Val.str]
  | .list q, _ => cases o <;> simp [argText, keyword, Val.str]

/-- One argument and what follows. -/
theorem args_step {a : Option Name × Val} (ha : Plain a.2) {n : ℕ} (hn : (argText a).length + 1 ≤ n) {ts : List Tok} (h : Ends ts) :
    args (n + 1) (argText a ++ ts) = match ts with
      | .comma :: ts => (args n ts).map fun r => ((a.1, .ok a.2) :: r.1, r.2)
      | .rpar :: ts => some ([(a.1, .ok a.2)], ts)
      | _ => none := by
  obtain ⟨o, v⟩ := a
  have n1 : 1 ≤ n := by omega
  obtain ⟨m, rfl⟩ : ∃ m, n = m + 1 := ⟨n - 1, by omega⟩
  cases o with
  | some k =>
    simp only [argText, keyword, List.length_cons, List.cons_append] at hn ⊢
    have ha' : Plain v := ha
    simp only [args]
    rw [term_plain ha' (by omega) h]
    simp only [diff_ends h m]
    obtain ⟨r, rfl | rfl | rfl⟩ := h <;> rfl
  | none =>
    simp only [argText] at hn ⊢
    have e : args (m + 1 + 1) (v.str ++ ts) = match term (m + 1) (v.str ++ ts) with
      | none => none
      | some (v, ts) => match diff (m + 1) v ts with
        | some (v, .comma :: ts) => (args (m + 1) ts).map fun r => ((none, v) :: r.1, r.2)
        | some (v, .rpar :: ts) => some ([(none, v)], ts)
        | _ => none := by
      match v, ha with
      | .num q, _ =>
        simp only [Val.str]
        unfold showNum
        split_ifs <;> rfl
      | .none, _ => obtain ⟨r, rfl | rfl | rfl⟩ := h <;> rfl
      | .list l, _ => rfl
    rw [e, term_plain ha (by omega) h]
    simp only [diff_ends h m]
    obtain ⟨r, rfl | rfl | rfl⟩ := h <;> rfl

theorem args_plain (as : List (Option Name × Val)) : (∀ a ∈ as, Plain a.2) → ∀ n, (commas (as.map argText)).length + 2 ≤ n → ∀ ts : List Tok,
    args n (commas (as.map argText) ++ .rpar :: ts) = some (as.map fun a => (a.1, .ok a.2), ts) := by
  induction as with
  | nil =>
    intro _ n hn ts
    obtain ⟨m, rfl⟩ : ∃ m, n = m + 1 := ⟨n - 1, by simp at hn; omega⟩
    rfl
  | cons a as ih =>
    intro h n hn ts
    have ha := h a (by simp)
    have h' := fun b hb => h b (List.mem_cons_of_mem _ hb)
    obtain ⟨m, rfl⟩ : ∃ m, n = m + 1 := ⟨n - 1, by omega⟩
    cases as with
    | nil =>
      simp only [List.map_cons, List.map_nil, commas] at hn ⊢
      rw [args_step ha (by omega) ⟨ts, .inr (.inl rfl)⟩]
    | cons b r =>
      simp only [List.map_cons, commas, List.length_append, List.length_cons] at hn ih ⊢
      rw [List.append_assoc, List.cons_append, args_step ha (by omega) ⟨_, .inl rfl⟩]
      simp only
      rw [ih h' m (by omega) ts]
      rfl

theorem arrange_kw (kw : List (Name × Val)) : arrange (kw.map fun e => (some e.1, .ok e.2)) = .ok ([], kw) := by
  induction kw with
  | nil => rfl
  | cons e kw ih =>
    simp only [List.map_cons, arrange, ih]
    rfl

theorem arrange_ok (pos : List Val) (kw : List (Name × Val)) :
    arrange ((pos.map fun v => (none, .ok v)) ++ kw.map fun e => (some e.1, .ok e.2)) = .ok (pos, kw) := by
  induction pos with
  | nil => exact arrange_kw kw
  | cons v pos ih =>
    simp only [List.map_cons, List.cons_append, arrange, ih]
    rfl

/-- A call with plain arguments is read as it is printed. -/
theorem evaluated_printed (cls : Name) {pos : List Val} {kw : List (Name × Val)} (hp : ∀ v ∈ pos, Plain v) (hk : ∀ e ∈ kw, Plain e.2) :
    evaluated (printed cls pos kw) = .ok (cls, pos, kw) := by
  have e : pos.map Val.str ++ kw.map keyword =
      ((pos.map fun v => ((none : Option Name), v)) ++ kw.map fun e => (some e.1, e.2)).map argText := by
    simp [List.map_append, List.map_map, Function.comp_def, argText]
  unfold printed evaluated
  rw [e]
  simp only
  rw [args_plain _ _ _ (by simp)]
  · simp only [List.map_append, List.map_map, Function.comp_def]
    rw [arrange_ok]
    rfl
  · intro a ha
    simp only [List.mem_append, List.mem_map] at ha
    rcases ha with ⟨v, hv, rfl⟩ | ⟨v, hv, rfl⟩
    · exact hp v hv
    · exact hk v hv

/-! ## Arrays -/

theorem diff_array (xs : List ℚ) : ∀ (n : ℕ) (v : Except PyErr Val) (ts : List Tok),
    diff n v ((xs.map showNum).flatten ++ .rbrack :: ts) = none ∨
    (∃ w, diff n v ((xs.map showNum).flatten ++ .rbrack :: ts) = some (w, .rbrack :: ts)) ∨
    ∃ w q r, diff n v ((xs.map showNum).flatten ++ .rbrack :: ts) = some (w, .num q :: r) := by
  induction xs with
  | nil =>
    intro n v ts
    cases n with
    | zero => exact .inl rfl
    | succ n => exact .inr (.inl ⟨v, rfl⟩)
  | cons x xs ih =>
    intro n v ts
    cases n with
    | zero => exact .inl rfl
    | succ n =>
      simp only [List.map_cons, List.flatten_cons, List.append_assoc]
      by_cases hx : x < 0
      · simp only [showNum, if_pos hx, List.cons_append, List.nil_append, diff]
        cases n with
        | zero => exact .inl rfl
        | succ n =>
          simp only [term]
          exact ih _ _ _
      · refine .inr (.inr ⟨v, x, (xs.map showNum).flatten ++ .rbrack :: ts, ?_⟩)
        simp only [showNum, if_neg hx, List.cons_append, List.nil_append, diff]

/-- An array of numbers is not Python, or a list of one. -/
theorem term_array (x : ℚ) (xs : List ℚ) (n : ℕ) (ts : List Tok) : term n ((Val.arr (x :: xs)).str ++ ts) = none ∨
    ∃ r, term n ((Val.arr (x :: xs)).str ++ ts) = some (r, ts) ∧ ((∃ e, r = .error e) ∨ ∃ q, r = .ok (.list [q])) := by
  cases n with
  | zero => exact .inl rfl
  | succ n =>
    simp only [Val.str, List.cons_append, List.append_assoc, List.nil_append, term]
    have hi : items n (((x :: xs).map showNum).flatten ++ .rbrack :: ts) = none ∨
        ∃ w, items n (((x :: xs).map showNum).flatten ++ .rbrack :: ts) = some ([w], ts) := by
      cases n with
      | zero => exact .inl rfl
      | succ n =>
        simp only [List.map_cons, List.flatten_cons, List.append_assoc]
        rw [items_succ]
        rcases n with _ | _ | n
        · exact .inl rfl
        · by_cases hx : x < 0
          · simp [showNum, if_pos hx, term]
          · simp only [showNum, if_neg hx, List.cons_append, List.nil_append, term]
            rcases diff_array xs 1 (.ok (.num x)) ts with h | ⟨w, h⟩ | ⟨w, q, r, h⟩
            · left; rw [h]
            · right; exact ⟨w, by rw [h]⟩
            · left; rw [h]
        · rw [term_num]
          simp only
          rcases diff_array xs (n + 2) (.ok (.num x)) ts with h | ⟨w, h⟩ | ⟨w, q, r, h⟩
          · left; rw [h]
          · right; exact ⟨w, by rw [h]⟩
          · left; rw [h]
    rcases hi with h | ⟨w, h⟩
    · left; rw [h]; rfl
    · right
      rw [h]
      refine ⟨_, rfl, ?_⟩
      match w with
      | .ok (.num q) => exact .inr ⟨q, rfl⟩
      | .ok .none => exact .inl ⟨_, rfl⟩
      | .ok (.text _) => exact .inl ⟨_, rfl⟩
      | .ok (.list _) => exact .inl ⟨_, rfl⟩
      | .ok (.arr _) => exact .inl ⟨_, rfl⟩
      | .error e => exact .inl ⟨e, rfl⟩

/-! ## Keywords -/

theorem lookup_ifAny_self (k : Name) (v : Option Val) (r : List (Name × Val)) : (ifAny k v ++ r).lookup k = v.or (r.lookup k) := by
  cases v <;> simp [ifAny]

theorem lookup_ifAny_ne {k j : Name} (h : (k == j) = false) (v : Option Val) (r : List (Name × Val)) :
    (ifAny j v ++ r).lookup k = r.lookup k := by
  cases v <;> simp [ifAny, List.lookup_cons, h]

end Verif.Instrument.Printed
