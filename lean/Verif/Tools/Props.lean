import Verif.Tools.Model
import Mathlib.Data.List.Forall2
import Mathlib.Tactic.Linarith
import Mathlib.Tactic.NormNum
import Mathlib.Tactic.Positivity

/-!
# Properties C53 and C54: crystal names and the broadcasting of arguments
-/

namespace Verif.Tools

open Real

/-! ## C53 -/

instance : DecidableEq Entry
  | .tau a, .tau b => decidable_of_iff (a = b) (by simp)
  | .spacing a, .spacing b => decidable_of_iff (a = b) (by simp)
  | .tau _, .spacing _ => isFalse (by simp)
  | .spacing _, .tau _ => isFalse (by simp)

/-- **C53** names are looked up without regard to case, by every caller. -/
theorem C53_case (caller : Caller) {s s' : List Char}
    (h : List.Forall₂ (fun a b : Char => a.toLower = b.toLower) s s') :
    getTau caller (.name s) = getTau caller (.name s') := by
  have : lower s = lower s' := by
    unfold lower
    induction h with
    | nil => rfl
    | cons h _ ih => rw [List.map_cons, List.map_cons, h, ih]
  simp only [getTau, this]

example : List.Forall₂ (fun a b : Char => a.toLower = b.toLower) cs!"PG(002)" cs!"pg(002)" := by
  repeat' constructor

/-- **C53** numbers are passed through. -/
theorem C53_number (caller : Caller) (x : ℝ) : getTau caller (.num x) = .ok (some x) := rfl

/-- **C53** each name of the source gives the number beside it, except that the second line for
copper (111) wins over the first. -/
theorem C53_known (caller : Caller) : ∀ e ∈ choicesDisplay, e ≠ (cs!"Cu(111)", .spacing 2.087) →
    getTau caller (.name e.1) = .ok (some e.2.val) := by
  have : ∀ e ∈ choicesDisplay, e ≠ (cs!"Cu(111)", .spacing 2.087) → lookup (lower e.1) choices = some e.2 := by
    decide +kernel
  intro e he hne
  simp only [getTau, this e he hne]

/-- **C53** a name that is not in the table is an error for a monochromator or an analyzer. -/
theorem C53_unknown {s : List Char} (h : ∀ e ∈ choicesDisplay, lower e.1 ≠ lower s) :
    getTau .monochromator (.name s) = .error .monochromatorError ∧
    getTau .analyzer (.name s) = .error .analyzerError := by
  have hk : ∀ e ∈ choices, e.1 ∈ choicesDisplay.map fun e => lower e.1 := by decide +kernel
  have hl : ∀ d : List (List Char × Entry), (∀ e ∈ d, e.1 ≠ lower s) → lookup (lower s) d = none := by
    intro d hd
    induction d with
    | nil => rfl
    | cons e d ih =>
      rw [lookup, if_neg (hd e (by simp)), ih fun e he => hd e (by simp [he])]
  have : lookup (lower s) choices = none := by
    refine hl _ fun e he heq => ?_
    obtain ⟨e', he', h'⟩ := List.mem_map.1 (hk e he)
    exact h e' he' (h'.trans heq)
  constructor <;> simp only [getTau, this]

example : ∀ e ∈ choicesDisplay, lower e.1 ≠ lower cs!"Zn(002)" := by decide +kernel

theorem argmin_spec (f : List Char × Entry → ℝ) (l : List (List Char × Entry)) (b : List Char × Entry) :
    argmin f b l ∈ b :: l ∧ ∀ e ∈ b :: l, f (argmin f b l) ≤ f e := by
  induction l generalizing b with
  | nil => simp [argmin]
  | cons a l ih =>
    rw [argmin]
    split_ifs with h
    · obtain ⟨h1, h2⟩ := ih a
      refine ⟨List.mem_cons_of_mem _ h1, fun e he => ?_⟩
      rcases List.mem_cons.1 he with rfl | he
      · exact (h2 a (by simp)).trans h.le
      · exact h2 e he
    · obtain ⟨h1, h2⟩ := ih b
      refine ⟨?_, fun e he => ?_⟩
      · rcases List.mem_cons.1 h1 with h | h
        · rw [h]; simp
        · exact List.mem_cons_of_mem _ (List.mem_cons_of_mem _ h)
      · rcases List.mem_cons.1 he with rfl | he
        · exact h2 _ (by simp)
        · rcases List.mem_cons.1 he with rfl | he
          · exact (h2 b (by simp)).trans (not_lt.1 h)
          · exact h2 e (List.mem_cons_of_mem _ he)

theorem choices_lookup : ∀ e ∈ choices, lookup (lower e.1) choices = some e.2 ∧ e.1 ≠ [] := by decide +kernel

/-- The label is that of the closest crystal, if that one is close enough. -/
theorem getLabel_spec (x : ℝ) : ∃ b ∈ choices, (∀ e ∈ choices, |b.2.val - x| ≤ |e.2.val - x|) ∧
    getLabel x = if |b.2.val - x| < 5e-4 then b.1 else [] := by
  have hne : choices ≠ [] := by decide +kernel
  unfold getLabel
  cases h : choices with
  | nil => exact absurd h hne
  | cons e r =>
    obtain ⟨h1, h2⟩ := argmin_spec (fun e => |e.2.val - x|) r e
    exact ⟨_, h1, h2, by simp only [abs_abs]⟩

/-- **C53** the label of a value of the table is a name for exactly that value. -/
theorem C53_roundtrip (caller : Caller) {e : List Char × Entry} (he : e ∈ choices) :
    getTau caller (.name (getLabel e.2.val)) = .ok (some e.2.val) := by
  obtain ⟨b, hb, hmin, hl⟩ := getLabel_spec e.2.val
  have h0 := hmin e he
  rw [sub_self, abs_zero] at h0
  have h1 : b.2.val = e.2.val := sub_eq_zero.1 (abs_eq_zero.1 (le_antisymm h0 (abs_nonneg _)))
  rw [hl, h1, sub_self, abs_zero, if_pos (by norm_num)]
  simp only [getTau, (choices_lookup b hb).1, h1]

/-- **C53** a label names a crystal whose value is within 5e-4 of the number, and closest to it
among all crystals. -/
theorem C53_label_close (caller : Caller) {x : ℝ} (h : getLabel x ≠ []) :
    ∃ v, getTau caller (.name (getLabel x)) = .ok (some v) ∧ |v - x| < 5e-4 ∧
      ∀ e ∈ choices, |v - x| ≤ |e.2.val - x| := by
  obtain ⟨b, hb, hmin, hl⟩ := getLabel_spec x
  rw [hl] at h ⊢
  split_ifs at h ⊢ with hc
  · exact ⟨b.2.val, by simp only [getTau, (choices_lookup b hb).1], hc, hmin⟩
  · exact absurd rfl h

/-- **C53** the label is empty exactly when no crystal is that close. -/
theorem C53_no_label (x : ℝ) : getLabel x = [] ↔ ∀ e ∈ choices, 5e-4 ≤ |e.2.val - x| := by
  obtain ⟨b, hb, hmin, hl⟩ := getLabel_spec x
  rw [hl]
  split_ifs with hc
  · simp only [(choices_lookup b hb).2, false_iff]
    exact fun h => absurd (h b hb) (not_le.2 hc)
  · simp only [true_iff]
    exact fun e he => (not_lt.1 hc).trans (hmin e he)

example : (cs!"pg(002)", Entry.tau 1.87325) ∈ choices := by decide +kernel

example : getLabel 1.8733 ≠ [] := by
  rw [Ne, C53_no_label]
  intro h
  have := h (cs!"pg(002)", Entry.tau 1.87325) (by decide +kernel)
  norm_num [Entry.val] at this

/-! ## C54 -/

/-- `l'` is `l` continued with its last value up to length `n`. -/
def Continued {α : Type} (n : ℕ) (l l' : List α) : Prop :=
  l'.length = n ∧ ∃ t, l' = l ++ t ∧ ∀ x ∈ t, l.getLast? = some x

theorem pad_ok {α : Type} {n : ℕ} {l : List α} (h : l ≠ []) (hn : l.length ≤ n) :
    ∃ l', pad n l = .ok l' ∧ Continued n l l' := by
  unfold pad
  split_ifs with hlt
  · have hx : l.getLast? = some (l.getLast h) := List.getLast?_eq_some_getLast h
    generalize l.getLast h = x at hx
    rw [hx]
    refine ⟨_, rfl, ?_, _, rfl, ?_⟩
    · rw [List.length_append, List.length_replicate]; omega
    · intro y hy
      rw [hx, List.eq_of_mem_replicate hy]
  · exact ⟨l, rfl, by omega, [], by simp, by simp⟩

theorem mapM_pad {α : Type} {n : ℕ} {ls : List (List α)} (h : ∀ l ∈ ls, l ≠ [] ∧ l.length ≤ n) :
    ∃ out, ls.mapM (pad n) = .ok out ∧ List.Forall₂ (Continued n) ls out := by
  induction ls with
  | nil => exact ⟨[], rfl, .nil⟩
  | cons l ls ih =>
    obtain ⟨l', h1, h2⟩ := pad_ok (h l (by simp)).1 (h l (by simp)).2
    obtain ⟨out, h3, h4⟩ := ih fun l hl => h l (by simp [hl])
    refine ⟨l' :: out, ?_, .cons h2 h4⟩
    rw [List.mapM_cons, h1, ok_bind, h3, ok_bind, pure_ok]

theorem not_any {α : Type} {n : ℕ} {ls out : List (List α)} (h : List.Forall₂ (Continued n) ls out) :
    out.any (fun l => decide (l.length < n)) = false := by
  induction h with
  | nil => rfl
  | cons h _ ih =>
    rw [List.any_cons, ih, h.1]
    simp

theorem max?_spec {ls : List ℕ} {n : ℕ} (h : ls.max? = some n) : n ∈ ls ∧ ∀ m ∈ ls, m ≤ n :=
  List.max?_eq_some_iff.1 h

/-- **C54** all arguments come back with the length of the longest one, each being the argument
followed by copies of its last value. -/
theorem C54_clean {α : Type} {args : List (Arg α)} (h0 : args ≠ []) (h : ∀ a ∈ args, a.toList ≠ []) :
    ∃ n out, cleanArgs args = .ok (n, out) ∧ (∀ a ∈ args, a.toList.length ≤ n) ∧
      (∃ a ∈ args, a.toList.length = n) ∧ List.Forall₂ (fun a l => Continued n (Arg.toList a) l) args out := by
  unfold cleanArgs
  have hne : (args.map Arg.toList).map List.length ≠ [] := by simpa using h0
  obtain ⟨n, hn⟩ := Option.isSome_iff_exists.1 (List.isSome_max?_of_ne_nil hne)
  obtain ⟨hmem, hmax⟩ := max?_spec hn
  obtain ⟨out, h1, h2⟩ := mapM_pad (n := n) (ls := args.map Arg.toList) (by
    intro l hl
    refine ⟨?_, hmax _ (List.mem_map_of_mem hl)⟩
    obtain ⟨a, ha, rfl⟩ := List.mem_map.1 hl
    exact h a ha)
  refine ⟨n, out, ?_, ?_, ?_, List.forall₂_map_left_iff.1 h2⟩
  · simp only [hn]
    rw [h1, ok_bind, not_any h2]
    rfl
  · exact fun a ha => hmax _ (by simpa using ⟨a, ha, rfl⟩)
  · simpa using hmem

example : ∃ n out, cleanArgs [.list [1, 2, 3], .scalar 0, .list [5, (7 : ℕ)]] = .ok (n, out) ∧
    out = [[1, 2, 3], [0, 0, 0], [5, 7, 7]] := ⟨3, _, rfl, rfl⟩

/-- **C54** arguments of equal length are not changed. -/
theorem C54_equal {α : Type} {args : List (Arg α)} {n : ℕ} (h0 : args ≠ []) (h : ∀ a ∈ args, a.toList.length = n) :
    cleanArgs args = .ok (n, args.map Arg.toList) := by
  unfold cleanArgs
  have hne : (args.map Arg.toList).map List.length ≠ [] := by simpa using h0
  obtain ⟨m, hm⟩ := Option.isSome_iff_exists.1 (List.isSome_max?_of_ne_nil hne)
  obtain ⟨hmem, -⟩ := max?_spec hm
  have : m = n := by
    simp only [List.map_map, List.mem_map, Function.comp_apply] at hmem
    obtain ⟨a, ha, rfl⟩ := hmem
    exact h a ha
  subst this
  have hp : ∀ ls : List (List α), (∀ l ∈ ls, l.length = m) → ls.mapM (pad m) = .ok ls := by
    intro ls hls
    induction ls with
    | nil => rfl
    | cons l ls ih =>
      rw [List.mapM_cons, pad, if_neg (by rw [hls l (by simp)]; omega), ok_bind,
        ih fun l hl => hls l (by simp [hl]), ok_bind, pure_ok]
  have hl : ∀ l ∈ args.map Arg.toList, l.length = m := by
    intro l hl
    obtain ⟨a, ha, rfl⟩ := List.mem_map.1 hl
    exact h a ha
  simp only [hm]
  rw [hp _ hl, ok_bind]
  have : (args.map Arg.toList).any (fun l => decide (l.length < m)) = false := by
    rw [List.any_eq_false]
    intro l hl'
    simp [hl l hl']
  rw [this]
  rfl

/-- **C54** cleaning the result again changes nothing. -/
theorem C54_idempotent {α : Type} {args : List (Arg α)} {n : ℕ} {out : List (List α)}
    (h : cleanArgs args = .ok (n, out)) : cleanArgs (out.map Arg.list) = .ok (n, out) := by
  have hlen : out ≠ [] ∧ ∀ l ∈ out, l.length = n := by
    unfold cleanArgs at h
    simp only at h
    split at h
    · cases h
    · rename_i m hm
      obtain ⟨hmem, hmax⟩ := max?_spec hm
      rw [bind_eq_ok] at h
      obtain ⟨o, h1, h2⟩ := h
      split_ifs at h2 with hany
      · cases h2
      · cases h2
        have key : ∀ (ls o : List (List α)), ls.mapM (pad n) = .ok o → (∀ l ∈ ls, l.length ≤ n) →
            o.length = ls.length ∧ ∀ l ∈ o, l.length = n := by
          intro ls
          induction ls with
          | nil =>
            intro o ho _
            cases ho
            simp
          | cons l ls ih =>
            intro o ho hls
            rw [List.mapM_cons, bind_eq_ok] at ho
            obtain ⟨l', hl', ho⟩ := ho
            rw [bind_eq_ok] at ho
            obtain ⟨o', ho', ho⟩ := ho
            cases ho
            obtain ⟨h3, h4⟩ := ih o' ho' fun l hl => hls l (by simp [hl])
            refine ⟨by simp [h3], fun x hx => ?_⟩
            rcases List.mem_cons.1 hx with rfl | hx
            · unfold pad at hl'
              have := hls l (by simp)
              split_ifs at hl' with hlt
              · split at hl'
                · cases hl'
                · cases hl'
                  rw [List.length_append, List.length_replicate]
                  omega
              · cases hl'
                omega
            · exact h4 x hx
        obtain ⟨h3, h4⟩ := key _ _ h1 fun l hl => hmax _ (List.mem_map_of_mem hl)
        refine ⟨?_, h4⟩
        rintro rfl
        simp only [List.length_nil, List.length_map] at h3
        rw [List.length_eq_zero_iff.1 h3.symm] at hmem
        simp at hmem
  have := C54_equal (args := out.map Arg.list) (n := n) (by simpa using hlen.1) (by
    intro a ha
    obtain ⟨l, hl, rfl⟩ := List.mem_map.1 ha
    exact hlen.2 l hl)
  rw [this, List.map_map]
  congr 2
  exact List.map_id _

/-- **C54** the only failures are no argument at all and an empty argument beside a non-empty one; in
particular lengths that do not match are never reported. -/
theorem C54_errors {α : Type} (args : List (Arg α)) (e : CleanErr) : cleanArgs args = .error e ↔
    (e = .emptyMax ∧ args = []) ∨
    (e = .indexError ∧ (∃ a ∈ args, a.toList = []) ∧ ∃ a ∈ args, a.toList ≠ []) := by
  by_cases h0 : args = []
  · subst h0
    simp only [cleanArgs, List.map_nil, List.max?_nil]
    constructor
    · intro h; cases h; simp
    · rintro (⟨rfl, -⟩ | ⟨-, ⟨a, ha, -⟩, -⟩)
      · rfl
      · simp at ha
  by_cases h1 : ∀ a ∈ args, a.toList ≠ []
  · obtain ⟨n, out, h, -⟩ := C54_clean h0 h1
    rw [h]
    constructor
    · intro h; cases h
    · rintro (⟨-, h⟩ | ⟨-, ⟨a, ha, h⟩, -⟩)
      · exact absurd h h0
      · exact absurd h (h1 a ha)
  push Not at h1
  by_cases h2 : ∀ a ∈ args, a.toList = []
  · rw [C54_equal (n := 0) h0 fun a ha => by rw [h2 a ha]; rfl]
    constructor
    · intro h; cases h
    · rintro (⟨-, h⟩ | ⟨-, -, ⟨a, ha, h⟩⟩)
      · exact absurd h h0
      · exact absurd (h2 a ha) h
  push Not at h2
  have hidx : cleanArgs args = .error .indexError := by
    unfold cleanArgs
    have hne : (args.map Arg.toList).map List.length ≠ [] := by simpa using h0
    obtain ⟨n, hn⟩ := Option.isSome_iff_exists.1 (List.isSome_max?_of_ne_nil hne)
    obtain ⟨-, hmax⟩ := max?_spec hn
    have hpos : 0 < n := by
      obtain ⟨a, ha, h⟩ := h2
      have := hmax a.toList.length (by simpa using ⟨a, ha, rfl⟩)
      have := List.length_pos_of_ne_nil h
      omega
    have key : ∀ ls : List (List α), [] ∈ ls → ls.mapM (pad n) = .error .indexError := by
      intro ls hls
      induction ls with
      | nil => simp at hls
      | cons l ls ih =>
        rw [List.mapM_cons]
        by_cases hl : l = []
        · subst hl
          rw [pad, if_pos (by simpa using hpos)]
          rfl
        · have hp : ∃ l', pad n l = .ok l' := by
            by_cases hle : l.length ≤ n
            · obtain ⟨l', h, -⟩ := pad_ok hl hle
              exact ⟨l', h⟩
            · exact ⟨l, by rw [pad, if_neg (by omega)]⟩
          obtain ⟨l', hl'⟩ := hp
          rw [hl', ok_bind, ih ((List.mem_cons.1 hls).resolve_left (Ne.symm hl)), error_bind]
    obtain ⟨a, ha, h⟩ := h1
    simp only [hn]
    rw [key _ (List.mem_map.2 ⟨a, ha, h⟩), error_bind]
  rw [hidx]
  constructor
  · intro h
    cases h
    exact .inr ⟨rfl, h1, h2⟩
  · rintro (⟨-, h⟩ | ⟨rfl, -⟩)
    · exact absurd h h0
    · rfl

end Verif.Tools
