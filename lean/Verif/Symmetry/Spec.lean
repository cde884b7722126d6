import Verif.Symmetry.Model
import Mathlib.Data.Set.Card
import Mathlib.Tactic.FieldSimp
import Mathlib.Tactic.Positivity
import Mathlib.Tactic.LinearCombination
import Mathlib.Tactic.Linarith

/-!
# Specification of symmetry operations modulo lattice translations, and helper lemmas
-/

namespace Verif.Symmetry

/-- Composition of operations, translations reduced to [0, 1). -/
def comp (a b : Op) : Op where
  rot := fun i j => ∑ k, a.rot i k * b.rot k j
  trans := fun i => Int.fract ((∑ k, (a.rot i k : ℚ) * b.trans k) + a.trans i)

/-- The operation that changes nothing. -/
def ident : Op := ⟨fun i j => if i = j then 1 else 0, 0⟩

/-- The operations obtained from the generators by composition. -/
inductive Generated (gens : List Op) : Op → Prop
  | base {g} : g ∈ gens → Generated gens g
  | comp {a b} : Generated gens a → Generated gens b → Generated gens (comp a b)

/-- Translations are multiples of `1/N` in [0, 1). -/
def OnGrid (N : ℕ) (a : Op) : Prop := ∀ i, (∃ z : ℤ, a.trans i = z / N) ∧ 0 ≤ a.trans i ∧ a.trans i < 1

/-- A list of operations that is a group modulo lattice translations. -/
structure IsGroup (ops : List Op) : Prop where
  nodup : ops.Nodup
  ident : ident ∈ ops
  comp : ∀ a ∈ ops, ∀ b ∈ ops, comp a b ∈ ops
  inv : ∀ a ∈ ops, ∃ b ∈ ops, Symmetry.comp a b = Symmetry.ident ∧ Symmetry.comp b a = Symmetry.ident

theorem comp_assoc (a b c : Op) : comp (comp a b) c = comp a (comp b c) := by
  rw [Op.ext_iff']
  constructor
  · intro i j
    simp only [comp, Fin.sum_univ_three]
    ring
  · intro i
    simp only [comp]
    rw [Int.fract_eq_fract]
    refine ⟨(∑ k, a.rot i k * ⌊(∑ m, (b.rot k m : ℚ) * c.trans m) + b.trans k⌋) -
      ⌊(∑ k, (a.rot i k : ℚ) * b.trans k) + a.trans i⌋, ?_⟩
    simp only [Fin.sum_univ_three, Int.fract]
    push_cast
    ring

theorem comp_range (a b : Op) (i : Fin 3) : 0 ≤ (comp a b).trans i ∧ (comp a b).trans i < 1 :=
  ⟨Int.fract_nonneg _, Int.fract_lt_one _⟩

theorem onGrid_comp {N : ℕ} (hN : 0 < N) {a b : Op} (ha : OnGrid N a) (hb : OnGrid N b) :
    OnGrid N (comp a b) := by
  intro i
  refine ⟨?_, comp_range a b i⟩
  choose za hza using fun i => (ha i).1
  choose zb hzb using fun i => (hb i).1
  refine ⟨(∑ k, a.rot i k * zb k) + za i -
    N * ⌊(∑ k, (a.rot i k : ℚ) * b.trans k) + a.trans i⌋, ?_⟩
  simp only [comp, Int.fract]
  rw [eq_div_iff (by positivity : (N : ℚ) ≠ 0)]
  have hN' : (N : ℚ) ≠ 0 := by positivity
  have e1 : (∑ k, (a.rot i k : ℚ) * b.trans k) * N = ∑ k, (a.rot i k : ℚ) * zb k := by
    simp only [hzb, Fin.sum_univ_three]
    field_simp
  have e2 : a.trans i * N = za i := by rw [hza]; field_simp
  push_cast
  rw [sub_mul, add_mul, e1, e2]
  ring

theorem grid_sep {N : ℕ} (hN : 0 < N) {s t : ℚ} (hs : ∃ z : ℤ, s = z / N) (ht : ∃ z : ℤ, t = z / N)
    (hNb : N ≤ 10 ^ 15) (h : |s - t| < tol) : s = t := by
  obtain ⟨zs, rfl⟩ := hs
  obtain ⟨zt, rfl⟩ := ht
  have hN' : (0 : ℚ) < N := by positivity
  have hle : (N : ℚ) ≤ 10 ^ 15 := by exact_mod_cast hNb
  by_contra hne
  have hz : zs - zt ≠ 0 := fun h0 => hne (by rw [sub_eq_zero.1 h0])
  have h1 : (1 : ℚ) ≤ |((zs - zt : ℤ) : ℚ)| := by
    rw [← Int.cast_abs]
    exact_mod_cast Int.one_le_abs hz
  have h2 : |(zs : ℚ) / N - zt / N| = |((zs - zt : ℤ) : ℚ)| / N := by
    rw [← sub_div, abs_div, abs_of_pos hN']
    push_cast; rfl
  rw [h2, div_lt_iff₀ hN'] at h
  have : tol * N ≤ 1 := by
    unfold tol
    rw [div_mul_eq_mul_div, one_mul, div_le_one (by positivity)]
    exact hle
  linarith

theorem mulRaw_eq {N : ℕ} (hN : 0 < N) (hNb : N ≤ 10 ^ 15) {a b : Op} (ha : OnGrid N a)
    (hb : OnGrid N b) : mulRaw a b = comp a b := by
  rw [Op.ext_iff']
  refine ⟨fun _ _ => rfl, fun i => ?_⟩
  have hg := onGrid_comp hN ha hb i
  change snap ((comp a b).trans i) = (comp a b).trans i
  unfold snap
  rw [if_neg]
  intro h
  have := grid_sep hN ⟨N, by rw [Int.cast_natCast, div_self (by positivity)]⟩ hg.1 hNb h
  linarith [hg.2.2]

theorem same_iff {N : ℕ} (hN : 0 < N) (hNb : N ≤ 10 ^ 15) {a b : Op} (ha : OnGrid N a)
    (hb : OnGrid N b) : same a b = true ↔ a = b := by
  unfold same
  rw [decide_eq_true_eq, Op.ext_iff']
  constructor
  · rintro ⟨h1, h2⟩
    refine ⟨fun i j => ?_, fun i => grid_sep hN (ha i).1 (hb i).1 hNb (h2 i)⟩
    have := h1 i j
    by_contra hne
    have hz : a.rot i j - b.rot i j ≠ 0 := sub_ne_zero.2 hne
    have h3 : (1 : ℚ) ≤ |((a.rot i j - b.rot i j : ℤ) : ℚ)| := by
      rw [← Int.cast_abs]
      exact_mod_cast Int.one_le_abs hz
    push_cast at h3
    have : tol < 1 := by unfold tol; norm_num
    linarith
  · rintro ⟨h1, h2⟩
    have htol : 0 < tol := by unfold tol; norm_num
    refine ⟨fun i j => ?_, fun i => ?_⟩
    · rw [h1, sub_self, abs_zero]; exact htol
    · rw [h2, sub_self, abs_zero]; exact htol

/-! ## Saturation -/

section
variable {α : Type} {mul : α → α → α} {same : α → α → Bool} {P : α → Prop}

/-- What a step adds: the new elements, at the end of both lists. -/
structure Ext (P : α → Prop) (st st' : List α × List α) (d : List α) : Prop where
  fst : st'.1 = st.1 ++ d
  snd : st'.2 = st.2 ++ d
  nodup : st.1.Nodup → st'.1.Nodup
  good : ∀ x ∈ d, P x

theorem Ext.refl (st : List α × List α) : Ext P st st [] :=
  ⟨by simp, by simp, id, by simp⟩

theorem Ext.trans {a b c : List α × List α} {d e : List α} (h1 : Ext P a b d) (h2 : Ext P b c e) :
    Ext P a c (d ++ e) := by
  refine ⟨by rw [h2.fst, h1.fst, List.append_assoc], by rw [h2.snd, h1.snd, List.append_assoc],
    h2.nodup ∘ h1.nodup, ?_⟩
  intro x hx
  rcases List.mem_append.1 hx with h | h
  · exact h1.good x h
  · exact h2.good x h

theorem addNew_ext (hsame : ∀ a b, P a → P b → (same a b = true ↔ a = b)) {st : List α × List α} {op : α}
    (hst : ∀ x ∈ st.1, P x) (hop : P op) :
    ∃ d, Ext P st (addNew same st op) d ∧ op ∈ (addNew same st op).1 ∧ ∀ x ∈ d, x = op := by
  unfold addNew
  by_cases h : st.1.any (fun s => same s op) = true
  · rw [if_pos h]
    obtain ⟨s, hs, he⟩ := List.any_eq_true.1 h
    rw [hsame _ _ (hst s hs) hop] at he
    subst he
    exact ⟨[], Ext.refl st, hs, by simp⟩
  · rw [if_neg h]
    refine ⟨[op], ⟨rfl, rfl, ?_, by simpa using hop⟩, by simp, by simp⟩
    intro hn
    rw [List.nodup_append]
    refine ⟨hn, by simp, ?_⟩
    intro x hx y hy
    rw [List.mem_singleton] at hy
    subst hy
    rintro rfl
    apply h
    exact List.any_eq_true.2 ⟨x, hx, (hsame _ _ (hst x hx) hop).2 rfl⟩

theorem foldl_addNew (hsame : ∀ a b, P a → P b → (same a b = true ↔ a = b)) (ops : List α)
    {st : List α × List α} (hst : ∀ x ∈ st.1, P x) (hops : ∀ x ∈ ops, P x) :
    ∃ d, Ext P st (ops.foldl (addNew same) st) d ∧ (∀ x ∈ ops, x ∈ (ops.foldl (addNew same) st).1) ∧
      ∀ x ∈ d, x ∈ ops := by
  induction ops generalizing st with
  | nil => exact ⟨[], Ext.refl st, by simp, by simp⟩
  | cons a as ih =>
    obtain ⟨d, h1, h2, h3⟩ := addNew_ext hsame hst (hops a (by simp))
    have hst' : ∀ x ∈ (addNew same st a).1, P x := by
      intro x hx
      rw [h1.fst] at hx
      rcases List.mem_append.1 hx with h | h
      · exact hst x h
      · exact h1.good x h
    obtain ⟨e, g1, g2, g3⟩ := ih hst' (fun x hx => hops x (by simp [hx]))
    refine ⟨d ++ e, h1.trans g1, ?_, ?_⟩
    · intro x hx
      rcases List.mem_cons.1 hx with rfl | hx
      · rw [List.foldl_cons, g1.fst]
        exact List.mem_append_left _ h2
      · exact g2 x hx
    · intro x hx
      rcases List.mem_append.1 hx with h | h
      · rw [h3 x h]; simp
      · exact List.mem_cons_of_mem _ (g3 x h)

theorem foldl_step (hsame : ∀ a b, P a → P b → (same a b = true ↔ a = b))
    (hmul : ∀ a b, P a → P b → P (mul a b)) (new : List α) {st : List α × List α}
    (hst : ∀ x ∈ st.1, P x) (hnew : ∀ x ∈ new, P x) :
    ∃ d, Ext P st (new.foldl (step mul same) st) d ∧
      (∀ g ∈ new, ∀ s ∈ st.1, mul s g ∈ (new.foldl (step mul same) st).1) ∧
      ∀ Q : α → Prop, (∀ x ∈ st.1, Q x) → (∀ x ∈ new, Q x) → (∀ a b, Q a → Q b → Q (mul a b)) →
        ∀ x ∈ d, Q x := by
  induction new generalizing st with
  | nil => exact ⟨[], Ext.refl st, by simp, by simp⟩
  | cons g gs ih =>
    have hP : ∀ x ∈ st.1.map (fun s => mul s g), P x := by
      intro x hx
      obtain ⟨s, hs, rfl⟩ := List.mem_map.1 hx
      exact hmul _ _ (hst s hs) (hnew g (by simp))
    obtain ⟨d, h1, h2, h3⟩ := foldl_addNew hsame _ hst hP
    change Ext P st (step mul same st g) d at h1
    have hst' : ∀ x ∈ (step mul same st g).1, P x := by
      intro x hx
      rw [h1.fst] at hx
      rcases List.mem_append.1 hx with h | h
      · exact hst x h
      · exact h1.good x h
    obtain ⟨e, g1, g2, g3⟩ := ih hst' (fun x hx => hnew x (by simp [hx]))
    refine ⟨d ++ e, h1.trans g1, ?_, ?_⟩
    · intro x hx s hs
      rcases List.mem_cons.1 hx with rfl | hx
      · rw [List.foldl_cons, g1.fst]
        exact List.mem_append_left _ (h2 _ (List.mem_map.2 ⟨s, hs, rfl⟩))
      · apply g2 x hx
        rw [h1.fst]
        exact List.mem_append_left _ hs
    · intro Q q1 q2 q3 x hx
      have hd : ∀ x ∈ d, Q x := by
        intro x hx
        obtain ⟨s, hs, rfl⟩ := List.mem_map.1 (h3 x hx)
        exact q3 _ _ (q1 s hs) (q2 g (by simp))
      rcases List.mem_append.1 hx with h | h
      · exact hd x h
      · refine g3 Q ?_ (fun x hx => q2 x (by simp [hx])) q3 x h
        intro x hx
        rw [h1.fst] at hx
        rcases List.mem_append.1 hx with h | h
        · exact q1 x h
        · exact hd x h

/-- The invariant of the while loop. -/
structure LoopInv (mul : α → α → α) (P Q : α → Prop) (gens symm new : List α) : Prop where
  base : ∀ x ∈ gens, x ∈ symm
  nodup : symm.Nodup
  good : ∀ x ∈ symm, P x
  gen : ∀ x ∈ symm, Q x
  sub : ∀ x ∈ new, x ∈ symm
  done : ∀ g ∈ symm, g ∉ new → ∀ a ∈ gens, mul a g ∈ symm

theorem saturate_spec (hsame : ∀ a b, P a → P b → (same a b = true ↔ a = b))
    (hmul : ∀ a b, P a → P b → P (mul a b)) {Q : α → Prop} (hQ : ∀ a b, Q a → Q b → Q (mul a b))
    {gens : List α} {total : ℕ} (fuel : ℕ) {symm new : List α}
    (hinv : LoopInv mul P Q gens symm new) (hf : total ≤ symm.length + fuel) :
    ∃ s n, saturate mul same total fuel symm new = some (s, n) ∧ LoopInv mul P Q gens s n ∧
      (n = [] ∨ total ≤ s.length) := by
  induction fuel generalizing symm new with
  | zero =>
    unfold saturate
    rw [if_neg (by omega)]
    exact ⟨_, _, rfl, hinv, .inr (by omega)⟩
  | succ fuel ih =>
    unfold saturate
    by_cases hc : new ≠ [] ∧ symm.length < total
    · rw [if_pos hc]
      simp only
      obtain ⟨d, h1, h2, h3⟩ := foldl_step hsame hmul new (st := (symm, [])) hinv.good
        (fun x hx => hinv.good x (hinv.sub x hx))
      have hfst := h1.fst
      have hsnd := h1.snd
      simp only [List.nil_append] at hsnd
      have hinv' : LoopInv mul P Q gens (new.foldl (step mul same) (symm, [])).1
          (new.foldl (step mul same) (symm, [])).2 := by
        refine ⟨?_, h1.nodup hinv.nodup, ?_, ?_, ?_, ?_⟩
        · intro x hx; rw [hfst]; exact List.mem_append_left _ (hinv.base x hx)
        · intro x hx
          rw [hfst] at hx
          rcases List.mem_append.1 hx with h | h
          · exact hinv.good x h
          · exact h1.good x h
        · intro x hx
          rw [hfst] at hx
          rcases List.mem_append.1 hx with h | h
          · exact hinv.gen x h
          · exact h3 Q hinv.gen (fun x hx => hinv.gen x (hinv.sub x hx)) hQ x h
        · intro x hx; rw [hsnd] at hx; rw [hfst]; exact List.mem_append_right _ hx
        · intro g hg hgn a ha
          rw [hsnd] at hgn
          rw [hfst] at hg
          have hg' := (List.mem_append.1 hg).resolve_right hgn
          by_cases hn : g ∈ new
          · exact h2 g hn a (hinv.base a ha)
          · rw [hfst]; exact List.mem_append_left _ (hinv.done g hg' hn a ha)
      by_cases hd : d = []
      · have hn : (new.foldl (step mul same) (symm, [])).2 = [] := by rw [hsnd, hd]
        unfold saturate
        rw [if_neg (fun h => h.1 hn)]
        exact ⟨_, _, rfl, hinv', .inl hn⟩
      · apply ih hinv'
        rw [hfst, List.length_append]
        have := List.length_pos_iff.2 hd
        simp only
        omega
    · rw [if_neg hc]
      refine ⟨_, _, rfl, hinv, ?_⟩
      by_cases hn : new = []
      · exact .inl hn
      · exact .inr (not_lt.1 fun h => hc ⟨hn, h⟩)

end

end Verif.Symmetry
