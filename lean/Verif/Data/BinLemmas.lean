import Verif.Data.Bin
import Verif.Data.ArithLemmas
import Mathlib.Tactic.Linarith
import Mathlib.Tactic.Ring
import Mathlib.Tactic.FieldSimp
import Mathlib.Data.List.GetD

set_option linter.unusedSectionVars false

/-!
# Lemmas on rebinning
-/

namespace Verif.Data

variable {α : Type} [Field α] [LinearOrder α]

theorem chunks_flatten {β : Type} {p : Nat} (hp : 0 < p) (Q : List β) :
    (chunks p Q).flatten = Q := by
  have key : ∀ m, ((List.range m).map fun n =>
      (Q.take ((n + 1) * Q.length / p)).drop (n * Q.length / p)).flatten =
      Q.take (m * Q.length / p) := by
    intro m
    induction m with
    | zero => simp
    | succ m ih =>
      rw [List.range_succ, List.map_append, List.flatten_append, ih]
      simp only [List.map_cons, List.map_nil, List.flatten_cons, List.flatten_nil, List.append_nil]
      have hle : m * Q.length / p ≤ (m + 1) * Q.length / p :=
        Nat.div_le_div_right (Nat.mul_le_mul_right _ (Nat.le_succ m))
      have : Q.take (m * Q.length / p) =
          (Q.take ((m + 1) * Q.length / p)).take (m * Q.length / p) := by
        rw [List.take_take, Nat.min_eq_left hle]
      rw [this, List.take_append_drop]
  unfold chunks
  rw [key, Nat.mul_div_cancel_left _ hp, List.take_length]

theorem mapM_flatten {β γ : Type} (f : β → Except Err γ) (L : List (List β)) :
    (L.mapM fun l => l.mapM f) >>= (fun o => Except.ok o.flatten) = L.flatten.mapM f := by
  induction L with
  | nil => rfl
  | cons l L ih =>
    rw [List.flatten_cons, List.mapM_append, List.mapM_cons, ← ih]
    cases hl : l.mapM f with
    | error e => rfl
    | ok a =>
      simp only [ok_bind]
      cases hL : L.mapM (fun l => l.mapM f) with
      | error e => rfl
      | ok b => rfl

theorem bin_eq {sqrt : α → α} {p : Nat} (hp : 0 < p) (d : DataObj α)
    (toBin : List (String × BinAxis α)) (b : Bool) :
    bin sqrt p d toBin b = (do
      let keys := binKeys toBin d.qk b
      let args ← keys.mapM (binArg d toBin)
      let Q ← grid (args.map fun a => (axisCells a).1)
      let outs ← Q.mapM (binCell sqrt d keys (args.map fun a => (axisCells a).2))
      let kept := (Q.zip outs).filterMap fun r => r.2.map fun o => (r.1, o)
      return { d with cols := assemble keys kept 0 d.cols, err := some (kept.map fun r => r.2.2) }) := by
  unfold bin
  simp only
  congr 1
  funext args
  congr 1
  funext Q
  have := mapM_flatten (binCell sqrt d (binKeys toBin d.qk b) (args.map fun a => (axisCells a).2))
    (chunks p Q)
  rw [chunks_flatten hp] at this
  rw [← this]
  cases (chunks p Q).mapM fun ch =>
    ch.mapM (binCell sqrt d (binKeys toBin d.qk b) (args.map fun a => (axisCells a).2)) <;> rfl

theorem mem_cart {qs : List (List α)} {c : List α} :
    c ∈ cart qs ↔ List.Forall₂ (fun x q => x ∈ q) c qs := by
  induction qs generalizing c with
  | nil => simp [cart]
  | cons q qs ih =>
    simp only [cart, List.mem_flatMap, List.mem_map]
    constructor
    · rintro ⟨x, hx, y, hy, rfl⟩
      exact List.Forall₂.cons hx (ih.1 hy)
    · intro h
      cases h with
      | cons hx hy => exact ⟨_, hx, _, ih.2 hy, rfl⟩

theorem grid_ok {qs : List (List α)} (h : qs ≠ []) :
    ∃ Q, grid qs = .ok Q ∧ ∀ c, c ∈ Q ↔ List.Forall₂ (fun x q => x ∈ q) c qs := by
  match qs, h with
  | [q], _ =>
    refine ⟨_, rfl, ?_⟩
    intro c
    simp only [List.mem_map]
    constructor
    · rintro ⟨x, hx, rfl⟩; exact List.Forall₂.cons hx List.Forall₂.nil
    · intro h
      cases h with
      | cons hx hn => cases hn; exact ⟨_, hx, rfl⟩
  | q0 :: q1 :: qs, _ =>
    refine ⟨_, rfl, ?_⟩
    intro c
    simp only [List.mem_map, mem_cart]
    constructor
    · rintro ⟨y, hy, rfl⟩
      cases hy with
      | cons h1 h2 => cases h2 with
        | cons h3 h4 => exact .cons h3 (.cons h1 h4)
    · intro h
      cases h with
      | cons h1 h2 => cases h2 with
        | cons h3 h4 => exact ⟨_, .cons h3 (.cons h1 h4), rfl⟩

theorem cart_nodup {qs : List (List α)} (h : ∀ q ∈ qs, q.Nodup) : (cart qs).Nodup := by
  induction qs with
  | nil => simp [cart]
  | cons q qs ih =>
    have hq := h q (by simp)
    have ih := ih (fun q hq => h q (by simp [hq]))
    unfold cart
    rw [List.nodup_flatMap]
    constructor
    · intro x _
      exact ih.map (fun a b hab => by simpa using hab)
    · apply hq.imp
      intro a b hab
      rw [Function.onFun, List.disjoint_left]
      intro c hc hc'
      rw [List.mem_map] at hc hc'
      obtain ⟨y, _, rfl⟩ := hc
      obtain ⟨z, _, hz⟩ := hc'
      simp only [List.cons.injEq] at hz
      exact hab hz.1.symm

theorem length_cart (qs : List (List α)) : (cart qs).length = (qs.map List.length).prod := by
  induction qs with
  | nil => rfl
  | cons q qs ih =>
    unfold cart
    rw [List.length_flatMap]
    simp [ih, List.map_const']

theorem grid_nodup {qs Q : List (List α)} (h : ∀ q ∈ qs, q.Nodup) (hQ : grid qs = .ok Q) :
    Q.Nodup := by
  match qs with
  | [] => cases hQ
  | [q] =>
    cases hQ
    exact (h q (by simp)).map (fun a b hab => by simpa using hab)
  | q0 :: q1 :: qs =>
    cases hQ
    refine List.Nodup.map ?_ (cart_nodup ?_)
    · intro a b hab
      match a, b with
      | [], [] => rfl
      | [], [_] => simp [swap01] at hab
      | [], _ :: _ :: _ => simp [swap01] at hab
      | [_], [] => simp [swap01] at hab
      | [_], [_] => simpa [swap01] using hab
      | [_], _ :: _ :: _ => simp [swap01] at hab
      | _ :: _ :: _, [] => simp [swap01] at hab
      | _ :: _ :: _, [_] => simp [swap01] at hab
      | a :: b :: r, a' :: b' :: r' =>
        simp only [swap01, List.cons.injEq] at hab ⊢
        exact ⟨hab.2.1, hab.1, hab.2.2⟩
    · intro q hq
      apply h
      simp only [List.mem_cons] at hq ⊢
      tauto

theorem mem_binKeys {toBin : List (String × BinAxis α)} {qk : QKeys} {b : Bool} {k : String}
    (h : k ∈ binKeys toBin qk b) : k ∈ toBin.map Prod.fst ∨ k ∈ qk.values := by
  unfold binKeys at h
  simp only at h
  split at h
  · have key : ∀ (l : List (String × String)) (ks : List String), k ∈ l.foldl
        (fun ks kv => ks.erase kv.1 ++ [kv.2]) ks → k ∈ ks ∨ k ∈ l.map Prod.snd := by
      intro l
      induction l with
      | nil => intro ks hk; exact Or.inl hk
      | cons kv l ih =>
        intro ks hk
        rw [List.foldl_cons] at hk
        rcases ih _ hk with h1 | h1
        · rcases List.mem_append.1 h1 with h2 | h2
          · exact Or.inl (List.mem_of_mem_erase h2)
          · right; simp only [List.mem_singleton] at h2; simp [h2]
        · right; simp [h1]
    exact key _ _ h
  · exact Or.inl h

theorem nodup_binKeys {toBin : List (String × BinAxis α)} (h : (toBin.map Prod.fst).Nodup)
    (b : Bool) : (binKeys toBin .default b).Nodup := by
  unfold binKeys
  simp only
  split
  · have step : ∀ (ks : List String) (k : String), ks.Nodup → (ks.erase k ++ [k]).Nodup := by
      intro ks k hks
      rw [List.nodup_append]
      refine ⟨hks.erase k, by simp, ?_⟩
      intro a ha b hb
      simp only [List.mem_singleton] at hb
      subst hb
      intro hab
      subst hab
      exact (List.Nodup.not_mem_erase hks) ha
    simp only [List.foldl_cons, List.foldl_nil, QKeys.default]
    exact step _ _ (step _ _ (step _ _ (step _ _ (step _ _ h))))
  · exact h

theorem inCell_iff {steps c x : List α} (hx : x.length = c.length) (hs : steps.length = c.length) :
    inCell steps c x = true ↔
      ∀ j < c.length, x.getD j 0 ≤ c.getD j 0 + steps.getD j 0 / 2 ∧
        c.getD j 0 - steps.getD j 0 / 2 ≤ x.getD j 0 := by
  induction c generalizing x steps with
  | nil =>
    have : x = [] := List.eq_nil_of_length_eq_zero hx
    subst this
    simp [inCell]
  | cons c cs ih =>
    cases x with
    | nil => simp at hx
    | cons y ys =>
      cases steps with
      | nil => simp at hs
      | cons s ss =>
        have ih := ih (x := ys) (steps := ss) (by simpa using hx) (by simpa using hs)
        unfold inCell at ih ⊢
        simp only [List.zip_cons_cons, List.all_cons, Bool.and_eq_true, decide_eq_true_eq, ih]
        constructor
        · rintro ⟨h0, h⟩ j hj
          cases j with
          | zero => simpa using h0
          | succ j => simpa using h j (by simpa using hj)
        · intro h
          refine ⟨by simpa using h 0 (by simp), fun j hj => ?_⟩
          simpa using h (j + 1) (by simpa using hj)

theorem take_getD {xs : List α} {ind : List Nat} (h : ∀ i ∈ ind, i < xs.length) :
    take ind xs = .ok (ind.map fun i => xs.getD i 0) := by
  unfold take
  apply mapM_ok
  intro i hi
  rw [getE_ok (h i hi), List.getD_eq_getElem _ _ (h i hi)]

/-- Lexicographic order. -/
theorem cart_sorted {qs : List (List α)} (h : ∀ q ∈ qs, q.Pairwise (· < ·)) :
    (cart qs).Pairwise (List.Lex (· < ·)) := by
  induction qs with
  | nil => simp [cart]
  | cons q qs ih =>
    have hq := h q (by simp)
    have ih := ih (fun q hq => h q (by simp [hq]))
    unfold cart
    rw [List.pairwise_flatMap]
    constructor
    · intro x _
      rw [List.pairwise_map]
      exact ih.imp fun h => List.Lex.cons h
    · apply hq.imp
      intro a b hab c hc c' hc'
      rw [List.mem_map] at hc hc'
      obtain ⟨y, _, rfl⟩ := hc
      obtain ⟨z, _, rfl⟩ := hc'
      exact List.Lex.rel hab

theorem swap01_swap01 (c : List α) : swap01 (swap01 c) = c := by
  match c with
  | [] => rfl
  | [_] => rfl
  | _ :: _ :: _ => rfl

theorem grid_sorted {qs Q : List (List α)} (h : ∀ q ∈ qs, q.Pairwise (· < ·))
    (hQ : grid qs = .ok Q) : (Q.map swap01).Pairwise (List.Lex (· < ·)) := by
  match qs with
  | [] => cases hQ
  | [q] =>
    cases hQ
    rw [List.map_map, List.pairwise_map]
    exact (h q (by simp)).imp fun h => List.Lex.rel h
  | q0 :: q1 :: qs =>
    cases hQ
    rw [List.map_map]
    have : (swap01 ∘ swap01 : List α → List α) = id := funext swap01_swap01
    rw [this, List.map_id]
    apply cart_sorted
    intro q hq
    apply h
    simp only [List.mem_cons] at hq ⊢
    tauto

theorem length_grid {qs Q : List (List α)} (hQ : grid qs = .ok Q) :
    Q.length = (qs.map List.length).prod := by
  match qs with
  | [] => cases hQ
  | [q] => cases hQ; simp
  | q0 :: q1 :: qs =>
    cases hQ
    rw [List.length_map, length_cart]
    simp only [List.map_cons, List.prod_cons]
    ring

end Verif.Data
