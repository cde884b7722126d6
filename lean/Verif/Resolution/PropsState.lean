import Verif.Resolution.Instrument
import Verif.Resolution.PropsLeak
import Verif.Tools.Props
import Verif.Crystal.PropsSystem

/-! # Property theorems: what a resolution calculation stores (C60, C63) -/

namespace Verif.Resolution

open Real Matrix
open Verif.Crystal (Fail Vec npDiv Lattice getLattice standardSystem modvec scalar)
open Verif.Tools (Arg cleanArgs)

/-- A query for the same number of values of `H`, `K`, `L` and `W`. -/
structure Query where
  H : List ℝ
  K : List ℝ
  L : List ℝ
  W : List ℝ

/-- The query is for `n` points. -/
structure Query.Len (q : Query) (n : ℕ) : Prop where
  H : q.H.length = n
  K : q.K.length = n
  L : q.L.length = n
  W : q.W.length = n

/-- A new instrument object with these settings. -/
def new (s : Setup) : Inst := ⟨s, none, none⟩

/-- `get_resolution` with four lists. -/
noncomputable def ask (i : Inst) (q : Query) : Inst × Except Fail (List Res) :=
  getResolution i (.list q.H) (.list q.K) (.list q.L) (.list q.W)

/-- The answer of a new instrument object with these settings. -/
noncomputable def fresh (s : Setup) (q : Query) : Except Fail (List Res) := (ask (new s) q).2

theorem clean_query {q : Query} {n : ℕ} (h : q.Len n) :
    cleanArgs [.list q.H, .list q.K, .list q.L, .list q.W] = .ok (n, [q.H, q.K, q.L, q.W]) := by
  have := Verif.Tools.C54_equal (args := [Arg.list q.H, .list q.K, .list q.L, .list q.W]) (n := n) (by simp) (by
    intro a ha
    simp only [List.mem_cons, List.not_mem_nil, or_false] at ha
    rcases ha with rfl | rfl | rfl | rfl
    exacts [h.H, h.K, h.L, h.W])
  simpa [Arg.toList] using this

/-- What a query does when nothing is stored for its points. -/
noncomputable def compute (i : Inst) (q : Query) : Inst × Except Fail (List Res) :=
  let i1 : Inst := { i with keys := some (q.H, q.K, q.L, q.W) }
  match (hkls q.H q.K q.L).mapM (frame i.setup) with
  | .error e => (i1, .error e)
  | .ok fr => match turnSample i.setup.settings.sample.shape fr with
    | .error e => (i1, .error e)
    | .ok sh =>
      let i2 : Inst := { i1 with setup.settings.sample.shape := sh }
      match calcInQ i2.setup.settings ((fr.map Prod.fst).zip q.W) with
      | .error e => (i2, .error e)
      | .ok rs => ({ i2 with result := some (List.zipWith toCrystal fr rs) }, .ok (List.zipWith toCrystal fr rs))

theorem recompute_eq (i : Inst) {q : Query} {n : ℕ} (h : q.Len n) :
    recompute i (.list q.H) (.list q.K) (.list q.L) (.list q.W) = compute i q := by
  unfold recompute calcResolution compute
  rw [clean_query h]
  dsimp only
  cases (hkls q.H q.K q.L).mapM (frame i.setup) with
  | error e => rfl
  | ok fr =>
    dsimp only
    cases turnSample i.setup.settings.sample.shape fr with
    | error e => rfl
    | ok sh =>
      dsimp only
      cases calcInQ { i.setup.settings with sample.shape := sh } ((fr.map Prod.fst).zip q.W) with
      | error e => rfl
      | ok rs => rfl

theorem compute_answer (i : Inst) (q : Query) : (compute i q).2 = (compute (new i.setup) q).2 := by
  unfold compute
  dsimp only [new]
  cases (hkls q.H q.K q.L).mapM (frame i.setup) with
  | error e => rfl
  | ok fr =>
    dsimp only
    cases turnSample i.setup.settings.sample.shape fr with
    | error e => rfl
    | ok sh =>
      dsimp only
      cases calcInQ { i.setup.settings with sample.shape := sh } ((fr.map Prod.fst).zip q.W) with
      | error e => rfl
      | ok rs => rfl

theorem fresh_eq (s : Setup) {q : Query} {n : ℕ} (h : q.Len n) : fresh s q = (compute (new s) q).2 := by
  unfold fresh ask getResolution
  simp only [new]
  rw [recompute_eq _ h]

theorem eqAll_list (l l' : List ℝ) (h : l.length = l'.length) : eqAll (.list l) l' = true ↔ l = l' := by
  unfold eqAll
  simp only [h, if_true]
  rw [List.all_eq_true]
  constructor
  · intro hp
    apply List.ext_getElem h
    intro i h1 h2
    have := hp (l[i], l'[i]) (List.mem_iff_getElem.2 ⟨i, by simp; omega, by simp⟩)
    simpa using this
  · rintro rfl p hp
    obtain ⟨i, hi, rfl⟩ := List.mem_iff_getElem.1 hp
    simp

open Classical in
/-- The answer to a query is the stored result exactly if the stored points are those of the query. -/
theorem ask_cached {i : Inst} {q k : Query} {n : ℕ} {r : List Res} (hq : q.Len n) (hk : k.Len n)
    (h1 : i.keys = some (k.H, k.K, k.L, k.W)) (h2 : i.result = some r) :
    ask i q = if q = k then (i, .ok r) else compute i q := by
  have e : (eqAll (.list q.H) k.H && eqAll (.list q.K) k.K && eqAll (.list q.L) k.L && eqAll (.list q.W) k.W) = true ↔
      q = k := by
    rw [Bool.and_eq_true, Bool.and_eq_true, Bool.and_eq_true, eqAll_list _ _ (hq.H.trans hk.H.symm),
      eqAll_list _ _ (hq.K.trans hk.K.symm), eqAll_list _ _ (hq.L.trans hk.L.symm), eqAll_list _ _ (hq.W.trans hk.W.symm)]
    cases q; cases k
    simp only [Query.mk.injEq]
    tauto
  unfold ask getResolution
  simp only [h1, h2]
  split_ifs with a b b
  · rfl
  · exact absurd (e.1 a) b
  · exact absurd (e.2 b) a
  · exact recompute_eq _ hq

theorem ask_new {i : Inst} {q : Query} {n : ℕ} (hq : q.Len n) (h : i.keys = none ∨ i.result = none) :
    ask i q = compute i q := by
  unfold ask getResolution
  split
  · next h1 h2 =>
    rw [h1, h2] at h
    rcases h with h | h <;> exact nomatch h
  · exact recompute_eq _ hq

theorem compute_ok {i : Inst} {q : Query} {r : List Res} (h : (compute i q).2 = .ok r) :
    (compute i q).1.keys = some (q.H, q.K, q.L, q.W) ∧ (compute i q).1.result = some r := by
  unfold compute at *
  cases h1 : (hkls q.H q.K q.L).mapM (frame i.setup) with
  | error e => rw [h1] at h; exact nomatch h
  | ok fr =>
    rw [h1] at h
    dsimp only at *
    cases h2 : turnSample i.setup.settings.sample.shape fr with
    | error e => rw [h2] at h; exact nomatch h
    | ok sh =>
      rw [h2] at h
      dsimp only at *
      cases h3 : calcInQ { i.setup.settings with sample.shape := sh } ((fr.map Prod.fst).zip q.W) with
      | error e => rw [h3] at h; exact nomatch h
      | ok rs =>
        rw [h3] at h
        exact ⟨rfl, congrArg some (Except.ok.inj h)⟩

/-- A sample without `shape` is not changed. -/
theorem compute_setup (i : Inst) (q : Query) (h : i.setup.settings.sample.shape = none) :
    (compute i q).1.setup = i.setup := by
  unfold compute
  cases (hkls q.H q.K q.L).mapM (frame i.setup) with
  | error e => rfl
  | ok fr =>
    simp only [h, turnSample]
    have e : { i.setup with settings.sample.shape := none } = i.setup := by
      conv_rhs => rw [show i.setup = { i.setup with settings.sample.shape := i.setup.settings.sample.shape } from rfl, h]
    cases calcInQ { i.setup.settings with sample.shape := none } ((fr.map Prod.fst).zip q.W) with
    | error _ => exact e
    | ok rs => exact e

/-! ## C60 -/

/-- The answers to a list of queries put to one object. -/
noncomputable def answers (i : Inst) : List Query → List (Except Fail (List Res))
  | [] => []
  | q :: qs => (ask i q).2 :: answers (ask i q).1 qs

/-- C60 (partial).  As long as no setting is changed, every query in a history of queries for `n` points is
answered as by a new instrument, whatever was asked before, if all queries succeed and the sample has no
`shape`.  Missing: changes of settings (`C60_stale`, `C60_mosaic_false`), failed queries
(`C60_after_error_false`), samples with a shape (C63). -/
theorem C60_queries_partial (s : Setup) (n : ℕ) (hs : s.settings.sample.shape = none) (qs : List Query)
    (hn : ∀ q ∈ qs, q.Len n) (hok : ∀ q ∈ qs, ∃ r, fresh s q = .ok r) : answers (new s) qs = qs.map (fresh s) := by
  suffices H : ∀ (qs : List Query) (i : Inst), (∀ q ∈ qs, q.Len n) → (∀ q ∈ qs, ∃ r, fresh s q = .ok r) → i.setup = s →
      ((i.keys = none ∨ i.result = none) ∨ ∃ (k : Query) (r : List Res), k.Len n ∧ i.keys = some (k.H, k.K, k.L, k.W) ∧
        i.result = some r ∧ fresh s k = .ok r) → answers i qs = qs.map (fresh s) from
    H qs (new s) hn hok rfl (Or.inl (Or.inl rfl))
  intro qs
  induction qs with
  | nil => intros; rfl
  | cons q qs ih =>
    intro i hn hok hi hst
    have hq := hn q (by simp)
    obtain ⟨r, hr⟩ := hok q (by simp)
    have fin : ask i q = compute i q → (ask i q).2 = fresh s q ∧ answers (ask i q).1 qs = qs.map (fresh s) := by
      intro e
      have a : (compute i q).2 = fresh s q := by rw [compute_answer, hi, fresh_eq s hq]
      have c := compute_ok (a.trans hr)
      rw [e]
      refine ⟨a, ih _ (fun q' h' => hn q' (List.mem_cons_of_mem _ h')) (fun q' h' => hok q' (List.mem_cons_of_mem _ h')) ?_
        (Or.inr ⟨q, r, hq, c.1, c.2, hr⟩)⟩
      rw [compute_setup i q (by rw [hi]; exact hs), hi]
    simp only [answers, List.map_cons, List.cons.injEq]
    rcases hst with h | ⟨k, r', hk, h1, h2, h3⟩
    · exact fin (ask_new hq h)
    · have e := ask_cached hq hk h1 h2
      by_cases hqk : q = k
      · rw [if_pos hqk] at e
        rw [e]
        subst hqk
        exact ⟨h3.symm, ih i (fun q' h' => hn q' (List.mem_cons_of_mem _ h'))
          (fun q' h' => hok q' (List.mem_cons_of_mem _ h')) hi (Or.inr ⟨q, r', hk, h1, h2, h3⟩)⟩
      · rw [if_neg hqk] at e
        exact fin e

/-- C60, settings.  After a successful query, whatever settings are changed, the same query is answered with
the stored result of the old settings. -/
theorem C60_stale (s s' : Setup) (n : ℕ) (q : Query) (hq : q.Len n) (r : List Res) (h : fresh s q = .ok r) :
    (ask { (ask (new s) q).1 with setup := s' } q).2 = .ok r := by
  have e := ask_new (i := new s) hq (Or.inl rfl)
  rw [fresh_eq s hq] at h
  obtain ⟨c1, c2⟩ := compute_ok h
  rw [e, ask_cached hq hq (i := { (compute (new s) q).1 with setup := s' }) c1 c2, if_pos rfl]

/-- An error that is an exception in the code (not a value that is not a number). -/
def Raised (e : Fail) : Prop := e = .linAlgError ∨ e = .valueError ∨ e = .scatteringTriangleError

/-- C60, failed queries.  If a query raises an exception, repeating it returns, without error, the result that
was stored for another point. -/
theorem C60_after_error (i : Inst) (n : ℕ) (q k : Query) (hq : q.Len n) (hk : k.Len n) (r : List Res) (e : Fail)
    (h1 : i.keys = some (k.H, k.K, k.L, k.W)) (h2 : i.result = some r) (hne : q ≠ k) (h : (ask i q).2 = .error e)
    (_ : Raised e) : (ask (ask i q).1 q).2 = .ok r := by
  have a := ask_cached hq hk h1 h2
  rw [if_neg hne] at a
  rw [a] at h ⊢
  have c : (compute i q).1.keys = some (q.H, q.K, q.L, q.W) ∧ (compute i q).1.result = some r := by
    unfold compute at *
    cases g1 : (hkls q.H q.K q.L).mapM (frame i.setup) with
    | error e => exact ⟨rfl, h2⟩
    | ok fr =>
      rw [g1] at h
      dsimp only at *
      cases g2 : turnSample i.setup.settings.sample.shape fr with
      | error e => exact ⟨rfl, h2⟩
      | ok sh =>
        rw [g2] at h
        dsimp only at *
        cases g3 : calcInQ { i.setup.settings with sample.shape := sh } ((fr.map Prod.fst).zip q.W) with
        | error e => exact ⟨rfl, h2⟩
        | ok rs => rw [g3] at h; exact nomatch h
  rw [ask_cached hq hq c.1 c.2, if_pos rfl]

end Verif.Resolution
