import Verif.Data.Scans
import Verif.Data.Lemmas
import Mathlib.Data.List.Nodup
import Mathlib.Data.List.Perm.Subperm
import Mathlib.Data.List.GetD
import Mathlib.Tactic.Ring
import Mathlib.Tactic.Linarith
import Mathlib.Tactic.NormNum

set_option linter.unusedSectionVars false

/-!
# Properties C27, C78, C79: collections of scans
-/

namespace Verif.Data.Scans

variable {σ α : Type}

/-- Keys of a dictionary in insertion order. -/
def keys (d : ODict σ) : List String := d.map Prod.fst

/-- Keys of `e` that are new to `d`, in order. -/
def newKeys (d e : ODict σ) : List String := (keys e).filter (· ∉ keys d)

theorem any_iff (d : ODict σ) (k : String) : d.any (·.1 = k) = true ↔ k ∈ keys d := by
  simp only [List.any_eq_true, keys, List.mem_map, decide_eq_true_eq]

theorem keys_set (d : ODict σ) (k : String) (v : σ) :
    keys (d.set k v) = if k ∈ keys d then keys d else keys d ++ [k] := by
  unfold ODict.set
  by_cases h : k ∈ keys d
  · rw [if_pos ((any_iff d k).2 h), if_pos h]
    unfold keys
    rw [List.map_map]
    apply List.map_congr_left
    intro p _
    simp only [Function.comp]
    split <;> rfl
  · rw [if_neg (fun hh => h ((any_iff d k).1 hh)), if_neg h]
    simp [keys]

theorem lookup_set (d : ODict σ) (k k' : String) (v : σ) :
    (d.set k v).lookup k' = if k' = k then some v else d.lookup k' := by
  unfold ODict.set
  by_cases h : d.any (·.1 = k) = true
  · rw [if_pos h]
    induction d with
    | nil => simp at h
    | cons p d ih =>
      obtain ⟨a, b⟩ := p
      rw [List.map_cons]
      by_cases ha : a = k
      · subst ha
        simp only [if_true, List.lookup_cons]
        by_cases hk : k' = a
        · subst hk; simp
        · have : (k' == a) = false := by simpa using hk
          simp only [this, hk, if_false]
          by_cases hd : d.any (·.1 = a) = true
          · rw [ih hd, if_neg hk]
          · have : d.map (fun p => if p.1 = a then (p.1, v) else p) = d := by
              have : d.map (fun p => if p.1 = a then (p.1, v) else p) = d.map id := by
                apply List.map_congr_left
                intro p hp
                have hne : p.1 ≠ a := by
                  intro e
                  exact hd (List.any_eq_true.2 ⟨p, hp, by simpa using e⟩)
                simp [hne]
              rw [this, List.map_id]
            rw [this]
      · simp only [if_neg ha, List.lookup_cons]
        by_cases hk : k' = a
        · subst hk; simp [ha]
        · have : (k' == a) = false := by simpa using hk
          simp only [this]
          exact ih (by simpa [ha] using h)
  · rw [if_neg h]
    induction d with
    | nil =>
      by_cases hk : k' = k
      · subst hk; simp
      · have : (k' == k) = false := by simpa using hk
        simp [List.lookup_cons, this, hk]
    | cons p d ih =>
      obtain ⟨a, b⟩ := p
      have hh : ¬ (d.any (·.1 = k) = true) ∧ a ≠ k := by
        constructor
        · intro hd; exact h (by rw [List.any_cons, hd, Bool.or_true])
        · intro ha; exact h (by rw [List.any_cons]; simp [ha])
      rw [List.cons_append, List.lookup_cons, List.lookup_cons]
      by_cases hk : k' = a
      · subst hk; simp [hh.2]
      · have : (k' == a) = false := by simpa using hk
        simp only [this]
        exact ih hh.1

theorem update_nil (d : ODict σ) : d.update [] = d := rfl

theorem update_cons (d : ODict σ) (p : String × σ) (e : ODict σ) :
    d.update (p :: e) = (d.set p.1 p.2).update e := rfl

theorem keys_update (d e : ODict σ) (he : (keys e).Nodup) :
    keys (d.update e) = keys d ++ newKeys d e := by
  induction e generalizing d with
  | nil => simp [update_nil, newKeys, keys]
  | cons p e ih =>
    obtain ⟨k, v⟩ := p
    have hk : k ∉ keys e ∧ (keys e).Nodup := by simpa [keys] using he
    rw [update_cons, ih _ hk.2, keys_set]
    unfold newKeys
    rw [keys_set]
    have hcons : keys ((k, v) :: e) = k :: keys e := rfl
    rw [hcons]
    by_cases hd : k ∈ keys d
    · simp only [hd, if_true]
      rw [List.filter_cons_of_neg (by simp only [decide_eq_true_eq, not_not]; exact hd)]
    · simp only [hd, if_false]
      rw [List.filter_cons_of_pos (by simp only [decide_eq_true_eq]; exact hd), List.append_assoc,
        List.singleton_append]
      congr 2
      apply List.filter_congr
      intro x hx
      have : x ≠ k := by rintro rfl; exact hk.1 hx
      simp [this]

theorem lookup_update (d e : ODict σ) (he : (keys e).Nodup) (k : String) :
    (d.update e).lookup k = (e.lookup k).or (d.lookup k) := by
  induction e generalizing d with
  | nil => simp [update_nil]
  | cons p e ih =>
    obtain ⟨a, v⟩ := p
    have hk : a ∉ keys e ∧ (keys e).Nodup := by simpa [keys] using he
    rw [update_cons, ih _ hk.2, lookup_set, List.lookup_cons]
    by_cases h : k = a
    · subst h
      have : e.lookup k = none := by
        rw [List.lookup_eq_none_iff]
        intro p hp
        have : p.1 ≠ k := by
          rintro rfl; exact hk.1 (List.mem_map_of_mem (f := Prod.fst) hp)
        simpa using this.symm
      simp [this]
    · have : (k == a) = false := by simpa using h
      simp [this, h]

theorem nodup_update {d e : ODict σ} (hd : (keys d).Nodup) (he : (keys e).Nodup) :
    (keys (d.update e)).Nodup := by
  rw [keys_update d e he, List.nodup_append]
  refine ⟨hd, he.filter _, ?_⟩
  intro a ha b hb hab
  subst hab
  simpa [ha] using (List.mem_filter.1 hb).2

/-- **C79** an update stores every scan of the argument under its key, keeps the
others, and keeps the order: known keys in place, new keys appended in the order of
the argument. -/
theorem C79_update_contents (st : Store σ) (a arg : Nat) (n : Option Nat)
    (ha : a < st.length) (he : (keys (st.getD arg [])).Nodup) :
    ∃ st' c', update st ⟨some a, n⟩ arg = .ok (st', c') ∧ c'.scans = some a ∧
      keys (st'.getD a []) = keys (st.getD a []) ++ newKeys (st.getD a []) (st.getD arg []) ∧
      (∀ k, (st'.getD a []).lookup k =
        ((st.getD arg []).lookup k).or ((st.getD a []).lookup k)) ∧
      ∀ b ≠ a, st'.getD b [] = st.getD b [] := by
  refine ⟨_, _, rfl, rfl, ?_, ?_, ?_⟩
  · rw [List.getD_eq_getElem (st.set _ _) _ (by simpa using ha), List.getElem_set_self]
    exact keys_update _ _ he
  · intro k
    rw [List.getD_eq_getElem (st.set _ _) _ (by simpa using ha), List.getElem_set_self]
    exact lookup_update _ _ he k
  · intro b hb
    simp only [List.getD_eq_getElem?_getD, List.getElem?_set_ne (Ne.symm hb)]

/-- **C78 is false**: updating a collection changes the dictionary that the caller
constructed it from. -/
theorem C78_caller_dictionary_changed :
    let st : Store Nat := [[("a", 1)], [("b", 2)]]
    (update st (create st (some 0)) 1).map (fun r => r.1.getD 0 []) =
      .ok [("a", 1), ("b", 2)] := by decide

/-- **C78** the dictionary passed to `update` (another one than the collection's)
and all other dictionaries stay as they are.
Missing: the dictionary the collection was constructed from. -/
theorem C78_argument_unchanged_partial {st st' : Store σ} {c c' : Coll} {arg : Nat}
    (h : update st c arg = .ok (st', c')) {b : Nat} (hb : c.scans ≠ some b) :
    st'.getD b [] = st.getD b [] := by
  obtain ⟨s, n⟩ := c
  cases s with
  | none => simp [update] at h
  | some a =>
    simp only [update, Except.ok.injEq, Prod.mk.injEq] at h
    obtain ⟨rfl, _⟩ := h
    have : b ≠ a := by rintro rfl; exact hb rfl
    simp only [List.getD_eq_getElem?_getD, List.getElem?_set_ne (Ne.symm this)]

example : update [[("a", 1)], [("b", 2)]] ⟨some 0, some 1⟩ 1 =
    .ok ([[("a", 1), ("b", 2)], [("b", 2)]], ⟨some 0, some 1⟩) := by decide

/-! ## C27 -/

theorem mapM_length {f : α → Except Err σ} {l : List α} {r : List σ} (h : l.mapM f = .ok r) :
    r.length = l.length := by
  induction l generalizing r with
  | nil => cases h; rfl
  | cons a l ih =>
    rw [List.mapM_cons] at h
    cases hf : f a with
    | error e => rw [hf] at h; cases h
    | ok b =>
      rw [hf] at h
      cases hl : l.mapM f with
      | error e => rw [hl] at h; cases h
      | ok bs =>
        rw [hl] at h
        cases h
        simp [ih hl]

/-- **C27** a collection straight after construction: summaries have one entry per
scan in insertion order. -/
theorem C27_constructed_partial (st : Store σ) (a : Nat) (f : σ → α) :
    funcCol st (create st (some a)) (fun s => .ok (f s)) =
      .ok ((st.getD a []).map fun p => some (f p.2)) := by
  have : ∀ d : ODict σ, d.mapM (fun p => (.ok (f p.2) : Except Err α)) = .ok (d.map fun p => f p.2) := by
    intro d
    induction d with
    | nil => rfl
    | cons p d ih => rw [List.mapM_cons, ih]; rfl
  simp only [funcCol, create, Option.map_some, this]
  rw [List.take_of_length_le (Nat.le_succ _)]
  show (if _ then _ else _) = _
  rw [if_pos (by simp)]
  simp [pure, Except.pure]

/-- All dictionaries in memory have distinct keys. -/
def Wf (st : Store σ) : Prop := ∀ d ∈ st, (keys d).Nodup

theorem Wf.getD {st : Store σ} (h : Wf st) (a : Nat) : (keys (st.getD a [])).Nodup := by
  rcases Nat.lt_or_ge a st.length with ha | ha
  · rw [List.getD_eq_getElem _ _ ha]; exact h _ (List.getElem_mem ha)
  · rw [List.getD_eq_default _ _ ha]; simp [keys]

theorem Wf.update {st st' : Store σ} {c c' : Coll} {arg : Nat} (h : Wf st)
    (hu : update st c arg = .ok (st', c')) : Wf st' := by
  obtain ⟨s, n⟩ := c
  cases s with
  | none => simp [Scans.update] at hu
  | some a =>
    simp only [Scans.update, Except.ok.injEq, Prod.mk.injEq] at hu
    obtain ⟨rfl, _⟩ := hu
    intro d hd
    rcases List.mem_or_eq_of_mem_set hd with hd | rfl
    · exact h d hd
    · exact nodup_update (h.getD a) (h.getD arg)

theorem Wf.updates {st st' : Store σ} {c c' : Coll} {args : List Nat} (h : Wf st)
    (hu : updates st c args = .ok (st', c')) : Wf st' := by
  induction args generalizing st c with
  | nil => cases hu; exact h
  | cons a r ih =>
    unfold Scans.updates at hu
    cases hx : Scans.update st c a with
    | error e => rw [hx] at hu; cases hu
    | ok x => rw [hx] at hu; exact ih (h.update hx) hu

theorem updates_inv {st st' : Store σ} {c c' : Coll} {args : List Nat}
    (hu : updates st c args = .ok (st', c')) : st'.length = st.length ∧ c'.scans = c.scans := by
  induction args generalizing st c with
  | nil => cases hu; exact ⟨rfl, rfl⟩
  | cons a r ih =>
    unfold Scans.updates at hu
    cases hx : Scans.update st c a with
    | error e => rw [hx] at hu; cases hu
    | ok x =>
      rw [hx] at hu
      obtain ⟨h1, h2⟩ := ih hu
      obtain ⟨s, n⟩ := c
      cases s with
      | none => simp [Scans.update] at hx
      | some b =>
        simp only [Scans.update, Except.ok.injEq] at hx
        subst hx
        exact ⟨by simpa using h1, h2⟩

theorem updates_ok (st : Store σ) (a : Nat) (n : Option Nat) (args : List Nat) :
    ∃ r, updates st ⟨some a, n⟩ args = .ok r := by
  induction args generalizing st n with
  | nil => exact ⟨_, rfl⟩
  | cons b r ih => exact ih _ _

/-- **C27** what holds after any history of updates ending in an update with the
dictionary at `arg`: the summary has one entry per stored scan in insertion order
exactly when all stored keys occur in the last argument; otherwise reading it
raises `IndexError`.
Missing: the claim without that condition. -/
theorem C27_history_partial {st : Store σ} {a arg : Nat} {args : List Nat}
    (hst : Wf st) (ha : a < st.length) (f : σ → α) :
    ∃ st₁ c₁ st₂ c₂, updates st (create st (some a)) args = .ok (st₁, c₁) ∧
      update st₁ c₁ arg = .ok (st₂, c₂) ∧
      (funcCol st₂ c₂ (fun s => .ok (f s)) = .ok ((st₂.getD a []).map fun p => some (f p.2)) ↔
        ∀ k ∈ keys (st₂.getD a []), k ∈ keys (st₁.getD arg [])) ∧
      ((∃ k ∈ keys (st₂.getD a []), k ∉ keys (st₁.getD arg [])) →
        funcCol st₂ c₂ (fun s => .ok (f s)) = .error .indexError) := by
  obtain ⟨⟨st₁, c₁⟩, h₁⟩ := updates_ok st a ((some a).map fun a => (st.getD a []).length) args
  have hwf := hst.updates h₁
  obtain ⟨hl, hc₁⟩ := updates_inv h₁
  have hlt : a < st₁.length := by omega
  obtain ⟨s, n⟩ := c₁
  simp only at hc₁
  subst hc₁
  refine ⟨st₁, _, _, _, h₁, rfl, ?_⟩
  set d := (st₁.getD a []).update (st₁.getD arg []) with hd
  have hget : (st₁.set a d).getD a [] = d := by
    rw [List.getD_eq_getElem _ _ (by simpa using hlt), List.getElem_set_self]
  have hmap : ∀ d : ODict σ, d.mapM (fun p => (.ok (f p.2) : Except Err α)) =
      .ok (d.map fun p => f p.2) := by
    intro d
    induction d with
    | nil => rfl
    | cons p d ih => rw [List.mapM_cons, ih]; rfl
  have hkeys : keys d = keys (st₁.getD a []) ++ newKeys (st₁.getD a []) (st₁.getD arg []) :=
    keys_update _ _ (hwf.getD arg)
  have hlen : ∀ e : ODict σ, (keys e).length = e.length := by intro e; simp [keys]
  have hsub : ∀ k ∈ keys (st₁.getD arg []), k ∈ keys d := by
    intro k hk
    rw [hkeys, List.mem_append]
    by_cases h : k ∈ keys (st₁.getD a [])
    · exact .inl h
    · exact .inr (List.mem_filter.2 ⟨hk, by simpa using h⟩)
  have hle : (st₁.getD arg []).length ≤ d.length := by
    rw [← hlen, ← hlen]
    exact ((hwf.getD arg).subperm hsub).length_le
  have hnd : (keys d).Nodup := nodup_update (hwf.getD a) (hwf.getD arg)
  have hiff : d.length ≤ (st₁.getD arg []).length ↔ ∀ k ∈ keys d, k ∈ keys (st₁.getD arg []) := by
    constructor
    · intro h k hk
      have hp : (keys (st₁.getD arg [])).Perm (keys d) :=
        ((hwf.getD arg).subperm hsub).perm_of_length_le (by rw [hlen, hlen]; exact h)
      exact hp.mem_iff.2 hk
    · intro h
      rw [← hlen, ← hlen]
      exact (hnd.subperm h).length_le
  have hval : funcCol (st₁.set a d) { scans := some a, numScans := some (st₁.getD arg []).length }
      (fun s => (.ok (f s) : Except Err α)) =
      if d.length ≤ (st₁.getD arg []).length then .ok (d.map fun p => some (f p.2))
      else .error .indexError := by
    simp only [funcCol, hget, hmap]
    show (if (List.map (fun p => f p.2) (d.take _)).length ≤ _ then _ else _) = _
    rw [List.length_map, List.length_take]
    by_cases h : d.length ≤ (st₁.getD arg []).length
    · rw [if_pos (by omega), if_pos h, List.take_of_length_le (by omega),
        show (st₁.getD arg []).length - min ((st₁.getD arg []).length + 1) d.length = 0 by omega]
      simp [pure, Except.pure]
    · rw [if_neg (by omega), if_neg h]
  simp only [hget]
  rw [hval]
  constructor
  · rw [← hiff]
    constructor
    · intro h
      by_contra hn
      rw [if_neg hn] at h
      cases h
    · intro h; rw [if_pos h]
  · rintro ⟨k, hk, hn⟩
    rw [if_neg (fun h => hn (hiff.1 h k hk))]

/-- **C27 is false**: a collection of one scan updated with another one cannot be
summarised any more. -/
theorem C27_update_breaks_summaries :
    let st : Store Nat := [[("a", 1)], [("b", 2)]]
    ((updates st (create st (some 0)) [1]).bind fun r =>
      funcCol r.1 r.2 (fun s => (.ok s : Except Err Nat))) = .error .indexError := by decide

example : ((updates [[("a", 1)], [("a", 3), ("b", 2)]]
    (create [[("a", 1)], [("a", 3), ("b", 2)]] (some 0)) [1]).bind fun r =>
      funcCol r.1 r.2 (fun s => (.ok s : Except Err Nat))) = .ok [some 3, some 2] := by decide

/-- The value a key has last in a list of dictionaries. -/
def lastValue (k : String) : List (ODict σ) → Option σ
  | [] => none
  | d :: ds => (lastValue k ds).or (d.lookup k)

/-- **C79** over histories: after any number of updates with other dictionaries every
scan is the one given last under its name, from the original dictionary or from an
argument. -/
theorem C79_history {st : Store σ} (hst : Wf st) {a : Nat} (ha : a < st.length)
    {args : List Nat} (hne : a ∉ args) (n : Option Nat) (k : String) :
    ∃ st' c', updates st ⟨some a, n⟩ args = .ok (st', c') ∧ c'.scans = some a ∧
      (st'.getD a []).lookup k = lastValue k ((a :: args).map fun b => st.getD b []) := by
  induction args generalizing st n with
  | nil => exact ⟨st, _, rfl, rfl, by simp [lastValue]⟩
  | cons b r ih =>
    rw [List.mem_cons, not_or] at hne
    set d := (st.getD a []).update (st.getD b []) with hd
    have hwf : Wf (st.set a d) := by
      intro e he
      rcases List.mem_or_eq_of_mem_set he with he | rfl
      · exact hst e he
      · exact nodup_update (hst.getD a) (hst.getD b)
    obtain ⟨st', c', h1, h2, h3⟩ := ih hwf (by simpa using ha) hne.2
      (some (st.getD b []).length)
    refine ⟨st', c', h1, h2, ?_⟩
    have hself : (st.set a d).getD a [] = d := by
      rw [List.getD_eq_getElem _ _ (by simpa using ha), List.getElem_set_self]
    have hother : r.map (fun b => (st.set a d).getD b []) = r.map fun b => st.getD b [] := by
      apply List.map_congr_left
      intro c hc
      have : a ≠ c := by rintro rfl; exact hne.2 hc
      simp [List.getD, this]
    rw [h3, List.map_cons, hother, hself, List.map_cons, List.map_cons, lastValue, lastValue,
      lastValue, hd, lookup_update _ _ (hst.getD b), Option.or_assoc]

example : Wf [[("a", 1)], [("a", 3), ("b", 2)], [("b", 5)]] ∧ 0 ∉ [1, 2] := by
  refine ⟨?_, by decide⟩
  unfold Wf
  decide

/-! ## C80 -/

variable [Field α] [LinearOrder α] [IsStrictOrderedRing α]

/-- **C80** two or more increasing centres: there is one more edge than centres,
and centre `i` lies strictly between edges `i` and `i + 1`, so that the cells of the
colour map are disjoint, in order, and each contains its own scan. -/
theorem C80_edges {ms : List α} (h2 : 2 ≤ ms.length) (hinc : ms.Pairwise (· < ·)) :
    ∃ es, edges ms = .ok es ∧ es.length = ms.length + 1 ∧
      ∀ i (hi : i < ms.length), es.getD i 0 < ms[i] ∧ ms[i] < es.getD (i + 1) 0 := by
  match ms, h2 with
  | m :: m' :: r, _ =>
    refine ⟨_, rfl, by simp, ?_⟩
    set mids := List.zipWith (fun a b : α => (a + b) / 2) (m :: m' :: r) (m' :: r) with hm
    have hl : mids.length = r.length + 1 := by simp [hm]
    have hmid : ∀ j (hj : j < r.length + 1), mids.getD j 0 =
        ((m :: m' :: r)[j]'(by simp; omega) + (m :: m' :: r)[j + 1]'(by simp; omega)) / 2 := by
      intro j hj
      rw [List.getD_eq_getElem _ _ (by omega)]
      simp only [hm, List.getElem_zipWith, List.getElem_cons_succ]
    have hlt : ∀ j (hj : j < r.length + 1), (m :: m' :: r)[j]'(by simp; omega) <
        (m :: m' :: r)[j + 1]'(by simp; omega) := by
      intro j hj
      exact List.pairwise_iff_getElem.1 hinc _ _ _ _ (by omega)
    have hhead : mids.headD 0 = mids.getD 0 0 := by
      cases hmm : mids with
      | nil => rw [hmm] at hl; simp at hl
      | cons a t => rfl
    have hlast : mids.getLastD 0 = mids.getD r.length 0 := by
      rw [List.getLastD_eq_getLast?, List.getLast?_eq_getElem?, hl, Nat.add_sub_cancel,
        List.getD_eq_getElem?_getD]
    have hlastm : (m :: m' :: r).getLastD 0 = (m :: m' :: r)[r.length + 1]'(by simp) := by
      rw [List.getLastD_eq_getLast?, List.getLast?_eq_getElem?]
      simp
    have hE : ∀ i, i < r.length + 3 →
        ((2 * m - mids.headD 0) :: mids ++ [2 * (m :: m' :: r).getLastD 0 - mids.getLastD 0]).getD i 0 =
        if i = 0 then 2 * m - mids.getD 0 0
        else if i < r.length + 2 then mids.getD (i - 1) 0
        else 2 * (m :: m' :: r)[r.length + 1]'(by simp) - mids.getD r.length 0 := by
      intro i hi
      rw [hhead, hlast, hlastm]
      cases i with
      | zero => simp
      | succ i =>
        rw [List.cons_append, List.getD_cons_succ]
        simp only [Nat.add_one_ne_zero, if_false, Nat.add_sub_cancel]
        by_cases hi' : i < r.length + 1
        · rw [if_pos (by omega), List.getD_append _ _ _ _ (by omega)]
        · rw [if_neg (by omega), List.getD_append_right _ _ _ _ (by omega)]
          rw [show i - mids.length = 0 by omega]
          rfl
    intro i hi
    have hi' : i < r.length + 2 := by simpa using hi
    simp only [List.tail_cons, ← hm]
    rw [hE i (by omega), hE (i + 1) (by omega)]
    constructor
    · split
      · next h0 =>
        subst h0
        rw [hmid 0 (by omega)]
        have := hlt 0 (by omega)
        simp only [List.getElem_cons_zero, Nat.zero_add] at *
        linarith
      · next h0 =>
        rw [hmid (i - 1) (by omega)]
        have := hlt (i - 1) (by omega)
        simp only [show i - 1 + 1 = i by omega] at *
        linarith
    · rw [if_neg (by omega)]
      split
      · next h1 =>
        rw [Nat.add_sub_cancel, hmid i (by omega)]
        have := hlt i (by omega)
        linarith
      · next h1 =>
        have : i = r.length + 1 := by omega
        subst this
        rw [hmid r.length (by omega)]
        have := hlt r.length (by omega)
        linarith

example : edges [1, 2, 4] = .ok [(1 / 2 : ℚ), 3 / 2, 3, 5] := by decide +kernel

end Verif.Data.Scans
