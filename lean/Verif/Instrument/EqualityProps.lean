import Mathlib.Tactic.NormNum
import Verif.Instrument.Equality

/-!
# Properties of the comparison of instruments and their parts
-/

namespace Verif.Instrument.Equality

variable {V : Type}

/-! ## Helper lemmas -/

theorem sameArr_comm (xs ys : List ℝ) : sameArr xs ys = sameArr ys xs := by
  unfold sameArr
  by_cases h : xs.length = ys.length
  · rw [if_pos h, if_pos h.symm]
    exact decide_eq_decide.2 eq_comm
  · rw [if_neg h, if_neg (fun e => h e.symm)]
    rcases xs with _ | ⟨x, _ | ⟨x', xs⟩⟩ <;> rcases ys with _ | ⟨y, _ | ⟨y', ys⟩⟩ <;> simp_all [eq_comm]

theorem sameArr_self (xs : List ℝ) : sameArr xs xs = true := by simp [sameArr]

theorem same_comm (v w : Plain) : same v w = same w v := by
  cases v <;> cases w <;> simp [same, sameArr_comm, eq_comm]
  all_goals exact sameArr_comm _ _

theorem same_self (v : Plain) : same v v = true := by cases v <;> simp [same, sameArr_self]

theorem get_isSome {a : Attrs V} {k : List Char} (h : k ∈ a.map Prod.fst) : ∃ v, a.get k = some v := by
  obtain ⟨e, he, rfl⟩ := List.mem_map.1 h
  have : (a.find? fun f => f.1 = e.1).isSome := by
    rw [List.find?_isSome]
    exact ⟨e, he, by simp⟩
  obtain ⟨f, hf⟩ := Option.isSome_iff_exists.1 this
  exact ⟨f.2, by simp [Attrs.get, hf]⟩

theorem get_mem {a : Attrs V} {k : List Char} {v : V} (h : a.get k = some v) : (k, v) ∈ a := by
  obtain ⟨e, he, rfl⟩ := Option.map_eq_some_iff.1 h
  have h1 := List.mem_of_find?_eq_some he
  have h2 : e.1 = k := by simpa using List.find?_some he
  exact h2 ▸ h1

theorem get_of_mem {a : Attrs V} (ha : (a.map Prod.fst).Nodup) {k : List Char} {v : V} (h : (k, v) ∈ a) :
    a.get k = some v := by
  obtain ⟨w, hw⟩ := get_isSome (List.mem_map_of_mem (f := Prod.fst) h)
  have := List.inj_on_of_nodup_map ha (get_mem hw) h rfl
  rw [hw]
  exact congrArg some (Prod.mk.inj this).2

theorem keys_perm {a b : Attrs V} : a.keys = b.keys ↔ (a.map Prod.fst).Perm (b.map Prod.fst) := by
  constructor
  · intro h
    have h1 : a.keys.Perm (a.map Prod.fst) := List.perm_insertionSort _ _
    have h2 : b.keys.Perm (b.map Prod.fst) := List.perm_insertionSort _ _
    exact h1.symm.trans (h ▸ h2)
  · intro h
    exact ((List.perm_insertionSort _ _).trans (h.trans (List.perm_insertionSort _ _).symm)).eq_of_pairwise'
      (List.pairwise_insertionSort _ _) (List.pairwise_insertionSort _ _)

theorem compareAll_true {cmp : V → V → Except EqErr Bool} {r l : Attrs V} :
    compareAll cmp r l = .ok true ↔ ∀ e ∈ l, ∃ w, r.get e.1 = some w ∧ cmp e.2 w = .ok true := by
  induction l with
  | nil => simp [compareAll]
  | cons e l ih =>
    obtain ⟨k, v⟩ := e
    rw [List.forall_mem_cons, ← ih, compareAll]
    rcases r.get k with _ | w
    · simp
    · rcases h : cmp v w with e | (_ | _) <;> simp [h]

theorem compareObj_true {cmp : V → V → Except EqErr Bool} {l r : Attrs V} (hl : (l.map Prod.fst).Nodup)
    (hr : (r.map Prod.fst).Nodup) :
    compareObj cmp l r = .ok true ↔ ∀ k, (l.get k = none ∧ r.get k = none) ∨
      ∃ v w, l.get k = some v ∧ r.get k = some w ∧ cmp v w = .ok true := by
  have hn : ∀ (a : Attrs V) k, a.get k = none ↔ k ∉ a.map Prod.fst := by
    intro a k
    constructor
    · intro h hk
      obtain ⟨v, hv⟩ := get_isSome hk
      rw [h] at hv; cases hv
    · intro h
      rcases hg : a.get k with _ | v
      · rfl
      · exact absurd (List.mem_map_of_mem (f := Prod.fst) (get_mem hg)) h
  unfold compareObj
  by_cases hk : l.keys = r.keys
  · rw [if_pos hk, compareAll_true]
    have hp := keys_perm.1 hk
    constructor
    · intro h k
      rcases hg : l.get k with _ | v
      · left
        exact ⟨rfl, (hn r k).2 fun hm => (hn l k).1 hg (hp.mem_iff.2 hm)⟩
      · right
        obtain ⟨w, hw, hc⟩ := h _ (get_mem hg)
        exact ⟨v, w, rfl, hw, hc⟩
    · rintro h ⟨k, v⟩ he
      have hg := get_of_mem hl he
      rcases h k with ⟨h0, _⟩ | ⟨v', w, hv, hw, hc⟩
      · rw [hg] at h0; cases h0
      · rw [hg] at hv; cases hv
        exact ⟨w, hw, hc⟩
  · rw [if_neg hk]
    constructor
    · intro h; cases h
    · intro h
      refine absurd (keys_perm.2 ((List.perm_ext_iff_of_nodup hl hr).2 fun k => ?_)) hk
      rcases h k with ⟨h1, h2⟩ | ⟨v, w, h1, h2, _⟩
      · exact iff_of_false ((hn _ _).1 h1) ((hn _ _).1 h2)
      · exact iff_of_true (List.mem_map_of_mem (f := Prod.fst) (get_mem h1))
          (List.mem_map_of_mem (f := Prod.fst) (get_mem h2))

theorem compareAll_ok {cmp : V → V → Except EqErr Bool} {r l : Attrs V} (hc : ∀ v w, ∃ t, cmp v w = .ok t)
    (hk : ∀ e ∈ l, e.1 ∈ r.map Prod.fst) : ∃ t, compareAll cmp r l = .ok t := by
  induction l with
  | nil => exact ⟨true, rfl⟩
  | cons e l ih =>
    obtain ⟨k, v⟩ := e
    obtain ⟨w, hw⟩ := get_isSome (hk _ List.mem_cons_self)
    obtain ⟨t, ht⟩ := hc v w
    obtain ⟨u, hu⟩ := ih fun e he => hk e (List.mem_cons_of_mem _ he)
    simp only [compareAll]
    simp only at hw
    rw [hw]
    simp only [ht]
    cases t
    · exact ⟨false, rfl⟩
    · exact ⟨u, hu⟩

theorem compareObj_ok {cmp : V → V → Except EqErr Bool} (l r : Attrs V) (hc : ∀ v w, ∃ t, cmp v w = .ok t) :
    ∃ t, compareObj cmp l r = .ok t := by
  unfold compareObj
  by_cases hk : l.keys = r.keys
  · rw [if_pos hk]
    exact compareAll_ok hc fun e he => (keys_perm.1 hk).mem_iff.1 (List.mem_map_of_mem (f := Prod.fst) he)
  · exact ⟨false, if_neg hk⟩

theorem eqPart_ok (a b : Attrs Plain) : ∃ t, eqPart a b = .ok t := compareObj_ok a b fun _ _ => ⟨_, rfl⟩

theorem eqPart_true {a b : Attrs Plain} (ha : (a.map Prod.fst).Nodup) (hb : (b.map Prod.fst).Nodup) :
    eqPart a b = .ok true ↔ ∀ k, (a.get k = none ∧ b.get k = none) ∨
      ∃ v w, a.get k = some v ∧ b.get k = some w ∧ same v w = true := by
  refine (compareObj_true ha hb).trans (forall_congr' fun k => ?_)
  simp

theorem mem_keys_set (a : Attrs V) (k k' : List Char) (v : V) :
    k' ∈ (a.set k v).map Prod.fst ↔ k' = k ∨ k' ∈ a.map Prod.fst := by
  unfold Attrs.set
  by_cases h : k ∈ a.map Prod.fst
  · rw [if_pos h]
    have : (a.map fun e => if e.1 = k then (k, v) else e).map Prod.fst = a.map Prod.fst := by
      rw [List.map_map]
      refine List.map_congr_left fun e _ => ?_
      simp only [Function.comp]
      split
      · rename_i h'; exact h'.symm
      · rfl
    rw [this]
    constructor
    · exact Or.inr
    · rintro (rfl | h')
      · exact h
      · exact h'
  · rw [if_neg h]
    simp [or_comm]

theorem mem_keys_foldl (a : Attrs V) (r : List Char → V) (ks : List (List Char)) (k : List Char) :
    k ∈ (ks.foldl (fun a k => a.set k (r k)) a).map Prod.fst ↔ k ∈ ks ∨ k ∈ a.map Prod.fst := by
  induction ks generalizing a with
  | nil => simp
  | cons k' ks ih =>
    rw [List.foldl_cons, ih, mem_keys_set]
    simp only [List.mem_cons]
    tauto

/-! ## Specification -/

/-- An object has no attribute twice. -/
def Proper (a : Attrs V) : Prop := (a.map Prod.fst).Nodup

/-- Two parts agree: they have the same attributes and these the same values.  The order in which they were assigned does
not matter. -/
def PartsAgree (a b : Attrs Plain) : Prop := ∀ k, a.get k = b.get k

/-- Two values agree. -/
def ItemsAgree : Item → Item → Prop
  | .plain v, .plain w => v = w
  | .part a, .part b => PartsAgree a b
  | _, _ => False

/-- Two instruments agree in every attribute, and their parts in every one of theirs. -/
def InstrAgree (a b : Attrs Item) : Prop :=
  ∀ k, (a.get k = none ∧ b.get k = none) ∨ ∃ v w, a.get k = some v ∧ b.get k = some w ∧ ItemsAgree v w

/-- Values of the same kind and, if they are arrays, of the same length. -/
def Alike : Plain → Plain → Prop
  | .arr xs, .arr ys => xs.length = ys.length
  | .arr _, .none => False
  | .none, .arr _ => False
  | .arr _, .num _ => False
  | .num _, .arr _ => False
  | .arr _, .list _ => False
  | .list _, .arr _ => False
  | _, _ => True

/-- Attributes of the same name are alike. -/
def PartsAlike (a b : Attrs Plain) : Prop := ∀ k v w, a.get k = some v → b.get k = some w → Alike v w

/-- Attributes of the same name are alike. -/
def ItemsAlike : Item → Item → Prop
  | .plain v, .plain w => Alike v w
  | .part a, .part b => Proper a ∧ Proper b ∧ PartsAlike a b
  | _, _ => False

/-- Attributes of the same name are alike, parts with parts. -/
def InstrAlike (a b : Attrs Item) : Prop := ∀ k v w, a.get k = some v → b.get k = some w → ItemsAlike v w

theorem same_iff {v w : Plain} (h : Alike v w) : same v w = true ↔ v = w := by
  cases v <;> cases w <;> simp_all [same, Alike, sameArr]

/-! ## Theorems -/

/-- C159 (part).  Parts of instruments whose attributes of the same name are of the same kind and length are equal exactly
if they have the same attributes with the same values, whatever the order of assignment, and the comparison does not
raise. -/
theorem C159_part_partial (a b : Attrs Plain) (ha : Proper a) (hb : Proper b) (h : PartsAlike a b) :
    (eqPart a b = .ok true ↔ PartsAgree a b) ∧ ∃ t, eqPart a b = .ok t := by
  refine ⟨(eqPart_true ha hb).trans (forall_congr' fun k => ?_), eqPart_ok a b⟩
  constructor
  · rintro (⟨h1, h2⟩ | ⟨v, w, h1, h2, h3⟩)
    · rw [h1, h2]
    · rw [h1, h2, (same_iff (h k v w h1 h2)).1 h3]
  · intro e
    rcases hg : a.get k with _ | v
    · exact .inl ⟨rfl, by rw [← e, hg]⟩
    · exact .inr ⟨v, v, rfl, by rw [← e, hg], same_self v⟩

/-- C159 (part).  The same for whole instruments. -/
theorem C159_instr_partial (a b : Attrs Item) (ha : Proper a) (hb : Proper b) (h : InstrAlike a b) :
    (eqInstr a b = .ok true ↔ InstrAgree a b) ∧ ∃ t, eqInstr a b = .ok t := by
  constructor
  · refine (compareObj_true ha hb).trans (forall_congr' fun k => or_congr Iff.rfl ?_)
    refine exists_congr fun v => exists_congr fun w => and_congr_right fun h1 => and_congr_right fun h2 => ?_
    have h3 := h k v w h1 h2
    rcases v with v | v <;> rcases w with w | w
    · simpa [eqItem, ItemsAgree] using same_iff h3
    · exact h3.elim
    · exact h3.elim
    · exact (C159_part_partial v w h3.1 h3.2.1 h3.2.2).1
  · unfold eqInstr compareObj
    by_cases hk : a.keys = b.keys
    · rw [if_pos hk]
      have hp := keys_perm.1 hk
      suffices H : ∀ l : Attrs Item, (∀ e ∈ l, e ∈ a) → ∃ t, compareAll eqItem b l = .ok t from H a fun _ h => h
      intro l
      induction l with
      | nil => exact fun _ => ⟨true, rfl⟩
      | cons e l ih =>
        intro hl
        obtain ⟨k, v⟩ := e
        have hm := hl _ List.mem_cons_self
        have h1 := get_of_mem ha hm
        obtain ⟨w, h2⟩ := get_isSome (hp.mem_iff.1 (List.mem_map_of_mem (f := Prod.fst) hm))
        have h3 := h k v w h1 h2
        obtain ⟨u, hu⟩ := ih fun e he => hl e (List.mem_cons_of_mem _ he)
        have : ∃ t, eqItem v w = .ok t := by
          rcases v with v | v <;> rcases w with w | w
          · exact ⟨_, rfl⟩
          · exact h3.elim
          · exact h3.elim
          · exact eqPart_ok v w
        obtain ⟨t, ht⟩ := this
        simp only [compareAll]
        simp only at h2
        rw [h2]
        simp only [ht]
        cases t
        · exact ⟨false, rfl⟩
        · exact ⟨u, hu⟩
    · exact ⟨false, if_neg hk⟩

/-- C159 (part).  Every part is equal to itself, and the order of the sides does not matter. -/
theorem C159_symm_partial (a b : Attrs Plain) (ha : Proper a) (hb : Proper b) :
    eqPart a a = .ok true ∧ eqPart a b = eqPart b a := by
  refine ⟨(eqPart_true ha ha).2 fun k => ?_, ?_⟩
  · rcases hg : a.get k with _ | v
    · exact .inl ⟨rfl, rfl⟩
    · exact .inr ⟨v, v, rfl, rfl, same_self v⟩
  · have : eqPart a b = .ok true ↔ eqPart b a = .ok true := by
      rw [eqPart_true ha hb, eqPart_true hb ha]
      refine forall_congr' fun k => or_congr and_comm ?_
      constructor
      · rintro ⟨v, w, h1, h2, h3⟩
        exact ⟨w, v, h2, h1, same_comm v w ▸ h3⟩
      · rintro ⟨v, w, h1, h2, h3⟩
        exact ⟨w, v, h2, h1, same_comm v w ▸ h3⟩
    obtain ⟨s, hs⟩ := eqPart_ok a b
    obtain ⟨t, ht⟩ := eqPart_ok b a
    rw [hs, ht] at this ⊢
    cases s <;> cases t <;> simp_all

/-- A part with one attribute. -/
def single (k : List Char) (v : Plain) : Attrs Plain := [(k, v)]

/-- C159 fails: arrays of different lengths can be equal.  Collimators given as one number, or as an array of one, are
those given as four. -/
theorem C159_length_false : ∃ a b c : Attrs Plain, Proper a ∧ Proper b ∧ Proper c ∧ ¬ PartsAgree a b ∧ ¬ PartsAgree c b ∧
    eqPart a b = .ok true ∧ eqPart c b = .ok true := by
  refine ⟨single cs!"_hcol" (.arr [40]), single cs!"_hcol" (.arr [40, 40, 40, 40]), single cs!"_hcol" (.num 40),
    by simp [Proper, single], by simp [Proper, single], by simp [Proper, single], ?_, ?_, ?_, ?_⟩
  · intro h
    have := h cs!"_hcol"
    simp [single, Attrs.get] at this
  · intro h
    have := h cs!"_hcol"
    simp [single, Attrs.get] at this
  · simp [eqPart, compareObj, Attrs.keys, single, compareAll, Attrs.get, same, sameArr]
  · simp [eqPart, compareObj, Attrs.keys, single, compareAll, Attrs.get, same]

/-- C159 fails: of three parts the first can be equal to the second and the second to the third, but not the first to the
third. -/
theorem C159_trans_false : ∃ a b c : Attrs Plain, Proper a ∧ Proper b ∧ Proper c ∧
    eqPart a b = .ok true ∧ eqPart b c = .ok true ∧ eqPart a c = .ok false := by
  refine ⟨single cs!"u" (.arr [1]), single cs!"u" (.arr []), single cs!"u" (.arr [2]), by simp [Proper, single],
    by simp [Proper, single], by simp [Proper, single], ?_, ?_, ?_⟩ <;>
  simp [eqPart, compareObj, Attrs.keys, single, compareAll, Attrs.get, same, sameArr]

/-- C159 fails: whatever the instrument and whatever the results, an instrument that has not been asked for its resolution
is different from itself after it has. -/
theorem C159_calc_false (a : Attrs Item) (results : List Char → Item) (h : cs!"RM" ∉ a.map Prod.fst) :
    eqInstr a (afterCalc a results) = .ok false ∧ eqInstr (afterCalc a results) a = .ok false := by
  have hm : cs!"RM" ∈ (afterCalc a results).map Prod.fst := by
    rw [afterCalc, mem_keys_foldl]
    left
    simp [stored]
  generalize afterCalc a results = b at hm
  have hk : ¬ a.keys = b.keys := fun e => h ((keys_perm.1 e).mem_iff.2 hm)
  exact ⟨by rw [eqInstr, compareObj, if_neg hk], by rw [eqInstr, compareObj, if_neg fun e => hk e.symm]⟩

/-- C159 fails: the comparison of two instruments can raise `AttributeError`, if an attribute is a part of the one and not
of the other. -/
theorem C159_raises_false : ∃ a b : Attrs Item, Proper a ∧ Proper b ∧ eqInstr a b = .error .attributeError := by
  refine ⟨[(cs!"guide", .part (single cs!"name" (.text cs!"Guide")))], [(cs!"guide", .plain .none)], by simp [Proper],
    by simp [Proper], ?_⟩
  simp [eqInstr, compareObj, Attrs.keys, compareAll, Attrs.get, eqItem]

/-! ## The hypotheses are met -/

/-- An instrument. -/
def demoInstr (e : ℝ) : Attrs Item :=
  [(cs!"_hcol", .plain (.arr [40, 40, 40, 40])), (cs!"_efixed", .plain (.num e)),
   (cs!"_guide", .part (single cs!"name" (.text cs!"Guide")))]

/-- The same instrument, its attributes assigned in another order. -/
def demoInstr' (e : ℝ) : Attrs Item :=
  [(cs!"_guide", .part (single cs!"name" (.text cs!"Guide"))), (cs!"_hcol", .plain (.arr [40, 40, 40, 40])),
   (cs!"_efixed", .plain (.num e))]

example (e f : ℝ) : Proper (demoInstr e) ∧ Proper (demoInstr' f) ∧ InstrAlike (demoInstr e) (demoInstr' f) := by
  refine ⟨by simp [Proper, demoInstr], by simp [Proper, demoInstr'], ?_⟩
  intro k v w h1 h2
  have h1 := get_mem h1
  have h2 := get_mem h2
  simp only [demoInstr, demoInstr', List.mem_cons, Prod.mk.injEq, List.not_mem_nil, or_false] at h1 h2
  rcases h1 with ⟨rfl, rfl⟩ | ⟨rfl, rfl⟩ | ⟨rfl, rfl⟩ <;> rcases h2 with ⟨h, rfl⟩ | ⟨h, rfl⟩ | ⟨h, rfl⟩ <;>
    first
    | exact absurd h (by decide)
    | skip
  · simp [ItemsAlike, Alike]
  · simp [ItemsAlike, Alike]
  · refine ⟨by simp [Proper, single], by simp [Proper, single], ?_⟩
    intro k v w h1 h2
    have h1 := get_mem h1
    have h2 := get_mem h2
    simp only [single, List.mem_singleton, Prod.mk.injEq] at h1 h2
    rw [h1.2, h2.2]
    simp [Alike]

example (e : ℝ) : cs!"RM" ∉ (demoInstr e).map Prod.fst := by simp [demoInstr]

end Verif.Instrument.Equality
