import Verif.Instrument.Shared

/-! # Property C189: instruments do not change one another -/

namespace Verif.Instrument.Shared

theorem get_ok {α : Type} {l : List α} {n : ℕ} {x : α} : get l n = .ok x ↔ l[n]? = some x := by
  unfold get
  cases l[n]? <;> simp

theorem get_ok' {α : Type} {l : List α} {n : ℕ} {x : α} (h : l[n]? = some x) : get l n = .ok x := get_ok.2 h

/-- What a user sees of an instrument. -/
structure Seen where
  orient1 : Option Vec
  orient2 : Option Vec
  hcol : Option Vec
  deriving DecidableEq

def Store.seen (st : Store) (i : ℕ) : Seen := ⟨st.orient1 i, st.orient2 i, st.hcol i⟩

theorem seen_eq {st : Store} {i : ℕ} {t : Inst} (h : st.insts[i]? = some t) :
    st.seen i = ⟨st.samples[t.sample]?.bind Samp.u, st.samples[t.sample]?.bind Samp.v, st.arrays[t.hcol]?⟩ := by
  simp [Store.seen, Store.orient1, Store.orient2, Store.hcol, h, bind]

theorem seen_none {st : Store} {i : ℕ} (h : st.insts[i]? = none) : st.seen i = ⟨none, none, none⟩ := by
  simp [Store.seen, Store.orient1, Store.orient2, Store.hcol, h, bind]

theorem bind_ok {α β : Type} {x : Except Err α} {f : α → Except Err β} {y : β} (h : (x >>= f) = .ok y) :
    ∃ a, x = .ok a ∧ f a = .ok y := by
  cases x with
  | error e => exact absurd h (by simp [bind, Except.bind])
  | ok a => exact ⟨a, rfl, h⟩

/-- Setting the sample of one reference leaves the instruments with other references as they are. -/
theorem seen_setSample {st : Store} {s : ℕ} {m : Samp} {j : ℕ} (h : ∀ t, st.insts[j]? = some t → t.sample ≠ s) :
    ({ st with samples := st.samples.set s m } : Store).seen j = st.seen j := by
  cases hj : st.insts[j]? with
  | none => rw [seen_none hj, seen_none (st := { st with samples := st.samples.set s m }) hj]
  | some t =>
    rw [seen_eq hj, seen_eq (st := { st with samples := st.samples.set s m }) hj]
    simp only [List.getElem?_set_ne (h t hj).symm]

theorem seen_setArray {st : Store} {a : ℕ} {xs : Vec} {j : ℕ} (h : ∀ t, st.insts[j]? = some t → t.hcol ≠ a) :
    ({ st with arrays := st.arrays.set a xs } : Store).seen j = st.seen j := by
  cases hj : st.insts[j]? with
  | none => rw [seen_none hj, seen_none (st := { st with arrays := st.arrays.set a xs }) hj]
  | some t =>
    rw [seen_eq hj, seen_eq (st := { st with arrays := st.arrays.set a xs }) hj]
    simp only [List.getElem?_set_ne (h t hj).symm]

theorem run_orient1 {st st' : Store} {i : ℕ} {vec : Vec} (h : run st (.orient1 i vec) = .ok st') :
    ∃ t m, st.insts[i]? = some t ∧ st.samples[t.sample]? = some m ∧
      st' = { st with samples := st.samples.set t.sample { m with u := some vec } } := by
  obtain ⟨t, ht, h⟩ := bind_ok h
  obtain ⟨m, hm, h⟩ := bind_ok h
  exact ⟨t, m, get_ok.1 ht, get_ok.1 hm, by cases h; rfl⟩

theorem run_orient2 {st st' : Store} {i : ℕ} {vec : Vec} (h : run st (.orient2 i vec) = .ok st') :
    ∃ t m, st.insts[i]? = some t ∧ st.samples[t.sample]? = some m ∧
      st' = { st with samples := st.samples.set t.sample { m with v := some vec } } := by
  obtain ⟨t, ht, h⟩ := bind_ok h
  obtain ⟨m, hm, h⟩ := bind_ok h
  exact ⟨t, m, get_ok.1 ht, get_ok.1 hm, by cases h; rfl⟩

theorem setItem_ok {st st' : Store} {a k : ℕ} {x : ℚ} (h : setItem st a k x = .ok st') :
    ∃ xs, st.arrays[a]? = some xs ∧ k < xs.length ∧ st' = { st with arrays := st.arrays.set a (xs.set k x) } := by
  obtain ⟨xs, hx, h⟩ := bind_ok h
  split at h
  · rename_i hk
    exact ⟨xs, get_ok.1 hx, hk, by cases h; rfl⟩
  · cases h

theorem run_hcolItem {st st' : Store} {i k : ℕ} {x : ℚ} (h : run st (.hcolItem i k x) = .ok st') :
    ∃ t xs, st.insts[i]? = some t ∧ st.arrays[t.hcol]? = some xs ∧ k < xs.length ∧
      st' = { st with arrays := st.arrays.set t.hcol (xs.set k x) } := by
  obtain ⟨t, ht, h⟩ := bind_ok h
  obtain ⟨xs, hx, hk, h⟩ := setItem_ok h
  exact ⟨t, xs, get_ok.1 ht, hx, hk, h⟩

/-- **C189**: setting a vector or a collimation of an instrument sets it for that instrument, and leaves its other settings as they are. -/
theorem C189_sets (st st' : Store) (i : ℕ) :
    (∀ vec, run st (.orient1 i vec) = .ok st' → st'.seen i = { st.seen i with orient1 := some vec }) ∧
    (∀ vec, run st (.orient2 i vec) = .ok st' → st'.seen i = { st.seen i with orient2 := some vec }) ∧
    ∀ k x, run st (.hcolItem i k x) = .ok st' → ∃ xs, st.hcol i = some xs ∧ st'.seen i = { st.seen i with hcol := some (xs.set k x) } := by
  refine ⟨fun vec h => ?_, fun vec h => ?_, fun k x h => ?_⟩
  · obtain ⟨t, m, ht, hm, rfl⟩ := run_orient1 h
    rw [seen_eq ht]
    refine (seen_eq (st := { st with samples := st.samples.set t.sample { m with u := some vec } }) ht).trans ?_
    have := (List.getElem?_eq_some_iff.1 hm).1
    simp [hm, List.getElem?_set_self this]
  · obtain ⟨t, m, ht, hm, rfl⟩ := run_orient2 h
    rw [seen_eq ht]
    refine (seen_eq (st := { st with samples := st.samples.set t.sample { m with v := some vec } }) ht).trans ?_
    have := (List.getElem?_eq_some_iff.1 hm).1
    simp [hm, List.getElem?_set_self this]
  · obtain ⟨t, xs, ht, hx, -, rfl⟩ := run_hcolItem h
    refine ⟨xs, by simp [Store.hcol, ht, hx, bind], ?_⟩
    rw [seen_eq ht]
    refine (seen_eq (st := { st with arrays := st.arrays.set t.hcol (xs.set k x) }) ht).trans ?_
    have := (List.getElem?_eq_some_iff.1 hx).1
    simp [List.getElem?_set_self this]

/-! ### Histories in which nothing is handed to two instruments -/

/-- A statement that hands no sample or array to an instrument while another one has it. -/
def Careful (st : Store) : Op → Prop
  | .inst (some s) _ => ∀ t ∈ st.insts, t.sample ≠ s
  | .setSample i s => ∀ j t, j ≠ i → st.insts[j]? = some t → t.sample ≠ s
  | .setHcol i a => ∀ j t, j ≠ i → st.insts[j]? = some t → t.hcol ≠ a
  | _ => True

/-- The states that are reached by such statements. -/
inductive Reach : Store → Prop
  | start : Reach {}
  | step {st st' : Store} (op : Op) : Reach st → Careful st op → run st op = .ok st' → Reach st'

/-- No two instruments share anything, and all references are to objects that exist. -/
structure Separate (st : Store) : Prop where
  apart : ∀ (i j : ℕ) (ti tj : Inst), i ≠ j → st.insts[i]? = some ti → st.insts[j]? = some tj → ti.sample ≠ tj.sample ∧ ti.hcol ≠ tj.hcol
  bound : ∀ t ∈ st.insts, t.sample < st.samples.length ∧ t.hcol < st.arrays.length

/-- Growing lists and changing elements keeps what is separate. -/
theorem Separate.grow {st st' : Store} (h : Separate st) (hi : st'.insts = st.insts) (hs : st.samples.length ≤ st'.samples.length)
    (ha : st.arrays.length ≤ st'.arrays.length) : Separate st' where
  apart := by rw [hi]; exact h.apart
  bound := by
    rw [hi]
    exact fun t ht => ⟨(h.bound t ht).1.trans_le hs, (h.bound t ht).2.trans_le ha⟩

theorem Separate.push {st st' : Store} (h : Separate st) {s a : ℕ} (hi : st'.insts = st.insts ++ [⟨s, a⟩])
    (hs : st.samples.length ≤ st'.samples.length) (ha : st.arrays.length ≤ st'.arrays.length)
    (s1 : ∀ t ∈ st.insts, t.sample ≠ s) (a1 : ∀ t ∈ st.insts, t.hcol ≠ a) (s2 : s < st'.samples.length) (a2 : a < st'.arrays.length) :
    Separate st' where
  apart i j ti tj hij h1 h2 := by
    rw [hi] at h1 h2
    have key : ∀ k t, (st.insts ++ [(⟨s, a⟩ : Inst)])[k]? = some t →
        st.insts[k]? = some t ∨ (k = st.insts.length ∧ t = ⟨s, a⟩) := by
      intro k t hk
      rcases lt_trichotomy k st.insts.length with hl | hl | hl
      · left
        rwa [List.getElem?_append_left hl] at hk
      · right
        subst hl
        simp only [List.getElem?_append_right (le_refl _), Nat.sub_self, List.getElem?_cons_zero, Option.some.injEq] at hk
        exact ⟨rfl, hk.symm⟩
      · rw [List.getElem?_eq_none (by simp; omega)] at hk
        cases hk
    rcases key i ti h1 with k1 | ⟨e1, rfl⟩ <;> rcases key j tj h2 with k2 | ⟨e2, rfl⟩
    · exact h.apart i j ti tj hij k1 k2
    · exact ⟨s1 ti (List.mem_of_getElem? k1), a1 ti (List.mem_of_getElem? k1)⟩
    · exact ⟨(s1 tj (List.mem_of_getElem? k2)).symm, (a1 tj (List.mem_of_getElem? k2)).symm⟩
    · exact absurd (e1.trans e2.symm) hij
  bound t ht := by
    rw [hi, List.mem_append, List.mem_singleton] at ht
    rcases ht with ht | rfl
    · exact ⟨(h.bound t ht).1.trans_le hs, (h.bound t ht).2.trans_le ha⟩
    · exact ⟨s2, a2⟩

theorem Separate.replace {st : Store} (h : Separate st) {i : ℕ} {t' : Inst}
    (s1 : ∀ j t, j ≠ i → st.insts[j]? = some t → t.sample ≠ t'.sample ∧ t.hcol ≠ t'.hcol)
    (s2 : t'.sample < st.samples.length ∧ t'.hcol < st.arrays.length) : Separate { st with insts := st.insts.set i t' } where
  apart j k tj tk hjk h1 h2 := by
    replace h1 : (st.insts.set i t')[j]? = some tj := h1
    replace h2 : (st.insts.set i t')[k]? = some tk := h2
    rw [List.getElem?_set] at h1 h2
    split at h1
    · rename_i e1
      subst e1
      rw [if_neg hjk] at h2
      split at h1
      · cases h1
        exact ⟨(s1 k tk hjk.symm h2).1.symm, (s1 k tk hjk.symm h2).2.symm⟩
      · cases h1
    · rename_i e1
      split at h2
      · rename_i e2
        subst e2
        split at h2
        · cases h2
          exact s1 j tj (Ne.symm e1) h1
        · cases h2
      · exact h.apart j k tj tk hjk h1 h2
  bound t ht := by
    rcases List.mem_or_eq_of_mem_set ht with ht | rfl
    · exact h.bound t ht
    · exact s2

theorem sampleFor_ok {st st' : Store} {o : Option ℕ} {s : ℕ} (h : sampleFor st o = .ok (s, st')) :
    st'.insts = st.insts ∧ st'.arrays = st.arrays ∧ st.samples.length ≤ st'.samples.length ∧ s < st'.samples.length ∧
      (o = some s ∨ o = none ∧ s = st.samples.length) := by
  cases o with
  | none =>
    simp only [sampleFor, Except.ok.injEq, Prod.mk.injEq] at h
    obtain ⟨rfl, rfl⟩ := h
    simp
  | some r =>
    obtain ⟨m, hm, h⟩ := bind_ok h
    cases h
    exact ⟨rfl, rfl, le_refl _, (List.getElem?_eq_some_iff.1 (get_ok.1 hm)).1, .inl rfl⟩

theorem hcolFor_ok {st st' : Store} {o : Option ℕ} {a : ℕ} (h : hcolFor st o = .ok (a, st')) :
    st'.insts = st.insts ∧ st'.samples = st.samples ∧ a = st.arrays.length ∧
      ∃ xs, st'.arrays = st.arrays ++ [xs] ∧ (∀ b, o = some b → st.arrays[b]? = some xs) := by
  cases o with
  | none =>
    simp only [hcolFor, Except.ok.injEq, Prod.mk.injEq] at h
    obtain ⟨rfl, rfl⟩ := h
    exact ⟨rfl, rfl, rfl, _, rfl, fun b hb => by cases hb⟩
  | some r =>
    obtain ⟨xs, hx, h⟩ := bind_ok h
    cases h
    exact ⟨rfl, rfl, rfl, xs, rfl, fun b hb => by cases hb; exact get_ok.1 hx⟩

theorem run_inst {st st' : Store} {o p : Option ℕ} (h : run st (.inst o p) = .ok st') :
    ∃ s st1 a st2, sampleFor st o = .ok (s, st1) ∧ hcolFor st1 p = .ok (a, st2) ∧ st' = { st2 with insts := st2.insts ++ [⟨s, a⟩] } := by
  obtain ⟨⟨s, st1⟩, h1, h⟩ := bind_ok h
  obtain ⟨⟨a, st2⟩, h2, h⟩ := bind_ok h
  obtain ⟨m, -, h⟩ := bind_ok h
  refine ⟨s, st1, a, st2, h1, h2, ?_⟩
  split at h
  · cases h; rfl
  · cases h

theorem separate_run {st st' : Store} (op : Op) (h : Separate st) (c : Careful st op) (r : run st op = .ok st') : Separate st' := by
  cases op with
  | sample u v => cases r; exact h.grow rfl (by simp) (le_refl _)
  | array xs => cases r; exact h.grow rfl (le_refl _) (by simp)
  | inst o p =>
    obtain ⟨s, st1, a, st2, h1, h2, rfl⟩ := run_inst r
    obtain ⟨i1, i2, i3, i4, i5⟩ := sampleFor_ok h1
    obtain ⟨j1, j2, rfl, xs, j3, -⟩ := hcolFor_ok h2
    refine h.push (s := s) (a := st1.arrays.length) (by rw [← i1, ← j1]) ?_ ?_ ?_ ?_ ?_ ?_
    · rw [← j2] at i3; exact i3
    · simp only [j3, ← i2, List.length_append, List.length_singleton, Nat.le_add_right]
    · rcases i5 with rfl | ⟨-, rfl⟩
      · exact c
      · exact fun t ht => (h.bound t ht).1.ne
    · rw [i2]
      exact fun t ht => (h.bound t ht).2.ne
    · rw [← j2] at i4; exact i4
    · simp [j3]
  | orient1 i vec =>
    obtain ⟨t, m, -, -, rfl⟩ := run_orient1 r
    exact h.grow rfl (by simp) (le_refl _)
  | orient2 i vec =>
    obtain ⟨t, m, -, -, rfl⟩ := run_orient2 r
    exact h.grow rfl (by simp) (le_refl _)
  | setSample i s =>
    obtain ⟨t, ht, r⟩ := bind_ok r
    obtain ⟨m, hm, r⟩ := bind_ok r
    cases r
    have hb := h.bound t (List.mem_of_getElem? (get_ok.1 ht))
    refine h.replace (fun j t2 hj h2 => ⟨c j t2 hj h2, (h.apart j i t2 t hj h2 (get_ok.1 ht)).2⟩)
      ⟨(List.getElem?_eq_some_iff.1 (get_ok.1 hm)).1, hb.2⟩
  | setHcol i a =>
    obtain ⟨t, ht, r⟩ := bind_ok r
    obtain ⟨m, hm, r⟩ := bind_ok r
    cases r
    have hb := h.bound t (List.mem_of_getElem? (get_ok.1 ht))
    refine h.replace (fun j t2 hj h2 => ⟨(h.apart j i t2 t hj h2 (get_ok.1 ht)).1, c j t2 hj h2⟩)
      ⟨hb.1, (List.getElem?_eq_some_iff.1 (get_ok.1 hm)).1⟩
  | hcolItem i k x =>
    obtain ⟨t, xs, -, -, -, rfl⟩ := run_hcolItem r
    exact h.grow rfl (le_refl _) (by simp)
  | sampleU s vec =>
    obtain ⟨m, -, r⟩ := bind_ok r
    cases r
    exact h.grow rfl (by simp) (le_refl _)
  | item a k x =>
    obtain ⟨xs, -, -, rfl⟩ := setItem_ok r
    exact h.grow rfl (le_refl _) (by simp)

theorem separate_of_reach {st : Store} (h : Reach st) : Separate st := by
  induction h with
  | start => exact ⟨fun i j ti tj _ h => by simp at h, fun t ht => by simp at ht⟩
  | step op _ c r ih => exact separate_run op ih c r

/-- The statements that set something of an instrument. -/
def Sets (i : ℕ) : Op → Prop
  | .orient1 j _ => j = i
  | .orient2 j _ => j = i
  | .setSample j _ => j = i
  | .setHcol j _ => j = i
  | .hcolItem j _ _ => j = i
  | _ => False

/-- **C189**, the part that holds: as long as no sample and no array is handed to an instrument while another one has it (as when each is
made with a sample of its own, or with the default), what is set for one instrument is not seen in any other, after any history. -/
theorem C189_separate_partial {st st' : Store} (h : Reach st) (i j : ℕ) (hij : j ≠ i) (op : Op) (ho : Sets i op)
    (r : run st op = .ok st') : st'.seen j = st.seen j := by
  have hs := separate_of_reach h
  have other (t : Inst) (ht : st.insts[i]? = some t) (t' : Inst) :
      ({ st with insts := st.insts.set i t' } : Store).seen j = st.seen j := by
    have e : (st.insts.set i t')[j]? = st.insts[j]? := List.getElem?_set_ne hij.symm
    cases hj : st.insts[j]? with
    | none => rw [seen_none hj, seen_none (st := { st with insts := st.insts.set i t' }) (e.trans hj)]
    | some u => rw [seen_eq hj, seen_eq (st := { st with insts := st.insts.set i t' }) (e.trans hj)]
  cases op with
  | orient1 k vec =>
    cases ho
    obtain ⟨t, m, ht, -, rfl⟩ := run_orient1 r
    exact seen_setSample fun u hu => (hs.apart j _ u t hij hu ht).1
  | orient2 k vec =>
    cases ho
    obtain ⟨t, m, ht, -, rfl⟩ := run_orient2 r
    exact seen_setSample fun u hu => (hs.apart j _ u t hij hu ht).1
  | setSample k s =>
    cases ho
    obtain ⟨t, ht, r⟩ := bind_ok r
    obtain ⟨m, hm, r⟩ := bind_ok r
    cases r
    exact other t (get_ok.1 ht) _
  | setHcol k a =>
    cases ho
    obtain ⟨t, ht, r⟩ := bind_ok r
    obtain ⟨m, hm, r⟩ := bind_ok r
    cases r
    exact other t (get_ok.1 ht) _
  | hcolItem k l x =>
    cases ho
    obtain ⟨t, xs, ht, -, -, rfl⟩ := run_hcolItem r
    exact seen_setArray fun u hu => (hs.apart j _ u t hij hu ht).2
  | _ => exact ho.elim

/-- The hypotheses of `C189_separate_partial` are met by two instruments, one with the default and one with a sample of its own. -/
def exStore : Store := ⟨[⟨some [1, 0, 0], some [0, 1, 0]⟩, ⟨some [1, 1, 0], some [0, 0, 1]⟩], [[40, 40, 40, 40], [40, 40, 40, 40]], [⟨0, 0⟩, ⟨1, 1⟩]⟩

example : Reach exStore := by
  refine .step (.inst (some 1) none) (.step (.sample (some [1, 1, 0]) (some [0, 0, 1])) (.step (.inst none none) .start trivial rfl) trivial
    rfl) ?_ rfl
  intro t ht
  obtain rfl : t = ⟨0, 0⟩ := by simpa using ht
  decide

example : run exStore (.orient1 0 [0, 0, 1]) =
    .ok { exStore with samples := [⟨some [0, 0, 1], some [0, 1, 0]⟩, ⟨some [1, 1, 0], some [0, 0, 1]⟩] } := rfl

/-! ### What is shared -/

/-- **C189** is false: if two instruments were given the same sample, setting a vector of one sets it for the other. -/
theorem C189_shared_false {st : Store} {i j : ℕ} {t t' : Inst} (hi : st.insts[i]? = some t) (hj : st.insts[j]? = some t')
    (hs : t.sample = t'.sample) {m : Samp} (hm : st.samples[t.sample]? = some m) (vec : Vec) :
    ∃ st', run st (.orient1 i vec) = .ok st' ∧ st'.orient1 j = some vec ∧ (st'.samples[t.sample]?.bind Samp.u) = some vec := by
  have hl := (List.getElem?_eq_some_iff.1 hm).1
  refine ⟨{ st with samples := st.samples.set t.sample { m with u := some vec } }, ?_, ?_, ?_⟩
  · simp [run, get_ok' hi, get_ok' hm, bind, Except.bind, pure, Except.pure]
  · have := congrArg Seen.orient1 (seen_eq (st := { st with samples := st.samples.set t.sample { m with u := some vec } }) hj)
    refine this.trans ?_
    simp [← hs, List.getElem?_set_self hl]
  · simp [List.getElem?_set_self hl]

/-- **C189** is false, from the start: a sample is made, given to two instruments, and one of them is turned; the other one and the sample
of the caller are turned as well. -/
theorem C189_history_false : ∃ st, runs {} [.sample (some [1, 0, 0]) (some [0, 1, 0]), .inst (some 0) none, .inst (some 0) none,
    .orient1 0 [0, 0, 1]] = .ok st ∧ st.orient1 1 = some [0, 0, 1] ∧ st.samples[0]?.bind Samp.u = some [0, 0, 1] :=
  ⟨⟨[⟨some [0, 0, 1], some [0, 1, 0]⟩], [[40, 40, 40, 40], [40, 40, 40, 40]], [⟨0, 0⟩, ⟨0, 1⟩]⟩, rfl, rfl, rfl⟩

/-- **C189** for collimations: an array given to the constructor is copied, so that changing it later, or the collimations of the instrument,
changes only the one or the other. -/
theorem C189_copied {st st1 st2 : Store} {o : Option ℕ} {a k : ℕ} {x : ℚ} (h1 : run st (.inst o (some a)) = .ok st1)
    (h2 : run st1 (.item a k x) = .ok st2) :
    st1.hcol st.insts.length = st.arrays[a]? ∧ st2.hcol st.insts.length = st.arrays[a]? := by
  obtain ⟨s, sa, b, sb, k1, k2, rfl⟩ := run_inst h1
  obtain ⟨i1, i2, -, -, -⟩ := sampleFor_ok k1
  obtain ⟨j1, j2, rfl, xs, j3, j4⟩ := hcolFor_ok k2
  have ha := j4 a rfl
  rw [i2] at ha j3
  have hlt := (List.getElem?_eq_some_iff.1 ha).1
  have hi : (sb.insts ++ [(⟨s, sa.arrays.length⟩ : Inst)])[st.insts.length]? = some ⟨s, sa.arrays.length⟩ := by
    rw [j1, i1]
    simp
  obtain ⟨ys, -, -, rfl⟩ := setItem_ok h2
  constructor
  · refine (congrArg Seen.hcol (seen_eq (st := { sb with insts := sb.insts ++ [⟨s, sa.arrays.length⟩] }) hi)).trans ?_
    simp [i2, j3, ha]
  · refine (congrArg Seen.hcol (seen_eq (st := ⟨sb.samples, sb.arrays.set a (ys.set k x),
      sb.insts ++ [⟨s, sa.arrays.length⟩]⟩) hi)).trans ?_
    simp only [i2, j3, ha, List.getElem?_set_ne hlt.ne]
    simp

/-- The hypotheses of `C189_copied` are met. -/
example : ∃ st1 st2, run { arrays := [[10, 20, 30, 40]] } (.inst none (some 0)) = .ok st1 ∧ run st1 (.item 0 0 5) = .ok st2 ∧
    st2.arrays = [[5, 20, 30, 40], [10, 20, 30, 40]] :=
  ⟨⟨[⟨some [1, 0, 0], some [0, 1, 0]⟩], [[10, 20, 30, 40], [10, 20, 30, 40]], [⟨0, 1⟩]⟩, _, rfl, rfl, rfl⟩

/-- **C189** is false for collimations that are assigned: the array is kept, so that what is set for one instrument is set for another to
which the same array was assigned, and in the array of the caller. -/
theorem C189_assigned_false : ∃ st, runs {} [.array [10, 20, 30, 40], .inst none none, .inst none none, .setHcol 0 0, .setHcol 1 0,
    .hcolItem 0 0 5] = .ok st ∧ st.hcol 1 = some [5, 20, 30, 40] ∧ st.arrays[0]? = some [5, 20, 30, 40] :=
  ⟨⟨[⟨some [1, 0, 0], some [0, 1, 0]⟩, ⟨some [1, 0, 0], some [0, 1, 0]⟩], [[5, 20, 30, 40], [40, 40, 40, 40], [40, 40, 40, 40]],
    [⟨0, 0⟩, ⟨1, 0⟩]⟩, rfl, rfl, rfl⟩

/-- A sample needs both vectors, though they are optional for it: with one that lacks one of them no instrument is made. -/
theorem C189_needed (st : Store) (s : ℕ) (a : Option ℕ) (m : Samp) (hm : st.samples[s]? = some m) (h : m.u = none ∨ m.v = none) (st' : Store) :
    run st (.inst (some s) a) ≠ .ok st' := by
  intro r
  obtain ⟨⟨s', st1⟩, h1, r⟩ := bind_ok r
  obtain ⟨⟨b, st2⟩, h2, r⟩ := bind_ok r
  obtain ⟨m', hm', r⟩ := bind_ok r
  obtain ⟨x, hx, h1⟩ := bind_ok h1
  cases h1
  obtain ⟨-, j2, -⟩ := hcolFor_ok h2
  rw [get_ok, j2] at hm'
  obtain rfl : m = m' := Option.some.inj (hm.symm.trans hm')
  split at r
  · rename_i e1 e2
    rcases h with h | h
    · rw [h] at e1; cases e1
    · rw [h] at e2; cases e2
  · cases r

example : run { samples := [⟨none, none⟩] } (.inst (some 0) none) = .error .attributeError := rfl

end Verif.Instrument.Shared
