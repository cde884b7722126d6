import Verif.FileIO.InstrLemmas
import Mathlib.Tactic.FinCases
import Mathlib.Tactic.Common

/-!
# Instrument files

C65: what is saved is loaded.  C97: the scattering plane of a loaded
instrument.  C98: when files are created and replaced.
-/

namespace Verif.FileIO

variable {N : Type}

/-! ### Specification -/

/-- The saved value `v` and the loaded value `w` are equal in Python's sense:
the kind of sequence does not matter. -/
inductive SameValue : Value N → Value N → Prop
  | num (x) : SameValue (.num x) (.num x)
  | text (s) : SameValue (.text s) (.text s)
  | arr (xs) : SameValue (.arr xs) (.list xs)
  | list (xs) : SameValue (.list xs) (.list xs)
  | arrArr (xs) : SameValue (.arr xs) (.arr xs)
  | listArr (xs) : SameValue (.list xs) (.arr xs)
  | none : SameValue .none .none

/-- The full claim of C65 for one instrument: it can be loaded and every saved
attribute has its value. -/
def RoundTrips (nm : Numerals N) (accepts : Value N → Bool) (start o : Obj N) : Prop :=
  ∃ s, load nm accepts start (render nm o) = .ok s ∧
    ∀ n ∈ savedNames, ∀ v, o.get n.1 n.2 = some v →
      ∃ w, s.get n.1 n.2 = some w ∧ SameValue v w

/-! ### Reading what was written -/

theorem lines_of_render (nm : Numerals N) (o : Obj N) :
    fileLines (render nm o) = (saveLines nm o).flatMap (split '\n') := by
  have h : ∀ ls : List Text, split '\n' (ls.map (· ++ ['\n'])).flatten =
      ls.flatMap (split '\n') ++ [[]] := by
    intro ls
    induction ls with
    | nil => rfl
    | cons l ls ih =>
      simp only [List.map_cons, List.flatten_cons, List.append_assoc, List.singleton_append,
        List.flatMap_cons]
      rw [split_two, ih]
  simp [fileLines, render, h]

theorem lineOf_no_newline (nm : Numerals N) {n : Text × Text} (hn : n ∈ savedNames) (v : Value N)
    (hv : Clean (v.str nm)) : '\n' ∉ lineOf nm n.1 n.2 v := by
  obtain ⟨h1, h2⟩ := names_ok n hn
  by_cases h : n.1 = []
  · simp [lineOf, h, h2.clean.nl, hv.nl]
  · simp [lineOf, h, h2.clean.nl, hv.nl, (h1 h).clean.nl]

/-- The lines of a saved instrument as the loader understands them. -/
def understood (nm : Numerals N) (o : Obj N) (L : List (Text × Text)) : List (List Text × Text) :=
  L.filterMap fun n => (o.get n.1 n.2).map fun v => (pathOf n.1 n.2, v.str nm)

theorem parse_all (nm : Numerals N) (o : Obj N) (L : List (Text × Text))
    (hL : ∀ n ∈ L, n ∈ savedNames)
    (ho : ∀ n ∈ L, ∀ v, o.get n.1 n.2 = some v → Clean (v.str nm)) :
    ((L.filterMap fun n => (o.get n.1 n.2).map fun v => lineOf nm n.1 n.2 v).flatMap
      (split '\n')).mapM parseLine = .ok (understood nm o L) := by
  induction L with
  | nil => rfl
  | cons n L ih =>
    have ih := ih (fun m hm => hL m (by simp [hm])) (fun m hm => ho m (by simp [hm]))
    have hn := hL n (by simp)
    cases hv : o.get n.1 n.2 with
    | none => simpa [understood, hv] using ih
    | some v =>
      have hc := ho n (by simp) v hv
      obtain ⟨h1, h2⟩ := names_ok n hn
      simp only [understood, List.filterMap_cons, hv, Option.map_some, List.flatMap_cons]
      rw [split_of_notMem (lineOf_no_newline nm hn v hc)]
      simp only [List.singleton_append, List.mapM_cons]
      rw [parse_line nm h1 h2 v hc, ok_bind, ih, ok_bind]
      rfl

/-- Attributes after setting one. -/
theorem assign_saved {accepts : Value N → Bool} {o : Obj N} {n : Text × Text} {w : Value N}
    (hn : n ∈ savedNames)
    (hp : n.1 ≠ [] → (o.parts n.1).isSome) (ht : n.2 = cs!"tau" → accepts w = true) :
    ∃ o', assign accepts o (pathOf n.1 n.2) w = .ok o' ∧
      (∀ g, (o'.parts g).isSome = (o.parts g).isSome) ∧
      ∀ g a, o'.get g a = if (g, a) = n then some (stored g a w) else o.get g a := by
  have hsub : ∀ n ∈ savedNames, n.1 = [] → n.2 ≠ cs!"orient1" ∧ n.2 ≠ cs!"orient2" := by
    decide +kernel
  obtain ⟨g₀, a₀⟩ := n
  by_cases h : g₀ = []
  · subst h
    obtain ⟨ho1, ho2⟩ := hsub _ hn rfl
    refine ⟨{ o with own := Function.update o.own a₀ (some w) }, ?_, fun _ => rfl, ?_⟩
    · simp only [pathOf, if_true, assign, if_neg ho1, if_neg ho2]
    intro g a
    by_cases hg : g = []
    · subst hg
      by_cases ha : a = a₀ <;> simp [Obj.get, ha, stored]
    · simp [Obj.get, hg]
  · obtain ⟨p, hp⟩ := Option.isSome_iff_exists.1 (hp h)
    have ht' : ¬ (a₀ = cs!"tau" ∧ accepts w = false) := by
      rintro ⟨h1, h2⟩
      rw [ht h1] at h2
      simp at h2
    refine ⟨⟨o.own, Function.update o.parts g₀ (some (Function.update p a₀ (some (stored g₀ a₀ w))))⟩, ?_, ?_, ?_⟩
    · simp only [pathOf, if_neg h, assign, assignPart]
      simp only [] at hp
      rw [hp]
      simp only [if_neg ht']
    · intro g
      by_cases hg : g = g₀
      · subst hg; simp only [] at hp; simp [hp]
      · simp [hg]
    · intro g a
      by_cases hg : g = []
      · subst hg; simp [Obj.get, Ne.symm h]
      · by_cases hgg : g = g₀
        · subst hgg
          simp only [] at hp
          by_cases ha : a = a₀ <;> simp [Obj.get, hg, ha, hp]
        · simp [Obj.get, hg, hgg]

theorem assign_all {nm : Numerals N} (hnm : nm.Lawful) {accepts : Value N → Bool} {o : Obj N}
    (L : List (Text × Text)) (hnd : L.Nodup) (hsub : ∀ n ∈ L, n ∈ savedNames)
    (hplain : ∀ n ∈ L, ∀ v, o.get n.1 n.2 = some v → v.Plain nm)
    (htau : ∀ n ∈ L, n.2 = cs!"tau" → ∀ v, o.get n.1 n.2 = some v → accepts v.loaded = true)
    (start : Obj N)
    (hparts : ∀ n ∈ L, n.1 ≠ [] → (o.get n.1 n.2).isSome → (start.parts n.1).isSome) :
    ∃ s, assignAll nm accepts start (understood nm o L) = .ok s ∧
      ∀ g a, s.get g a = if (g, a) ∈ L ∧ (o.get g a).isSome then (o.get g a).map fun v => stored g a v.loaded
        else start.get g a := by
  induction L generalizing start with
  | nil => exact ⟨start, rfl, by simp⟩
  | cons n L ih =>
    rw [List.nodup_cons] at hnd
    cases hv : o.get n.1 n.2 with
    | none =>
      obtain ⟨s, hs, hg⟩ := ih hnd.2 (fun m hm => hsub m (by simp [hm])) (fun m hm => hplain m (by simp [hm]))
        (fun m hm => htau m (by simp [hm])) start (fun m hm => hparts m (by simp [hm]))
      refine ⟨s, by simpa [understood, hv] using hs, ?_⟩
      intro g a
      rw [hg]
      by_cases hga : (g, a) = n
      · subst hga
        simp only [] at hv
        simp [hv]
      · simp [hga]
    | some v =>
      obtain ⟨o', ho', hpres, hget⟩ := assign_saved (accepts := accepts) (o := start) (n := n)
        (w := v.loaded) (hsub n (by simp)) (fun h => hparts n (by simp) h (by simp [hv]))
        (fun h => htau n (by simp) h v hv)
      obtain ⟨s, hs, hg⟩ := ih hnd.2 (fun m hm => hsub m (by simp [hm])) (fun m hm => hplain m (by simp [hm]))
        (fun m hm => htau m (by simp [hm])) o'
        (fun m hm h1 h2 => by rw [hpres]; exact hparts m (by simp [hm]) h1 h2)
      refine ⟨s, ?_, ?_⟩
      · simp only [understood, List.filterMap_cons, hv, Option.map_some, assignAll]
        rw [read_plain hnm (hplain n (by simp) v hv), ok_bind, ho', ok_bind]
        exact hs
      · intro g a
        rw [hg, hget]
        by_cases hga : (g, a) = n
        · subst hga
          simp only [] at hv
          simp [hnd.1, hv]
        · simp [hga]

/-- What a loaded instrument holds: the saved attributes, and otherwise what
`Instrument()` has. -/
theorem load_saved {nm : Numerals N} (hnm : nm.Lawful) {accepts : Value N → Bool} {start o : Obj N}
    (hplain : ∀ n ∈ savedNames, ∀ v, o.get n.1 n.2 = some v → v.Plain nm)
    (htau : ∀ n ∈ savedNames, n.2 = cs!"tau" → ∀ v, o.get n.1 n.2 = some v →
      accepts v.loaded = true)
    (hparts : ∀ n ∈ savedNames, n.1 ≠ [] → (o.get n.1 n.2).isSome → (start.parts n.1).isSome) :
    ∃ s, load nm accepts start (render nm o) = .ok s ∧
      ∀ g a, s.get g a = if (g, a) ∈ savedNames ∧ (o.get g a).isSome
        then (o.get g a).map (fun v => stored g a v.loaded) else start.get g a := by
  obtain ⟨s, hs, hg⟩ := assign_all hnm savedNames names_nodup (fun _ h => h) hplain htau start hparts
  refine ⟨s, ?_, hg⟩
  rw [load, lines_of_render, saveLines, parse_all nm o savedNames (fun _ h => h)
    (fun n hn v hv => (hplain n hn v hv).clean hnm), ok_bind]
  exact hs

theorem sameValue_loaded (nm : Numerals N) {v : Value N} (_ : v.Plain nm) : SameValue v v.loaded := by
  cases v <;> constructor

theorem sameValue_stored (nm : Numerals N) {v : Value N} (h : v.Plain nm) (g a : Text) :
    SameValue v (stored g a v.loaded) := by
  unfold stored
  split
  · cases v <;> constructor
  · exact sameValue_loaded nm h

/-- C65.  An instrument whose saved attributes are numbers, strings without
special characters, and arrays whose elements numpy writes without padding is
loaded with the same value for every saved attribute; attributes it does not
have and attributes that are not saved keep what `Instrument()` has.  Missing for the full claim: arrays with
padded elements, Python lists, `None`, and `Smooth`, for which it is false
(below). -/
theorem C65_roundtrip_partial {nm : Numerals N} (hnm : nm.Lawful) {accepts : Value N → Bool}
    {start o : Obj N}
    (hplain : ∀ n ∈ savedNames, ∀ v, o.get n.1 n.2 = some v → v.Plain nm)
    (htau : ∀ n ∈ savedNames, n.2 = cs!"tau" → ∀ v w, o.get n.1 n.2 = some v → SameValue v w →
      accepts w = true)
    (hparts : ∀ n ∈ savedNames, n.1 ≠ [] → (o.get n.1 n.2).isSome → (start.parts n.1).isSome) :
    RoundTrips nm accepts start o ∧
      ∀ s, load nm accepts start (render nm o) = .ok s →
        ∀ n, n ∉ savedNames ∨ o.get n.1 n.2 = none → s.get n.1 n.2 = start.get n.1 n.2 := by
  obtain ⟨s, hs, hg⟩ := load_saved hnm hplain
    (fun n hn h v hv => htau n hn h v _ hv (sameValue_loaded nm (hplain n hn v hv))) hparts
  refine ⟨⟨s, hs, ?_⟩, ?_⟩
  · intro n hn v hv
    exact ⟨stored n.1 n.2 v.loaded, by rw [hg, if_pos ⟨hn, by simp [hv]⟩, hv]; rfl,
      sameValue_stored nm (hplain n hn v hv) _ _⟩
  · intro s' hs' n hn
    obtain rfl := Except.ok.inj (hs.symm.trans hs')
    rw [hg, if_neg]
    rintro ⟨h1, h2⟩
    rcases hn with hn | hn
    · exact hn h1
    · rw [hn] at h2; cases h2

/-! ### What cannot be loaded -/

theorem mapM_ok_mem {α β ε : Type} {f : α → Except ε β} {xs : List α} {ys : List β}
    (h : xs.mapM f = .ok ys) {x : α} (hx : x ∈ xs) : ∃ y ∈ ys, f x = .ok y := by
  induction xs generalizing ys with
  | nil => simp at hx
  | cons a xs ih =>
    rw [List.mapM_cons, bind_eq_ok] at h
    obtain ⟨b, hb, h⟩ := h
    rw [bind_eq_ok] at h
    obtain ⟨bs, hbs, h⟩ := h
    obtain rfl := Except.ok.inj h
    rcases List.mem_cons.1 hx with rfl | hx
    · exact ⟨b, by simp, hb⟩
    · obtain ⟨y, hy, hfy⟩ := ih hbs hx
      exact ⟨y, by simp [hy], hfy⟩

theorem assignAll_ok_mem {nm : Numerals N} {accepts : Value N → Bool} {o s : Obj N}
    {ls : List (List Text × Text)} (h : assignAll nm accepts o ls = .ok s) {l : List Text × Text}
    (hl : l ∈ ls) : ∃ v, readValue nm l.2 = .ok v := by
  induction ls generalizing o with
  | nil => simp at hl
  | cons m ls ih =>
    obtain ⟨p, t⟩ := m
    rw [assignAll, bind_eq_ok] at h
    obtain ⟨v, hv, h⟩ := h
    rw [bind_eq_ok] at h
    obtain ⟨o', _, h⟩ := h
    rcases List.mem_cons.1 hl with rfl | hl
    · exact ⟨v, hv⟩
    · exact ih h hl

/-- Everything in a file that loads was read. -/
theorem load_reads {nm : Numerals N} {accepts : Value N → Bool} {start o s : Obj N}
    (h : load nm accepts start (render nm o) = .ok s) {n : Text × Text} (hn : n ∈ savedNames)
    {v : Value N} (hv : o.get n.1 n.2 = some v) (hc : Clean (v.str nm)) :
    ∃ w, readValue nm (v.str nm) = .ok w := by
  rw [load, lines_of_render, bind_eq_ok] at h
  obtain ⟨ls, hls, h⟩ := h
  have hline : lineOf nm n.1 n.2 v ∈ (saveLines nm o).flatMap (split '\n') := by
    rw [List.mem_flatMap]
    refine ⟨lineOf nm n.1 n.2 v, ?_, ?_⟩
    · rw [saveLines, List.mem_filterMap]
      exact ⟨n, hn, by simp [hv]⟩
    · rw [split_of_notMem (lineOf_no_newline nm hn v hc)]
      simp
  obtain ⟨l, hl, hparse⟩ := mapM_ok_mem hls hline
  obtain ⟨h1, h2⟩ := names_ok n hn
  rw [parse_line nm h1 h2 v hc] at hparse
  obtain rfl := Except.ok.inj hparse
  exact assignAll_ok_mem h hl

/-- C65 is false: no instrument with an array that numpy pads can be loaded,
whatever its other attributes. -/
theorem C65_padded_array {nm : Numerals N} (hnm : nm.Lawful) (accepts : Value N → Bool)
    (start : Obj N) {o : Obj N} {n : Text × Text} (hn : n ∈ savedNames) {xs : List N}
    (hv : o.get n.1 n.2 = some (.arr xs)) {t : Text} (ht : t ∈ nm.cells xs) (hsp : ' ' ∈ t) :
    ¬ RoundTrips nm accepts start o ∧ ∃ e, load nm accepts start (render nm o) = .error e := by
  have key : ∀ s, load nm accepts start (render nm o) ≠ .ok s := by
    intro s hs
    obtain ⟨w, hw⟩ := load_reads hs hn hv (str_clean hnm _ (by simp))
    rw [read_padded hnm ht hsp] at hw
    cases hw
  refine ⟨fun ⟨s, hs, _⟩ => key s hs, ?_⟩
  cases h : load nm accepts start (render nm o) with
  | error e => exact ⟨e, rfl⟩
  | ok s => exact absurd h (key s)

/-- C65 is false: no instrument with a Python list of two or more numbers, for
example `hcol = [40, 40, 40, 40]`, can be loaded. -/
theorem C65_list {nm : Numerals N} (hnm : nm.Lawful) (accepts : Value N → Bool)
    (start : Obj N) {o : Obj N} {n : Text × Text} (hn : n ∈ savedNames) {xs : List N}
    (hv : o.get n.1 n.2 = some (.list xs)) (hx : 2 ≤ xs.length) :
    ¬ RoundTrips nm accepts start o ∧ ∃ e, load nm accepts start (render nm o) = .error e := by
  have key : ∀ s, load nm accepts start (render nm o) ≠ .ok s := by
    intro s hs
    obtain ⟨w, hw⟩ := load_reads hs hn hv (str_clean hnm _ (by simp))
    rw [read_list hnm hx] at hw
    cases hw
  refine ⟨fun ⟨s, hs, _⟩ => key s hs, ?_⟩
  cases h : load nm accepts start (render nm o) with
  | error e => exact ⟨e, rfl⟩
  | ok s => exact absurd h (key s)

/-- Consequence for a second save: what was loaded from a file holds its vectors
as lists, so the loaded instrument, saved again, cannot be loaded. -/
theorem C65_second_save {nm : Numerals N} (hnm : nm.Lawful) (accepts accepts' : Value N → Bool)
    (start start' : Obj N) {o s : Obj N}
    (hplain : ∀ n ∈ savedNames, ∀ v, o.get n.1 n.2 = some v → v.Plain nm)
    (htau : ∀ n ∈ savedNames, n.2 = cs!"tau" → ∀ v w, o.get n.1 n.2 = some v → SameValue v w →
      accepts w = true)
    (hparts : ∀ n ∈ savedNames, n.1 ≠ [] → (o.get n.1 n.2).isSome → (start.parts n.1).isSome)
    (hs : load nm accepts start (render nm o) = .ok s)
    {xs : List N} (hv : o.own cs!"hcol" = some (.arr xs)) (hx : 2 ≤ xs.length) :
    ¬ RoundTrips nm accepts' start' s := by
  obtain ⟨s', hs', hg⟩ := load_saved hnm hplain
    (fun n hn h v hv => htau n hn h v _ hv (sameValue_loaded nm (hplain n hn v hv))) hparts
  obtain rfl := Except.ok.inj (hs'.symm.trans hs)
  have hm : (([], cs!"hcol") : Text × Text) ∈ savedNames := by decide +kernel
  have : s'.get [] cs!"hcol" = some (.list xs) := by
    have hv' : o.get [] cs!"hcol" = some (.arr xs) := by simpa [Obj.get] using hv
    rw [hg, if_pos ⟨hm, by simp [hv']⟩, hv']
    rfl
  exact (C65_list hnm accepts' start' hm this hx).1

/-! ### The part `Smooth` -/

theorem assignPart_part {accepts : Value N → Bool} {o o' : Obj N} {g a : Text} {v : Value N}
    (h : assignPart accepts o g a v = .ok o') : (o.parts g).isSome := by
  simp only [assignPart] at h
  cases hp : o.parts g with
  | none => rw [hp] at h; cases h
  | some q => rfl

theorem assignPart_parts {accepts : Value N → Bool} {o o' : Obj N} {g a : Text} {v : Value N}
    (h : assignPart accepts o g a v = .ok o') (g' : Text) : (o'.parts g').isSome = (o.parts g').isSome := by
  have hp := assignPart_part h
  simp only [assignPart] at h
  cases hq : o.parts g with
  | none => rw [hq] at hp; cases hp
  | some q =>
    rw [hq] at h
    simp only [] at h
    split at h
    · cases h
    · obtain rfl := Except.ok.inj h
      by_cases hgg : g' = g
      · subst hgg; simp [hq]
      · simp [Function.update_apply, hgg]

theorem assignAll_no_part {nm : Numerals N} {accepts : Value N → Bool} {o s : Obj N}
    {ls : List (List Text × Text)} (h : assignAll nm accepts o ls = .ok s) {g a t : Text}
    (hl : ([g, a], t) ∈ ls) : (o.parts g).isSome := by
  induction ls generalizing o with
  | nil => simp at hl
  | cons m ls ih =>
    obtain ⟨p, t'⟩ := m
    rw [assignAll, bind_eq_ok] at h
    obtain ⟨v, hv, h⟩ := h
    rw [bind_eq_ok] at h
    obtain ⟨o', ho', h⟩ := h
    rcases List.mem_cons.1 hl with he | hl
    · obtain ⟨rfl, rfl⟩ := Prod.mk.inj he
      exact assignPart_part ho'
    · have := ih h hl
      have hpres : (o'.parts g).isSome = (o.parts g).isSome := by
        match p, ho' with
        | [b], ho' =>
          simp only [assign] at ho'
          split_ifs at ho'
          · exact assignPart_parts ho' g
          · exact assignPart_parts ho' g
          · obtain rfl := Except.ok.inj ho'
            rfl
        | g' :: b :: r, ho' => exact assignPart_parts ho' g
      rwa [hpres] at this

/-- C65 is false: an instrument with an attribute in a part that `Instrument()`
does not make (`Smooth`) cannot be loaded. -/
theorem C65_smooth {nm : Numerals N} (accepts : Value N → Bool)
    (start : Obj N) {o : Obj N} {n : Text × Text} (hn : n ∈ savedNames) {v : Value N}
    (hv : o.get n.1 n.2 = some v) (hc : Clean (v.str nm)) (hne : n.1 ≠ [])
    (hs : start.parts n.1 = none) :
    ¬ RoundTrips nm accepts start o ∧ ∃ e, load nm accepts start (render nm o) = .error e := by
  have key : ∀ s, load nm accepts start (render nm o) ≠ .ok s := by
    intro s h
    rw [load, lines_of_render, bind_eq_ok] at h
    obtain ⟨ls, hls, h⟩ := h
    have hline : lineOf nm n.1 n.2 v ∈ (saveLines nm o).flatMap (split '\n') := by
      rw [List.mem_flatMap]
      refine ⟨lineOf nm n.1 n.2 v, ?_, ?_⟩
      · rw [saveLines, List.mem_filterMap]
        exact ⟨n, hn, by simp [hv]⟩
      · rw [split_of_notMem (lineOf_no_newline nm hn v hc)]
        simp
    obtain ⟨l, hl, hparse⟩ := mapM_ok_mem hls hline
    obtain ⟨h1, h2⟩ := names_ok n hn
    rw [parse_line nm h1 h2 v hc] at hparse
    obtain rfl := Except.ok.inj hparse
    rw [pathOf, if_neg hne] at hl
    have := assignAll_no_part h hl
    rw [hs] at this
    simp at this
  refine ⟨fun ⟨s, hs, _⟩ => key s hs, ?_⟩
  cases h : load nm accepts start (render nm o) with
  | error e => exact ⟨e, rfl⟩
  | ok s => exact absurd h (key s)

/-! ### The scattering plane -/

/-- C97 (part).  The scattering plane of a loaded instrument is that of the saved one: its orientation vectors are those of
its sample, and these are saved and loaded.  Missing for the full claim: instruments that cannot be loaded, for example for
their orientation (`C97_padded_false`). -/
theorem C97_partial {nm : Numerals N} (hnm : nm.Lawful) {accepts : Value N → Bool}
    {start o : Obj N}
    (hplain : ∀ n ∈ savedNames, ∀ v, o.get n.1 n.2 = some v → v.Plain nm)
    (htau : ∀ n ∈ savedNames, n.2 = cs!"tau" → ∀ v w, o.get n.1 n.2 = some v → SameValue v w →
      accepts w = true)
    (hparts : ∀ n ∈ savedNames, n.1 ≠ [] → (o.get n.1 n.2).isSome → (start.parts n.1).isSome)
    {u v : List N} (hu : o.orient1 = some (.arr u)) (hv : o.orient2 = some (.arr v)) :
    ∃ s, load nm accepts start (render nm o) = .ok s ∧ s.orient1 = some (.arr u) ∧ s.orient2 = some (.arr v) := by
  obtain ⟨s, hs, hg⟩ := load_saved (accepts := accepts) hnm hplain
    (fun n hn h v hv => htau n hn h v _ hv (sameValue_loaded nm (hplain n hn v hv))) hparts
  simp only [Obj.orient1, Obj.orient2] at hu hv ⊢
  refine ⟨s, hs, ?_, ?_⟩
  · rw [hg, if_pos ⟨by decide +kernel, by simp [hu]⟩, hu]
    rfl
  · rw [hg, if_pos ⟨by decide +kernel, by simp [hv]⟩, hv]
    rfl

/-- C97 fails: an instrument with an orientation vector that numpy pads cannot be loaded. -/
theorem C97_padded_false {nm : Numerals N} (hnm : nm.Lawful) (accepts : Value N → Bool) (start : Obj N) {o : Obj N}
    {u : List N} (hu : o.orient1 = some (.arr u)) {t : Text} (ht : t ∈ nm.cells u) (hsp : ' ' ∈ t) :
    ∀ s, load nm accepts start (render nm o) ≠ .ok s := by
  intro s hs
  obtain ⟨e, he⟩ := (C65_padded_array hnm accepts start (n := (cs!"sample", cs!"u")) (by decide +kernel) hu ht hsp).2
  rw [hs] at he
  cases he

/-- C97, files written by hand: a line with the orientation of the instrument sets that vector of the sample and leaves the
other one. -/
theorem C97_orient_line {nm : Numerals N} {accepts : Value N → Bool} {start : Obj N} (hp : (start.parts cs!"sample").isSome)
    {t : Text} (ht : Clean t) {u : List N} (hu : readValue nm t = .ok (.list u)) :
    (∃ s, load nm accepts start (cs!"instrument.orient1 = " ++ t) = .ok s ∧ s.orient1 = some (.arr u) ∧
      s.orient2 = start.orient2) ∧
    ∃ s, load nm accepts start (cs!"instrument.orient2 = " ++ t) = .ok s ∧ s.orient2 = some (.arr u) ∧
      s.orient1 = start.orient1 := by
  obtain ⟨p, hp⟩ := Option.isSome_iff_exists.1 hp
  have key : ∀ b : Text, Name b → load nm accepts start (cs!"instrument." ++ (b ++ (cs!" = " ++ t))) =
      assign accepts start [b] (.list u) := by
    intro b hb
    have hl : fileLines (cs!"instrument." ++ (b ++ (cs!" = " ++ t))) = [cs!"instrument." ++ (b ++ (cs!" = " ++ t))] := by
      unfold fileLines
      rw [split_of_notMem (by simp [hb.clean.nl, ht.nl])]
      simp
    unfold load
    rw [hl]
    simp only [List.mapM_cons, List.mapM_nil]
    rw [parse_body hb.clean.eq hb.clean.nl hb.clean.inst ht, split_of_notMem (by simp [hb.dot])]
    simp only [List.map_cons, List.map_nil, hb.ne, assignAll, hu, bind, Except.bind, pure, Except.pure]
    cases assign accepts start [b] (.list u) <;> rfl
  have nm' : ∀ b : Text, (∀ c ∈ cs!"=\n. s", c ∉ b) → (∀ x ∈ b.head?, isSpace x = false) →
      (∀ x ∈ b.getLast?, isSpace x = false) → Name b := fun b hb h1 h2 => ⟨⟨hb _ (by simp), hb _ (by simp),
        fun h => hb 's' (by simp) (h.subset (by simp)), h1, h2⟩, hb _ (by simp), hb _ (by simp),
        fun h => hb 's' (by simp) (h.subset (by simp))⟩
  constructor
  · refine ⟨_, (key cs!"orient1" ?_).trans (by simp only [assign, if_true, assignPart, hp]; rfl), ?_, ?_⟩
    · exact nm' _ (by decide) (by decide) (by decide)
    · simp [Obj.orient1, Obj.get, stored]
    · simp [Obj.orient2, Obj.get, hp]
  · refine ⟨_, (key cs!"orient2" ?_).trans (by simp only [assign, assignPart, hp]; rfl), ?_, ?_⟩
    · exact nm' _ (by decide) (by decide) (by decide)
    · simp [Obj.orient2, Obj.get, stored]
    · simp [Obj.orient1, Obj.get, hp]

/-! ### Creating and replacing files -/

/-- C98.  With `overwrite=True` a file is written that loads as the instrument,
whatever was there before.  Missing for the full claim: saving without
`overwrite`, and time-of-flight instruments, for which it is false (below). -/
theorem C98_overwrite_partial {nm : Numerals N} (hnm : nm.Lawful) {accepts : Value N → Bool}
    {start o : Obj N} (old : Option Text)
    (hplain : ∀ n ∈ savedNames, ∀ v, o.get n.1 n.2 = some v → v.Plain nm)
    (htau : ∀ n ∈ savedNames, n.2 = cs!"tau" → ∀ v w, o.get n.1 n.2 = some v → SameValue v w →
      accepts w = true)
    (hparts : ∀ n ∈ savedNames, n.1 ≠ [] → (o.get n.1 n.2).isSome → (start.parts n.1).isSome) :
    ∃ f s, saveInstrument nm .tripleAxis o true old = .ok (some f) ∧
      load nm accepts start f = .ok s ∧
      ∀ n ∈ savedNames, ∀ v, o.get n.1 n.2 = some v →
        ∃ w, s.get n.1 n.2 = some w ∧ SameValue v w := by
  obtain ⟨⟨s, hs, hg⟩, _⟩ := C65_roundtrip_partial hnm hplain htau hparts
  exact ⟨_, s, rfl, hs, hg⟩

/-- C98 is false: without `overwrite` no new file is created. -/
theorem C98_no_new_file (nm : Numerals N) (o : Obj N) :
    saveInstrument nm .tripleAxis o false none = .error .fileNotFound := rfl

/-- C98 is false: without `overwrite` the beginning of an existing file is
lost.  The new text is at the front, and a file that was no longer than the new
text is gone completely. -/
theorem C98_existing_lost (nm : Numerals N) (o : Obj N) (old : Text) :
    ∃ f, saveInstrument nm .tripleAxis o false (some old) = .ok (some f) ∧
      render nm o <+: f ∧ (old.length ≤ (render nm o).length → f = render nm o) ∧
      f.length = max old.length (render nm o).length := by
  refine ⟨render nm o ++ old.drop (render nm o).length, rfl, ⟨_, rfl⟩, ?_, ?_⟩
  · intro h
    rw [List.drop_eq_nil_iff.2 h, List.append_nil]
  · simp only [List.length_append, List.length_drop]
    omega

/-- C98 is false: saving a time-of-flight instrument does nothing and reports
nothing. -/
theorem C98_tof_not_saved (nm : Numerals N) (o : Obj N) (ow : Bool) (old : Option Text) :
    saveInstrument nm .timeOfFlight o ow old = .ok old := rfl

end Verif.FileIO
