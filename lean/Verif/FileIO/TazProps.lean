import Verif.FileIO.Taz
import Verif.FileIO.InstrWhole

/-!
# Properties of the taz instrument files
-/

namespace Verif.FileIO

variable {N : Type}

/-! ## Helper lemmas -/

/-- The attribute an element stands for. -/
def Obj.at (o : Obj N) : Target → Option (Value N)
  | .own a => o.own a
  | .elem _ _ => none
  | .child p a => (o.parts p).bind fun q => q a

/-- An element that stands for a whole attribute. -/
def Target.whole : Target → Prop
  | .elem _ _ => False
  | _ => True

theorem putText_at {o o' : Obj N} {t : Target} {s : Option Text} (h : putText o t s = .ok o') :
    (t.whole → o'.at t = some (textValue s)) ∧ ∀ t', t' ≠ t → o'.at t' = o.at t' := by
  rcases t with a | ⟨a, i⟩ | ⟨p, a⟩
  · simp only [putText, Except.ok.injEq] at h
    subst h
    refine ⟨fun _ => by simp [Obj.at], ?_⟩
    rintro (b | ⟨b, j⟩ | ⟨q, b⟩) hne
    · have : b ≠ a := fun e => hne (e ▸ rfl)
      simp [Obj.at, Function.update_of_ne this]
    · rfl
    · rfl
  · simp only [putText, Except.ok.injEq] at h
    subst h
    exact ⟨fun h => h.elim, fun _ _ => rfl⟩
  · simp only [putText] at h
    rcases hp : o.parts p with _ | q <;> simp only [hp] at h
    · cases h
    · simp only [Except.ok.injEq] at h
      subst h
      refine ⟨fun _ => by simp [Obj.at], ?_⟩
      rintro (b | ⟨b, j⟩ | ⟨r, b⟩) hne
      · rfl
      · rfl
      · by_cases hr : r = p
        · subst hr
          have : b ≠ a := fun e => hne (e ▸ rfl)
          simp [Obj.at, hp, Function.update_of_ne this]
        · simp [Obj.at, Function.update_of_ne hr]

theorem putTexts_at {o o' : Obj N} {vs : List (Target × Option Text)} (h : putTexts o vs = .ok o') (t : Target)
    (ht : t.whole) : (∃ e ∈ vs, e.1 = t ∧ o'.at t = some (textValue e.2)) ∨ ((∀ e ∈ vs, e.1 ≠ t) ∧ o'.at t = o.at t) := by
  induction vs generalizing o with
  | nil =>
    simp only [putTexts, Except.ok.injEq] at h
    subst h
    exact .inr ⟨by simp, rfl⟩
  | cons e vs ih =>
    obtain ⟨t₀, s⟩ := e
    simp only [putTexts] at h
    rcases hp : putText o t₀ s with _ | o₁ <;> simp only [hp] at h
    · cases h
    · rcases ih h with ⟨e, he, h1, h2⟩ | ⟨h1, h2⟩
      · exact .inl ⟨e, List.mem_cons_of_mem _ he, h1, h2⟩
      · by_cases heq : t₀ = t
        · subst heq
          exact .inl ⟨_, List.mem_cons_self, rfl, h2.trans ((putText_at hp).1 ht)⟩
        · refine .inr ⟨?_, h2.trans ((putText_at hp).2 t (Ne.symm heq))⟩
          intro e he
          rcases List.mem_cons.1 he with rfl | he
          · exact heq
          · exact h1 e he

theorem putTexts_ok {o : Obj N} {vs : List (Target × Option Text)}
    (h : ∀ e ∈ vs, ∀ p a, e.1 = .child p a → ∃ q, o.parts p = some q) : ∃ o', putTexts o vs = .ok o' := by
  induction vs generalizing o with
  | nil => exact ⟨o, rfl⟩
  | cons e vs ih =>
    obtain ⟨t, s⟩ := e
    have htail : ∀ e ∈ vs, ∀ p a, e.1 = .child p a → ∃ q, o.parts p = some q :=
      fun e he => h e (List.mem_cons_of_mem _ he)
    simp only [putTexts]
    rcases t with a | ⟨a, i⟩ | ⟨p, a⟩
    · simp only [putText]
      exact ih htail
    · simp only [putText]
      exact ih htail
    · obtain ⟨q, hq⟩ := h _ List.mem_cons_self p a rfl
      simp only [putText, hq]
      refine ih fun e he p' a' hc => ?_
      by_cases hp : p' = p
      · subst hp
        exact ⟨_, Function.update_self ..⟩
      · obtain ⟨q', hq'⟩ := htail e he p' a' hc
        exact ⟨q', by rw [← hq']; exact Function.update_of_ne hp ..⟩

theorem readTaz_targets {file : List (Text × Option Text)} {ks : List (Text × Target)} {vs}
    (h : readTaz file ks = .ok vs) : vs.map Prod.fst = ks.map Prod.snd := by
  induction ks generalizing vs with
  | nil =>
    simp only [readTaz, Except.ok.injEq] at h
    subst h; rfl
  | cons k ks ih =>
    obtain ⟨ele, t⟩ := k
    simp only [readTaz] at h
    rcases hf : findText file ele with _ | s <;> simp only [hf] at h
    · cases h
    rcases hr : readTaz file ks with _ | l <;> simp only [hr] at h
    · cases h
    simp only [Except.ok.injEq] at h
    subst h
    simp [ih hr]

theorem tazElems_map {nm : Numerals N} {o : Obj N} {zs : List ((Text × Target) × Text)}
    {T : (Text × Target) × Text → Text} (h : ∀ z ∈ zs, tazText nm o z.1.2 z.2 = .ok (T z)) :
    tazElems nm o zs = .ok (zs.map fun z => (z.1.1, T z)) := by
  induction zs with
  | nil => rfl
  | cons z zs ih =>
    obtain ⟨⟨ele, t⟩, d⟩ := z
    simp only [tazElems, h _ List.mem_cons_self, ih fun z hz => h z (List.mem_cons_of_mem _ hz), List.map_cons]

theorem tazElems_mem {nm : Numerals N} {o : Obj N} {zs : List ((Text × Target) × Text)} {l}
    (h : tazElems nm o zs = .ok l) : ∀ z ∈ zs, ∃ s, tazText nm o z.1.2 z.2 = .ok s ∧ (z.1.1, s) ∈ l := by
  induction zs generalizing l with
  | nil => intro z hz; cases hz
  | cons z zs ih =>
    obtain ⟨⟨ele, t⟩, d⟩ := z
    simp only [tazElems] at h
    rcases hs : tazText nm o t d with _ | s <;> simp only [hs] at h
    · cases h
    rcases hr : tazElems nm o zs with _ | l' <;> simp only [hr] at h
    · cases h
    simp only [Except.ok.injEq] at h
    subst h
    intro z hz
    rcases List.mem_cons.1 hz with rfl | hz
    · exact ⟨s, hs, List.mem_cons_self⟩
    · obtain ⟨s', h1, h2⟩ := ih hr z hz
      exact ⟨s', h1, List.mem_cons_of_mem _ h2⟩

theorem readTaz_map {file : List (Text × Option Text)} {zs : List ((Text × Target) × Text)}
    {S : (Text × Target) × Text → Option Text} (h : ∀ z ∈ zs, findText file z.1.1 = .ok (S z)) :
    readTaz file (zs.map Prod.fst) = .ok (zs.map fun z => (z.1.2, S z)) := by
  induction zs with
  | nil => rfl
  | cons z zs ih =>
    obtain ⟨⟨ele, t⟩, d⟩ := z
    have h0 := h _ List.mem_cons_self
    simp only at h0
    simp only [List.map_cons, readTaz, h0, ih fun z hz => h z (List.mem_cons_of_mem _ hz)]

theorem findText_map {zs : List ((Text × Target) × Text)} {S : (Text × Target) × Text → Option Text}
    (hn : (zs.map fun z => z.1.1).Nodup) {z} (hz : z ∈ zs) :
    findText (zs.map fun z => (z.1.1, S z)) z.1.1 = .ok (S z) := by
  induction zs with
  | nil => cases hz
  | cons y zs ih =>
    simp only [List.map_cons, List.nodup_cons] at hn
    rcases List.mem_cons.1 hz with rfl | hz
    · simp [findText]
    · have hne : y.1.1 ≠ z.1.1 := fun e => hn.1 (e ▸ List.mem_map_of_mem (f := fun z => z.1.1) hz)
      have := ih hn.2 hz
      simp only [findText, List.map_cons] at this ⊢
      rw [List.find?_cons_of_neg (by simpa using hne)]
      exact this

theorem textAt_of {vs : List (Target × Option Text)} {t : Target} {c : Option Text} (h1 : ∃ e ∈ vs, e.1 = t)
    (h2 : ∀ e ∈ vs, e.1 = t → e.2 = c) : textAt vs t = .ok c := by
  obtain ⟨e, he, ht⟩ := h1
  have : (vs.find? fun e => e.1 = t).isSome := by
    rw [List.find?_isSome]
    exact ⟨e, he, by simpa using ht⟩
  obtain ⟨f, hf⟩ := Option.isSome_iff_exists.1 this
  have h3 : f.1 = t := by simpa using List.find?_some hf
  simp only [textAt, hf]
  rw [h2 f (List.mem_of_find?_eq_some hf) h3]

theorem vectorOf_map {nm : Numerals N} (hn : nm.Lawful) {vs : List (Target × Option Text)} {a : Text} {X : Nat → N}
    {is : List Nat} (h : ∀ i ∈ is, textAt vs (.elem a i) = .ok (some (nm.str (X i)))) :
    vectorOf nm vs a is = .ok (is.map X) := by
  induction is with
  | nil => rfl
  | cons i is ih =>
    simp only [vectorOf, h i List.mem_cons_self]
    have hf := hn.float_str (X i)
    rcases hs : nm.str (X i) with _ | ⟨c, s⟩
    · rw [hs, hn.float_blank] at hf; cases hf
    · rw [hs] at hf
      simp only [hf, ih fun i hi => h i (List.mem_cons_of_mem _ hi), List.map_cons]

theorem readTaz_mem {file : List (Text × Option Text)} {ks : List (Text × Target)} {vs}
    (h : readTaz file ks = .ok vs) : ∀ e ∈ vs, ∃ ele, (ele, e.1) ∈ ks ∧ findText file ele = .ok e.2 := by
  induction ks generalizing vs with
  | nil =>
    simp only [readTaz, Except.ok.injEq] at h
    subst h; intro e he; cases he
  | cons k ks ih =>
    obtain ⟨ele, t⟩ := k
    simp only [readTaz] at h
    rcases hf : findText file ele with _ | s <;> simp only [hf] at h
    · cases h
    rcases hr : readTaz file ks with _ | l <;> simp only [hr] at h
    · cases h
    simp only [Except.ok.injEq] at h
    subst h
    intro e he
    rcases List.mem_cons.1 he with rfl | he
    · exact ⟨ele, List.mem_cons_self, hf⟩
    · obtain ⟨n, h1, h2⟩ := ih hr e he
      exact ⟨n, List.mem_cons_of_mem _ h1, h2⟩

theorem vectorOf_none {nm : Numerals N} {vs : List (Target × Option Text)} {a : Text} {is : List Nat} {i : Nat}
    (hi : i ∈ is) (h : textAt vs (.elem a i) = .ok none) : ∀ xs, vectorOf nm vs a is ≠ .ok xs := by
  induction is with
  | nil => cases hi
  | cons j is ih =>
    intro xs hx
    rcases List.mem_cons.1 hi with rfl | hi
    · simp [vectorOf, h] at hx
    · simp only [vectorOf] at hx
      repeat' split at hx
      all_goals first
        | (cases hx; done)
        | exact ih hi _ hx
        | exact ih hi _ ‹_›

theorem loadTaz_ok {nm : Numerals N} {start o' : Obj N} {file} (h : loadTaz nm start file = .ok o') :
    ∃ vs hc vc ar, readTaz file tazKeys = .ok vs ∧ vectorOf nm vs cs!"hcol" [4, 3, 2, 1] = .ok hc ∧
      vectorOf nm vs cs!"vcol" [4, 3, 2, 1] = .ok vc ∧ vectorOf nm vs cs!"arms" [5, 4, 3, 2, 1] = .ok ar ∧
      putTexts { start with own := Function.update (Function.update (Function.update start.own cs!"hcol"
            (some (.list hc))) cs!"vcol" (some (.list vc))) cs!"arms" (some (.list ar)) } vs = .ok o' := by
  simp only [loadTaz] at h
  rcases h1 : readTaz file tazKeys with _ | vs <;> simp only [h1] at h
  · cases h
  rcases h2 : vectorOf nm vs cs!"hcol" [4, 3, 2, 1] with _ | hc <;> simp only [h2] at h
  · cases h
  rcases h3 : vectorOf nm vs cs!"vcol" [4, 3, 2, 1] with _ | vc <;> simp only [h3] at h
  · cases h
  rcases h4 : vectorOf nm vs cs!"arms" [5, 4, 3, 2, 1] with _ | ar <;> simp only [h4] at h
  · cases h
  exact ⟨vs, hc, vc, ar, rfl, h2, h3, h4, h⟩

theorem tazZip_fst : (tazKeys.zip tazDefaults).map Prod.fst = tazKeys := by decide +kernel

theorem tazNames_nodup : ((tazKeys.zip tazDefaults).map fun z => z.1.1).Nodup := by decide +kernel

/-! ## Specification -/

/-- The numbers (and the method) that a taz file records, besides collimations and distances: part and attribute. -/
def tazRecorded : List (Text × Text) :=
  [ ([], cs!"method"),
    (cs!"mono", cs!"d"), (cs!"mono", cs!"mosaic"), (cs!"mono", cs!"direct"), (cs!"mono", cs!"rh"), (cs!"mono", cs!"rv"),
    (cs!"mono", cs!"height"), (cs!"mono", cs!"width"), (cs!"mono", cs!"depth"),
    (cs!"ana", cs!"d"), (cs!"ana", cs!"mosaic"), (cs!"ana", cs!"direct"), (cs!"ana", cs!"rh"), (cs!"ana", cs!"rv"),
    (cs!"ana", cs!"height"), (cs!"ana", cs!"width"), (cs!"ana", cs!"depth"),
    (cs!"sample", cs!"mosaic"), (cs!"sample", cs!"direct"), (cs!"sample", cs!"height"), (cs!"sample", cs!"width"),
    (cs!"sample", cs!"depth"),
    (cs!"detector", cs!"height"), (cs!"detector", cs!"width"), (cs!"guide", cs!"height"), (cs!"guide", cs!"width") ]

/-- The parts of an instrument. -/
def tazParts : List Text := [cs!"mono", cs!"ana", cs!"sample", cs!"detector", cs!"guide"]

/-- An array or list of the given numbers. -/
def IsVector (v : Option (Value N)) (xs : List N) : Prop := v = some (.arr xs) ∨ v = some (.list xs)

/-- The target of a recorded number. -/
def targetOf (g a : Text) : Target := if g = [] then .own a else .child g a

theorem at_targetOf (o : Obj N) (g a : Text) : o.at (targetOf g a) = o.get g a := by
  unfold targetOf Obj.get
  split
  · rfl
  · simp only [Obj.at]
    rcases o.parts g with _ | q <;> rfl

theorem whole_targetOf (g a : Text) : (targetOf g a).whole := by
  unfold targetOf
  split <;> trivial

theorem tazText_whole {nm : Numerals N} {o : Obj N} {t : Target} {v : Value N} (h : o.at t = some v) (d : Text) :
    tazText nm o t d = .ok (v.str nm) := by
  rcases t with a | ⟨a, i⟩ | ⟨p, a⟩
  · simp only [Obj.at] at h
    simp only [tazText, h]
  · cases h
  · simp only [Obj.at] at h
    rcases hp : o.parts p with _ | q
    · rw [hp] at h; cases h
    · rw [hp] at h
      simp only [Option.bind_some] at h
      simp only [tazText, hp, h]

theorem tazText_elem {nm : Numerals N} {o : Obj N} {a : Text} {i : Nat} {xs : List N} (h : IsVector (o.own a) xs) {x : N}
    (hx : xs.reverse[i - 1]? = some x) (d : Text) : tazText nm o (.elem a i) d = .ok (nm.str x) := by
  rcases h with h | h <;> simp only [tazText, h, Value.fromEnd, hx]

theorem tazText_exists {nm : Numerals N} {o : Obj N} {t : Target} (ht : t.whole) (d : Text) :
    ∃ s, tazText nm o t d = .ok s := by
  rcases t with a | ⟨a, i⟩ | ⟨p, a⟩
  · simp only [tazText]
    rcases o.own a with _ | v
    · exact ⟨_, rfl⟩
    · exact ⟨_, rfl⟩
  · exact ht.elim
  · simp only [tazText]
    rcases o.parts p with _ | q
    · exact ⟨_, rfl⟩
    · simp only
      rcases q a with _ | v
      · exact ⟨_, rfl⟩
      · exact ⟨_, rfl⟩

/-- What the elements of the format are: whole attributes, or elements of the three vectors. -/
theorem tazKeys_kinds : ∀ z ∈ tazKeys.zip tazDefaults, (∃ a, z.1.2 = .own a) ∨
    (∃ p ∈ tazParts, ∃ a, z.1.2 = .child p a) ∨
    (∃ i ∈ [1, 2, 3, 4], z.1.2 = .elem cs!"hcol" i) ∨ (∃ i ∈ [1, 2, 3, 4], z.1.2 = .elem cs!"vcol" i) ∨
    (∃ i ∈ [1, 2, 3, 4, 5], z.1.2 = .elem cs!"arms" i) := by
  have h : ∀ z ∈ tazKeys.zip tazDefaults, (match z.1.2 with
      | .own _ => true
      | .child p _ => decide (p ∈ tazParts)
      | .elem a i => decide ((a = cs!"hcol" ∧ i ∈ [1, 2, 3, 4]) ∨ (a = cs!"vcol" ∧ i ∈ [1, 2, 3, 4]) ∨
          (a = cs!"arms" ∧ i ∈ [1, 2, 3, 4, 5]))) = true := by decide +kernel
  intro z hz
  have := h z hz
  revert this
  rcases z.1.2 with a | ⟨a, i⟩ | ⟨p, a⟩ <;> intro this
  · exact .inl ⟨a, rfl⟩
  · rcases of_decide_eq_true this with ⟨rfl, hi⟩ | ⟨rfl, hi⟩ | ⟨rfl, hi⟩
    · exact .inr (.inr (.inl ⟨i, hi, rfl⟩))
    · exact .inr (.inr (.inr (.inl ⟨i, hi, rfl⟩)))
    · exact .inr (.inr (.inr (.inr ⟨i, hi, rfl⟩)))
  · exact .inr (.inl ⟨p, of_decide_eq_true this, a, rfl⟩)

theorem tazRecorded_targets : ∀ n ∈ tazRecorded, targetOf n.1 n.2 ∈ tazKeys.map Prod.snd := by decide +kernel

theorem tazVectors_targets : (∀ i ∈ [4, 3, 2, 1], Target.elem cs!"hcol" i ∈ tazKeys.map Prod.snd) ∧
    (∀ i ∈ [4, 3, 2, 1], Target.elem cs!"vcol" i ∈ tazKeys.map Prod.snd) ∧
    (∀ i ∈ [5, 4, 3, 2, 1], Target.elem cs!"arms" i ∈ tazKeys.map Prod.snd) := by decide +kernel

theorem tazVectors_not_whole : Target.own cs!"hcol" ∉ tazKeys.map Prod.snd ∧
    Target.own cs!"vcol" ∉ tazKeys.map Prod.snd ∧ Target.own cs!"arms" ∉ tazKeys.map Prod.snd := by decide +kernel

/-! ## Theorems -/

/-- C160 (part).  An instrument with four horizontal and vertical collimations and five distances can be saved as a taz file
and loaded; collimations and distances come back, and every other number of the format comes back as its text. -/
theorem C160_partial {nm : Numerals N} (hn : nm.Lawful) (o start : Obj N)
    {h₁ h₂ h₃ h₄ v₁ v₂ v₃ v₄ a₁ a₂ a₃ a₄ a₅ : N} (hh : IsVector (o.own cs!"hcol") [h₁, h₂, h₃, h₄])
    (hv : IsVector (o.own cs!"vcol") [v₁, v₂, v₃, v₄]) (ha : IsVector (o.own cs!"arms") [a₁, a₂, a₃, a₄, a₅])
    (hp : ∀ p ∈ tazParts, ∃ q, start.parts p = some q) :
    ∃ file o', saveTaz nm o = .ok file ∧ loadTaz nm start (reparsed file) = .ok o' ∧
      o'.own cs!"hcol" = some (.list [h₁, h₂, h₃, h₄]) ∧ o'.own cs!"vcol" = some (.list [v₁, v₂, v₃, v₄]) ∧
      o'.own cs!"arms" = some (.list [a₁, a₂, a₃, a₄, a₅]) ∧
      ∀ n ∈ tazRecorded, ∀ v, o.get n.1 n.2 = some v → v.str nm ≠ [] → o'.get n.1 n.2 = some (.text (v.str nm)) := by
  obtain ⟨T, hT⟩ : ∃ T : (Text × Target) × Text → Text, ∀ z ∈ tazKeys.zip tazDefaults,
      tazText nm o z.1.2 z.2 = .ok (T z) := by
    have : ∀ z, ∃ s, z ∈ tazKeys.zip tazDefaults → tazText nm o z.1.2 z.2 = .ok s := by
      intro z
      by_cases hz : z ∈ tazKeys.zip tazDefaults
      swap
      · exact ⟨[], fun h => absurd h hz⟩
      rcases tazKeys_kinds z hz with ⟨a, e⟩ | ⟨p, -, a, e⟩ | ⟨i, hi, e⟩ | ⟨i, hi, e⟩ | ⟨i, hi, e⟩
      · obtain ⟨s, hs⟩ := tazText_exists (nm := nm) (o := o) (t := z.1.2) (by rw [e]; trivial) z.2
        exact ⟨s, fun _ => hs⟩
      · obtain ⟨s, hs⟩ := tazText_exists (nm := nm) (o := o) (t := z.1.2) (by rw [e]; trivial) z.2
        exact ⟨s, fun _ => hs⟩
      all_goals
        rw [e]
        simp only [List.mem_cons, List.not_mem_nil, or_false] at hi
      · rcases hi with rfl | rfl | rfl | rfl
        · exact ⟨_, fun _ => tazText_elem hh rfl _⟩
        · exact ⟨_, fun _ => tazText_elem hh rfl _⟩
        · exact ⟨_, fun _ => tazText_elem hh rfl _⟩
        · exact ⟨_, fun _ => tazText_elem hh rfl _⟩
      · rcases hi with rfl | rfl | rfl | rfl
        · exact ⟨_, fun _ => tazText_elem hv rfl _⟩
        · exact ⟨_, fun _ => tazText_elem hv rfl _⟩
        · exact ⟨_, fun _ => tazText_elem hv rfl _⟩
        · exact ⟨_, fun _ => tazText_elem hv rfl _⟩
      · rcases hi with rfl | rfl | rfl | rfl | rfl
        · exact ⟨_, fun _ => tazText_elem ha rfl _⟩
        · exact ⟨_, fun _ => tazText_elem ha rfl _⟩
        · exact ⟨_, fun _ => tazText_elem ha rfl _⟩
        · exact ⟨_, fun _ => tazText_elem ha rfl _⟩
        · exact ⟨_, fun _ => tazText_elem ha rfl _⟩
    choose T hT using this
    exact ⟨T, hT⟩
  generalize hS : (fun z : (Text × Target) × Text => if T z = [] then none else some (T z)) = S
  have hsave : saveTaz nm o = .ok ((tazKeys.zip tazDefaults).map fun z => (z.1.1, T z)) := tazElems_map hT
  have hre : reparsed ((tazKeys.zip tazDefaults).map fun z => (z.1.1, T z)) =
      (tazKeys.zip tazDefaults).map fun z => (z.1.1, S z) := by
    subst hS
    rw [reparsed, List.map_map]
    rfl
  have hread : readTaz (reparsed ((tazKeys.zip tazDefaults).map fun z => (z.1.1, T z))) tazKeys =
      .ok ((tazKeys.zip tazDefaults).map fun z => (z.1.2, S z)) := by
    rw [hre]
    conv_lhs => rw [← tazZip_fst]
    exact readTaz_map fun z hz => findText_map tazNames_nodup hz
  generalize hvs : (tazKeys.zip tazDefaults).map (fun z => (z.1.2, S z)) = vs at hread
  have htg := readTaz_targets hread
  have hex : ∀ t ∈ tazKeys.map Prod.snd, ∃ e ∈ vs, e.1 = t := by
    intro t ht
    rw [← htg] at ht
    obtain ⟨e, he, h⟩ := List.mem_map.1 ht
    exact ⟨e, he, h⟩
  have hval : ∀ t c, (∀ d, tazText nm o t d = .ok c) → c ≠ [] → ∀ e ∈ vs, e.1 = t → e.2 = some c := by
    intro t c hc hne e he het
    rw [← hvs] at he
    obtain ⟨z, hz, rfl⟩ := List.mem_map.1 he
    have h1 := hT z hz
    simp only at het
    rw [het, hc] at h1
    simp only [Except.ok.injEq] at h1
    subst hS
    simp only [← h1, if_neg hne]
  have hstr : ∀ x, nm.str x ≠ [] := by
    intro x h
    have := hn.float_str x
    rw [h, hn.float_blank] at this
    cases this
  have hvec : ∀ (a : Text) (xs : List N) (is : List Nat), IsVector (o.own a) xs → ∀ X : Nat → N,
      (∀ i ∈ is, Target.elem a i ∈ tazKeys.map Prod.snd ∧ xs.reverse[i - 1]? = some (X i)) →
      vectorOf nm vs a is = .ok (is.map X) := by
    intro a xs is hx X h
    refine vectorOf_map hn fun i hi => ?_
    exact textAt_of (hex _ (h i hi).1) (hval _ _ (fun d => tazText_elem hx (h i hi).2 d) (hstr _))
  have e1 := hvec _ _ [4, 3, 2, 1] hh (fun i => if i = 4 then h₁ else if i = 3 then h₂ else if i = 2 then h₃ else h₄) (by
    intro i hi
    refine ⟨tazVectors_targets.1 i hi, ?_⟩
    simp only [List.mem_cons, List.not_mem_nil, or_false] at hi
    rcases hi with rfl | rfl | rfl | rfl <;> rfl)
  have e2 := hvec _ _ [4, 3, 2, 1] hv (fun i => if i = 4 then v₁ else if i = 3 then v₂ else if i = 2 then v₃ else v₄) (by
    intro i hi
    refine ⟨tazVectors_targets.2.1 i hi, ?_⟩
    simp only [List.mem_cons, List.not_mem_nil, or_false] at hi
    rcases hi with rfl | rfl | rfl | rfl <;> rfl)
  have e3 := hvec _ _ [5, 4, 3, 2, 1] ha
    (fun i => if i = 5 then a₁ else if i = 4 then a₂ else if i = 3 then a₃ else if i = 2 then a₄ else a₅) (by
    intro i hi
    refine ⟨tazVectors_targets.2.2 i hi, ?_⟩
    simp only [List.mem_cons, List.not_mem_nil, or_false] at hi
    rcases hi with rfl | rfl | rfl | rfl | rfl <;> rfl)
  generalize hmid : ({ start with
      own := Function.update (Function.update (Function.update start.own cs!"hcol"
        (some (.list [h₁, h₂, h₃, h₄]))) cs!"vcol" (some (.list [v₁, v₂, v₃, v₄]))) cs!"arms"
        (some (.list [a₁, a₂, a₃, a₄, a₅])) } : Obj N) = mid
  obtain ⟨o', ho'⟩ := putTexts_ok (o := mid) (vs := vs) (by
    intro e he p a hc
    rw [← hvs] at he
    obtain ⟨z, hz, rfl⟩ := List.mem_map.1 he
    simp only at hc
    subst hmid
    rcases tazKeys_kinds z hz with ⟨a, e⟩ | ⟨p', hp', a, e⟩ | ⟨i, hi, e⟩ | ⟨i, hi, e⟩ | ⟨i, hi, e⟩ <;> rw [e] at hc
    · cases hc
    · simp only [Target.child.injEq] at hc
      obtain ⟨rfl, -⟩ := hc
      exact hp p' hp'
    · cases hc
    · cases hc
    · cases hc)
  refine ⟨_, o', hsave, ?_, ?_, ?_, ?_, ?_⟩
  · simp only [loadTaz, hread, e1, e2, e3]
    rw [← ho', ← hmid]
    rfl
  · rcases putTexts_at ho' (.own cs!"hcol") trivial with ⟨e, he, h, -⟩ | ⟨-, h⟩
    · exact absurd (htg ▸ List.mem_map_of_mem (f := Prod.fst) he) (h ▸ tazVectors_not_whole.1)
    · subst hmid
      refine h.trans ?_
      simp only [Obj.at]
      rw [Function.update_of_ne (by decide), Function.update_of_ne (by decide), Function.update_self]
  · rcases putTexts_at ho' (.own cs!"vcol") trivial with ⟨e, he, h, -⟩ | ⟨-, h⟩
    · exact absurd (htg ▸ List.mem_map_of_mem (f := Prod.fst) he) (h ▸ tazVectors_not_whole.2.1)
    · subst hmid
      refine h.trans ?_
      simp only [Obj.at]
      rw [Function.update_of_ne (by decide), Function.update_self]
  · rcases putTexts_at ho' (.own cs!"arms") trivial with ⟨e, he, h, -⟩ | ⟨-, h⟩
    · exact absurd (htg ▸ List.mem_map_of_mem (f := Prod.fst) he) (h ▸ tazVectors_not_whole.2.2)
    · subst hmid
      refine h.trans ?_
      simp only [Obj.at]
      rw [Function.update_self]
  · intro n hnm v hg hne
    have hat := hg
    rw [← at_targetOf] at hat ⊢
    rcases putTexts_at ho' _ (whole_targetOf n.1 n.2) with ⟨e, he, h1, h2⟩ | ⟨h1, -⟩
    · rw [h2, hval _ _ (fun d => tazText_whole hat d) hne e he h1]
      rfl
    · obtain ⟨e, he, h⟩ := hex _ (tazRecorded_targets n hnm)
      exact absurd h (h1 e he)

/-- C160 fails: whatever the file, none of the numbers of a loaded instrument is a number, except collimations and
distances: they are texts or `None`. -/
theorem C160_text_false {nm : Numerals N} {start o' : Obj N} {file} (h : loadTaz nm start file = .ok o') :
    ∀ n ∈ tazRecorded, (∃ s, o'.get n.1 n.2 = some (.text s)) ∨ o'.get n.1 n.2 = some .none := by
  intro n hn
  obtain ⟨vs, hc, vc, ar, hr, -, -, -, hput⟩ := loadTaz_ok h
  rw [← at_targetOf]
  rcases putTexts_at hput _ (whole_targetOf n.1 n.2) with ⟨e, -, -, h2⟩ | ⟨h1, -⟩
  · rw [h2]
    rcases e.2 with _ | s
    · exact .inr rfl
    · exact .inl ⟨s, rfl⟩
  · have ht := tazRecorded_targets n hn
    rw [← readTaz_targets hr] at ht
    obtain ⟨e, he, hh⟩ := List.mem_map.1 ht
    exact absurd hh (h1 e he)

/-- C160 fails: whatever the file, the reflections that the resolution is calculated from, the fixed energy and the lattice
of a loaded instrument are those of `Instrument()`, not those of the saved one. -/
theorem C160_reflection_false {nm : Numerals N} {start o' : Obj N} {file} (h : loadTaz nm start file = .ok o') :
    o'.get cs!"mono" cs!"tau" = start.get cs!"mono" cs!"tau" ∧ o'.get cs!"ana" cs!"tau" = start.get cs!"ana" cs!"tau" ∧
      o'.get [] cs!"efixed" = start.get [] cs!"efixed" ∧
      ∀ a ∈ [cs!"a", cs!"b", cs!"c", cs!"alpha", cs!"beta", cs!"gamma", cs!"u", cs!"v"],
        o'.get cs!"sample" a = start.get cs!"sample" a := by
  obtain ⟨vs, hc, vc, ar, hr, -, -, -, hput⟩ := loadTaz_ok h
  have key : ∀ g a, targetOf g a ∉ tazKeys.map Prod.snd → (g = [] → a ≠ cs!"hcol" ∧ a ≠ cs!"vcol" ∧ a ≠ cs!"arms") →
      o'.get g a = start.get g a := by
    intro g a hm hg
    rw [← at_targetOf]
    rcases putTexts_at hput _ (whole_targetOf g a) with ⟨e, he, h1, -⟩ | ⟨-, h2⟩
    · rw [← readTaz_targets hr] at hm
      exact absurd (h1 ▸ List.mem_map_of_mem (f := Prod.fst) he) hm
    · rw [h2, at_targetOf]
      by_cases h0 : g = []
      · obtain ⟨e1, e2, e3⟩ := hg h0
        subst h0
        simp only [Obj.get, if_true]
        rw [Function.update_of_ne e3, Function.update_of_ne e2, Function.update_of_ne e1]
      · simp only [Obj.get, if_neg h0]
  have hs : ∀ a ∈ [cs!"a", cs!"b", cs!"c", cs!"alpha", cs!"beta", cs!"gamma", cs!"u", cs!"v"],
      targetOf cs!"sample" a ∉ tazKeys.map Prod.snd := by decide +kernel
  exact ⟨key _ _ (by decide +kernel) (by decide), key _ _ (by decide +kernel) (by decide),
    key _ _ (by decide +kernel) (by decide), fun a ha => key _ _ (hs a ha) fun h => by cases h⟩

/-- The distances in the file of this format that the package comes with (tests/filetypes/test_instr.taz 48-51), which
holds the defaults. -/
def defaultDistances : List (Text × Text) :=
  [ (cs!"pop_dist_src_mono", cs!"10"), (cs!"pop_dist_mono_sample", cs!"200"), (cs!"pop_dist_sample_ana", cs!"115"),
    (cs!"pop_dist_ana_det", cs!"85") ]

/-- C160 fails: an instrument without distances gets the defaults of other elements: 0.15 instead of 10 between source and
monochromator, 8 instead of 115 between sample and analyzer, 0 instead of 85 between analyzer and detector. -/
theorem C160_default_false {nm : Numerals N} {o : Obj N} {file} (ho : o.own cs!"arms" = none)
    (h : saveTaz nm o = .ok file) : ((cs!"pop_dist_src_mono", cs!"0.15") ∈ file ∧
      (cs!"pop_dist_mono_sample", cs!"200") ∈ file ∧ (cs!"pop_dist_sample_ana", cs!"8") ∈ file ∧
      (cs!"pop_dist_ana_det", cs!"0") ∈ file) ∧ ((cs!"pop_dist_src_mono", cs!"0.15") ∉ defaultDistances ∧
      (cs!"pop_dist_sample_ana", cs!"8") ∉ defaultDistances ∧ (cs!"pop_dist_ana_det", cs!"0") ∉ defaultDistances) := by
  have key : ∀ ele i d, ((ele, Target.elem cs!"arms" i), d) ∈ tazKeys.zip tazDefaults → (ele, d) ∈ file := by
    intro ele i d hm
    obtain ⟨s, h1, h2⟩ := tazElems_mem h _ hm
    simp only [tazText, ho, Except.ok.injEq] at h1
    exact h1 ▸ h2
  exact ⟨⟨key _ 5 _ (by decide +kernel), key _ 4 _ (by decide +kernel), key _ 3 _ (by decide +kernel),
    key _ 2 _ (by decide +kernel)⟩, by decide⟩

/-- C160 fails: an instrument with the four distances that the documentation asks for without monitor normalisation cannot
be saved. -/
theorem C160_short_false {nm : Numerals N} {o : Obj N} {a₁ a₂ a₃ a₄ : N}
    (ha : IsVector (o.own cs!"arms") [a₁, a₂, a₃, a₄]) : ∀ file, saveTaz nm o ≠ .ok file := by
  intro file h
  obtain ⟨s, h1, -⟩ := tazElems_mem h ((cs!"pop_dist_src_mono", .elem cs!"arms" 5), cs!"0.15") (by decide +kernel)
  rcases ha with ha | ha <;> simp [tazText, ha, Value.fromEnd] at h1

/-- C160 fails: an element of a collimation or distance without text, which the loader means to leave out, is `None` after
parsing, and a file with one cannot be loaded. -/
theorem C160_empty_false {nm : Numerals N} {start : Obj N} {file : List (Text × Text)} {ele a : Text} {i : Nat}
    (hk : (ele, Target.elem a i) ∈ tazKeys) (hf : findText (reparsed file) ele = .ok none) :
    ∀ o', loadTaz nm start (reparsed file) ≠ .ok o' := by
  intro o' h
  obtain ⟨vs, hc, vc, ar, h1, h2, h3, h4, -⟩ := loadTaz_ok h
  have hkeys : ∀ k ∈ tazKeys, ∀ k' ∈ tazKeys, k.2 = k'.2 → k.2 ≠ .own [] → k.1 = k'.1 := by decide +kernel
  have hvec : ∀ k ∈ tazKeys, k.2 ∈ [4, 3, 2, 1].map (Target.elem cs!"hcol") ∨ k.2 ∈ [4, 3, 2, 1].map (Target.elem cs!"vcol") ∨
      k.2 ∈ [5, 4, 3, 2, 1].map (Target.elem cs!"arms") ∨ (match k.2 with | .elem _ _ => true | _ => false) = false := by
    decide +kernel
  have hat : textAt vs (.elem a i) = .ok none := by
    refine textAt_of ?_ fun e he ht => ?_
    · have : Target.elem a i ∈ vs.map Prod.fst := by
        rw [readTaz_targets h1]
        exact List.mem_map.2 ⟨_, hk, rfl⟩
      obtain ⟨e, he, ht⟩ := List.mem_map.1 this
      exact ⟨e, he, ht⟩
    · obtain ⟨n, hn, hs⟩ := readTaz_mem h1 e he
      have := hkeys _ hn _ hk ht (by rw [ht]; nofun)
      simp only at this
      rw [this, hf] at hs
      exact (Except.ok.inj hs).symm
  rcases hvec _ hk with e | e | e | e
  · obtain ⟨j, hj, e⟩ := List.mem_map.1 e
    cases e; exact vectorOf_none hj hat _ h2
  · obtain ⟨j, hj, e⟩ := List.mem_map.1 e
    cases e; exact vectorOf_none hj hat _ h3
  · obtain ⟨j, hj, e⟩ := List.mem_map.1 e
    cases e; exact vectorOf_none hj hat _ h4
  · cases e

example : findText (reparsed [(cs!"v_coll_mono", [])]) cs!"v_coll_mono" = .ok none ∧
    (cs!"h_coll_mono", Target.elem cs!"hcol" 4) ∈ tazKeys := by decide +kernel

/-- C160, files that are not complete: a file in which one of the elements is missing cannot be loaded, whichever it is and
whatever the rest (`AttributeError`). -/
theorem C160_missing {nm : Numerals N} {start : Obj N} {file : List (Text × Option Text)} {ele : Text} {t : Target}
    (hk : (ele, t) ∈ tazKeys) (hf : ∀ e ∈ file, e.1 ≠ ele) : loadTaz nm start file = .error .attributeError := by
  have hr : ∀ ks : List (Text × Target), (ele, t) ∈ ks → readTaz file ks = .error .attributeError := by
    intro ks hks
    induction ks with
    | nil => cases hks
    | cons k ks ih =>
      obtain ⟨e, u⟩ := k
      simp only [readTaz]
      cases hx : file.find? fun x => x.1 = e with
      | none => simp only [findText, hx]
      | some x =>
        rcases List.mem_cons.1 hks with h | h
        · cases h
          have h1 := List.find?_some hx
          exact absurd (by simpa using h1) (hf x (List.mem_of_find?_eq_some hx))
        · simp only [findText, hx, ih h]
  simp only [loadTaz, hr _ hk]

example : loadTaz intNumerals (plainInstrument [40, 40, 40, 40] [1, 0, 0]) [(cs!"mono_d", some cs!"3")] =
    .error .attributeError := C160_missing (ele := cs!"h_coll_mono") (t := .elem cs!"hcol" 4) (by decide +kernel) (by decide)

/-! ## The hypotheses are met -/

/-- An instrument with everything that the format needs. -/
def tazInstrument : Obj Int where
  own := fun a => if a = cs!"arms" then some (.list [10, 200, 115, 85, 15]) else (plainInstrument [40, 40, 40, 40] [1, 0, 0]).own a
  parts := (plainInstrument [40, 40, 40, 40] [1, 0, 0]).parts

example : ∃ file o', saveTaz intNumerals tazInstrument = .ok file ∧
    loadTaz intNumerals (plainInstrument [40, 40, 40, 40] [1, 0, 0]) (reparsed file) = .ok o' ∧
    o'.own cs!"arms" = some (.list [10, 200, 115, 85, 15]) ∧
    o'.get cs!"mono" cs!"mosaic" = some (.text cs!"25") := by
  obtain ⟨file, o', h1, h2, -, -, h3, h4⟩ := C160_partial intNumerals_lawful tazInstrument
    (plainInstrument [40, 40, 40, 40] [1, 0, 0]) (.inl rfl) (.inl rfl) (.inr rfl) (by
      intro p hp
      simp only [tazParts, List.mem_cons, List.not_mem_nil, or_false] at hp
      rcases hp with rfl | rfl | rfl | rfl | rfl <;> exact ⟨_, rfl⟩)
  have h5 : Value.str intNumerals (.num 25) = cs!"25" := by decide +kernel
  refine ⟨file, o', h1, h2, h3, ?_⟩
  rw [← h5]
  exact h4 (cs!"mono", cs!"mosaic") (by decide) (.num 25) rfl (by rw [h5]; decide)

example : ∃ file, saveTaz intNumerals (plainInstrument [40, 40, 40, 40] [1, 0, 0]) = .ok file ∧
    (plainInstrument [40, 40, 40, 40] [1, 0, 0]).own cs!"arms" = none := ⟨_, rfl, rfl⟩

end Verif.FileIO
