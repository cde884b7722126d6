import Mathlib.Data.List.Nodup
import Mathlib.Tactic.Set
import Mathlib.Tactic.SplitIfs
import Verif.Instrument.Create

/-! # New instruments have what was asked for -/

namespace Verif.Instrument.Create

variable {V : Type}

/-- Specification: the call gives the value `v` to the parameter or attribute `n`, by place or by keyword. -/
def Given (params : List Name) (args : List V) (kwargs : List (Name × V)) (n : Name) (v : V) : Prop :=
  (∃ i : Nat, params[i]? = some n ∧ args[i]? = some v) ∨ (n, v) ∈ kwargs

/-- Specification: a call Python accepts: not too many values by place, no parameter by place and by keyword, no keyword twice. -/
structure Wellformed (params : List Name) (args : List V) (kwargs : List (Name × V)) : Prop where
  few : args.length ≤ params.length
  once : (kwargs.map Prod.fst).Nodup
  apart : ∀ (i : Nat) n, params[i]? = some n → i < args.length → ∀ v, (n, v) ∉ kwargs

/-- Specification: `x` is the value given for `n`, or `d` if none is given. -/
def Takes (params : List Name) (args : List V) (kwargs : List (Name × V)) (n : Name) (d x : V) : Prop :=
  Given params args kwargs n x ∨ (∀ v, ¬ Given params args kwargs n v) ∧ x = d

lemma lookup_some {l : List (Name × V)} {n : Name} {v : V} (h : l.lookup n = some v) : (n, v) ∈ l := by
  induction l with
  | nil => simp at h
  | cons e l ih =>
    obtain ⟨k, w⟩ := e
    rw [List.lookup_cons] at h
    by_cases c : n = k
    · subst c; simp at h; simp [h]
    · have : (n == k) = false := by simpa using c
      rw [this] at h
      exact List.mem_cons_of_mem _ (ih h)

lemma lookup_none {l : List (Name × V)} {n : Name} (h : l.lookup n = none) (v : V) : (n, v) ∉ l := by
  induction l with
  | nil => simp
  | cons e l ih =>
    obtain ⟨k, w⟩ := e
    rw [List.lookup_cons] at h
    by_cases c : n = k
    · subst c; simp at h
    · have : (n == k) = false := by simpa using c
      rw [this] at h
      simp [c, ih h]

lemma lookup_of_mem {l : List (Name × V)} {n : Name} {v : V} (nd : (l.map Prod.fst).Nodup) (h : (n, v) ∈ l) : l.lookup n = some v := by
  induction l with
  | nil => simp at h
  | cons e l ih =>
    obtain ⟨k, w⟩ := e
    simp only [List.map_cons, List.nodup_cons] at nd
    rw [List.lookup_cons]
    rcases List.mem_cons.1 h with h | h
    · cases h; simp
    · have : n ≠ k := fun c => nd.1 (by rw [← c]; exact List.mem_map.2 ⟨_, h, rfl⟩)
      have : (n == k) = false := by simpa using this
      rw [this]; exact ih nd.2 h

lemma zip_mem {params : List Name} {args : List V} {n : Name} {v : V} :
    (n, v) ∈ params.zip args ↔ ∃ i : Nat, params[i]? = some n ∧ args[i]? = some v := by
  rw [List.mem_iff_getElem?]
  simp only [List.getElem?_zip_eq_some]

lemma bind_ok {params : List Name} {args : List V} {kwargs : List (Name × V)} (w : Wellformed params args kwargs) :
    ∃ g, bindArgs params args kwargs = .ok (g, kwargs.filter fun e => e.1 ∉ params) ∧
      ∀ n ∈ params, (∀ v, g n = some v → Given params args kwargs n v) ∧ (g n = none → ∀ v, ¬ Given params args kwargs n v) := by
  refine ⟨fun n => ((params.zip args).lookup n).or (if n ∈ params then kwargs.lookup n else none), ?_, ?_⟩
  · unfold bindArgs
    rw [if_neg (by have := w.few; omega), if_neg]
    rw [List.any_eq_true]
    rintro ⟨n, hn, h⟩
    obtain ⟨v, hv⟩ := Option.isSome_iff_exists.1 h
    obtain ⟨i, hi⟩ := List.mem_iff_getElem?.1 hn
    rw [List.getElem?_take] at hi
    split_ifs at hi with hl
    exact w.apart i n hi hl v (lookup_some hv)
  · intro n hn
    dsimp only
    rw [if_pos hn]
    cases k : (params.zip args).lookup n with
    | some x =>
      simp only [Option.some_or]
      refine ⟨fun v hv => ?_, fun h => by simp at h⟩
      cases hv
      exact Or.inl (zip_mem.1 (lookup_some k))
    | none =>
      simp only [Option.none_or]
      refine ⟨fun v hv => Or.inr (lookup_some hv), fun h v hv => ?_⟩
      rcases hv with hv | hv
      · exact lookup_none k v (zip_mem.2 hv)
      · exact lookup_none h v hv

lemma takes_getD {params : List Name} {args : List V} {kwargs : List (Name × V)} {g : Name → Option V} {n : Name}
    (h : (∀ v, g n = some v → Given params args kwargs n v) ∧ (g n = none → ∀ v, ¬ Given params args kwargs n v)) (d : V) :
    Takes params args kwargs n d ((g n).getD d) := by
  cases k : g n with
  | some v => exact Or.inl (h.1 v k)
  | none => exact Or.inr ⟨h.2 k, rfl⟩

lemma putAll_of_not_mem (a : Attrs V) (l : List (Name × V)) (n : Name) (h : ∀ v, (n, v) ∉ l) : a.putAll l n = a n := by
  induction l generalizing a with
  | nil => rfl
  | cons e l ih =>
    have : a.putAll (e :: l) = (a.put e.1 e.2).putAll l := rfl
    rw [this, ih _ (fun v hv => h v (List.mem_cons_of_mem _ hv))]
    have : n ≠ e.1 := fun c => h e.2 (by rw [c]; exact List.mem_cons_self)
    simp [Attrs.put, Function.update_of_ne this]

lemma putAll_of_mem (a : Attrs V) (l : List (Name × V)) (nd : (l.map Prod.fst).Nodup) (n : Name) (v : V) (h : (n, v) ∈ l) :
    a.putAll l n = some v := by
  induction l generalizing a with
  | nil => simp at h
  | cons e l ih =>
    have e1 : a.putAll (e :: l) = (a.put e.1 e.2).putAll l := rfl
    simp only [List.map_cons, List.nodup_cons] at nd
    rw [e1]
    rcases List.mem_cons.1 h with h | h
    · subst h
      rw [putAll_of_not_mem _ _ _ (fun w hw => nd.1 (List.mem_map.2 ⟨_, hw, rfl⟩))]
      simp [Attrs.put]
    · exact ih _ nd.2 h

lemma extra_nodup {kwargs : List (Name × V)} (h : (kwargs.map Prod.fst).Nodup) (p : Name × V → Bool) :
    ((kwargs.filter p).map Prod.fst).Nodup := (List.filter_sublist.map _).nodup h

/-- The call as the constructor of the class gets it: with type and engine among the keywords. -/
def Extended (L : Lib V) (kwargs kwargs' : List (Name × V)) (type : Name) : Prop :=
  (∀ n v, (n, v) ∈ kwargs' → n ≠ cs!"instrument_type" → n ≠ cs!"engine" → (n, v) ∈ kwargs) ∧
  (∀ e ∈ kwargs, e ∈ kwargs') ∧ (kwargs'.map Prod.fst).Nodup ∧
  kwargs'.lookup cs!"instrument_type" = some (L.text type) ∧ kwargs'.lookup cs!"engine" = some (L.text cs!"neutronpy")

lemma lookup_append_none {l : List (Name × V)} {n m : Name} {v : V} (h : l.lookup m = none) :
    (l ++ [(m, v)]).lookup n = if n = m then some v else l.lookup n := by
  rw [List.lookup_append]
  by_cases c : n = m
  · subst c; simp [h]
  · have : (n == m) = false := by simpa using c
    simp [List.lookup_cons, this, c]

lemma setDefault_mem (l : List (Name × V)) (n : Name) (v : V) (e : Name × V) (h : e ∈ setDefault l n v) : e ∈ l ∨ e.1 = n := by
  unfold setDefault at h
  split_ifs at h
  · exact Or.inl h
  · rcases List.mem_append.1 h with h | h
    · exact Or.inl h
    · simp at h; exact Or.inr (by rw [h])

lemma mem_setDefault (l : List (Name × V)) (n : Name) (v : V) (e : Name × V) (h : e ∈ l) : e ∈ setDefault l n v := by
  unfold setDefault; split_ifs
  · exact h
  · exact List.mem_append_left _ h

lemma setDefault_nodup (l : List (Name × V)) (n : Name) (v : V) (h : (l.map Prod.fst).Nodup) : ((setDefault l n v).map Prod.fst).Nodup := by
  unfold setDefault; split_ifs with c
  · exact h
  · have c' : l.lookup n = none := by rwa [Bool.not_eq_true, Option.isSome_eq_false_iff, Option.isNone_iff_eq_none] at c
    rw [List.map_append, List.nodup_append]
    refine ⟨h, by simp, ?_⟩
    intro a ha b hb
    simp only [List.map_cons, List.map_nil, List.mem_singleton] at hb
    subst hb
    obtain ⟨⟨k, w⟩, hk, rfl⟩ := List.mem_map.1 ha
    intro heq
    simp only at heq
    subst heq
    exact lookup_none c' w hk

lemma setDefault_lookup (l : List (Name × V)) (n m : Name) (v : V) :
    (setDefault l n v).lookup m = if m = n then some ((l.lookup n).getD v) else l.lookup m := by
  unfold setDefault
  cases k : l.lookup n with
  | some w =>
    simp only [Option.isSome_some, if_true, Option.getD_some]
    split_ifs with c
    · rw [c, k]
    · rfl
  | none =>
    simp only [Option.isSome_none, Bool.false_eq_true, if_false, Option.getD_none]
    exact lookup_append_none k

lemma extend {L : Lib V} {kwargs : List (Name × V)} {type : Name} (nd : (kwargs.map Prod.fst).Nodup)
    (ht : kwargs.lookup cs!"instrument_type" = some (L.text type) ∨ kwargs.lookup cs!"instrument_type" = none ∧ type = cs!"tas")
    (he : kwargs.lookup cs!"engine" = some (L.text cs!"neutronpy") ∨ kwargs.lookup cs!"engine" = none) :
    Extended L kwargs (setDefault (setDefault kwargs cs!"instrument_type" (L.text cs!"tas")) cs!"engine" (L.text cs!"neutronpy")) type := by
  refine ⟨?_, ?_, ?_, ?_, ?_⟩
  · intro n v h h1 h2
    rcases setDefault_mem _ _ _ _ h with h | h
    · rcases setDefault_mem _ _ _ _ h with h | h
      · exact h
      · exact absurd h h1
    · exact absurd h h2
  · intro e h
    exact mem_setDefault _ _ _ _ (mem_setDefault _ _ _ _ h)
  · exact setDefault_nodup _ _ _ (setDefault_nodup _ _ _ nd)
  · rw [setDefault_lookup, if_neg (by decide), setDefault_lookup, if_pos rfl]
    rcases ht with h | ⟨h, rfl⟩ <;> simp [h]
  · rw [setDefault_lookup, if_pos rfl, setDefault_lookup, if_neg (by decide)]
    rcases he with h | h <;> simp [h]

lemma extended_wellformed {L : Lib V} {params : List Name} {args : List V} {kwargs kwargs' : List (Name × V)} {type : Name}
    (w : Wellformed params args kwargs) (x : Extended L kwargs kwargs' type)
    (h1 : cs!"instrument_type" ∉ params) (h2 : cs!"engine" ∉ params) : Wellformed params args kwargs' := by
  refine ⟨w.few, x.2.2.1, fun i n hi hl v hv => ?_⟩
  have m := List.mem_of_getElem? hi
  exact w.apart i n hi hl v (x.1 n v hv (fun c => h1 (c ▸ m)) (fun c => h2 (c ▸ m)))

lemma extended_given {L : Lib V} {params : List Name} {args : List V} {kwargs kwargs' : List (Name × V)} {type : Name}
    (x : Extended L kwargs kwargs' type) {n : Name} (h1 : n ≠ cs!"instrument_type") (h2 : n ≠ cs!"engine") (v : V) :
    Given params args kwargs' n v ↔ Given params args kwargs n v := by
  unfold Given
  constructor
  · rintro (h | h)
    · exact Or.inl h
    · exact Or.inr (x.1 n v h h1 h2)
  · rintro (h | h)
    · exact Or.inl h
    · exact Or.inr (x.2.1 _ h)

lemma extended_takes {L : Lib V} {params : List Name} {args : List V} {kwargs kwargs' : List (Name × V)} {type : Name}
    (x : Extended L kwargs kwargs' type) {n : Name} (h1 : n ≠ cs!"instrument_type") (h2 : n ≠ cs!"engine") {d v : V}
    (h : Takes params args kwargs' n d v) : Takes params args kwargs n d v := by
  rcases h with h | ⟨h, e⟩
  · exact Or.inl ((extended_given x h1 h2 v).1 h)
  · exact Or.inr ⟨fun w hw => h w ((extended_given x h1 h2 w).2 hw), e⟩

/-- Two values given for the same parameter are the same. -/
lemma given_unique {params : List Name} {args : List V} {kwargs : List (Name × V)} {n : Name} {v v' : V}
    (w : Wellformed params args kwargs) (hp : params.Nodup) (gv : Given params args kwargs n v) (gv' : Given params args kwargs n v') : v' = v := by
  rcases gv with ⟨i, hi, hv⟩ | hv <;> rcases gv' with ⟨j, hj, hv'⟩ | hv'
  · obtain ⟨hli, ei⟩ := List.getElem?_eq_some_iff.1 hi
    obtain ⟨hlj, ej⟩ := List.getElem?_eq_some_iff.1 hj
    have : i = j := (List.Nodup.getElem_inj_iff hp).1 (ei.trans ej.symm)
    subst this
    rw [hv] at hv'
    injection hv' with h; exact h.symm
  · exact absurd hv' (w.apart i n hi (List.getElem?_eq_some_iff.1 hv).1 v')
  · exact absurd hv (w.apart j n hj (List.getElem?_eq_some_iff.1 hv').1 v)
  · have a := lookup_of_mem w.once hv
    have b := lookup_of_mem w.once hv'
    rw [a] at b
    injection b with h; exact h.symm

/-- What is stored for an argument that may be left out or `None`. -/
def TakesOrNone (L : Lib V) (params : List Name) (args : List V) (kwargs : List (Name × V)) (n : Name) (d x : V) : Prop :=
  Given params args kwargs n x ∧ L.isNone x = false ∨
    x = d ∧ ∀ v, Given params args kwargs n v → L.isNone v = true

lemma takes_orNone {L : Lib V} {params : List Name} {args : List V} {kwargs : List (Name × V)} {g : Name → Option V} {n : Name}
    (w : Wellformed params args kwargs) (hp : params.Nodup)
    (h : (∀ v, g n = some v → Given params args kwargs n v) ∧ (g n = none → ∀ v, ¬ Given params args kwargs n v)) (d : V) :
    TakesOrNone L params args kwargs n d (orNone L (g n) d) := by
  cases k : g n with
  | none => exact Or.inr ⟨rfl, fun v hv => absurd hv (h.2 k v)⟩
  | some v =>
    have gv := h.1 v k
    unfold orNone
    dsimp only
    split_ifs with c
    · refine Or.inr ⟨rfl, fun v' gv' => ?_⟩
      have : v' = v := given_unique w hp gv gv'
      rw [this]; exact c
    · exact Or.inl ⟨gv, by simpa using c⟩

lemma extended_takesOrNone {L : Lib V} {params : List Name} {args : List V} {kwargs kwargs' : List (Name × V)} {type : Name}
    (x : Extended L kwargs kwargs' type) {n : Name} (h1 : n ≠ cs!"instrument_type") (h2 : n ≠ cs!"engine") {d v : V}
    (h : TakesOrNone L params args kwargs' n d v) : TakesOrNone L params args kwargs n d v := by
  rcases h with ⟨h, e⟩ | ⟨e, h⟩
  · exact Or.inl ⟨(extended_given x h1 h2 v).1 h, e⟩
  · exact Or.inr ⟨e, fun w hw => h w ((extended_given x h1 h2 w).2 hw)⟩

/-- **C170** (partial).  `Instrument(…)` for a triple-axis instrument, type and engine left out or named as documented, and a call
that Python accepts: there is an instrument of this class; the fixed energy, the sample and the collimations are those given or the
defaults, the crystals are made of those given or the defaults; every further keyword is an attribute of the instrument.
Missing: unknown types, engines (`C170_unknown_false`), settings (`C170_documented_false`), and Takin (`C170_takin_false`). -/
theorem C170_tas_partial [DecidableEq V] (L : Lib V) (args : List V) (kwargs : List (Name × V)) (w : Wellformed tasParams args kwargs)
    (ht : kwargs.lookup cs!"instrument_type" = some (L.text cs!"tas") ∨ kwargs.lookup cs!"instrument_type" = none)
    (he : kwargs.lookup cs!"engine" = some (L.text cs!"neutronpy") ∨ kwargs.lookup cs!"engine" = none)
    (free : ∀ n ∈ [cs!"detector", cs!"monitor", cs!"guide", cs!"orient1", cs!"orient2"], ∀ v, (n, v) ∉ kwargs) :
    ∃ a efixed sample hcol vcol m mm n nm, create L args kwargs = .ok (.tas, a) ∧
      a cs!"efixed" = some efixed ∧ Takes tasParams args kwargs cs!"efixed" (L.num 14700) efixed ∧
      a cs!"sample" = some sample ∧ TakesOrNone L tasParams args kwargs cs!"sample" L.sample sample ∧
      a cs!"orient1" = some (L.array (L.u sample)) ∧ a cs!"orient2" = some (L.array (L.v sample)) ∧
      a cs!"hcol" = some (L.array hcol) ∧ TakesOrNone L tasParams args kwargs cs!"hcol" (L.numbers [40, 40, 40, 40]) hcol ∧
      a cs!"vcol" = some (L.array vcol) ∧ TakesOrNone L tasParams args kwargs cs!"vcol" (L.numbers [120, 120, 120, 120]) vcol ∧
      a cs!"mono" = some (L.monochromator m mm) ∧
        Takes tasParams args kwargs cs!"mono" (L.text cs!"PG(002)") m ∧ Takes tasParams args kwargs cs!"mono_mosaic" (L.num 25000) mm ∧
      a cs!"ana" = some (L.analyzer n nm) ∧
        Takes tasParams args kwargs cs!"ana" (L.text cs!"PG(002)") n ∧ Takes tasParams args kwargs cs!"ana_mosaic" (L.num 25000) nm ∧
      a cs!"detector" = some (L.dummy cs!"Detector") ∧ a cs!"monitor" = some (L.dummy cs!"Monitor") ∧ a cs!"guide" = some (L.dummy cs!"Guide") ∧
      a cs!"instrument_type" = some (L.text cs!"tas") ∧ a cs!"engine" = some (L.text cs!"neutronpy") ∧
      ∀ k v, k ∉ tasParams → (k, v) ∈ kwargs → a k = some v := by
  have x : Extended L kwargs _ cs!"tas" := extend (L := L) w.once (ht.imp id fun h => ⟨h, rfl⟩) he
  set kw := setDefault (setDefault kwargs cs!"instrument_type" (L.text cs!"tas")) cs!"engine" (L.text cs!"neutronpy") with hkw
  have w' := extended_wellformed w x (by decide) (by decide)
  obtain ⟨g, e, hg⟩ := bind_ok w'
  have np : tasParams.Nodup := by decide
  have en : ∀ n ∈ tasParams, ∀ v, (n, v) ∉ kw.filter fun e => e.1 ∉ tasParams := by
    intro n hn v hv
    have := (List.mem_filter.1 hv).2
    simp only [decide_eq_true_eq] at this
    exact this hn
  have ef : ∀ n ∈ [cs!"detector", cs!"monitor", cs!"guide", cs!"orient1", cs!"orient2"],
      ∀ v, (n, v) ∉ kw.filter fun e => e.1 ∉ tasParams := by
    intro n hn v hv
    refine free n hn v (x.1 n v (List.mem_filter.1 hv).1 ?_ ?_)
    · rintro rfl; revert hn; decide
    · rintro rfl; revert hn; decide
  have all : ∀ n v, n ∉ tasParams → (n, v) ∈ kw → (n, v) ∈ kw.filter fun e => e.1 ∉ tasParams := by
    intro n v hn hv
    exact List.mem_filter.2 ⟨hv, by simpa using hn⟩
  have nd := extra_nodup x.2.2.1 (fun e => decide (e.1 ∉ tasParams))
  have tk : ∀ n ∈ tasParams, ∀ d, Takes tasParams args kwargs n d ((g n).getD d) := fun n hn d =>
    extended_takes x (by rintro rfl; revert hn; decide) (by rintro rfl; revert hn; decide) (takes_getD (hg n hn) d)
  have tn : ∀ n ∈ tasParams, ∀ d, TakesOrNone L tasParams args kwargs n d (orNone L (g n) d) := fun n hn d =>
    extended_takesOrNone x (by rintro rfl; revert hn; decide) (by rintro rfl; revert hn; decide) (takes_orNone w' np (hg n hn) d)
  have hc : ∃ a, create L args kwargs = .ok (.tas, a) ∧ initTas L
      ((Attrs.put (fun _ => none) cs!"instrument_type" (L.text cs!"tas")).put cs!"engine" (L.text cs!"neutronpy")) args kw = .ok a := by
    unfold create
    simp only [← hkw, x.2.2.2.1, x.2.2.2.2, Option.getD_some, if_true]
    unfold initTas
    rw [e]
    exact ⟨_, rfl, rfl⟩
  obtain ⟨a, h1, h2⟩ := hc
  unfold initTas at h2
  rw [e] at h2
  injection h2 with h2
  refine ⟨a, (g cs!"efixed").getD (L.num 14700), orNone L (g cs!"sample") L.sample, orNone L (g cs!"hcol") (L.numbers [40, 40, 40, 40]),
    orNone L (g cs!"vcol") (L.numbers [120, 120, 120, 120]), (g cs!"mono").getD (L.text cs!"PG(002)"),
    (g cs!"mono_mosaic").getD (L.num 25000), (g cs!"ana").getD (L.text cs!"PG(002)"), (g cs!"ana_mosaic").getD (L.num 25000), h1,
    ?_, tk _ (by decide) _, ?_, tn _ (by decide) _, ?_, ?_, ?_, tn _ (by decide) _, ?_, tn _ (by decide) _, ?_, tk _ (by decide) _,
    tk _ (by decide) _, ?_, tk _ (by decide) _, tk _ (by decide) _, ?_, ?_, ?_, ?_, ?_, ?_⟩
  · rw [← h2, putAll_of_not_mem _ _ _ (en _ (by decide))]; rfl
  · rw [← h2, putAll_of_not_mem _ _ _ (en _ (by decide))]; rfl
  · rw [← h2, putAll_of_not_mem _ _ _ (ef _ (by decide))]; rfl
  · rw [← h2, putAll_of_not_mem _ _ _ (ef _ (by decide))]; rfl
  · rw [← h2, putAll_of_not_mem _ _ _ (en _ (by decide))]; rfl
  · rw [← h2, putAll_of_not_mem _ _ _ (en _ (by decide))]; rfl
  · rw [← h2, putAll_of_not_mem _ _ _ (en _ (by decide))]; rfl
  · rw [← h2, putAll_of_not_mem _ _ _ (en _ (by decide))]; rfl
  · rw [← h2, putAll_of_not_mem _ _ _ (ef _ (by decide))]; rfl
  · rw [← h2, putAll_of_not_mem _ _ _ (ef _ (by decide))]; rfl
  · rw [← h2, putAll_of_not_mem _ _ _ (ef _ (by decide))]; rfl
  · rw [← h2]; exact putAll_of_mem _ _ nd _ _ (all _ _ (by decide) (lookup_some x.2.2.2.1))
  · rw [← h2]; exact putAll_of_mem _ _ nd _ _ (all _ _ (by decide) (lookup_some x.2.2.2.2))
  · intro k v hk hv
    rw [← h2]; exact putAll_of_mem _ _ nd _ _ (all _ _ hk (x.2.1 _ hv))

/-- A call with two values by place, one parameter by keyword and one further setting. -/
example : Wellformed tasParams [5, 6] [(cs!"hcol", (7 : Int)), (cs!"method", 1)] := by
  refine ⟨by decide, by decide, ?_⟩
  intro i n hi hl v
  have : i = 0 ∨ i = 1 := by simp at hl; omega
  rcases this with rfl | rfl <;> (cases hi; simp)

/-- What is stored for an argument that may be left out or count as false. -/
def TakesOrFalse (L : Lib V) (params : List Name) (args : List V) (kwargs : List (Name × V)) (n : Name) (d x : V) : Prop :=
  Given params args kwargs n x ∧ L.truthy x = true ∨
    x = d ∧ ∀ v, Given params args kwargs n v → L.truthy v = false

lemma takes_orFalse {L : Lib V} {params : List Name} {args : List V} {kwargs : List (Name × V)} {g : Name → Option V} {n : Name}
    (w : Wellformed params args kwargs) (hp : params.Nodup)
    (h : (∀ v, g n = some v → Given params args kwargs n v) ∧ (g n = none → ∀ v, ¬ Given params args kwargs n v)) (d : V) :
    TakesOrFalse L params args kwargs n d (orFalse L (g n) d) := by
  cases k : g n with
  | none => exact Or.inr ⟨rfl, fun v hv => absurd hv (h.2 k v)⟩
  | some v =>
    have gv := h.1 v k
    unfold orFalse
    dsimp only
    split_ifs with c
    · exact Or.inl ⟨gv, c⟩
    · refine Or.inr ⟨rfl, fun v' gv' => ?_⟩
      rw [given_unique w hp gv gv']
      simpa using c

lemma extended_takesOrFalse {L : Lib V} {params : List Name} {args : List V} {kwargs kwargs' : List (Name × V)} {type : Name}
    (x : Extended L kwargs kwargs' type) {n : Name} (h1 : n ≠ cs!"instrument_type") (h2 : n ≠ cs!"engine") {d v : V}
    (h : TakesOrFalse L params args kwargs' n d v) : TakesOrFalse L params args kwargs n d v := by
  rcases h with ⟨h, e⟩ | ⟨e, h⟩
  · exact Or.inl ⟨(extended_given x h1 h2 v).1 h, e⟩
  · exact Or.inr ⟨e, fun w hw => h w ((extended_given x h1 h2 w).2 hw)⟩

/-- **C170** (partial).  `Instrument(…, instrument_type='tof')` with the engine left out or named `neutronpy`, for a call that Python
accepts with guides: there is an instrument of this class, with the incident energy, sample, detector, guides and angles that are given or the
defaults, the choppers as a list, and every further keyword as an attribute. -/
theorem C170_tof_partial [DecidableEq V] (L : Lib V) (args : List V) (kwargs : List (Name × V)) (w : Wellformed tofParams args kwargs)
    (different : L.text cs!"tof" ≠ L.text cs!"tas")
    (ht : kwargs.lookup cs!"instrument_type" = some (L.text cs!"tof"))
    (he : kwargs.lookup cs!"engine" = some (L.text cs!"neutronpy") ∨ kwargs.lookup cs!"engine" = none)
    (guides : V) (hg : Given tofParams args kwargs cs!"guides" guides) (true_guides : L.truthy guides = true) :
    ∃ a ei sample detector theta phi, create L args kwargs = .ok (.tof, a) ∧
      a cs!"ei" = some (L.energy ei) ∧ Takes tofParams args kwargs cs!"ei" (L.num 3000) ei ∧
      (∀ c, Given tofParams args kwargs cs!"choppers" c → L.truthy c = true → a cs!"choppers" = some (L.chopperList (L.choppers c))) ∧
      ((∀ c, ¬ Given tofParams args kwargs cs!"choppers" c) →
        a cs!"choppers" = some (L.chopperList [L.pulseChopper, L.monoChopper])) ∧
      a cs!"sample" = some sample ∧ TakesOrFalse L tofParams args kwargs cs!"sample" L.tofSample sample ∧
      a cs!"detector" = some detector ∧ TakesOrFalse L tofParams args kwargs cs!"detector" L.detector detector ∧
      a cs!"guides" = some guides ∧
      a cs!"theta_i" = some theta ∧ Takes tofParams args kwargs cs!"theta_i" (L.num 0) theta ∧
      a cs!"phi_i" = some phi ∧ Takes tofParams args kwargs cs!"phi_i" (L.num 0) phi ∧
      a cs!"instrument_type" = some (L.text cs!"tof") ∧ a cs!"engine" = some (L.text cs!"neutronpy") ∧
      ∀ k v, k ∉ tofParams → (k, v) ∈ kwargs → a k = some v := by
  have x : Extended L kwargs _ cs!"tof" := extend (L := L) w.once (Or.inl ht) he
  set kw := setDefault (setDefault kwargs cs!"instrument_type" (L.text cs!"tas")) cs!"engine" (L.text cs!"neutronpy") with hkw
  have w' := extended_wellformed w x (by decide) (by decide)
  obtain ⟨g, e, hb⟩ := bind_ok w'
  have np : tofParams.Nodup := by decide
  have en : ∀ n ∈ tofParams, ∀ v, (n, v) ∉ kw.filter fun e => e.1 ∉ tofParams := by
    intro n hn v hv
    have := (List.mem_filter.1 hv).2
    simp only [decide_eq_true_eq] at this
    exact this hn
  have all : ∀ n v, n ∉ tofParams → (n, v) ∈ kw → (n, v) ∈ kw.filter fun e => e.1 ∉ tofParams := by
    intro n v hn hv
    exact List.mem_filter.2 ⟨hv, by simpa using hn⟩
  have nd := extra_nodup x.2.2.1 (fun e => decide (e.1 ∉ tofParams))
  have tk : ∀ n ∈ tofParams, ∀ d, Takes tofParams args kwargs n d ((g n).getD d) := fun n hn d =>
    extended_takes x (by rintro rfl; revert hn; decide) (by rintro rfl; revert hn; decide) (takes_getD (hb n hn) d)
  have tf : ∀ n ∈ tofParams, ∀ d, TakesOrFalse L tofParams args kwargs n d (orFalse L (g n) d) := fun n hn d =>
    extended_takesOrFalse x (by rintro rfl; revert hn; decide) (by rintro rfl; revert hn; decide) (takes_orFalse w' np (hb n hn) d)
  have back : ∀ n ∈ tofParams, ∀ v, Given tofParams args kwargs n v → g n = some v := by
    intro n hn v hv
    have hv' := (extended_given (params := tofParams) (args := args) x (n := n) (by rintro rfl; revert hn; decide)
      (by rintro rfl; revert hn; decide) v).2 hv
    cases k : g n with
    | none => exact absurd hv' ((hb n hn).2 k v)
    | some v2 => rw [given_unique w' np hv' ((hb n hn).1 v2 k)]
  have gg := back _ (by decide) _ hg
  have hc : ∃ a, create L args kwargs = .ok (.tof, a) ∧ initTof L
      ((Attrs.put (fun _ => none) cs!"instrument_type" (L.text cs!"tof")).put cs!"engine" (L.text cs!"neutronpy")) args kw = .ok a := by
    unfold create
    simp only [← hkw, x.2.2.2.1, x.2.2.2.2, Option.getD_some, if_true, if_neg different]
    unfold initTof
    rw [e]
    simp only [gg, Option.filter_some, true_guides, if_true]
    exact ⟨_, rfl, rfl⟩
  obtain ⟨a, h1, h2⟩ := hc
  unfold initTof at h2
  rw [e] at h2
  simp only [gg, Option.filter_some, true_guides, if_true] at h2
  injection h2 with h2
  refine ⟨a, (g cs!"ei").getD (L.num 3000), orFalse L (g cs!"sample") L.tofSample, orFalse L (g cs!"detector") L.detector,
    (g cs!"theta_i").getD (L.num 0), (g cs!"phi_i").getD (L.num 0), h1,
    ?_, tk _ (by decide) _, ?_, ?_, ?_, tf _ (by decide) _, ?_, tf _ (by decide) _, ?_, ?_, tk _ (by decide) _, ?_, tk _ (by decide) _, ?_, ?_, ?_⟩
  · rw [← h2, putAll_of_not_mem _ _ _ (en _ (by decide))]; rfl
  · intro c gc tc
    have := back _ (by decide) _ gc
    rw [← h2, putAll_of_not_mem _ _ _ (en _ (by decide)), this]
    simp only [tc, if_true]; rfl
  · intro no
    have : g cs!"choppers" = none := by
      cases k : g cs!"choppers" with
      | none => rfl
      | some v => exact absurd ((extended_given x (by decide) (by decide) v).1 ((hb _ (by decide)).1 v k)) (no v)
    rw [← h2, putAll_of_not_mem _ _ _ (en _ (by decide)), this]; rfl
  · rw [← h2, putAll_of_not_mem _ _ _ (en _ (by decide))]; rfl
  · rw [← h2, putAll_of_not_mem _ _ _ (en _ (by decide))]; rfl
  · rw [← h2, putAll_of_not_mem _ _ _ (en _ (by decide))]; rfl
  · rw [← h2, putAll_of_not_mem _ _ _ (en _ (by decide))]; rfl
  · rw [← h2, putAll_of_not_mem _ _ _ (en _ (by decide))]; rfl
  · rw [← h2]; exact putAll_of_mem _ _ nd _ _ (all _ _ (by decide) (lookup_some x.2.2.2.1))
  · rw [← h2]; exact putAll_of_mem _ _ nd _ _ (all _ _ (by decide) (lookup_some x.2.2.2.2))
  · intro k v hk hv
    rw [← h2]; exact putAll_of_mem _ _ nd _ _ (all _ _ hk (x.2.1 _ hv))

/-- **C170 is false** in full: for a type that does not exist, or an engine that does not, there is no exception; what is returned has
none of the settings, whatever is given. -/
theorem C170_unknown_false [DecidableEq V] (L : Lib V) (args : List V) (kwargs : List (Name × V)) (t e : V)
    (ht : kwargs.lookup cs!"instrument_type" = some t) (he : kwargs.lookup cs!"engine" = some e)
    (h : t ≠ L.text cs!"tas" ∧ t ≠ L.text cs!"tof" ∨ e ≠ L.text cs!"neutronpy" ∧ e ≠ L.text cs!"takin") :
    ∃ a, create L args kwargs = .ok (.bare, a) ∧ (∀ n, n ≠ cs!"instrument_type" → n ≠ cs!"engine" → a n = none) ∧
      ∀ full, calcResolution full (.bare, a) = .error .attributeError := by
  have k1 : (setDefault (setDefault kwargs cs!"instrument_type" (L.text cs!"tas")) cs!"engine" (L.text cs!"neutronpy")) = kwargs := by
    have : setDefault kwargs cs!"instrument_type" (L.text cs!"tas") = kwargs := by unfold setDefault; simp [ht]
    rw [this]; unfold setDefault; simp [he]
  refine ⟨(Attrs.put (fun _ => none) cs!"instrument_type" t).put cs!"engine" e, ?_, ?_, fun _ => rfl⟩
  · unfold create
    simp only [k1, ht, he, Option.getD_some]
    rcases h with ⟨h1, h2⟩ | ⟨h1, h2⟩
    · rw [if_neg h1, if_neg h2]
    · rw [if_neg h1, if_neg h2]
      split_ifs <;> rfl
  · intro n h1 h2
    simp [Attrs.put, Function.update_of_ne h2, Function.update_of_ne h1]

/-- **C170 is false** in full: the documented parameters `mono_tau` and `ana_tau` (instrument/tas_instrument.py 41-53) have no
effect on the crystals. -/
theorem C170_documented_false [DecidableEq V] (L : Lib V) (m n : V) :
    ∃ a, create L [] [(cs!"mono_tau", m), (cs!"ana_tau", n)] = .ok (.tas, a) ∧
      a cs!"mono" = some (L.monochromator (L.text cs!"PG(002)") (L.num 25000)) ∧
      a cs!"ana" = some (L.analyzer (L.text cs!"PG(002)") (L.num 25000)) := by
  have w : Wellformed tasParams [] [(cs!"mono_tau", m), (cs!"ana_tau", n)] :=
    ⟨Nat.zero_le _, show [cs!"mono_tau", cs!"ana_tau"].Nodup by decide, fun i n hi hl => by simp at hl⟩
  obtain ⟨a, efixed, sample, hcol, vcol, m', mm, n', nm, h, -, -, -, -, -, -, -, -, -, -, h1, t1, t2, h2, t3, t4, -⟩ :=
    C170_tas_partial L [] [(cs!"mono_tau", m), (cs!"ana_tau", n)] w (Or.inr rfl) (Or.inr rfl) (by
      intro k hk v hv
      simp only [List.mem_cons, Prod.mk.injEq, List.not_mem_nil, or_false] at hv
      rcases hv with ⟨rfl, -⟩ | ⟨rfl, -⟩ <;> revert hk <;> decide)
  have no : ∀ k ∈ tasParams, ∀ v, ¬ Given tasParams ([] : List V) [(cs!"mono_tau", m), (cs!"ana_tau", n)] k v := by
    rintro k hk v (⟨i, -, h⟩ | h)
    · simp at h
    · simp only [List.mem_cons, Prod.mk.injEq, List.not_mem_nil, or_false] at h
      rcases h with ⟨rfl, -⟩ | ⟨rfl, -⟩ <;> revert hk <;> decide
  have e1 : m' = L.text cs!"PG(002)" := t1.elim (fun h => absurd h (no _ (by decide) _)) And.right
  have e2 : mm = L.num 25000 := t2.elim (fun h => absurd h (no _ (by decide) _)) And.right
  have e3 : n' = L.text cs!"PG(002)" := t3.elim (fun h => absurd h (no _ (by decide) _)) And.right
  have e4 : nm = L.num 25000 := t4.elim (fun h => absurd h (no _ (by decide) _)) And.right
  subst e1 e2 e3 e4
  exact ⟨a, h, h1, h2⟩

/-- **C170 is false** in full: with the engine Takin `calc_resolution` calculates nothing, and a time-of-flight instrument has none
of the settings given. -/
theorem C170_takin_false [DecidableEq V] (L : Lib V) (args : List V) (ei : V)
    (h1 : L.text cs!"takin" ≠ L.text cs!"neutronpy") (h2 : L.text cs!"tof" ≠ L.text cs!"tas") :
    ∃ a, create L args [(cs!"instrument_type", L.text cs!"tof"), (cs!"engine", L.text cs!"takin"), (cs!"ei", ei)] = .ok (.takinTof, a) ∧
      a cs!"ei" = none ∧ a cs!"sample" = none ∧ ∀ full, calcResolution full (.takinTof, a) = .ok a := by
  refine ⟨(Attrs.put (fun _ => none) cs!"instrument_type" (L.text cs!"tof")).put cs!"engine" (L.text cs!"takin"), ?_, rfl, rfl, fun _ => rfl⟩
  unfold create
  have k : setDefault (setDefault [(cs!"instrument_type", L.text cs!"tof"), (cs!"engine", L.text cs!"takin"), (cs!"ei", ei)]
    cs!"instrument_type" (L.text cs!"tas")) cs!"engine" (L.text cs!"neutronpy") =
    [(cs!"instrument_type", L.text cs!"tof"), (cs!"engine", L.text cs!"takin"), (cs!"ei", ei)] := rfl
  have k1 : [(cs!"instrument_type", L.text cs!"tof"), (cs!"engine", L.text cs!"takin"), (cs!"ei", ei)].lookup cs!"instrument_type" = some (L.text cs!"tof") := rfl
  have k2 : [(cs!"instrument_type", L.text cs!"tof"), (cs!"engine", L.text cs!"takin"), (cs!"ei", ei)].lookup cs!"engine" = some (L.text cs!"takin") := rfl
  simp only [k, k1, k2, Option.getD_some, if_neg h1, if_neg h2, if_true]

/-- **C170 is false** in full: a time-of-flight instrument with one chopper and without guides cannot be made: the guides of the defaults
need two choppers. -/
theorem C170_chopper_false [DecidableEq V] (L : Lib V) (c : V) (hc : L.truthy c = true) (hl : L.choppers c = [c])
    (h2 : L.text cs!"tof" ≠ L.text cs!"tas") :
    create L [] [(cs!"instrument_type", L.text cs!"tof"), (cs!"choppers", c)] = .error .indexError := by
  unfold create
  have k : setDefault (setDefault [(cs!"instrument_type", L.text cs!"tof"), (cs!"choppers", c)]
    cs!"instrument_type" (L.text cs!"tas")) cs!"engine" (L.text cs!"neutronpy") =
    [(cs!"instrument_type", L.text cs!"tof"), (cs!"choppers", c), (cs!"engine", L.text cs!"neutronpy")] := rfl
  have k1 : [(cs!"instrument_type", L.text cs!"tof"), (cs!"choppers", c), (cs!"engine", L.text cs!"neutronpy")].lookup cs!"instrument_type" = some (L.text cs!"tof") := rfl
  have k2 : [(cs!"instrument_type", L.text cs!"tof"), (cs!"choppers", c), (cs!"engine", L.text cs!"neutronpy")].lookup cs!"engine" = some (L.text cs!"neutronpy") := rfl
  simp only [k, k1, k2, Option.getD_some, if_neg h2, if_true]
  unfold initTof
  have b : ∃ g r, bindArgs tofParams [] [(cs!"instrument_type", L.text cs!"tof"), (cs!"choppers", c), (cs!"engine", L.text cs!"neutronpy")] = .ok (g, r) ∧
      g cs!"choppers" = some c ∧ g cs!"guides" = none := ⟨_, _, rfl, rfl, rfl⟩
  obtain ⟨g, r, b, b1, b2⟩ := b
  rw [b]
  simp only [b1, b2, hc, hl, if_true]
  rfl

private theorem lookup_setDefault (kwargs : List (Name × V)) {m n : Name} (v : V) (hm : m ≠ n) :
    (setDefault kwargs n v).lookup m = kwargs.lookup m := by
  unfold setDefault
  split_ifs
  · rfl
  · rw [List.lookup_append]
    simp [List.lookup, beq_false_of_ne hm]

private theorem lookup_setDefault_self (kwargs : List (Name × V)) (n : Name) (v : V) :
    (setDefault kwargs n v).lookup n = some ((kwargs.lookup n).getD v) := by
  unfold setDefault
  cases h : kwargs.lookup n with
  | some w => simp [h]
  | none => simp [List.lookup_append, h, List.lookup]

private theorem bindArgs_refused {params : List Name} {args : List V} {kwargs : List (Name × V)}
    (h : params.length < args.length ∨ ∃ n ∈ params.take args.length, ∃ v, (n, v) ∈ kwargs) :
    bindArgs params args kwargs = .error .typeError := by
  unfold bindArgs
  split_ifs with h1 h2
  · rfl
  · rfl
  · exfalso
    rcases h with h | ⟨n, hn, v, hv⟩
    · exact h1 h
    · refine h2 (List.any_eq_true.2 ⟨n, hn, ?_⟩)
      cases hl : kwargs.lookup n with
      | some _ => rfl
      | none => exact absurd (List.lookup_eq_none_iff.1 hl _ hv) (by simp)

/-- **C170**: more values than there are parameters, or a parameter given both by place and by name, are refused: no instrument is
made. -/
theorem C170_refused [DecidableEq V] (L : Lib V) (args : List V) (kwargs : List (Name × V))
    (he : kwargs.lookup cs!"engine" = none ∨ kwargs.lookup cs!"engine" = some (L.text cs!"neutronpy")) :
    ((kwargs.lookup cs!"instrument_type" = none ∨ kwargs.lookup cs!"instrument_type" = some (L.text cs!"tas")) →
      (tasParams.length < args.length ∨ ∃ n ∈ tasParams.take args.length, ∃ v, (n, v) ∈ kwargs) →
      create L args kwargs = .error .typeError) ∧
    (kwargs.lookup cs!"instrument_type" = some (L.text cs!"tof") → L.text cs!"tof" ≠ L.text cs!"tas" →
      (tofParams.length < args.length ∨ ∃ n ∈ tofParams.take args.length, ∃ v, (n, v) ∈ kwargs) →
      create L args kwargs = .error .typeError) := by
  have more : ∀ n v, (n, v) ∈ kwargs →
      (n, v) ∈ setDefault (setDefault kwargs cs!"instrument_type" (L.text cs!"tas")) cs!"engine" (L.text cs!"neutronpy") := by
    intro n v h
    unfold setDefault
    split_ifs <;> simp [h]
  have e2 : (setDefault (setDefault kwargs cs!"instrument_type" (L.text cs!"tas")) cs!"engine" (L.text cs!"neutronpy")).lookup cs!"engine" =
      some (L.text cs!"neutronpy") := by
    rw [lookup_setDefault_self, lookup_setDefault _ _ (by decide)]
    rcases he with h | h <;> simp [h]
  have e1 : (setDefault (setDefault kwargs cs!"instrument_type" (L.text cs!"tas")) cs!"engine" (L.text cs!"neutronpy")).lookup cs!"instrument_type" =
      some ((kwargs.lookup cs!"instrument_type").getD (L.text cs!"tas")) := by
    rw [lookup_setDefault _ _ (by decide), lookup_setDefault_self]
  constructor
  · intro ht h
    have e3 : (kwargs.lookup cs!"instrument_type").getD (L.text cs!"tas") = L.text cs!"tas" := by
      rcases ht with h | h <;> simp [h]
    unfold create
    simp only [e1, e2, e3, Option.getD_some, if_true]
    unfold initTas
    rw [bindArgs_refused (h.imp id fun ⟨n, hn, v, hv⟩ => ⟨n, hn, v, more n v hv⟩)]
    rfl
  · intro ht hne h
    unfold create
    simp only [e1, e2, ht, Option.getD_some, if_true, if_neg hne]
    unfold initTof
    rw [bindArgs_refused (h.imp id fun ⟨n, hn, v, hv⟩ => ⟨n, hn, v, more n v hv⟩)]
    rfl

/-- Nine values are too many for a triple-axis instrument. -/
example [DecidableEq V] (L : Lib V) (x : V) : create L (List.replicate 9 x) [] = .error .typeError :=
  (C170_refused L _ _ (.inl rfl)).1 (.inl rfl) (.inl (by simp [tasParams]))

/-- An example of values: texts that describe the objects. -/
def described : Lib (List Char) where
  text := id
  num n := (toString n).toList
  numbers l := (toString l).toList
  isNone v := v == cs!"None"
  truthy v := v != cs!"None"
  array v := cs!"array " ++ v
  monochromator a b := cs!"mono " ++ a ++ b
  analyzer a b := cs!"ana " ++ a ++ b
  dummy := id
  sample := cs!"sample"
  tofSample := cs!"sample at 3600"
  u v := cs!"u of " ++ v
  v v := cs!"v of " ++ v
  energy v := cs!"energy " ++ v
  choppers c := [c]
  chopperList l := l.flatten
  pulseChopper := cs!"pulse"
  monoChopper := cs!"mono"
  detector := cs!"detector"
  guides a b c := cs!"guides " ++ a ++ b ++ c

/-- A time-of-flight instrument with an energy by place and guides by keyword. -/
example : Wellformed tofParams [cs!"5"] [(cs!"instrument_type", described.text cs!"tof"), (cs!"guides", cs!"two guides")] ∧
    Given tofParams [cs!"5"] [(cs!"instrument_type", described.text cs!"tof"), (cs!"guides", cs!"two guides")] cs!"guides" cs!"two guides" := by
  refine ⟨⟨by decide, by decide, ?_⟩, Or.inr (by decide)⟩
  intro i n hi hl v
  have : i = 0 := by simp at hl; omega
  subst this
  cases hi
  simp

/-- The hypotheses of the theorems above are met. -/
example : described.text cs!"takin" ≠ described.text cs!"neutronpy" ∧ described.text cs!"tof" ≠ described.text cs!"tas" ∧
    described.truthy cs!"a chopper" = true ∧ described.choppers cs!"a chopper" = [cs!"a chopper"] := by decide

/-- What is taken for a parameter given by its place. -/
lemma takes_place {params : List Name} {args : List V} {kwargs : List (Name × V)} {n : Name} {d x v : V} (w : Wellformed params args kwargs)
    (hp : params.Nodup) (i : Nat) (hi : params[i]? = some n) (hv : args[i]? = some v) (h : Takes params args kwargs n d x) : x = v := by
  have gv : Given params args kwargs n v := Or.inl ⟨i, hi, hv⟩
  rcases h with h | ⟨h, -⟩
  · exact given_unique w hp gv h
  · exact absurd gv (h v)

lemma takesOrNone_place {L : Lib V} {params : List Name} {args : List V} {kwargs : List (Name × V)} {n : Name} {d x v : V}
    (w : Wellformed params args kwargs) (hp : params.Nodup) (i : Nat) (hi : params[i]? = some n) (hv : args[i]? = some v)
    (nn : L.isNone v = false) (h : TakesOrNone L params args kwargs n d x) : x = v := by
  have gv : Given params args kwargs n v := Or.inl ⟨i, hi, hv⟩
  rcases h with ⟨h, -⟩ | ⟨-, h⟩
  · exact given_unique w hp gv h
  · rw [h v gv] at nn
    cases nn

lemma takesOrFalse_place {L : Lib V} {params : List Name} {args : List V} {kwargs : List (Name × V)} {n : Name} {d x v : V}
    (w : Wellformed params args kwargs) (hp : params.Nodup) (i : Nat) (hi : params[i]? = some n) (hv : args[i]? = some v)
    (nn : L.truthy v = true) (h : TakesOrFalse L params args kwargs n d x) : x = v := by
  have gv : Given params args kwargs n v := Or.inl ⟨i, hi, hv⟩
  rcases h with ⟨h, -⟩ | ⟨-, h⟩
  · exact given_unique w hp gv h
  · rw [h v gv] at nn
    cases nn

/-- **C170** (partial, as above).  The values given by place are, in this order, the fixed energy, the sample, the horizontal and vertical
collimations, monochromator and its mosaic, analyzer and its mosaic. -/
theorem C170_tas_places_partial [DecidableEq V] (L : Lib V) (efixed sample hcol vcol m mm n nm : V)
    (given : L.isNone sample = false ∧ L.isNone hcol = false ∧ L.isNone vcol = false) :
    ∃ a, create L [efixed, sample, hcol, vcol, m, mm, n, nm] [] = .ok (.tas, a) ∧
      a cs!"efixed" = some efixed ∧ a cs!"sample" = some sample ∧ a cs!"hcol" = some (L.array hcol) ∧ a cs!"vcol" = some (L.array vcol) ∧
      a cs!"mono" = some (L.monochromator m mm) ∧ a cs!"ana" = some (L.analyzer n nm) := by
  have w : Wellformed tasParams [efixed, sample, hcol, vcol, m, mm, n, nm] [] := ⟨by simp [tasParams], by simp, by simp⟩
  have np : tasParams.Nodup := by decide
  obtain ⟨a, efixed', sample', hcol', vcol', m', mm', n', nm', h, h1, t1, h2, t2, -, -, h3, t3, h4, t4, h5, t5, t6, h7, t7, t8, -⟩ :=
    C170_tas_partial L _ _ w (Or.inr rfl) (Or.inr rfl) (by simp)
  obtain rfl := takes_place w np 0 (by decide) rfl t1
  obtain rfl := takesOrNone_place w np 1 (by decide) rfl given.1 t2
  obtain rfl := takesOrNone_place w np 2 (by decide) rfl given.2.1 t3
  obtain rfl := takesOrNone_place w np 3 (by decide) rfl given.2.2 t4
  obtain rfl := takes_place w np 4 (by decide) rfl t5
  obtain rfl := takes_place w np 5 (by decide) rfl t6
  obtain rfl := takes_place w np 6 (by decide) rfl t7
  obtain rfl := takes_place w np 7 (by decide) rfl t8
  exact ⟨a, h, h1, h2, h3, h4, h5, h7⟩

/-- **C170** (partial, as above).  For a time-of-flight instrument they are the incident energy, the choppers, the sample, the detector, the
guides and the two angles of the beam. -/
theorem C170_tof_places_partial [DecidableEq V] (L : Lib V) (ei choppers sample detector guides theta phi : V)
    (different : L.text cs!"tof" ≠ L.text cs!"tas")
    (given : L.truthy choppers = true ∧ L.truthy sample = true ∧ L.truthy detector = true ∧ L.truthy guides = true) :
    ∃ a, create L [ei, choppers, sample, detector, guides, theta, phi] [(cs!"instrument_type", L.text cs!"tof")] = .ok (.tof, a) ∧
      a cs!"ei" = some (L.energy ei) ∧ a cs!"choppers" = some (L.chopperList (L.choppers choppers)) ∧ a cs!"sample" = some sample ∧
      a cs!"detector" = some detector ∧ a cs!"guides" = some guides ∧ a cs!"theta_i" = some theta ∧ a cs!"phi_i" = some phi := by
  have w : Wellformed tofParams [ei, choppers, sample, detector, guides, theta, phi] [(cs!"instrument_type", L.text cs!"tof")] := by
    refine ⟨by simp [tofParams], by simp, fun i n hi _ v hv => ?_⟩
    rw [List.mem_singleton] at hv
    cases hv
    have : cs!"instrument_type" ∈ tofParams := List.mem_of_getElem? hi
    revert this
    decide
  have np : tofParams.Nodup := by decide
  obtain ⟨a, ei', sample', detector', theta', phi', h, h1, t1, h2, -, h3, t3, h4, t4, h5, h6, t6, h7, t7, -⟩ :=
    C170_tof_partial L _ _ w different rfl (Or.inr rfl) guides (Or.inl ⟨4, by decide, rfl⟩) given.2.2.2
  obtain rfl := takes_place w np 0 (by decide) rfl t1
  obtain rfl := takesOrFalse_place w np 2 (by decide) rfl given.2.1 t3
  obtain rfl := takesOrFalse_place w np 3 (by decide) rfl given.2.2.1 t4
  obtain rfl := takes_place w np 5 (by decide) rfl t6
  obtain rfl := takes_place w np 6 (by decide) rfl t7
  exact ⟨a, h, h1, h2 _ (Or.inl ⟨1, by decide, rfl⟩) given.1, h3, h4, h5, h6, h7⟩

example : described.isNone cs!"a sample" = false ∧ described.truthy cs!"a sample" = true := by decide

end Verif.Instrument.Create
