import Verif.FileIO.InstrH5
import Verif.FileIO.InstrWhole

/-!
# C180: HDF5 instrument files
-/

namespace Verif.FileIO

variable {N : Type}

/-! ### Specification -/

/-- An attribute that HDF5 can keep: not `None`. -/
def Storable (v : Value N) : Prop := v ≠ .none

/-- A value that is not a text. -/
def NotText (v : Value N) : Prop := ∀ s, v ≠ .text s

/-- The instrument is written to the file and loaded with the same value of every saved attribute. -/
def RoundTripsH5 (accepts : Value N → Bool) (start o : Obj N) (ow : Bool) (old : Option (Option (H5 N))) : Prop :=
  ∃ f s, saveH5 ow old o = .ok f ∧ loadH5 accepts start f = .ok s ∧
    ∀ n ∈ savedNames, ∀ v, o.get n.1 n.2 = some v → ∃ w, s.get n.1 n.2 = some w ∧ SameValue v w

/-! ### Lemmas -/

private theorem toH5_ok {v : Value N} (h : Storable v) : ∃ w, toH5 v = .ok w := by
  cases v with
  | none => exact absurd rfl h
  | _ => exact ⟨_, rfl⟩

private theorem entries_ok {o : Obj N} : ∀ {L : List (Text × Text)},
    (∀ n ∈ L, ∀ v, o.get n.1 n.2 = some v → Storable v) →
    ∃ r, h5Entries o L = .ok r ∧ (L.Nodup → (r.map (·.1)).Nodup) ∧
      ∀ n h, (n, h) ∈ r ↔ n ∈ L ∧ ∃ v, o.get n.1 n.2 = some v ∧ toH5 v = .ok h
  | [], _ => ⟨[], rfl, fun _ => List.nodup_nil, by simp⟩
  | m :: L, hst => by
    obtain ⟨r, hr, hnd, hmem⟩ := entries_ok (L := L) fun n hn => hst n (List.mem_cons_of_mem _ hn)
    cases hv : o.get m.1 m.2 with
    | none =>
      refine ⟨r, by simp only [h5Entries, hv, hr], fun h => hnd (List.nodup_cons.mp h).2, fun n h => ?_⟩
      rw [hmem]
      constructor
      · rintro ⟨h1, h2⟩; exact ⟨List.mem_cons_of_mem _ h1, h2⟩
      · rintro ⟨h1, v, h2, h3⟩
        rcases List.mem_cons.mp h1 with rfl | h1
        · rw [hv] at h2; cases h2
        · exact ⟨h1, v, h2, h3⟩
    | some v =>
      obtain ⟨w, hw⟩ := toH5_ok (hst m List.mem_cons_self v hv)
      refine ⟨(m, w) :: r, by simp only [h5Entries, hv, hw, hr, ok_bind]; rfl, fun h => ?_, fun n h => ?_⟩
      · rw [List.nodup_cons] at h
        rw [List.map_cons, List.nodup_cons]
        refine ⟨fun hm => h.1 ?_, hnd h.2⟩
        obtain ⟨⟨n, x⟩, hx, rfl⟩ := List.mem_map.mp hm
        exact ((hmem _ _).mp hx).1
      · rw [List.mem_cons, hmem]
        constructor
        · rintro (he | ⟨h1, h2⟩)
          · cases he; exact ⟨List.mem_cons_self, v, hv, hw⟩
          · exact ⟨List.mem_cons_of_mem _ h1, h2⟩
        · rintro ⟨h1, x, h2, h3⟩
          rcases List.mem_cons.mp h1 with rfl | h1
          · rw [hv] at h2; cases h2; rw [hw] at h3; cases h3; exact .inl rfl
          · exact .inr ⟨h1, x, h2, h3⟩

private theorem assignSeq_ok {accepts : Value N → Bool} : ∀ {L : List ((Text × Text) × Value N)} (start : Obj N),
    (L.map (·.1)).Nodup → (∀ e ∈ L, e.1 ∈ savedNames) →
    (∀ e ∈ L, e.1.1 ≠ [] → (start.parts e.1.1).isSome) →
    (∀ e ∈ L, e.1.2 = cs!"tau" → accepts e.2 = true) →
    ∃ s, assignSeq accepts start L = .ok s ∧
      (∀ e ∈ L, s.get e.1.1 e.1.2 = some (stored e.1.1 e.1.2 e.2)) ∧
      ∀ n, n ∉ L.map (·.1) → s.get n.1 n.2 = start.get n.1 n.2
  | [], start, _, _, _, _ => ⟨start, rfl, by simp, fun _ _ => rfl⟩
  | (m, v) :: L, start, hnd, hsub, hp, ht => by
    rw [List.map_cons, List.nodup_cons] at hnd
    obtain ⟨o', ho', hpres, hget⟩ := assign_saved (accepts := accepts) (o := start) (n := m) (w := v)
      (hsub (m, v) List.mem_cons_self) (hp (m, v) List.mem_cons_self) (ht (m, v) List.mem_cons_self)
    obtain ⟨s, hs, h1, h2⟩ := assignSeq_ok o' hnd.2 (fun e he => hsub e (List.mem_cons_of_mem _ he))
      (fun e he hne => by rw [hpres]; exact hp e (List.mem_cons_of_mem _ he) hne)
      (fun e he => ht e (List.mem_cons_of_mem _ he))
    refine ⟨s, ?_, fun e he => ?_, fun n hn => ?_⟩
    · have hpath : (if m.1.isEmpty then [m.2] else [m.1, m.2]) = pathOf m.1 m.2 := by
        unfold pathOf
        cases m.1 <;> simp
      simp only [assignSeq, hpath, ho', ok_bind, hs]
    · rcases List.mem_cons.mp he with rfl | he
      · rw [h2 _ hnd.1, hget, if_pos rfl]
      · exact h1 e he
    · rw [List.map_cons, List.mem_cons, not_or] at hn
      rw [h2 n hn.2, hget, if_neg hn.1]

private theorem groups_covered : ∀ n ∈ savedNames, n.1 ≠ [] → n.1 ∈ groupOrder := by decide +kernel

private theorem groupOrder_nodup : groupOrder.Nodup := by decide +kernel

private theorem groupOrder_ne : ∀ g ∈ groupOrder, g ≠ [] := by decide +kernel

private theorem contents_ok {o : Obj N} (hst : ∀ n ∈ savedNames, ∀ v, o.get n.1 n.2 = some v → Storable v)
    (hown : ∃ n ∈ savedNames, n.1 = [] ∧ (o.get n.1 n.2).isSome) :
    ∃ f, h5Contents o = .ok f ∧
      ((h5Assignments f).map (·.1)).Nodup ∧
      ∀ n w, (n, w) ∈ h5Assignments f ↔ n ∈ savedNames ∧ ∃ v h, o.get n.1 n.2 = some v ∧ toH5 v = .ok h ∧
        w = if n.1 = [] then ownValue h else partValue h := by
  obtain ⟨r, hr, hrn, hrm⟩ := entries_ok (o := o) (L := savedNames.filter fun n => n.1.isEmpty)
    fun n hn => hst n (List.mem_of_mem_filter hn)
  obtain ⟨q, hq, hqn, hqm⟩ := entries_ok (o := o) (L := savedNames.filter fun n => !n.1.isEmpty)
    fun n hn => hst n (List.mem_of_mem_filter hn)
  have hrn := hrn (names_nodup.filter _)
  have hqn := hqn (names_nodup.filter _)
  have hne : r.isEmpty = false := by
    obtain ⟨n, hn, hn1, hv⟩ := hown
    obtain ⟨v, hv⟩ := Option.isSome_iff_exists.mp hv
    obtain ⟨w, hw⟩ := toH5_ok (hst n hn v hv)
    have := (hrm n w).mpr ⟨List.mem_filter.mpr ⟨hn, by simp [hn1]⟩, v, hv, hw⟩
    cases r with
    | nil => cases this
    | cons => rfl
  refine ⟨⟨r, q⟩, ?_, ?_, ?_⟩
  · simp only [h5Contents, hr, ok_bind, hne, hq]; rfl
  · simp only [h5Assignments, List.map_append, List.map_map, List.map_flatMap]
    rw [List.nodup_append]
    refine ⟨hrn, ?_, ?_⟩
    · rw [List.nodup_flatMap]
      constructor
      · intro g _
        rw [show ((fun x : (Text × Text) × Value N => x.1) ∘ fun e : (Text × Text) × HVal N => (e.1, partValue e.2))
          = (·.1) from rfl]
        exact hqn.sublist (List.filter_sublist.map _)
      · refine groupOrder_nodup.imp fun {g g'} hgg => ?_
        intro n h1 h2
        simp only [List.mem_map, List.mem_filter, decide_eq_true_eq, Function.comp] at h1 h2
        obtain ⟨e, ⟨-, h1⟩, rfl⟩ := h1
        obtain ⟨e', ⟨-, h2⟩, h3⟩ := h2
        exact hgg (h1 ▸ h3 ▸ h2)
    · intro n h1 n' h2 hnn
      subst hnn
      obtain ⟨e, he, rfl⟩ := List.mem_map.mp h1
      have he1 := ((hrm e.1 e.2).mp he).1
      have : e.1.1 = [] := by simpa using (List.mem_filter.mp he1).2
      obtain ⟨g, hg, h2⟩ := List.mem_flatMap.mp h2
      simp only [List.mem_map, List.mem_filter, decide_eq_true_eq, Function.comp] at h2
      obtain ⟨e', ⟨-, h3⟩, h4⟩ := h2
      exact groupOrder_ne g hg (h3 ▸ h4 ▸ this)
  · intro n w
    simp only [h5Assignments, List.mem_append, List.mem_map, List.mem_flatMap, List.mem_filter, decide_eq_true_eq]
    constructor
    · rintro (⟨e, he, h⟩ | ⟨g, hg, e, ⟨he, h1⟩, h⟩)
      · cases h
        obtain ⟨h1, v, h2, h3⟩ := (hrm e.1 e.2).mp he
        have hn : e.1.1 = [] := by simpa using (List.mem_filter.mp h1).2
        exact ⟨List.mem_of_mem_filter h1, v, e.2, h2, h3, by rw [if_pos hn]⟩
      · cases h
        obtain ⟨h2, v, h3, h4⟩ := (hqm e.1 e.2).mp he
        exact ⟨List.mem_of_mem_filter h2, v, e.2, h3, h4, by rw [if_neg (h1 ▸ groupOrder_ne g hg)]⟩
    · rintro ⟨hn, v, h, hv, hh, hw⟩
      by_cases h0 : n.1 = []
      · rw [if_pos h0] at hw
        exact .inl ⟨(n, h), (hrm n h).mpr ⟨List.mem_filter.mpr ⟨hn, by simp [h0]⟩, v, hv, hh⟩, by rw [hw]⟩
      · rw [if_neg h0] at hw
        exact .inr ⟨n.1, groups_covered n hn h0, (n, h),
          ⟨(hqm n h).mpr ⟨List.mem_filter.mpr ⟨hn, by simp [h0]⟩, v, hv, hh⟩, rfl⟩, by rw [hw]⟩

private theorem same_part {v : Value N} {h : HVal N} (hh : toH5 v = .ok h) (g a : Text) :
    SameValue v (stored g a (partValue h)) := by
  cases v <;> cases hh <;> unfold stored <;> split <;> constructor

private theorem same_own {v : Value N} {h : HVal N} (hh : toH5 v = .ok h) (hn : NotText v) (a : Text) :
    SameValue v (stored [] a (ownValue h)) := by
  cases v with
  | text s => exact absurd rfl (hn s)
  | _ => cases hh <;> constructor

/-! ### C180 -/

/-- **C180 (partial).** An instrument with some attribute of its own, whose saved attributes are not `None`, those of its own no texts, and whose reflections are known ones, is written to a new file or, with `overwrite`, over any file, and is loaded from it with the same value of every saved attribute — padded vectors and lists included; an attribute that it does not have or that is not saved is that of `Instrument()`. -/
theorem C180_roundtrip_partial {accepts : Value N → Bool} {start o : Obj N} {ow : Bool}
    {old : Option (Option (H5 N))} (hold : ow = true ∨ ∀ f, old ≠ some (some f))
    (hown : ∃ n ∈ savedNames, n.1 = [] ∧ (o.get n.1 n.2).isSome)
    (hst : ∀ n ∈ savedNames, ∀ v, o.get n.1 n.2 = some v → Storable v)
    (htext : ∀ n ∈ savedNames, n.1 = [] → ∀ v, o.get n.1 n.2 = some v → NotText v)
    (htau : ∀ n ∈ savedNames, n.2 = cs!"tau" → ∀ v w, o.get n.1 n.2 = some v → SameValue v w →
      accepts w = true)
    (hparts : ∀ n ∈ savedNames, n.1 ≠ [] → (o.get n.1 n.2).isSome → (start.parts n.1).isSome) :
    RoundTripsH5 accepts start o ow old ∧
      ∀ f s, saveH5 ow old o = .ok f → loadH5 accepts start f = .ok s →
        ∀ n, n ∉ savedNames ∨ o.get n.1 n.2 = none → s.get n.1 n.2 = start.get n.1 n.2 := by
  obtain ⟨f, hf, hnd, hmem⟩ := contents_ok hst hown
  have hsave : saveH5 ow old o = .ok (some f) := by
    unfold saveH5
    split
    · rename_i g
      rcases hold with h | h
      · cases h
      · exact absurd rfl (h g)
    · rw [hf, ok_bind]; rfl
  have htau0 : ∀ n ∈ savedNames, n.2 = cs!"tau" → n.1 ≠ [] := by decide +kernel
  obtain ⟨s, hs, h1, h2⟩ := assignSeq_ok (accepts := accepts) start hnd
    (fun e he => ((hmem e.1 e.2).mp he).1)
    (fun e he hne => by
      obtain ⟨hn, v, h, hv, -⟩ := (hmem e.1 e.2).mp he
      exact hparts e.1 hn hne (by rw [hv]; rfl))
    (fun e he ht => by
      obtain ⟨hn, v, h, hv, hh, hw⟩ := (hmem e.1 e.2).mp he
      have hne := htau0 e.1 hn ht
      rw [if_neg hne] at hw
      refine htau e.1 hn ht v e.2 hv ?_
      have := same_part hh (cs!"mono") (cs!"tau")
      rw [hw]
      exact this)
  refine ⟨⟨some f, s, hsave, hs, fun n hn v hv => ?_⟩, ?_⟩
  · obtain ⟨h, hh⟩ := toH5_ok (hst n hn v hv)
    by_cases h0 : n.1 = []
    · have hm := (hmem n (ownValue h)).mpr ⟨hn, v, h, hv, hh, by rw [if_pos h0]⟩
      exact ⟨_, h1 _ hm, by rw [h0]; exact same_own hh (htext n hn h0 v hv) _⟩
    · have hm := (hmem n (partValue h)).mpr ⟨hn, v, h, hv, hh, by rw [if_neg h0]⟩
      exact ⟨_, h1 _ hm, same_part hh _ _⟩
  · intro f' s' hf' hs' n hn
    rw [hsave] at hf'; cases hf'
    have : s = s' := Except.ok.inj (hs.symm.trans hs')
    subst this
    refine h2 n fun hm => ?_
    obtain ⟨e, he, rfl⟩ := List.mem_map.mp hm
    obtain ⟨h0, v, h, hv', -⟩ := (hmem e.1 e.2).mp he
    rcases hn with hn | hn
    · exact hn h0
    · rw [hn] at hv'; cases hv'

/-- The instrument with orientation `[1, -1, 0]` and collimations of different lengths, which cannot be loaded from an ASCII file, meets the hypotheses. -/
example : RoundTripsH5 (fun _ => true) (plainInstrument [40, 40, 40, 40] [1, 0, 0])
    (plainInstrument [40, 40, 120, 120] [1, -1, 0]) false none := by
  have hg : ∀ n ∈ savedNames, ∀ v, (plainInstrument [40, 40, 120, 120] [1, -1, 0]).get n.1 n.2 = some v →
      Storable v ∧ (n.1 = [] → NotText v) := by
    have : ∀ n ∈ savedNames, ((plainInstrument [40, 40, 120, 120] [1, -1, 0]).get n.1 n.2).elim true (fun v =>
        match v with
        | .none => false
        | .text _ => !n.1.isEmpty
        | _ => true) = true := by decide +kernel
    intro n hn v hv
    have h := this n hn
    rw [hv] at h
    cases v with
    | none => cases h
    | text s =>
      refine ⟨nofun, fun h0 => ?_⟩
      rw [h0] at h; cases h
    | _ => exact ⟨nofun, fun _ => nofun⟩
  exact (C180_roundtrip_partial (.inr fun _ => by simp) ⟨([], cs!"efixed"), by decide +kernel, rfl, by decide +kernel⟩
    (fun n hn v hv => (hg n hn v hv).1) (fun n hn h0 v hv => (hg n hn v hv).2 h0) (fun _ _ _ _ _ _ _ => rfl)
    (plainInstrument_parts _ _ _ _)).1

/-- **C180 (counterexample).** A text among the attributes of the instrument itself is saved, but loaded as bytes: the instrument that is loaded has another value, for every text. -/
theorem C180_text_false {accepts : Value N → Bool} {start o : Obj N} {ow : Bool}
    {old : Option (Option (H5 N))} (hold : ow = true ∨ ∀ f, old ≠ some (some f))
    (hst : ∀ n ∈ savedNames, ∀ v, o.get n.1 n.2 = some v → Storable v)
    (htau : ∀ n ∈ savedNames, n.2 = cs!"tau" → ∀ v w, o.get n.1 n.2 = some v → SameValue v w →
      accepts w = true)
    (hparts : ∀ n ∈ savedNames, n.1 ≠ [] → (o.get n.1 n.2).isSome → (start.parts n.1).isSome)
    {a t : Text} (ha : ([], a) ∈ savedNames) (hv : o.get [] a = some (.text t)) :
    ∃ f s w, saveH5 ow old o = .ok f ∧ loadH5 accepts start f = .ok s ∧ s.get [] a = some w ∧ ¬ SameValue (.text t) w := by
  obtain ⟨f, hf, hnd, hmem⟩ := contents_ok hst ⟨_, ha, rfl, by rw [hv]; rfl⟩
  have hsave : saveH5 ow old o = .ok (some f) := by
    unfold saveH5
    split
    · rename_i g
      rcases hold with h | h
      · cases h
      · exact absurd rfl (h g)
    · rw [hf, ok_bind]; rfl
  have htau0 : ∀ n ∈ savedNames, n.2 = cs!"tau" → n.1 ≠ [] := by decide +kernel
  obtain ⟨s, hs, h1, -⟩ := assignSeq_ok (accepts := accepts) start hnd
    (fun e he => ((hmem e.1 e.2).mp he).1)
    (fun e he hne => by
      obtain ⟨hn, v, h, hv, -⟩ := (hmem e.1 e.2).mp he
      exact hparts e.1 hn hne (by rw [hv]; rfl))
    (fun e he ht => by
      obtain ⟨hn, v, h, hv, hh, hw⟩ := (hmem e.1 e.2).mp he
      rw [if_neg (htau0 e.1 hn ht)] at hw
      exact htau e.1 hn ht v e.2 hv (hw ▸ same_part hh (cs!"mono") (cs!"tau")))
  refine ⟨_, s, _, hsave, hs, h1 (([], a), _) ((hmem _ _).mpr ⟨ha, _, _, hv, rfl, rfl⟩), fun h => ?_⟩
  have hst' : stored [] a (ownValue (.bytes t) : Value N) = .text (cs!"b'" ++ t ++ ['\'']) := rfl
  rw [if_pos rfl, hst'] at h
  generalize hx : (Value.text (cs!"b'" ++ t ++ ['\'']) : Value N) = x at h
  cases h
  have := congrArg List.length (Value.text.inj hx)
  simp at this
  omega

example : ∃ f s w, saveH5 false none (⟨fun b => if b = cs!"method" then some (.text cs!"popovici") else none, fun _ => none⟩ : Obj Int) = .ok f ∧
    loadH5 (fun _ => true) (plainInstrument [40, 40, 40, 40] [1, 0, 0]) f = .ok s ∧ s.get [] cs!"method" = some w ∧
    ¬ SameValue (.text cs!"popovici") w := by
  refine C180_text_false (.inr fun _ => by simp) (fun n _ v hv => ?_) (fun _ _ _ _ _ _ _ => rfl) (fun n _ h0 hv => ?_) (by decide +kernel) rfl
  · simp only [Obj.get] at hv
    intro h
    subst h
    split_ifs at hv <;> simp at hv
  · simp [Obj.get, h0] at hv

/-- **C180 (counterexample).** Without `overwrite` an instrument cannot be saved to a file that has one: `ValueError`, whatever the instruments. -/
theorem C180_existing_false (o : Obj N) (f : H5 N) : saveH5 false (some (some f)) o = .error .valueError := rfl

private theorem entries_none {o : Obj N} : ∀ {L : List (Text × Text)},
    (∃ n ∈ L, o.get n.1 n.2 = some .none) → h5Entries o L = .error .typeError
  | [], h => by simp at h
  | m :: L, ⟨n, hn, hv⟩ => by
    unfold h5Entries
    rcases List.mem_cons.mp hn with rfl | hn
    · rw [hv]; rfl
    · have := entries_none ⟨n, hn, hv⟩
      cases hm : o.get m.1 m.2 with
      | none => exact this
      | some v =>
        cases v with
        | none => rfl
        | _ => simp only [toH5, ok_bind, this]; rfl

/-- **C180 (counterexample).** An instrument that has `None` for one of the attributes of its parts that are saved — as a vertical mosaic that is set to nothing — cannot be saved: `TypeError`. (In an ASCII file it is the text `None`.) -/
theorem C180_none_false {o : Obj N} {n : Text × Text} (hn : n ∈ savedNames) (hv : o.get n.1 n.2 = some .none) {ow : Bool}
    {old : Option (Option (H5 N))} (hold : ow = true ∨ ∀ f, old ≠ some (some f))
    (hown : ∃ n ∈ savedNames, n.1 = [] ∧ (o.get n.1 n.2).isSome)
    (hst : ∀ n ∈ savedNames, n.1 = [] → ∀ v, o.get n.1 n.2 = some v → Storable v) :
    saveH5 ow old o = .error .typeError := by
  have h0 : n.1 ≠ [] := fun h => hst n hn h _ hv rfl
  obtain ⟨r, hr, -, hrm⟩ := entries_ok (o := o) (L := savedNames.filter fun n => n.1.isEmpty)
    fun n hn => hst n (List.mem_of_mem_filter hn) (by simpa using (List.mem_filter.mp hn).2)
  have hne : r.isEmpty = false := by
    obtain ⟨n, hn, hn1, hv⟩ := hown
    obtain ⟨v, hv⟩ := Option.isSome_iff_exists.mp hv
    obtain ⟨w, hw⟩ := toH5_ok (hst n hn hn1 v hv)
    have := (hrm n w).mpr ⟨List.mem_filter.mpr ⟨hn, by simp [hn1]⟩, v, hv, hw⟩
    cases r with
    | nil => cases this
    | cons => rfl
  have key : h5Contents o = .error .typeError := by
    unfold h5Contents
    rw [hr, ok_bind, hne, entries_none ⟨n, List.mem_filter.mpr ⟨hn, by simp [h0]⟩, hv⟩]; rfl
  unfold saveH5
  split
  · rename_i g
    rcases hold with h | h
    · cases h
    · exact absurd rfl (h g)
  · rw [key]; rfl

/-- An instrument of two attributes, a fixed energy and one of a part. -/
private def small (g a : Text) (v : Value Int) : Obj Int where
  own := fun b => if b = cs!"efixed" then some (.num 14) else none
  parts := fun h => if h = g then some fun b => if b = a then some v else none else none

example : saveH5 true none (small cs!"mono" cs!"vmosaic" .none) = .error .typeError := by
  refine C180_none_false (n := (cs!"mono", cs!"vmosaic")) (by decide +kernel) (by decide +kernel) (.inl rfl)
    ⟨([], cs!"efixed"), by decide +kernel, rfl, by decide +kernel⟩ fun n _ h0 v hv => ?_
  simp only [Obj.get, if_pos h0, small] at hv
  split_ifs at hv
  cases hv
  exact nofun

private theorem seq_part {accepts : Value N → Bool} : ∀ {L : List ((Text × Text) × Value N)} {o s : Obj N},
    assignSeq accepts o L = .ok s → ∀ e ∈ L, e.1.1 ≠ [] → (o.parts e.1.1).isSome
  | [], _, _, _, _, he, _ => by cases he
  | (m, v) :: L, o, s, h, e, he, hne => by
    simp only [assignSeq, bind_eq_ok] at h
    obtain ⟨o', ho', h⟩ := h
    rcases List.mem_cons.mp he with rfl | he
    · rw [if_neg (by simpa using hne)] at ho'
      exact assignPart_part ho'
    · have := seq_part h e he hne
      have hpres : (o'.parts e.1.1).isSome = (o.parts e.1.1).isSome := by
        split at ho'
        · simp only [assign] at ho'
          split_ifs at ho'
          · exact assignPart_parts ho' _
          · exact assignPart_parts ho' _
          · obtain rfl := Except.ok.inj ho'; rfl
        · exact assignPart_parts ho' _
      rwa [hpres] at this

/-- **C180 (counterexample).** An instrument with a part that `Instrument()` does not have (`Smooth`) can be saved but not loaded. -/
theorem C180_smooth_false {accepts : Value N → Bool} {start o : Obj N} (hs : start.parts cs!"Smooth" = none)
    {a : Text} (ha : (cs!"Smooth", a) ∈ savedNames) (hv : (o.get cs!"Smooth" a).isSome)
    (hown : ∃ n ∈ savedNames, n.1 = [] ∧ (o.get n.1 n.2).isSome)
    (hst : ∀ n ∈ savedNames, ∀ v, o.get n.1 n.2 = some v → Storable v) :
    ∃ f, saveH5 true none o = .ok f ∧ ∀ s, loadH5 accepts start f ≠ .ok s := by
  obtain ⟨f, hf, -, hmem⟩ := contents_ok hst hown
  refine ⟨some f, by simp only [saveH5, hf, ok_bind]; rfl, fun s h => ?_⟩
  obtain ⟨v, hv⟩ := Option.isSome_iff_exists.mp hv
  obtain ⟨w, hw⟩ := toH5_ok (hst _ ha v hv)
  have := seq_part h _ ((hmem (cs!"Smooth", a) _).mpr ⟨ha, v, w, hv, hw, rfl⟩) (by simp)
  rw [hs] at this
  cases this

example (accepts : Value Int → Bool) : ∃ f, saveH5 true none (small cs!"Smooth" cs!"X" (.num 3)) = .ok f ∧
    ∀ s, loadH5 accepts (plainInstrument [40, 40, 40, 40] [1, 0, 0]) f ≠ .ok s := by
  refine C180_smooth_false (a := cs!"X") (by decide +kernel) (by decide +kernel) (by decide +kernel)
    ⟨([], cs!"efixed"), by decide +kernel, rfl, by decide +kernel⟩ fun n _ v hv => ?_
  simp only [Obj.get, small] at hv
  intro h
  subst h
  split_ifs at hv <;> simp at hv

/-- **C180 (counterexample).** A time-of-flight instrument is saved in no format: what was in the file, or that there is none, does not change, and nothing is reported. Loading from a file that had no instrument then raises `KeyError`. -/
theorem C180_tof_false {format : InstrFormat} (h : format ≠ .other) (old : Option (Option (H5 N))) :
    saveTof format old = .ok old ∧ saveTof .other old = .error .valueError ∧
      ∀ (accepts : Value N → Bool) (start : Obj N) f, saveTof format (some none) = .ok (some f) → loadH5 accepts start f = .error .keyError := by
  have e : ∀ F (o : Option F), saveTof format o = .ok o := by
    intro F o; cases format <;> first | rfl | exact absurd rfl h
  refine ⟨e _ _, rfl, fun accepts start f hf => ?_⟩
  rw [e] at hf
  cases hf
  rfl

end Verif.FileIO
