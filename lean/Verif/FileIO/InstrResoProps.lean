import Verif.FileIO.InstrReso
import Verif.FileIO.InstrH5Props
import Verif.Resolution.PropsFocus
import Verif.Resolution.PropsCylinder

/-!
# C194: the resolution of a saved and loaded instrument
-/

namespace Verif.FileIO

open Verif.Resolution

variable {N : Type}

/-! ### Specification -/

/-- The settings without what the files do not have: the flag of the focusing analyzer, the size of the monitor and the
kind of the shape of the sample are those of `Instrument()`. -/
def Forgetful (S : Settings) : Settings :=
  { S with horifoc := none, monitor := ⟨none, none⟩,
           sample := { S.sample with shapeType := some cs!"rectangular" } }

/-- The instrument `start` is one that `Instrument()` makes (instrument/tas_instrument.py 96-123): it has no flag of a
focusing analyzer, a monitor without size and a rectangular sample, and nothing that `o` does not have, which was made
the same way. -/
structure Fresh (start o : Obj N) : Prop where
  horifoc : start.get [] cs!"horifoc" = none
  width : start.get cs!"monitor" cs!"width" = none
  height : start.get cs!"monitor" cs!"height" = none
  shape : start.get cs!"sample" cs!"shape_type" = some (.text cs!"rectangular")
  rest : ∀ g a, (start.get g a).isSome → (o.get g a).isSome

/-! ### Lemmas -/

private def SameAttr (x y : Option (Value N)) : Prop :=
  (x = none ∧ y = none) ∨ ∃ v w, x = some v ∧ y = some w ∧ SameValue v w

private theorem need_congr {α : Type} {o s : Obj N} {f : Value N → Option α} (hf : ∀ v w, SameValue v w → f w = f v)
    {g a : Text} (h : SameAttr (o.get g a) (s.get g a)) : s.need f g a = o.need f g a := by
  rcases h with ⟨h1, h2⟩ | ⟨v, w, h1, h2, h⟩
  · simp [Obj.need, h1, h2]
  · simp [Obj.need, h1, h2, hf v w h]

private theorem maybe_congr {α : Type} {o s : Obj N} {f : Value N → Option α} (hf : ∀ v w, SameValue v w → f w = f v)
    {g a : Text} (h : SameAttr (o.get g a) (s.get g a)) : s.maybe f g a = o.maybe f g a := by
  rcases h with ⟨h1, h2⟩ | ⟨v, w, h1, h2, h⟩
  · simp [Obj.maybe, h1, h2]
  · simp [Obj.maybe, h1, h2, hf v w h]

private theorem asNumber_same (val : N → ℝ) (v w : Value N) (h : SameValue v w) : asNumber val w = asNumber val v := by
  cases h <;> rfl

private theorem asVector_same (val : N → ℝ) (v w : Value N) (h : SameValue v w) : asVector val w = asVector val v := by
  cases h <;> rfl

private theorem asFour_same (val : N → ℝ) (v w : Value N) (h : SameValue v w) : asFour val w = asFour val v := by
  simp only [asFour, asVector_same val v w h]

private theorem asTau_same (tau : N ⊕ Text → Option ℝ) (v w : Value N) (h : SameValue v w) : asTau tau w = asTau tau v := by
  cases h <;> rfl

private theorem asMethod_same (val : N → ℝ) (v w : Value N) (h : SameValue v w) : asMethod val w = asMethod val v := by
  cases h <;> rfl

private theorem blade_congr {val : N → ℝ} {tau : N ⊕ Text → Option ℝ} {o s : Obj N} {g : Text}
    (h : ∀ a ∈ [cs!"tau", cs!"mosaic", cs!"vmosaic", cs!"width", cs!"height", cs!"depth", cs!"rv", cs!"rh", cs!"direct"],
      SameAttr (o.get g a) (s.get g a)) : s.blade val tau g = o.blade val tau g := by
  unfold Obj.blade
  rw [need_congr (asTau_same tau) (h cs!"tau" (by decide)), need_congr (asNumber_same val) (h cs!"mosaic" (by decide)),
    maybe_congr (asNumber_same val) (h cs!"vmosaic" (by decide)), maybe_congr (asNumber_same val) (h cs!"width" (by decide)),
    maybe_congr (asNumber_same val) (h cs!"height" (by decide)), maybe_congr (asNumber_same val) (h cs!"depth" (by decide)),
    maybe_congr (asNumber_same val) (h cs!"rv" (by decide)), maybe_congr (asNumber_same val) (h cs!"rh" (by decide)),
    need_congr (asNumber_same val) (h cs!"direct" (by decide))]

private theorem window_congr {val : N → ℝ} {o s : Obj N} {g : Text}
    (h : ∀ a ∈ [cs!"width", cs!"height"], SameAttr (o.get g a) (s.get g a)) : s.window val g = o.window val g := by
  unfold Obj.window
  rw [maybe_congr (asNumber_same val) (h cs!"width" (by decide)), maybe_congr (asNumber_same val) (h cs!"height" (by decide))]

/-- The attributes that are read, except those that `Forgetful` replaces. -/
private def readNames : List (Text × Text) :=
  ([cs!"efixed", cs!"infin", cs!"method", cs!"moncor", cs!"hcol", cs!"vcol", cs!"arms"].map fun a => ([], a)) ++
  ([cs!"tau", cs!"mosaic", cs!"vmosaic", cs!"width", cs!"height", cs!"depth", cs!"rv", cs!"rh", cs!"direct"].flatMap fun a =>
    [(cs!"mono", a), (cs!"ana", a)]) ++
  [(cs!"ana", cs!"thickness"), (cs!"ana", cs!"Q")] ++
  ([cs!"mosaic", cs!"vmosaic", cs!"width", cs!"depth", cs!"height", cs!"direct", cs!"a", cs!"b", cs!"c", cs!"alpha", cs!"beta",
    cs!"gamma", cs!"u", cs!"v"].map fun a => (cs!"sample", a)) ++
  ([cs!"width", cs!"height"].flatMap fun a => [(cs!"guide", a), (cs!"detector", a)])

private theorem readNames_saved : ∀ n ∈ readNames, n ∈ savedNames := by decide +kernel

private theorem unsaved : ([], cs!"horifoc") ∉ savedNames ∧ (cs!"monitor", cs!"width") ∉ savedNames ∧
    (cs!"monitor", cs!"height") ∉ savedNames ∧ (cs!"sample", cs!"shape_type") ∉ savedNames := by decide +kernel

private theorem cell_congr {val : N → ℝ} {o s : Obj N}
    (h : ∀ n ∈ readNames, SameAttr (o.get n.1 n.2) (s.get n.1 n.2)) : s.cell val = o.cell val := by
  have k : ∀ g a, (g, a) ∈ readNames → SameAttr (o.get g a) (s.get g a) := fun g a hn => h (g, a) hn
  unfold Obj.cell
  rw [need_congr (asNumber_same val) (k cs!"sample" cs!"a" (by decide +kernel)),
    need_congr (asNumber_same val) (k cs!"sample" cs!"b" (by decide +kernel)),
    need_congr (asNumber_same val) (k cs!"sample" cs!"c" (by decide +kernel)),
    need_congr (asNumber_same val) (k cs!"sample" cs!"alpha" (by decide +kernel)),
    need_congr (asNumber_same val) (k cs!"sample" cs!"beta" (by decide +kernel)),
    need_congr (asNumber_same val) (k cs!"sample" cs!"gamma" (by decide +kernel)),
    need_congr (asVector_same val) (k cs!"sample" cs!"u" (by decide +kernel)),
    need_congr (asVector_same val) (k cs!"sample" cs!"v" (by decide +kernel))]

private theorem settings_forgetful {val : N → ℝ} {tau : N ⊕ Text → Option ℝ} {o s : Obj N} {S : Settings}
    (h : ∀ n ∈ readNames, SameAttr (o.get n.1 n.2) (s.get n.1 n.2)) (h1 : s.get [] cs!"horifoc" = none)
    (h2 : s.get cs!"monitor" cs!"width" = none) (h3 : s.get cs!"monitor" cs!"height" = none)
    (h4 : s.get cs!"sample" cs!"shape_type" = some (.text cs!"rectangular")) (hS : o.settings val tau = some S) :
    s.settings val tau = some (Forgetful S) := by
  have k : ∀ g a, (g, a) ∈ readNames → SameAttr (o.get g a) (s.get g a) := fun g a hn => h (g, a) hn
  have hm : s.blade val tau cs!"mono" = o.blade val tau cs!"mono" := blade_congr fun a ha => k _ a (by revert a; decide +kernel)
  have ha : s.blade val tau cs!"ana" = o.blade val tau cs!"ana" := blade_congr fun a ha => k _ a (by revert a; decide +kernel)
  have hg : s.window val cs!"guide" = o.window val cs!"guide" := window_congr fun a ha => k _ a (by revert a; decide +kernel)
  have hd : s.window val cs!"detector" = o.window val cs!"detector" := window_congr fun a ha => k _ a (by revert a; decide +kernel)
  have hw : s.window val cs!"monitor" = some ⟨none, none⟩ := by simp [Obj.window, Obj.maybe, h2, h3]
  have hh : s.maybe (asNumber val) [] cs!"horifoc" = some none := by simp [Obj.maybe, h1]
  have hp : ∀ A, o.sampleAttrs val = some A →
      s.sampleAttrs val = some { A with shapeType := some cs!"rectangular" } := by
    intro A hA
    unfold Obj.sampleAttrs at hA ⊢
    rw [maybe_congr (asNumber_same val) (k cs!"sample" cs!"mosaic" (by decide +kernel)),
      maybe_congr (asNumber_same val) (k cs!"sample" cs!"vmosaic" (by decide +kernel)),
      maybe_congr (asNumber_same val) (k cs!"sample" cs!"width" (by decide +kernel)),
      maybe_congr (asNumber_same val) (k cs!"sample" cs!"depth" (by decide +kernel)),
      maybe_congr (asNumber_same val) (k cs!"sample" cs!"height" (by decide +kernel)),
      need_congr (asNumber_same val) (k cs!"sample" cs!"direct" (by decide +kernel)),
      show s.maybe asText cs!"sample" cs!"shape_type" = some (some cs!"rectangular") by simp [Obj.maybe, h4, asText]]
    simp only [Option.bind_eq_bind, Option.bind_eq_some_iff, Option.some.injEq, exists_eq_left'] at hA ⊢
    obtain ⟨x1, e1, x2, e2, x3, e3, x4, e4, x5, e5, x6, e6, x7, e7, rfl⟩ := hA
    exact ⟨x1, e1, x2, e2, x3, e3, x4, e4, x5, e5, x7, e7, rfl⟩
  unfold Obj.settings at hS ⊢
  rw [need_congr (asNumber_same val) (k [] cs!"efixed" (by decide +kernel)),
    maybe_congr (asNumber_same val) (k [] cs!"infin" (by decide +kernel)),
    maybe_congr (asMethod_same val) (k [] cs!"method" (by decide +kernel)),
    maybe_congr (asNumber_same val) (k [] cs!"moncor" (by decide +kernel)),
    need_congr (asFour_same val) (k [] cs!"hcol" (by decide +kernel)),
    need_congr (asFour_same val) (k [] cs!"vcol" (by decide +kernel)),
    maybe_congr (asVector_same val) (k [] cs!"arms" (by decide +kernel)),
    maybe_congr (asNumber_same val) (k cs!"ana" cs!"thickness" (by decide +kernel)),
    maybe_congr (asNumber_same val) (k cs!"ana" cs!"Q" (by decide +kernel)), hm, ha, hg, hd, hw, hh]
  obtain ⟨x1, e1, hS⟩ := Option.bind_eq_some_iff.1 hS
  obtain ⟨x2, e2, hS⟩ := Option.bind_eq_some_iff.1 hS
  obtain ⟨x3, e3, hS⟩ := Option.bind_eq_some_iff.1 hS
  obtain ⟨x4, e4, hS⟩ := Option.bind_eq_some_iff.1 hS
  obtain ⟨x5, e5, hS⟩ := Option.bind_eq_some_iff.1 hS
  obtain ⟨x6, e6, hS⟩ := Option.bind_eq_some_iff.1 hS
  obtain ⟨x7, e7, hS⟩ := Option.bind_eq_some_iff.1 hS
  obtain ⟨x8, e8, hS⟩ := Option.bind_eq_some_iff.1 hS
  obtain ⟨x9, e9, hS⟩ := Option.bind_eq_some_iff.1 hS
  obtain ⟨x10, e10, hS⟩ := Option.bind_eq_some_iff.1 hS
  obtain ⟨x11, e11, hS⟩ := Option.bind_eq_some_iff.1 hS
  obtain ⟨x12, e12, hS⟩ := Option.bind_eq_some_iff.1 hS
  obtain ⟨x13, e13, hS⟩ := Option.bind_eq_some_iff.1 hS
  obtain ⟨x14, e14, hS⟩ := Option.bind_eq_some_iff.1 hS
  obtain ⟨x15, e15, hS⟩ := Option.bind_eq_some_iff.1 hS
  obtain ⟨x16, e16, hS⟩ := Option.bind_eq_some_iff.1 hS
  obtain rfl := Option.some.inj hS
  rw [hp x13 e13]
  simp only [e1, e2, e3, e4, e6, e7, e8, e9, e10, e11, e12, e14, e16, Option.bind_eq_bind, Option.bind_some]
  rfl

/-- The instrument `s` that was loaded has the cell and orientation of `o`, and its settings except for what is not
saved; all of them if `o` has nothing of that kind. -/
def LoadedFrom (val : N → ℝ) (tau : N ⊕ Text → Option ℝ) (o s : Obj N) : Prop :=
  s.cell val = o.cell val ∧ ∀ S, o.settings val tau = some S → s.settings val tau = some (Forgetful S) ∧
    (S.horifoc = none → S.monitor = ⟨none, none⟩ → S.sample.shapeType = some cs!"rectangular" →
      s.settings val tau = some S)

private theorem loadedFrom {val : N → ℝ} {tau : N ⊕ Text → Option ℝ} {start o s : Obj N} (hf : Fresh start o)
    (h1 : ∀ n ∈ savedNames, ∀ v, o.get n.1 n.2 = some v → ∃ w, s.get n.1 n.2 = some w ∧ SameValue v w)
    (h2 : ∀ n, n ∉ savedNames ∨ o.get n.1 n.2 = none → s.get n.1 n.2 = start.get n.1 n.2) : LoadedFrom val tau o s := by
  have hr : ∀ n ∈ readNames, SameAttr (o.get n.1 n.2) (s.get n.1 n.2) := by
    intro n hn
    cases hv : o.get n.1 n.2 with
    | none =>
      refine .inl ⟨rfl, ?_⟩
      rw [h2 n (.inr hv)]
      by_contra hc
      have := hf.rest n.1 n.2 (Option.isSome_iff_ne_none.2 hc)
      rw [hv] at this
      cases this
    | some v =>
      obtain ⟨w, hw, hs⟩ := h1 n (readNames_saved n hn) v hv
      exact .inr ⟨v, w, rfl, hw, hs⟩
  obtain ⟨u1, u2, u3, u4⟩ := unsaved
  refine ⟨cell_congr hr, fun S hS => ?_⟩
  have hF := settings_forgetful hr ((h2 _ (.inl u1)).trans hf.horifoc) ((h2 _ (.inl u2)).trans hf.width)
    ((h2 _ (.inl u3)).trans hf.height) ((h2 _ (.inl u4)).trans hf.shape) hS
  refine ⟨hF, fun a b c => ?_⟩
  rw [hF]
  obtain ⟨_, _, _, _, _, _, _, _, _, _, ⟨_, _, _, _, _, _, _, _⟩, _, _, _⟩ := S
  simp only at a b c
  subst a b c
  rfl

/-! ### C194 -/

/-- **C194, ASCII files (partial).** An instrument that can be loaded (C65) is loaded with the cell, the orientation and
the settings from which the resolution was calculated before it was saved, if it has no flag of a focusing analyzer, a
monitor without size and a rectangular sample; in general these three are those of `Instrument()`.  Missing for the full
claim: they are not saved (`C194_horifoc_false`, `C194_cylinder_false`, `C194_monitor_false`). -/
theorem C194_ascii_partial {nm : Numerals N} (hnm : nm.Lawful) {accepts : Value N → Bool} {start o : Obj N}
    (val : N → ℝ) (tau : N ⊕ Text → Option ℝ)
    (hplain : ∀ n ∈ savedNames, ∀ v, o.get n.1 n.2 = some v → v.Plain nm)
    (htau : ∀ n ∈ savedNames, n.2 = cs!"tau" → ∀ v w, o.get n.1 n.2 = some v → SameValue v w →
      accepts w = true)
    (hparts : ∀ n ∈ savedNames, n.1 ≠ [] → (o.get n.1 n.2).isSome → (start.parts n.1).isSome) (hf : Fresh start o) :
    ∃ s, load nm accepts start (render nm o) = .ok s ∧ LoadedFrom val tau o s := by
  obtain ⟨⟨s, hs, h1⟩, h2⟩ := C65_roundtrip_partial hnm hplain htau hparts
  exact ⟨s, hs, loadedFrom hf h1 (h2 s hs)⟩

/-- **C194, HDF5 files (partial).** The same for instruments that can be loaded from such files (C180). -/
theorem C194_hdf5_partial {accepts : Value N → Bool} {start o : Obj N} {ow : Bool}
    {old : Option (Option (H5 N))} (val : N → ℝ) (tau : N ⊕ Text → Option ℝ) (hold : ow = true ∨ ∀ f, old ≠ some (some f))
    (hown : ∃ n ∈ savedNames, n.1 = [] ∧ (o.get n.1 n.2).isSome)
    (hst : ∀ n ∈ savedNames, ∀ v, o.get n.1 n.2 = some v → Storable v)
    (htext : ∀ n ∈ savedNames, n.1 = [] → ∀ v, o.get n.1 n.2 = some v → NotText v)
    (htau : ∀ n ∈ savedNames, n.2 = cs!"tau" → ∀ v w, o.get n.1 n.2 = some v → SameValue v w →
      accepts w = true)
    (hparts : ∀ n ∈ savedNames, n.1 ≠ [] → (o.get n.1 n.2).isSome → (start.parts n.1).isSome) (hf : Fresh start o) :
    ∃ f s, saveH5 ow old o = .ok f ∧ loadH5 accepts start f = .ok s ∧ LoadedFrom val tau o s := by
  obtain ⟨⟨f, s, hf', hs, h1⟩, h2⟩ := C180_roundtrip_partial hold hown hst htext htau hparts
  exact ⟨f, s, hf', hs, loadedFrom hf h1 (h2 f s hf' hs)⟩

/-- A setting is that of an attribute: a number gives this number, no attribute none. -/
def ReadFrom (val : N → ℝ) (v : Option (Value N)) (x : Option ℝ) : Prop :=
  (∀ n, v = some (.num n) → x = some (val n)) ∧ (v = none → x = none)

private theorem readFrom_maybe {val : N → ℝ} {o : Obj N} {g a : Text} {x : Option ℝ} (h : o.maybe (asNumber val) g a = some x) :
    ReadFrom val (o.get g a) x := by
  unfold Obj.maybe at h
  constructor
  · intro n hn
    rw [hn] at h
    exact (Option.some.inj h).symm
  · intro hn
    rw [hn] at h
    exact (Option.some.inj h).symm

private theorem readFrom_need {val : N → ℝ} {o : Obj N} {g a : Text} {x : ℝ} (h : o.need (asNumber val) g a = some x) :
    ReadFrom val (o.get g a) (some x) := by
  unfold Obj.need at h
  constructor
  · intro n hn
    rw [hn] at h
    exact h.symm
  · intro hn
    rw [hn] at h
    exact nomatch h

/-- What the calculation reads of a monochromator or analyzer, by name. -/
structure BladeRead (val : N → ℝ) (o : Obj N) (g : Text) (b : Blade) : Prop where
  mosaic : ReadFrom val (o.get g cs!"mosaic") (some b.mosaic)
  vmosaic : ReadFrom val (o.get g cs!"vmosaic") b.vmosaic
  width : ReadFrom val (o.get g cs!"width") b.width
  height : ReadFrom val (o.get g cs!"height") b.height
  depth : ReadFrom val (o.get g cs!"depth") b.depth
  rv : ReadFrom val (o.get g cs!"rv") b.rv
  rh : ReadFrom val (o.get g cs!"rh") b.rh
  direct : ReadFrom val (o.get g cs!"direct") (some b.dir)

private theorem blade_read {val : N → ℝ} {tau : N ⊕ Text → Option ℝ} {o : Obj N} {g : Text} {b : Blade}
    (h : o.blade val tau g = some b) : BladeRead val o g b ∧ o.need (asTau tau) g cs!"tau" = some b.tau := by
  unfold Obj.blade at h
  simp only [Option.bind_eq_bind, Option.bind_eq_some_iff] at h
  obtain ⟨t, e0, m, e1, vm, e2, w, e3, hh, e4, d, e5, rv, e6, rh, e7, dir, e8, e⟩ := h
  obtain rfl := Option.some.inj e
  exact ⟨⟨readFrom_need e1, readFrom_maybe e2, readFrom_maybe e3, readFrom_maybe e4, readFrom_maybe e5, readFrom_maybe e6,
    readFrom_maybe e7, readFrom_need e8⟩, e0⟩

private theorem window_read {val : N → ℝ} {o : Obj N} {g : Text} {w : Window} (h : o.window val g = some w) :
    ReadFrom val (o.get g cs!"width") w.width ∧ ReadFrom val (o.get g cs!"height") w.height := by
  unfold Obj.window at h
  simp only [Option.bind_eq_bind, Option.bind_eq_some_iff] at h
  obtain ⟨a, e1, b, e2, e⟩ := h
  obtain rfl := Option.some.inj e
  exact ⟨readFrom_maybe e1, readFrom_maybe e2⟩

/-- **C194, what the resolution is calculated from.** Each setting is that of the attribute with its name, of the part of
the instrument it belongs to. -/
theorem C194_reads {val : N → ℝ} {tau : N ⊕ Text → Option ℝ} {o : Obj N} {S : Settings} (h : o.settings val tau = some S) :
    BladeRead val o cs!"mono" S.mono ∧ BladeRead val o cs!"ana" S.ana ∧
      ReadFrom val (o.get [] cs!"efixed") (some S.efixed) ∧ ReadFrom val (o.get [] cs!"infin") S.infin ∧
      ReadFrom val (o.get [] cs!"moncor") S.moncor ∧ ReadFrom val (o.get [] cs!"horifoc") S.horifoc ∧
      ReadFrom val (o.get cs!"ana" cs!"thickness") S.ana.thickness ∧ ReadFrom val (o.get cs!"ana" cs!"Q") S.ana.reflQ ∧
      (ReadFrom val (o.get cs!"guide" cs!"width") S.guide.width ∧ ReadFrom val (o.get cs!"guide" cs!"height") S.guide.height) ∧
      (ReadFrom val (o.get cs!"monitor" cs!"width") S.monitor.width ∧
        ReadFrom val (o.get cs!"monitor" cs!"height") S.monitor.height) ∧
      (ReadFrom val (o.get cs!"detector" cs!"width") S.detector.width ∧
        ReadFrom val (o.get cs!"detector" cs!"height") S.detector.height) ∧
      (∀ n, o.get [] cs!"method" = some (.num n) → (S.method = some (.number 1) ↔ val n = 1)) ∧
      (∀ n, o.get [] cs!"method" = some (.num n) → val n ≠ 1 → S.method = some (.number 0)) ∧
      (∀ s, o.get [] cs!"method" = some (.text s) → S.method = some (.name s)) := by
  unfold Obj.settings at h
  obtain ⟨ef, e1, h⟩ := Option.bind_eq_some_iff.1 h
  obtain ⟨inf, e2, h⟩ := Option.bind_eq_some_iff.1 h
  obtain ⟨me, e3, h⟩ := Option.bind_eq_some_iff.1 h
  obtain ⟨mc, e4, h⟩ := Option.bind_eq_some_iff.1 h
  obtain ⟨hf, e5, h⟩ := Option.bind_eq_some_iff.1 h
  obtain ⟨hc, e6, h⟩ := Option.bind_eq_some_iff.1 h
  obtain ⟨vc, e7, h⟩ := Option.bind_eq_some_iff.1 h
  obtain ⟨ar, e8, h⟩ := Option.bind_eq_some_iff.1 h
  obtain ⟨mo, e9, h⟩ := Option.bind_eq_some_iff.1 h
  obtain ⟨an, e10, h⟩ := Option.bind_eq_some_iff.1 h
  obtain ⟨th, e11, h⟩ := Option.bind_eq_some_iff.1 h
  obtain ⟨rq, e12, h⟩ := Option.bind_eq_some_iff.1 h
  obtain ⟨sa, e13, h⟩ := Option.bind_eq_some_iff.1 h
  obtain ⟨gu, e14, h⟩ := Option.bind_eq_some_iff.1 h
  obtain ⟨mn, e15, h⟩ := Option.bind_eq_some_iff.1 h
  obtain ⟨de, e16, h⟩ := Option.bind_eq_some_iff.1 h
  obtain rfl := Option.some.inj h
  have hm := (blade_read e9).1
  have ha := (blade_read e10).1
  refine ⟨hm, ⟨ha.mosaic, ha.vmosaic, ha.width, ha.height, ha.depth, ha.rv, ha.rh, ha.direct⟩, readFrom_need e1, readFrom_maybe e2,
    readFrom_maybe e4, readFrom_maybe e5, readFrom_maybe e11, readFrom_maybe e12, window_read e14, window_read e15,
    window_read e16, ?_, ?_, ?_⟩
  · intro n hn
    unfold Obj.maybe at e3
    rw [hn] at e3
    obtain rfl := Option.some.inj e3
    by_cases hv : val n = 1 <;> simp [hv]
  · intro n hn hv
    unfold Obj.maybe at e3
    rw [hn] at e3
    obtain rfl := Option.some.inj e3
    simp [hv]
  · intro s hn
    unfold Obj.maybe at e3
    rw [hn] at e3
    exact (Option.some.inj e3).symm

/-- **C194, what the directions are calculated from**: the cell by name, and the orienting vectors `u` and `v`. -/
theorem C194_reads_cell {val : N → ℝ} {o : Obj N} {abc abg : ℝ × ℝ × ℝ} {u v : List ℝ} (h : o.cell val = some (abc, abg, u, v)) :
    (ReadFrom val (o.get cs!"sample" cs!"a") (some abc.1) ∧ ReadFrom val (o.get cs!"sample" cs!"b") (some abc.2.1) ∧
      ReadFrom val (o.get cs!"sample" cs!"c") (some abc.2.2)) ∧
    (ReadFrom val (o.get cs!"sample" cs!"alpha") (some abg.1) ∧ ReadFrom val (o.get cs!"sample" cs!"beta") (some abg.2.1) ∧
      ReadFrom val (o.get cs!"sample" cs!"gamma") (some abg.2.2)) ∧
    (∀ xs, o.orient1 = some (.arr xs) → u = xs.map val) ∧ ∀ xs, o.orient2 = some (.arr xs) → v = xs.map val := by
  unfold Obj.cell at h
  simp only [Option.bind_eq_bind, Option.bind_eq_some_iff] at h
  obtain ⟨a, e1, b, e2, c, e3, al, e4, be, e5, ga, e6, u', e7, v', e8, e⟩ := h
  have e := Option.some.inj e
  simp only [Prod.mk.injEq] at e
  obtain ⟨rfl, rfl, rfl, rfl⟩ := e
  refine ⟨⟨readFrom_need e1, readFrom_need e2, readFrom_need e3⟩, ⟨readFrom_need e4, readFrom_need e5, readFrom_need e6⟩, ?_, ?_⟩
  · intro xs hx
    unfold Obj.need at e7
    rw [show o.get cs!"sample" cs!"u" = some (.arr xs) from hx] at e7
    exact (Option.some.inj e7).symm
  · intro xs hx
    unfold Obj.need at e8
    rw [show o.get cs!"sample" cs!"v" = some (.arr xs) from hx] at e8
    exact (Option.some.inj e8).symm

/-- **C194 is false for focusing analyzers.** An instrument with the flag set that works (C157) is loaded without it, and
at every point its resolution matrix was another one before it was saved. -/
theorem C194_horifoc_false {val : N → ℝ} {tau : N ⊕ Text → Option ℝ} {o s : Obj N} (hl : LoadedFrom val tau o s)
    {S : Settings} (hS : o.settings val tau = some S) (h : S.Valid 1) (hp : S.popovici = false) (hf : S.horifoc = some 1)
    (hg : S.Collimated) (hv : S.mono.vmosaic.getD S.mono.mosaic = S.mono.mosaic) (hmos : S.sample.mosaic = none)
    {q w : ℝ} (hr : Reaches S q w) :
    ∃ S' r r' RM RM', s.settings val tau = some S' ∧ calcInQ S [(q, w)] = .ok [(r, RM)] ∧
      calcInQ S' [(q, w)] = .ok [(r', RM')] ∧ RM' ≠ RM := by
  obtain ⟨ki, kf, tm, ta, tt, hn⟩ := nominal_exists h hr
  obtain ⟨r, RM, hcalc, hleast⟩ := C157_focus_partial h hp hf hg hv hmos hr hn
  have vn : (⟨none, none⟩ : Window).Valid := ⟨.none, .none⟩
  have h' : (Forgetful S).Valid 1 := ⟨h.mono, h.ana, h.guide, vn, h.detector,
    ⟨h.sample.1, h.sample.2, h.sample.3, h.sample.4, h.sample.5, h.sample.6⟩, h.hcol, h.vcol, h.arms⟩
  obtain ⟨r', RM', hcalc', d, hd⟩ := C157_flag_false (o := ⟨Forgetful S, 1⟩) rfl h' hp rfl ⟨hg.h2, hg.h3, hg.v2, hg.v3⟩ hv hmos
    (q := q) (w := w) ⟨hr.ei, hr.ef, hr.mono, hr.ana, hr.closes, hr.q⟩
    ⟨hn.waveIn, hn.waveOut, hn.braggIn, hn.braggOut, hn.triangle⟩
  refine ⟨_, r, r', RM, RM', (hl.2 S hS).1, hcalc, hcalc', ?_⟩
  rintro rfl
  exact hd (hleast d)

/-- **C194 is false for cylindrical samples.** After loading, a cylindrical sample is a box: for every list of points the
answers are those for a cylinder with all sizes larger by the factor `2 / √3`. -/
theorem C194_cylinder_false {val : N → ℝ} {tau : N ⊕ Text → Option ℝ} {o s : Obj N} (hl : LoadedFrom val tau o s)
    {S : Settings} (hS : o.settings val tau = some S) (hf : S.horifoc = none) (hm : S.monitor = ⟨none, none⟩)
    {d w h : ℝ} (hc : S = S.cylinder d w h) (pts : List (ℝ × ℝ)) :
    ∃ S', s.settings val tau = some S' ∧
      calcInQ S' pts = calcInQ (S.cylinder (2 / √3 * d) (2 / √3 * w) (2 / √3 * h)) pts := by
  refine ⟨_, (hl.2 S hS).1, ?_⟩
  have e : ∀ x : ℝ, √3 / 2 * (2 / √3 * x) = x := by
    intro x
    have : √(3 : ℝ) ≠ 0 := by positivity
    field_simp
  rw [C125_as_box, e, e, e]
  congr 1
  rw [hc]
  obtain ⟨_, _, _, _, _, _, _, _, _, _, ⟨_, _, _, _, _, _, _, _⟩, _, _, _⟩ := S
  simp only at hf hm
  subst hf hm
  rfl

/-- **C194 is false for monitors with a size.** After loading, the variances of the monitor are 1, whatever its size. -/
theorem C194_monitor_false {val : N → ℝ} {tau : N ⊕ Text → Option ℝ} {o s : Obj N} (hl : LoadedFrom val tau o s)
    {S : Settings} (hS : o.settings val tau = some S) {a b : ℝ} (hm : S.monitor = ⟨some a, some b⟩) {c : Conf}
    (hd : decode S = .ok c) :
    ∃ S' c', s.settings val tau = some S' ∧ decode S' = .ok c' ∧ c'.monitorshape = ![1, 1] ∧
      c.monitorshape = ![a ^ 2 / 12, b ^ 2 / 12] := by
  unfold decode at hd
  cases hx : decodeArms S with
  | error e => rw [hx] at hd; exact nomatch hd
  | ok x =>
    rw [hx] at hd
    obtain rfl := Except.ok.inj hd
    have hd' : ∃ c', decode (Forgetful S) = .ok c' ∧ c'.monitorshape = ![1, 1] := by
      unfold decode
      rw [show decodeArms (Forgetful S) = decodeArms S from rfl, hx]
      exact ⟨_, rfl, rfl⟩
    obtain ⟨c', hc', hm'⟩ := hd'
    exact ⟨_, c', (hl.2 S hS).1, hc', hm', by simp [hm, extent]⟩

/-! ### An instrument -/

/-- An instrument with whole-number attributes as `Instrument()` makes it, with the fixed energy, the flag of a focusing
analyzer, the kind of the sample, its size and the width of the monitor given. -/
def wholeInstrument (efixed : Int) (horifoc : Option Int) (kind : Text) (size monitor : Option Int) : Obj Int where
  own := fun a =>
    if a = cs!"efixed" then some (.num efixed)
    else if a = cs!"hcol" then some (.arr [40, 40, 40, 40])
    else if a = cs!"vcol" then some (.arr [120, 120, 120, 120])
    else if a = cs!"horifoc" then horifoc.map .num
    else none
  parts := fun g =>
    if g = cs!"mono" ∨ g = cs!"ana" then some fun a =>
      if a = cs!"tau" then some (.text cs!"PG(002)")
      else if a = cs!"mosaic" then some (.num 25)
      else if a = cs!"direct" then some (.num (-1))
      else none
    else if g = cs!"sample" then some fun a =>
      if a = cs!"a" ∨ a = cs!"b" ∨ a = cs!"c" then some (.num 6)
      else if a = cs!"alpha" ∨ a = cs!"beta" ∨ a = cs!"gamma" then some (.num 90)
      else if a = cs!"u" then some (.arr [1, 0, 0])
      else if a = cs!"v" then some (.arr [0, 1, 0])
      else if a = cs!"shape_type" then some (.text kind)
      else if a = cs!"direct" then some (.num 1)
      else if a = cs!"width" ∨ a = cs!"depth" ∨ a = cs!"height" then size.map .num
      else none
    else if g = cs!"monitor" then some fun a => if a = cs!"width" ∨ a = cs!"height" then monitor.map .num else none
    else if g = cs!"detector" ∨ g = cs!"guide" then some fun _ => none
    else none

private theorem whole_plain (e : Int) (f : Option Int) (kd : Text) (z m : Option Int) :
    ∀ n ∈ savedNames, ∀ v, (wholeInstrument e f kd z m).get n.1 n.2 = some v → v.Plain intNumerals := by
  have h0 : Value.Plain intNumerals (.arr [40, 40, 40, 40]) :=
    plain_of_widths (k := 2) (by simp) (by
      intro x hx
      obtain rfl : x = 40 := by simpa using hx
      exact len2 (n := 40) (by omega) (by omega))
  have h1 : Value.Plain intNumerals (.arr [120, 120, 120, 120]) :=
    plain_of_widths (k := 3) (by simp) (by
      intro x hx
      obtain rfl : x = 120 := by simpa using hx
      exact len3 (n := 120) (by omega) (by omega))
  have h2 : ∀ l ∈ [[1, 0, 0], [0, 1, 0]], Value.Plain intNumerals (.arr l) := by
    intro l hl
    refine plain_of_widths (k := 1) ?_ ?_
    · rintro rfl; simp at hl
    · intro x hx
      obtain rfl | rfl : x = 0 ∨ x = 1 := by
        simp only [List.mem_cons, List.not_mem_nil, or_false] at hl
        rcases hl with rfl | rfl <;> simp at hx <;> tauto
      · exact len1 (n := 0) (by omega)
      · exact len1 (n := 1) (by omega)
  have h4 : Value.Plain intNumerals (.text cs!"PG(002)") := ⟨clean_pg, by decide, by decide⟩
  have hs : ∀ n ∈ savedNames, n.1 = cs!"sample" → n.2 ≠ cs!"shape_type" := by decide +kernel
  have hm : ∀ n ∈ savedNames, n.1 ≠ cs!"monitor" := by decide +kernel
  have hn' : ∀ (z : Option Int) v, z.map Value.num = some v → v.Plain intNumerals := by
    rintro (_ | z) v h
    · cases h
    · cases h; trivial
  intro n hn v hv
  simp only [wholeInstrument, Obj.get] at hv
  by_cases hg : n.1 = []
  · rw [if_pos hg] at hv
    split_ifs at hv
    · cases hv; trivial
    · cases hv; exact h0
    · cases hv; exact h1
    · exact hn' _ _ hv
  · rw [if_neg hg] at hv
    by_cases h5 : n.1 = cs!"mono" ∨ n.1 = cs!"ana"
    · simp only [if_pos h5] at hv
      split_ifs at hv <;> cases hv
      · exact h4
      · trivial
      · trivial
    · simp only [if_neg h5] at hv
      by_cases h6 : n.1 = cs!"sample"
      · simp only [if_pos h6, if_neg (hs n hn h6)] at hv
        split_ifs at hv
        · cases hv; trivial
        · cases hv; trivial
        · cases hv; exact h2 _ (by simp)
        · cases hv; exact h2 _ (by simp)
        · cases hv; trivial
        · exact hn' _ _ hv
      · simp only [if_neg h6, if_neg (hm n hn)] at hv
        split_ifs at hv <;> cases hv

private theorem whole_parts (e : Int) (f : Option Int) (kd : Text) (z m : Option Int) : ∀ n ∈ savedNames, n.1 ≠ [] →
    ((wholeInstrument e f kd z m).get n.1 n.2).isSome →
      ((wholeInstrument 14 none cs!"rectangular" none none).parts n.1).isSome := by
  intro n _ hne hs
  simp only [Obj.get, if_neg hne] at hs
  simp only [wholeInstrument] at hs ⊢
  split_ifs at hs ⊢ <;> simp_all

private theorem whole_fresh (e : Int) (f : Option Int) (kd : Text) (z m : Option Int) :
    Fresh (wholeInstrument 14 none cs!"rectangular" none none) (wholeInstrument e f kd z m) where
  horifoc := by decide
  width := by decide
  height := by decide
  shape := by decide
  rest g a h := by
    simp only [Obj.get, wholeInstrument] at h ⊢
    by_cases hg : g = []
    · simp only [if_pos hg] at h ⊢
      split_ifs at h ⊢ <;> first | rfl | cases h
    · simp only [if_neg hg] at h ⊢
      by_cases h5 : g = cs!"mono" ∨ g = cs!"ana"
      · simp only [if_pos h5] at h ⊢
        exact h
      · simp only [if_neg h5] at h ⊢
        by_cases h6 : g = cs!"sample"
        · simp only [if_pos h6] at h ⊢
          split_ifs at h ⊢ <;> first | rfl | cases h
        · simp only [if_neg h6] at h ⊢
          by_cases h7 : g = cs!"monitor"
          · simp only [if_pos h7] at h
            split_ifs at h <;> cases h
          · simp only [if_neg h7] at h
            split_ifs at h <;> cases h

/-- Only the reflection PG(002). -/
noncomputable def pgTau : Int ⊕ Text → Option ℝ
  | .inr s => if s = cs!"PG(002)" then some 1.87325 else none
  | .inl _ => none

/-- The settings of `wholeInstrument`. -/
noncomputable def wholeSettings (e : ℝ) (f : Option ℝ) (kd : Text) (z m : Option ℝ) : Settings :=
  { demo with efixed := e, horifoc := f, hcol := ![40, 40, 40, 40], vcol := ![120, 120, 120, 120],
              sample := ⟨none, none, z, z, z, some kd, none, 1⟩, monitor := ⟨m, m⟩ }

/-- Whole numbers as reals. -/
noncomputable def ofWhole (n : Int) : ℝ := n

private theorem whole_settings (e : Int) (f : Option Int) (kd : Text) (z m : Option Int) :
    (wholeInstrument e f kd z m).settings ofWhole pgTau =
      some (wholeSettings e (f.map ofWhole) kd (z.map ofWhole) (m.map ofWhole)) := by
  have hb : ∀ g ∈ [cs!"mono", cs!"ana"], (wholeInstrument e f kd z m).blade ofWhole pgTau g =
      some ⟨1.87325, 25, none, none, none, none, none, none, -1, none, none⟩ := by
    have t1 : ∀ g ∈ [cs!"mono", cs!"ana"], (wholeInstrument e f kd z m).need (asTau pgTau) g cs!"tau" = some 1.87325 ∧
        (wholeInstrument e f kd z m).need (asNumber ofWhole) g cs!"mosaic" = some (ofWhole 25) ∧
        (wholeInstrument e f kd z m).need (asNumber ofWhole) g cs!"direct" = some (ofWhole (-1)) ∧
        ∀ a ∈ [cs!"vmosaic", cs!"width", cs!"height", cs!"depth", cs!"rv", cs!"rh"],
          (wholeInstrument e f kd z m).maybe (asNumber ofWhole) g a = some none := by
      simp only [List.mem_cons, List.not_mem_nil, or_false, forall_eq_or_imp, forall_eq]
      exact ⟨⟨rfl, rfl, rfl, rfl, rfl, rfl, rfl, rfl, rfl⟩, rfl, rfl, rfl, rfl, rfl, rfl, rfl, rfl, rfl⟩
    intro g hg
    obtain ⟨t1, t2, t3, t4⟩ := t1 g hg
    simp only [List.mem_cons, List.not_mem_nil, or_false, forall_eq_or_imp, forall_eq] at t4
    obtain ⟨u1, u2, u3, u4, u5, u6⟩ := t4
    simp only [Obj.blade, t1, t2, t3, u1, u2, u3, u4, u5, u6, Option.bind_eq_bind, Option.bind_some]
    simp [ofWhole]
  have hw : ∀ g ∈ [cs!"guide", cs!"detector"], (wholeInstrument e f kd z m).window ofWhole g = some ⟨none, none⟩ := by
    simp only [List.mem_cons, List.not_mem_nil, or_false, forall_eq_or_imp, forall_eq]
    exact ⟨rfl, rfl⟩
  have hm : (wholeInstrument e f kd z m).window ofWhole cs!"monitor" = some ⟨m.map ofWhole, m.map ofWhole⟩ := by
    cases m <;> rfl
  have hs : (wholeInstrument e f kd z m).sampleAttrs ofWhole =
      some ⟨none, none, z.map ofWhole, z.map ofWhole, z.map ofWhole, some kd, none, ofWhole 1⟩ := by
    cases z <;> rfl
  have hf : (wholeInstrument e f kd z m).maybe (asNumber ofWhole) [] cs!"horifoc" = some (f.map ofWhole) := by
    cases f <;> rfl
  have r1 : (wholeInstrument e f kd z m).need (asNumber ofWhole) [] cs!"efixed" = some (ofWhole e) := rfl
  have r2 : (wholeInstrument e f kd z m).maybe (asNumber ofWhole) [] cs!"infin" = some none := rfl
  have r3 : (wholeInstrument e f kd z m).maybe (asMethod ofWhole) [] cs!"method" = some none := rfl
  have r4 : (wholeInstrument e f kd z m).maybe (asNumber ofWhole) [] cs!"moncor" = some none := rfl
  have r5 : (wholeInstrument e f kd z m).need (asFour ofWhole) [] cs!"hcol" =
    some ![ofWhole 40, ofWhole 40, ofWhole 40, ofWhole 40] := rfl
  have r6 : (wholeInstrument e f kd z m).need (asFour ofWhole) [] cs!"vcol" =
    some ![ofWhole 120, ofWhole 120, ofWhole 120, ofWhole 120] := rfl
  have r7 : (wholeInstrument e f kd z m).maybe (asVector ofWhole) [] cs!"arms" = some none := rfl
  have r8 : (wholeInstrument e f kd z m).maybe (asNumber ofWhole) cs!"ana" cs!"thickness" = some none := rfl
  have r9 : (wholeInstrument e f kd z m).maybe (asNumber ofWhole) cs!"ana" cs!"Q" = some none := rfl
  simp only [Obj.settings, r1, r2, r3, r4, r5, r6, r7, r8, r9, hf, hm, hs, hb cs!"mono" (by simp), hb cs!"ana" (by simp),
    hw cs!"guide" (by simp), hw cs!"detector" (by simp), Option.bind_eq_bind, Option.bind_some]
  simp [wholeSettings, ofWhole, demo]

private theorem whole_loaded (e : Int) (f : Option Int) (kd : Text) (z m : Option Int) :
    ∃ s, load intNumerals (fun _ => true) (wholeInstrument 14 none cs!"rectangular" none none)
        (render intNumerals (wholeInstrument e f kd z m)) = .ok s ∧
      LoadedFrom ofWhole pgTau (wholeInstrument e f kd z m) s :=
  C194_ascii_partial intNumerals_lawful ofWhole pgTau (whole_plain e f kd z m) (fun _ _ _ _ _ _ _ => rfl)
    (whole_parts e f kd z m) (whole_fresh e f kd z m)

/-- An instrument with another energy than that of `Instrument()` is loaded with its settings. -/
example : ∃ s, load intNumerals (fun _ => true) (wholeInstrument 14 none cs!"rectangular" none none)
      (render intNumerals (wholeInstrument 15 none cs!"rectangular" (some 2) none)) = .ok s ∧
    s.settings ofWhole pgTau = some (wholeSettings 15 none cs!"rectangular" (some 2) none) := by
  obtain ⟨s, hs, hl⟩ := whole_loaded 15 none cs!"rectangular" (some 2) none
  refine ⟨s, hs, ?_⟩
  have := (hl.2 _ (whole_settings 15 none cs!"rectangular" (some 2) none)).2 rfl rfl rfl
  rw [this]
  simp [ofWhole]

/-- A focusing analyzer: the resolution matrix of the loaded instrument is another one. -/
example : ∃ s, load intNumerals (fun _ => true) (wholeInstrument 14 none cs!"rectangular" none none)
      (render intNumerals (wholeInstrument 15 (some 1) cs!"rectangular" none none)) = .ok s ∧
    ∃ S S' r r' RM RM', (wholeInstrument 15 (some 1) cs!"rectangular" none none).settings ofWhole pgTau = some S ∧
      s.settings ofWhole pgTau = some S' ∧ calcInQ S [(1, 1 / 2)] = .ok [(r, RM)] ∧
      calcInQ S' [(1, 1 / 2)] = .ok [(r', RM')] ∧ RM' ≠ RM := by
  obtain ⟨s, hs, hl⟩ := whole_loaded 15 (some 1) cs!"rectangular" none none
  refine ⟨s, hs, ?_⟩
  have hS := whole_settings 15 (some 1) cs!"rectangular" none none
  have h := demo_valid 1
  have v : (wholeSettings (15 : Int) ((some (1 : Int)).map ofWhole) cs!"rectangular" none none).Valid 1 :=
    ⟨h.mono, h.ana, h.guide, h.monitor, h.detector,
      ⟨.none, .none, .none, fun _ h => (nomatch h), fun _ h => (nomatch h), Or.inl rfl⟩,
      fun i => by fin_cases i <;> simp [wholeSettings], fun i => by fin_cases i <;> simp [wholeSettings], h.arms⟩
  have hr : Reaches (wholeSettings (15 : Int) ((some (1 : Int)).map ofWhole) cs!"rectangular" none none) 1 (1 / 2) := by
    have ei : incident (wholeSettings (15 : Int) ((some (1 : Int)).map ofWhole) cs!"rectangular" none none) (1 / 2) = 15 + 1 / 2 := by
      unfold incident
      rw [if_neg (by norm_num [wholeSettings, demo])]
      simp [wholeSettings]
    have ef : final (wholeSettings (15 : Int) ((some (1 : Int)).map ofWhole) cs!"rectangular" none none) (1 / 2) = 15 := by
      unfold final
      rw [if_neg (by norm_num [wholeSettings, demo])]
      simp [wholeSettings]
    have hki : 2 ≤ wavevector (15 + 1 / 2) := Real.le_sqrt_of_sq_le (by norm_num)
    have hkf : 2 ≤ wavevector 15 := Real.le_sqrt_of_sq_le (by norm_num)
    have si : wavevector (15 + 1 / 2) ^ 2 = (15 + 1 / 2) / 2.072 := Real.sq_sqrt (by positivity)
    have sf : wavevector 15 ^ 2 = 15 / 2.072 := Real.sq_sqrt (by norm_num)
    refine ⟨by rw [ei]; norm_num, by rw [ef]; norm_num, ?_, ?_, ?_, by norm_num⟩
    · rw [ei]; norm_num [wholeSettings, demo] at hki ⊢; linarith
    · rw [ef]; norm_num [wholeSettings, demo]; linarith
    · rw [ei, ef, Verif.Tools.closes_iff (by linarith) (by linarith) (by norm_num), si, sf]
      have e : ((15 + 1 / 2) / 2.072 - 15 / 2.072 + 1 ^ 2 : ℝ) = 1 / 2 / 2.072 + 1 := by norm_num
      have hd : 0 < 2 * wavevector (15 + 1 / 2) * 1 := by linarith
      rw [e, abs_of_nonneg (by positivity), div_le_one hd]
      have : (1 / 2 / 2.072 : ℝ) ≤ 1 := by norm_num
      linarith
  obtain ⟨S', r, r', RM, RM', h1, h2, h3, h4⟩ := C194_horifoc_false hl hS v
    (by simp [Settings.popovici, Settings.theMethod, wholeSettings, demo]) (by simp [wholeSettings, ofWhole])
    ⟨by simp [wholeSettings], by simp [wholeSettings], by simp [wholeSettings], by simp [wholeSettings]⟩ rfl rfl hr
  exact ⟨_, S', r, r', RM, RM', hS, h1, h2, h3, h4⟩

/-- A cylindrical sample. -/
example : ∃ s, load intNumerals (fun _ => true) (wholeInstrument 14 none cs!"rectangular" none none)
      (render intNumerals (wholeInstrument 15 none cs!"cylindrical" (some 2) none)) = .ok s ∧
    ∃ S', s.settings ofWhole pgTau = some S' ∧ ∀ pts, calcInQ S' pts =
      calcInQ ((wholeSettings 15 none cs!"cylindrical" (some 2) none).cylinder (2 / √3 * 2) (2 / √3 * 2) (2 / √3 * 2)) pts := by
  obtain ⟨s, hs, hl⟩ := whole_loaded 15 none cs!"cylindrical" (some 2) none
  have hS := whole_settings 15 none cs!"cylindrical" (some 2) none
  refine ⟨s, hs, _, (hl.2 _ hS).1, fun pts => ?_⟩
  obtain ⟨S', h1, h2⟩ := C194_cylinder_false hl hS rfl rfl (d := ofWhole 2) (w := ofWhole 2) (h := ofWhole 2) rfl pts
  obtain rfl := Option.some.inj ((hl.2 _ hS).1.symm.trans h1)
  rw [h2]
  simp [ofWhole]

/-- A monitor of 5 by 5, in an HDF5 file. -/
example : ∃ f s c c' S', saveH5 false none (wholeInstrument 15 none cs!"rectangular" none (some 5)) = .ok f ∧
    loadH5 (fun _ => true) (wholeInstrument 14 none cs!"rectangular" none none) f = .ok s ∧
    s.settings ofWhole pgTau = some S' ∧ decode S' = .ok c' ∧ c'.monitorshape = ![1, 1] ∧
    decode (wholeSettings 15 none cs!"rectangular" none (some 5)) = .ok c ∧ c.monitorshape = ![25 / 12, 25 / 12] := by
  have hg : ∀ n ∈ savedNames, ∀ v, (wholeInstrument 15 none cs!"rectangular" none (some 5)).get n.1 n.2 = some v →
      Storable v ∧ (n.1 = [] → NotText v) := by
    have : ∀ n ∈ savedNames, ((wholeInstrument 15 none cs!"rectangular" none (some 5)).get n.1 n.2).elim true (fun v =>
        match v with
        | .none => false
        | .text _ => !n.1.isEmpty
        | _ => true) = true := by decide +kernel
    intro n hn v hv
    have h := this n hn
    rw [hv] at h
    cases v with
    | none => cases h
    | text s =>
      refine ⟨nofun, fun h0 => ?_⟩
      rw [h0] at h; cases h
    | _ => exact ⟨nofun, fun _ => nofun⟩
  obtain ⟨f, s, hf, hs, hl⟩ := C194_hdf5_partial (accepts := fun _ => true) (ow := false) (old := none) ofWhole pgTau (.inr nofun)
    ⟨([], cs!"efixed"), by decide +kernel, rfl, by decide +kernel⟩ (fun n hn v hv => (hg n hn v hv).1)
    (fun n hn h0 v hv => (hg n hn v hv).2 h0) (fun _ _ _ _ _ _ _ => rfl)
    (whole_parts 15 none cs!"rectangular" none (some 5)) (whole_fresh 15 none cs!"rectangular" none (some 5))
  have hS := whole_settings 15 none cs!"rectangular" none (some 5)
  have e : wholeSettings ((15 : Int) : ℝ) ((none : Option Int).map ofWhole) cs!"rectangular" ((none : Option Int).map ofWhole)
      ((some (5 : Int)).map ofWhole) = wholeSettings 15 none cs!"rectangular" none (some 5) := by simp [ofWhole]
  rw [e] at hS
  obtain ⟨c, hc⟩ : ∃ c, decode (wholeSettings 15 none cs!"rectangular" none (some 5)) = .ok c := ⟨_, rfl⟩
  obtain ⟨S', c', h1, h2, h3, h4⟩ := C194_monitor_false hl hS (a := 5) (b := 5) rfl hc
  exact ⟨f, s, c, c', S', hf, hs, h1, h2, h3, hc, by rw [h4]; norm_num⟩

/-- The settings of an instrument with a fixed energy of 15. -/
example : ∃ S, (wholeInstrument 15 none cs!"rectangular" none none).settings ofWhole pgTau = some S ∧ S.efixed = 15 := by
  have hS := whole_settings 15 none cs!"rectangular" none none
  refine ⟨_, hS, ?_⟩
  have := (C194_reads hS).2.2.1.1 15 (by decide +kernel)
  rw [Option.some.inj this]
  simp [ofWhole]

end Verif.FileIO
