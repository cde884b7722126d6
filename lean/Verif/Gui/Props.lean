import Verif.Gui.Model
import Verif.Tools.Props

/-! # The window for resolution calculations -/

namespace Verif.Gui

open Verif.Tools (getTau Caller TauArg)

/-! ## Specification -/

/-- The numbers of a text, separated by commas. -/
def Lists (lib : Library) (s : String) (l : List ℝ) : Prop := ∃ ts : List String, ts ≠ [] ∧ (∀ t ∈ ts, ',' ∉ t.toList) ∧
  s.toList = [','].intercalate (ts.map String.toList) ∧ List.Forall₂ (fun t x => lib.num t = some x) ts l

/-- The sense of rotation by name: clockwise is `1`. -/
def Turns (s : String) (d : ℤ) : Prop := (s = "Clockwise" ∧ d = 1) ∨ (s = "Counter-Clockwise" ∧ d = -1)

/-- A curvature as entered: nothing for the text `None`. -/
def Curved (lib : Library) (s : String) (r : Option ℝ) : Prop := (s = "None" ∧ r = none) ∨ (s ≠ "None" ∧ ∃ x, lib.num s = some x ∧ r = some x)

/-- The sample that is entered. -/
structure EntersSample (lib : Library) (f : Form) (s : Sample) : Prop where
  abc : Lists lib (f.text .abc) [s.abc.1, s.abc.2.1, s.abc.2.2]
  abg : Lists lib (f.text .abg) [s.abg.1, s.abg.2.1, s.abg.2.2]
  height : lib.num (f.text .sampleHeight) = some s.height
  width : lib.num (f.text .sampleWidth) = some s.width
  depth : lib.num (f.text .sampleDepth) = some s.depth
  u : Lists lib (f.text .sampleU) s.u
  v : Lists lib (f.text .sampleV) s.v
  dir : Turns (f.choice .sampleDir) s.dir
  mosaic : lib.num (f.text .sampleMosaic) = some s.mosaic
  vmosaic : lib.num (f.text .sampleVmosaic) = some s.vmosaic
  shape : s.shape = (f.choice .shape).toLower

/-- The monochromator that is entered. -/
structure EntersMono (lib : Library) (f : Form) (c : Crystal) : Prop where
  tau : f.choice .mono ≠ "Custom" ∧ getTau .other (.name (f.choice .mono).toList) = .ok (some c.tau)
  mosaic : lib.num (f.text .monoMosaic) = some c.mosaic
  vmosaic : lib.num (f.text .monoVmosaic) = some c.vmosaic
  dir : Turns (f.choice .monoDir) c.dir
  height : lib.num (f.text .monoHeight) = some c.height
  width : lib.num (f.text .monoWidth) = some c.width
  depth : lib.num (f.text .monoDepth) = some c.depth
  rh : Curved lib (f.text .monoHcurve) c.rh
  rv : Curved lib (f.text .monoVcurve) c.rv

/-- The analyzer that is entered. -/
structure EntersAna (lib : Library) (f : Form) (c : Crystal) : Prop where
  tau : f.choice .ana ≠ "Custom" ∧ getTau .other (.name (f.choice .ana).toList) = .ok (some c.tau)
  mosaic : lib.num (f.text .anaMosaic) = some c.mosaic
  vmosaic : lib.num (f.text .anaVmosaic) = some c.vmosaic
  dir : Turns (f.choice .anaDir) c.dir
  height : lib.num (f.text .anaHeight) = some c.height
  width : lib.num (f.text .anaWidth) = some c.width
  depth : lib.num (f.text .anaDepth) = some c.depth
  rh : Curved lib (f.text .anaHcurve) c.rh
  rv : Curved lib (f.text .anaVcurve) c.rv

/-- The fixed energy that is entered, in any of the three units. -/
def EntersEnergy (lib : Library) (f : Form) (e : ℝ) : Prop := ∃ x, lib.num (f.text .energy) = some x ∧
  (∃ a, lib.ofWavelength x = some a) ∧ (∃ a, lib.ofWavevector x = some a) ∧
  ((f.choice .energy = "energy (meV)" ∧ e = x) ∨ (f.choice .energy = "wavelength (A)" ∧ lib.ofWavelength x = some e) ∨
    (f.choice .energy = "wave vector (A-1)" ∧ lib.ofWavevector x = some e))

/-- The instrument that is entered, and the point. -/
structure Enters (lib : Library) (f : Form) (s : Settings) : Prop where
  sample : EntersSample lib f s.sample
  mono : EntersMono lib f s.mono
  ana : EntersAna lib f s.ana
  efixed : EntersEnergy lib f s.efixed
  infin : (f.choice .fixed = "ki" ∧ s.infin = 1) ∨ (f.choice .fixed = "kf" ∧ s.infin = -1)
  hcol : Lists lib (f.text .hcols) s.hcol
  vcol : Lists lib (f.text .vcols) s.vcol
  arms : Lists lib (f.text .arms) s.arms
  guideHeight : lib.num (f.text .guideHeight) = some s.guideHeight
  guideWidth : lib.num (f.text .guideWidth) = some s.guideWidth
  detectorHeight : lib.num (f.text .detectorHeight) = some s.detectorHeight
  detectorWidth : lib.num (f.text .detectorWidth) = some s.detectorWidth
  moncor : (f.choice .moncor = "On" ∧ s.moncor = 1) ∨ (f.choice .moncor = "Off" ∧ s.moncor = 0)
  method : (f.choice .method = "Cooper-Nathans" ∧ s.method = 0) ∨ (f.choice .method = "Popovici" ∧ s.method = 1)
  q : Lists lib (f.text .q) s.q

/-! ## Lemmas -/

section
variable {lib : Library}

lemma number_ok {s : String} {x : ℝ} (h : lib.num s = some x) : number lib s = .ok x := by unfold number; rw [h]

lemma numbers_ok {s : String} {l : List ℝ} (h : Lists lib s l) : numbers lib s = .ok l := by
  obtain ⟨ts, n, hc, e, h⟩ := h
  have : split s = ts := by
    unfold split
    rw [e, List.splitOn_intercalate _ (by simpa using hc) (by simpa using n), List.map_map]
    simp
  unfold numbers
  rw [this]
  clear this e hc n
  induction h with
  | nil => rfl
  | cons h _ ih => rw [List.mapM_cons, number_ok h, ih]; rfl

lemma turns_ok {s : String} {d : ℤ} (h : Turns s d) : choose directions s = .ok d := by
  rcases h with ⟨rfl, rfl⟩ | ⟨rfl, rfl⟩ <;> decide

lemma curvature_ok {s : String} {r : Option ℝ} (h : Curved lib s r) : curvature lib s = .ok r := by
  rcases h with ⟨rfl, rfl⟩ | ⟨n, x, hx, rfl⟩
  · rfl
  · unfold curvature; rw [if_neg n, number_ok hx]; rfl

lemma reflection_ok {s : String} {t : ℝ} (h : s ≠ "Custom" ∧ getTau .other (.name s.toList) = .ok (some t)) : reflection s = .ok t := by
  unfold reflection; rw [if_neg h.1, h.2]

lemma sample_ok {f : Form} {s : Sample} (h : EntersSample lib f s) : sampleOf lib f = .ok s := by
  unfold sampleOf
  rw [numbers_ok h.abc, numbers_ok h.abg, number_ok h.height, number_ok h.width, number_ok h.depth, numbers_ok h.u, numbers_ok h.v,
    turns_ok h.dir, number_ok h.mosaic, number_ok h.vmosaic, ← h.shape]
  rfl

lemma mono_ok {f : Form} {c : Crystal} (h : EntersMono lib f c) : monoOf lib f = .ok c := by
  unfold monoOf
  rw [reflection_ok h.tau, number_ok h.mosaic, number_ok h.vmosaic, turns_ok h.dir, number_ok h.height, number_ok h.width, number_ok h.depth,
    curvature_ok h.rh, curvature_ok h.rv]
  rfl

lemma energy_ok {f : Form} {e : ℝ} (h : EntersEnergy lib f e) :
    ∃ d, energies lib (f.text .energy) = .ok d ∧ choose d (f.choice .energy) = .ok e := by
  obtain ⟨x, hx, ⟨a, ha⟩, ⟨b, hb⟩, h⟩ := h
  refine ⟨[("energy (meV)", x), ("wavelength (A)", a), ("wave vector (A-1)", b)], ?_, ?_⟩
  · unfold energies; simp only [number_ok hx, bind, Except.bind, pure, Except.pure, ha, hb]
  · rcases h with ⟨k, rfl⟩ | ⟨k, h⟩ | ⟨k, h⟩
    · rw [k]; rfl
    · rw [k]; rw [ha] at h; injection h with h; subst h; rfl
    · rw [k]; rw [hb] at h; injection h with h; subst h; rfl

lemma settings_ok {f : Form} {s : Settings} (h : Enters lib f s) {c : Crystal} (hc : anaOf lib f = .ok c) {d : List (String × ℝ)}
    (hd : choose d (f.choice .energy) = .ok s.efixed) : settings lib d f = .ok { s with ana := c } := by
  have i : choose fixedSides (f.choice .fixed) = .ok s.infin := by
    rcases h.infin with ⟨k, e⟩ | ⟨k, e⟩ <;> rw [k, e] <;> rfl
  have m : choose corrections (f.choice .moncor) = .ok s.moncor := by
    rcases h.moncor with ⟨k, e⟩ | ⟨k, e⟩ <;> rw [k, e] <;> rfl
  have o : choose methods (f.choice .method) = .ok s.method := by
    rcases h.method with ⟨k, e⟩ | ⟨k, e⟩ <;> rw [k, e] <;> rfl
  unfold settings
  rw [sample_ok h.sample, mono_ok h.mono, hc, hd, i, numbers_ok h.hcol, numbers_ok h.vcol, numbers_ok h.arms, number_ok h.guideHeight,
    number_ok h.guideWidth, number_ok h.detectorHeight, number_ok h.detectorWidth, m, o, numbers_ok h.q]
  rfl

lemma ana_ok {f : Form} {c : Crystal} (h : EntersAna lib f c) (flat : f.text .monoVcurve = "None") : anaOf lib f = .ok { c with rv := none } := by
  unfold anaOf anaCurvature
  rw [reflection_ok h.tau, number_ok h.mosaic, number_ok h.vmosaic, turns_ok h.dir, number_ok h.height, number_ok h.width, number_ok h.depth,
    curvature_ok h.rh]
  simp only [bind, Except.bind, pure, Except.pure, if_pos flat]

lemma ana_curved {f : Form} {c : Crystal} {x : ℝ} (h : EntersAna lib f c) (m : f.text .monoVcurve ≠ "None")
    (a : lib.num (f.text .anaVcurve) = some x) : anaOf lib f = .ok { c with rh := some x, rv := none } := by
  unfold anaOf anaCurvature
  rw [reflection_ok h.tau, number_ok h.mosaic, number_ok h.vmosaic, turns_ok h.dir, number_ok h.height, number_ok h.width, number_ok h.depth,
    curvature_ok h.rh, number_ok a]
  simp only [bind, Except.bind, pure, Except.pure, if_neg m]

/-! ## C175 -/

/-- **C175** (partial): if neither the monochromator nor the analyzer is curved vertically, the resolution is calculated for exactly the
instrument and the point that are entered.  Missing: curved crystals (`C175_curved_false`), other crystals (`C175_custom_false`), and
that the result is shown, which it never is (`C175_opens_false`). -/
theorem C175_calculates_partial {f : Form} {s : Settings} (h : Enters lib f s) (m : f.text .monoVcurve = "None")
    (a : f.text .anaVcurve = "None") {t : String} (ht : lib.calculate s = some t) : (launch lib f).calculated = some s := by
  obtain ⟨d, h1, h2⟩ := energy_ok h.efixed
  have e := settings_ok h (ana_ok h.ana m) h2
  have rv : s.ana.rv = none := by
    rcases h.ana.rv with ⟨-, k⟩ | ⟨k, -⟩
    · exact k
    · exact absurd a k
  rw [show ({ s with ana := { s.ana with rv := none } } : Settings) = s by rw [← rv]] at e
  unfold launch
  rw [h1]
  show (load lib d f).calculated = some s
  unfold load
  rw [e]
  dsimp only
  rw [ht]

/-- **C175 is false** in full: whatever is entered, the window does not open but an exception is raised, and no result is shown. -/
theorem C175_opens_false (lib : Library) (f : Form) : (launch lib f).raised ≠ none ∧ (launch lib f).shown = none := by
  unfold launch
  split
  · exact ⟨by simp, rfl⟩
  · unfold load
    split
    · exact ⟨by simp, rfl⟩
    · split
      · exact ⟨by simp, rfl⟩
      · exact ⟨by simp, rfl⟩

/-- **C175 is false** in full: if both crystals are curved vertically, the vertical curvature of the analyzer is taken for its horizontal
one, whatever is entered for that, and its vertical curvature is left as it is. -/
theorem C175_curved_false {f : Form} {s : Settings} (h : Enters lib f s) {x : ℝ} (m : f.text .monoVcurve ≠ "None")
    (a : lib.num (f.text .anaVcurve) = some x) {t : String}
    (ht : lib.calculate { s with ana := { s.ana with rh := some x, rv := none } } = some t) :
    (launch lib f).calculated = some { s with ana := { s.ana with rh := some x, rv := none } } := by
  obtain ⟨d, h1, h2⟩ := energy_ok h.efixed
  have e := settings_ok h (ana_curved h.ana m a) h2
  unfold launch
  rw [h1]
  show (load lib d f).calculated = _
  unfold load
  rw [e]
  dsimp only
  rw [ht]

/-- **C175 is false** in full: if only the monochromator is curved vertically, nothing is calculated (`float('None')`). -/
theorem C175_mono_false (none_num : lib.num "None" = none) {f : Form} (m : f.text .monoVcurve ≠ "None") (a : f.text .anaVcurve = "None") :
    (launch lib f).calculated = none := by
  have k : ∀ c, anaCurvature lib f ≠ .ok c := by
    intro c
    unfold anaCurvature
    rw [a, show number lib "None" = .error .valueError by unfold number; rw [none_num]]
    simp only [bind, Except.bind, if_neg m]
    cases curvature lib (f.text .anaHcurve) <;> exact nofun
  have k' : ∀ c, anaOf lib f ≠ .ok c := by
    intro c e
    unfold anaOf at e
    simp only [bind, Except.bind] at e
    repeat' split at e
    all_goals first | exact absurd ‹anaCurvature lib f = .ok _› (k _) | exact nomatch e
  have k'' : ∀ d s, settings lib d f ≠ .ok s := by
    intro d s e
    unfold settings at e
    cases h1 : sampleOf lib f with
    | error _ => rw [h1] at e; exact nomatch e
    | ok _ => cases h2 : monoOf lib f with
      | error _ => rw [h1, h2] at e; exact nomatch e
      | ok _ => cases h3 : anaOf lib f with
        | error _ => rw [h1, h2, h3] at e; exact nomatch e
        | ok c => exact k' c h3
  unfold launch
  split
  · rfl
  · unfold load
    split
    · rfl
    · rename_i s h
      exact absurd h (k'' _ s)

/-- **C175 is false** in full: with a crystal that is not in the list (`Custom`) nothing is calculated. -/
theorem C175_custom_false {f : Form} (h : f.choice .mono = "Custom" ∨ f.choice .ana = "Custom") : (launch lib f).calculated = none := by
  have c : reflection "Custom" = .error .typeError := if_pos rfl
  have k : ∀ d s, settings lib d f ≠ .ok s := by
    intro d s e
    unfold settings at e
    cases h1 : sampleOf lib f with
    | error _ => rw [h1] at e; exact nomatch e
    | ok _ => cases h2 : monoOf lib f with
      | error _ => rw [h1, h2] at e; exact nomatch e
      | ok _ => cases h3 : anaOf lib f with
        | error _ => rw [h1, h2, h3] at e; exact nomatch e
        | ok _ =>
          rcases h with h | h
          · unfold monoOf at h2; rw [h, c] at h2; exact nomatch h2
          · unfold anaOf at h3; rw [h, c] at h3; exact nomatch h3
  unfold launch
  split
  · rfl
  · unfold load
    split
    · rfl
    · rename_i s h
      exact absurd h (k _ s)

/-- A library and a form that meet the hypotheses: numbers are the digits. -/
noncomputable def exLib (t : String) : Library where
  num s := if s = "0" then some 0 else if s = "1" then some 1 else if s = "5" then some 5 else none
  ofWavelength x := some (81.8 / x ^ 2)
  ofWavevector x := some (2.07 * x ^ 2)
  calculate _ := some t

/-- The texts of the example. -/
def exText : Field → String
  | .abc => "5,5,5" | .abg => "1,1,1" | .sampleU => "1,0,0" | .sampleV => "0,1,0" | .q => "1,0,0,5"
  | .hcols | .vcols | .arms => "5,5,5,5" | .monoHcurve | .monoVcurve | .anaVcurve => "None" | _ => "5"

/-- The choices of the example. -/
def exChoice : Choice → String
  | .fixed => "kf" | .energy => "energy (meV)" | .mono => "PG(002)" | .ana => "Ge(111)" | .shape => "Rectangular"
  | .sampleDir => "Counter-Clockwise" | .monoDir | .anaDir => "Clockwise" | .method => "Popovici" | .moncor => "On"

lemma exLists {t s : String} (ts : List String) (l : List ℝ) (n : ts ≠ []) (h : ∀ x ∈ ts, ',' ∉ x.toList)
    (e : s.toList = [','].intercalate (ts.map String.toList)) (k : List.Forall₂ (fun t' x => (exLib t).num t' = some x) ts l) :
    Lists (exLib t) s l := ⟨ts, n, h, e, k⟩

/-- The settings of the example. -/
noncomputable def exSettings (a b : ℝ) : Settings where
  sample := ⟨(5, 5, 5), (1, 1, 1), 5, 5, 5, [1, 0, 0], [0, 1, 0], -1, 5, 5, "Rectangular".toLower⟩
  mono := ⟨a, 5, 5, 1, 5, 5, 5, none, none⟩
  ana := ⟨b, 5, 5, 1, 5, 5, 5, some 5, none⟩
  efixed := 5
  infin := -1
  hcol := [5, 5, 5, 5]
  vcol := [5, 5, 5, 5]
  arms := [5, 5, 5, 5]
  guideHeight := 5
  guideWidth := 5
  detectorHeight := 5
  detectorWidth := 5
  moncor := 1
  method := 1
  q := [1, 0, 0, 5]

end

/-- **C175**: every entry of the lists of crystals other than `Custom` is the name of a crystal. -/
theorem C175_catalogue (c : Choice) (hc : c = .mono ∨ c = .ana) {n : String} (hn : n ∈ items c) (h : n ≠ "Custom") :
    ∃ t, 0 < t ∧ getTau .other (.name n.toList) = .ok (some t) := by
  have all : ∀ n ∈ items .mono, n ≠ "Custom" →
      ∃ e ∈ Verif.Tools.choicesDisplay, e ≠ ("Cu(111)".toList, .spacing 2.087) ∧ Verif.Tools.lower e.1 = Verif.Tools.lower n.toList := by
    decide +kernel
  have hn' : n ∈ items .mono := by rcases hc with rfl | rfl <;> exact hn
  obtain ⟨e, he, hne, hl⟩ := all n hn' h
  have k := Verif.Tools.C53_known .other e he hne
  refine ⟨e.2.val, ?_, ?_⟩
  · fin_cases he <;> simp [Verif.Tools.Entry.val] <;> norm_num <;> positivity
  · rw [← k]
    simp only [getTau, hl]

/-- The example is entered. -/
lemma exEnters (t : String) : ∃ a b, Enters (exLib t) ⟨exText, exChoice⟩ (exSettings a b) := by
  obtain ⟨a, -, ha⟩ := C175_catalogue .mono (.inl rfl) (n := "PG(002)") (by decide) (by decide)
  obtain ⟨b, -, hb⟩ := C175_catalogue .ana (.inr rfl) (n := "Ge(111)") (by decide) (by decide)
  have n5 : (exLib t).num "5" = some 5 := by simp [exLib]
  have n1 : (exLib t).num "1" = some 1 := by simp [exLib]
  have n0 : (exLib t).num "0" = some 0 := by simp [exLib]
  have l4 : Lists (exLib t) "5,5,5,5" [5, 5, 5, 5] := exLists ["5", "5", "5", "5"] _ (by decide) (by decide) (by decide)
    (.cons n5 (.cons n5 (.cons n5 (.cons n5 .nil))))
  exact ⟨a, b,
    { sample := { abc := exLists ["5", "5", "5"] _ (by decide) (by decide) (by decide) (.cons n5 (.cons n5 (.cons n5 .nil)))
                  abg := exLists ["1", "1", "1"] _ (by decide) (by decide) (by decide) (.cons n1 (.cons n1 (.cons n1 .nil)))
                  height := n5, width := n5, depth := n5
                  u := exLists ["1", "0", "0"] _ (by decide) (by decide) (by decide) (.cons n1 (.cons n0 (.cons n0 .nil)))
                  v := exLists ["0", "1", "0"] _ (by decide) (by decide) (by decide) (.cons n0 (.cons n1 (.cons n0 .nil)))
                  dir := .inr ⟨rfl, rfl⟩, mosaic := n5, vmosaic := n5, shape := rfl }
      mono := { tau := ⟨by decide, ha⟩, mosaic := n5, vmosaic := n5, dir := .inl ⟨rfl, rfl⟩, height := n5, width := n5, depth := n5
                rh := .inl ⟨rfl, rfl⟩, rv := .inl ⟨rfl, rfl⟩ }
      ana := { tau := ⟨by decide, hb⟩, mosaic := n5, vmosaic := n5, dir := .inl ⟨rfl, rfl⟩, height := n5, width := n5, depth := n5
               rh := .inr ⟨by decide, 5, n5, rfl⟩, rv := .inl ⟨rfl, rfl⟩ }
      efixed := ⟨5, n5, ⟨_, rfl⟩, ⟨_, rfl⟩, .inl ⟨rfl, rfl⟩⟩
      infin := .inr ⟨rfl, rfl⟩
      hcol := l4, vcol := l4, arms := l4
      guideHeight := n5, guideWidth := n5, detectorHeight := n5, detectorWidth := n5
      moncor := .inl ⟨rfl, rfl⟩
      method := .inr ⟨rfl, rfl⟩
      q := exLists ["1", "0", "0", "5"] _ (by decide) (by decide) (by decide) (.cons n1 (.cons n0 (.cons n0 (.cons n5 .nil)))) }⟩

/-- The hypotheses of `C175_calculates_partial` are met: with crystals from the list, a horizontally curved analyzer, and the method of
Popovici. -/
example (t : String) : ∃ a b, (launch (exLib t) ⟨exText, exChoice⟩).calculated = some (exSettings a b) := by
  obtain ⟨a, b, h⟩ := exEnters t
  exact ⟨a, b, C175_calculates_partial h rfl rfl rfl⟩

/-- The form of the example with other vertical curvatures. -/
def exCurved (m a : String) : Form := ⟨fun | .monoVcurve => m | .anaVcurve => a | k => exText k, exChoice⟩

/-- Those of `C175_curved_false` are met: a curvature of `1` is entered vertically for both crystals and of `5` horizontally for the
analyzer; the calculation is done for a horizontal curvature of `1`. -/
example (t : String) : ∃ s, (launch (exLib t) (exCurved "1" "1")).calculated = some s ∧ s.ana.rh = some 1 ∧ s.ana.rv = none ∧
    Curved (exLib t) ((exCurved "1" "1").text .anaHcurve) (some 5) := by
  obtain ⟨a, b, h⟩ := exEnters t
  have n1 : (exLib t).num "1" = some 1 := by simp [exLib]
  have n5 : (exLib t).num "5" = some 5 := by simp [exLib]
  have h' : Enters (exLib t) (exCurved "1" "1") { exSettings a b with
      mono := { (exSettings a b).mono with rv := some 1 }, ana := { (exSettings a b).ana with rv := some 1 } } :=
    { sample := ⟨h.sample.1, h.sample.2, h.sample.3, h.sample.4, h.sample.5, h.sample.6, h.sample.7, h.sample.8, h.sample.9, h.sample.10,
        h.sample.11⟩
      mono := ⟨h.mono.1, h.mono.2, h.mono.3, h.mono.4, h.mono.5, h.mono.6, h.mono.7, h.mono.8, .inr ⟨by decide, 1, n1, rfl⟩⟩
      ana := ⟨h.ana.1, h.ana.2, h.ana.3, h.ana.4, h.ana.5, h.ana.6, h.ana.7, h.ana.8, .inr ⟨by decide, 1, n1, rfl⟩⟩
      efixed := h.efixed, infin := h.infin, hcol := h.hcol, vcol := h.vcol, arms := h.arms, guideHeight := h.guideHeight
      guideWidth := h.guideWidth, detectorHeight := h.detectorHeight, detectorWidth := h.detectorWidth, moncor := h.moncor
      method := h.method, q := h.q }
  exact ⟨_, C175_curved_false h' (x := 1) (by decide) n1 rfl, rfl, rfl, .inr ⟨by decide, 5, n5, rfl⟩⟩

/-- Those of `C175_mono_false` are met. -/
example (t : String) : (launch (exLib t) (exCurved "1" "None")).calculated = none :=
  C175_mono_false (by simp [exLib]) (by decide) rfl

/-- Those of `C175_custom_false` are met. -/
example (t : String) : (launch (exLib t) ⟨exText, fun | .mono => "Custom" | c => exChoice c⟩).calculated = none := C175_custom_false (.inl rfl)

end Verif.Gui
