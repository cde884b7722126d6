import Verif.FileIO.ParCfg
import Verif.Resolution.PropsCylinder

/-! # Property theorems: instruments from `par` and `cfg` files (C158) -/

namespace Verif.FileIO

open Real Matrix
open Verif.Resolution

/-! ## Specification -/

/-- The line gives the value `x` to the name: a number, then `%` and the name in letters of either case. -/
def Assigns (fl : Text → Option ℝ) (line name : Text) (x : ℝ) : Prop :=
  ∃ v n rest, words line = v :: ('%' :: n) :: rest ∧ fl v = some x ∧ lower n = name

/-- Every line of the file gives a value to a name. -/
def AllAssign (fl : Text → Option ℝ) (file : Text) : Prop := ∀ l ∈ fileLines file, ∃ n x, Assigns fl l n x

/-- The last line of the file about this name gives it the value `x`. -/
def Says (fl : Text → Option ℝ) (file name : Text) (x : ℝ) : Prop :=
  ∃ before line after, fileLines file = before ++ line :: after ∧ Assigns fl line name x ∧
    ∀ l ∈ after, ∀ y, ¬ Assigns fl l name y

/-- The quantities by their names. -/
def Par.named (P : Par) : List (Text × ℝ) :=
  [(cs!"dm", P.dm), (cs!"da", P.da), (cs!"etam", P.etam), (cs!"etaa", P.etaa), (cs!"etas", P.etas),
   (cs!"sm", P.sm), (cs!"ss", P.ss), (cs!"sa", P.sa), (cs!"k", P.k), (cs!"kfix", P.kfix),
   (cs!"alpha1", P.alpha 0), (cs!"alpha2", P.alpha 1), (cs!"alpha3", P.alpha 2), (cs!"alpha4", P.alpha 3),
   (cs!"beta1", P.beta 0), (cs!"beta2", P.beta 1), (cs!"beta3", P.beta 2), (cs!"beta4", P.beta 3),
   (cs!"as", P.cell 0), (cs!"bs", P.cell 1), (cs!"cs", P.cell 2),
   (cs!"aa", P.cell 3), (cs!"bb", P.cell 4), (cs!"cc", P.cell 5),
   (cs!"ax", P.u 0), (cs!"ay", P.u 1), (cs!"az", P.u 2), (cs!"bx", P.v 0), (cs!"by", P.v 1), (cs!"bz", P.v 2)]

/-- The file has the lines of `P`, and lines only. -/
structure IsPar (fl : Text → Option ℝ) (file : Text) (P : Par) : Prop where
  lines : AllAssign fl file
  named : ∀ e ∈ P.named, Says fl file e.1 e.2

/-- The file starts with the thirty numbers of `C`, one at the beginning of each line, and the further lines begin
with numbers too. -/
def IsCfg (fl : Text → Option ℝ) (file : Text) (C : Fin 30 → ℝ) : Prop :=
  ∃ more : List ℝ, List.Forall₂ (fun l x => ∃ v rest, words l = v :: rest ∧ fl v = some x) (fileLines file)
    (List.ofFn C ++ more)

/-- The energy of a neutron with the wavevector `k` in Å⁻¹. -/
noncomputable def neutronEnergy (c : Energy.Consts) (k : ℝ) : ℝ := (c.hbar * (k * 10 ^ 10)) ^ 2 / (2 * c.m) * c.J

/-- The width of a slit that has the spread of the source, the detector or the sample of size `x`: of itself if it is
rectangular (flag not zero), of an ellipse otherwise. -/
noncomputable def slit (flag x : ℝ) : ℝ := if flag = 0 then x * √12 / 4 else x

/-- The collimation in front of the monochromator: that of the guide if this is smaller. -/
noncomputable def inPile (k flag guide col : ℝ) : ℝ := if flag = 1 then min col (guide * (2 * π / k)) else col

/-- The radius that belongs to a curvature; a flat crystal has none. -/
noncomputable def bent (x : ℝ) : Option ℝ := if x = 0 then none else some x⁻¹

/-- Specification: the settings that someone makes who reads the tables of the documentation.  The scattering senses are
those of the file, the mosaic of the sample is etas, a positive curvature is a positive radius, and source, detector,
monitor and sample have the given sizes. -/
noncomputable def byHand (c : Energy.Consts) (P : Par) (C : Fin 30 → ℝ) : Settings where
  efixed := neutronEnergy c P.k
  infin := some (if P.kfix = 1 then 1 else -1)
  method := some (.number 1)
  moncor := none
  horifoc := none
  hcol := ![inPile P.k (C 3) (C 4) (P.alpha 0), P.alpha 1, P.alpha 2, P.alpha 3]
  vcol := ![inPile P.k (C 3) (C 5) (P.beta 0), P.beta 1, P.beta 2, P.beta 3]
  arms := some [C 19, C 20, C 21, C 22, C 27]
  mono := { tau := 2 * π / P.dm, mosaic := P.etam, vmosaic := none, depth := some (C 13), width := some (C 14),
            height := some (C 15), rh := bent (C 23), rv := bent (C 24), dir := P.sm, thickness := none, reflQ := none }
  ana := { tau := 2 * π / P.da, mosaic := P.etaa, vmosaic := none, depth := some (C 16), width := some (C 17),
           height := some (C 18), rh := bent (C 25), rv := bent (C 26), dir := P.sa, thickness := none, reflQ := none }
  sample := { mosaic := some P.etas, vmosaic := none, width := some (slit (C 6) (C 7)), depth := some (slit (C 6) (C 8)),
              height := some (C 9), shapeType := some cs!"rectangular", shape := none, dir := P.ss }
  guide := ⟨some (slit (C 0) (C 1)), some (slit (C 0) (C 2))⟩
  monitor := ⟨some (C 28), some (C 29)⟩
  detector := ⟨some (slit (C 10) (C 11)), some (slit (C 10) (C 12))⟩

/-- The names of the table in the documentation of `load_instrument` (fileio/instrument.py 90-173). -/
def documentedNames : List Text :=
  [cs!"dm", cs!"da", cs!"etam", cs!"etaa", cs!"etas", cs!"sm", cs!"ss", cs!"sa", cs!"k",
   cs!"alpha1", cs!"alpha2", cs!"alpha3", cs!"alpha4", cs!"beta1", cs!"beta2", cs!"beta3", cs!"beta4",
   cs!"as", cs!"bs", cs!"cs", cs!"aa", cs!"bb", cs!"cc", cs!"ax", cs!"ay", cs!"az", cs!"bx", cs!"by", cs!"bz",
   cs!"qx", cs!"qy", cs!"qz", cs!"en", cs!"dqx", cs!"dqy", cs!"dqz", cs!"de", cs!"gh", cs!"gk", cs!"gl", cs!"gmod"]

/-! ## Reading the files -/

theorem parLine_assigns {fl : Text → Option ℝ} {l n : Text} {x : ℝ} (h : Assigns fl l n x) (d : ParDict) :
    parLine fl d l = .ok (Function.update d n (some x)) := by
  obtain ⟨v, m, rest, hw, hv, rfl⟩ := h
  simp [parLine, hw, hv]

theorem assigns_unique {fl : Text → Option ℝ} {l n n' : Text} {x x' : ℝ} (h : Assigns fl l n x)
    (h' : Assigns fl l n' x') : n = n' ∧ x = x' := by
  obtain ⟨v, m, rest, hw, hv, rfl⟩ := h
  obtain ⟨v', m', rest', hw', hv', rfl⟩ := h'
  rw [hw] at hw'
  simp only [List.cons.injEq, true_and] at hw'
  obtain ⟨rfl, rfl, -⟩ := hw'
  rw [hv] at hv'
  exact ⟨rfl, Option.some.inj hv'⟩

theorem parLines_spec {fl : Text → Option ℝ} (ls : List Text) (d : ParDict) (h : ∀ l ∈ ls, ∃ n x, Assigns fl l n x) :
    ∃ d', parLines fl d ls = .ok d' ∧ ∀ n x, d' n = some x ↔
      (∃ before line after, ls = before ++ line :: after ∧ Assigns fl line n x ∧ ∀ l ∈ after, ∀ y, ¬ Assigns fl l n y) ∨
      (d n = some x ∧ ∀ l ∈ ls, ∀ y, ¬ Assigns fl l n y) := by
  induction ls generalizing d with
  | nil => exact ⟨d, rfl, fun n x => by simp⟩
  | cons l ls ih =>
    obtain ⟨m, y, hl⟩ := h l List.mem_cons_self
    obtain ⟨d', e, hd⟩ := ih (Function.update d m (some y)) fun k hk => h k (List.mem_cons_of_mem _ hk)
    refine ⟨d', by simp [parLines, parLine_assigns hl, e], fun n x => ?_⟩
    rw [hd]
    constructor
    · rintro (⟨b, k, a, rfl, hk, ha⟩ | ⟨h1, h2⟩)
      · exact .inl ⟨l :: b, k, a, rfl, hk, ha⟩
      · by_cases hn : n = m
        · subst hn
          rw [Function.update_self, Option.some.injEq] at h1
          subst h1
          exact .inl ⟨[], l, ls, rfl, hl, h2⟩
        · rw [Function.update_of_ne hn] at h1
          refine .inr ⟨h1, fun k hk z hz => ?_⟩
          rcases List.mem_cons.1 hk with rfl | hk
          · exact hn (assigns_unique hz hl).1
          · exact h2 k hk z hz
    · rintro (⟨b, k, a, hb, hk, ha⟩ | ⟨h1, h2⟩)
      · cases b with
        | nil =>
          simp only [List.nil_append, List.cons.injEq] at hb
          obtain ⟨rfl, rfl⟩ := hb
          obtain ⟨rfl, rfl⟩ := assigns_unique hk hl
          exact .inr ⟨Function.update_self .., ha⟩
        | cons b0 b =>
          simp only [List.cons_append, List.cons.injEq] at hb
          obtain ⟨rfl, rfl⟩ := hb
          exact .inl ⟨b, k, a, rfl, hk, ha⟩
      · refine .inr ⟨?_, fun k hk => h2 k (List.mem_cons_of_mem _ hk)⟩
        have hn : n ≠ m := fun hn => h2 l List.mem_cons_self y (hn ▸ hl)
        rwa [Function.update_of_ne hn]

/-- The dictionary has what the last lines say. -/
theorem readPar_spec {fl : Text → Option ℝ} {file : Text} (h : AllAssign fl file) :
    ∃ d, readPar fl file = .ok d ∧ ∀ n x, d n = some x ↔ Says fl file n x := by
  obtain ⟨d, e, hd⟩ := parLines_spec (fileLines file) (fun _ => none) h
  exact ⟨d, e, fun n x => by simp [hd, Says]⟩

theorem get_ok {d : ParDict} {n : Text} {x : ℝ} (h : d n = some x) : d.get n = .ok x := by simp [ParDict.get, h]

theorem par_ok {d : ParDict} {P : Par} (h : ∀ e ∈ P.named, d e.1 = some e.2) : d.par = .ok P := by
  have g : ∀ n x, (n, x) ∈ P.named → d.get n = .ok x := fun n x hm => get_ok (h _ hm)
  have a4 : ∀ f : Fin 4 → ℝ, ![f 0, f 1, f 2, f 3] = f := fun f => by ext i; fin_cases i <;> rfl
  have a3 : ∀ f : Fin 3 → ℝ, ![f 0, f 1, f 2] = f := fun f => by ext i; fin_cases i <;> rfl
  have a6 : ∀ f : Fin 6 → ℝ, ![f 0, f 1, f 2, f 3, f 4, f 5] = f := fun f => by ext i; fin_cases i <;> rfl
  unfold ParDict.par
  rw [g _ P.sm (by simp [Par.named]), g _ P.ss (by simp [Par.named]), g _ P.sa (by simp [Par.named]),
    g _ P.kfix (by simp [Par.named]), g _ (P.alpha 0) (by simp [Par.named]), g _ (P.alpha 1) (by simp [Par.named]),
    g _ (P.alpha 2) (by simp [Par.named]), g _ (P.alpha 3) (by simp [Par.named]), g _ (P.beta 0) (by simp [Par.named]),
    g _ (P.beta 1) (by simp [Par.named]), g _ (P.beta 2) (by simp [Par.named]), g _ (P.beta 3) (by simp [Par.named]),
    g _ P.k (by simp [Par.named]), g _ (P.cell 0) (by simp [Par.named]), g _ (P.cell 1) (by simp [Par.named]),
    g _ (P.cell 2) (by simp [Par.named]), g _ (P.cell 3) (by simp [Par.named]), g _ (P.cell 4) (by simp [Par.named]),
    g _ (P.cell 5) (by simp [Par.named]), g _ P.etas (by simp [Par.named]), g _ (P.u 0) (by simp [Par.named]),
    g _ (P.u 1) (by simp [Par.named]), g _ (P.u 2) (by simp [Par.named]), g _ (P.v 0) (by simp [Par.named]),
    g _ (P.v 1) (by simp [Par.named]), g _ (P.v 2) (by simp [Par.named]), g _ P.dm (by simp [Par.named]),
    g _ P.etam (by simp [Par.named]), g _ P.da (by simp [Par.named]), g _ P.etaa (by simp [Par.named])]
  change Except.ok _ = _
  rw [a4, a4, a6, a3, a3]

theorem cfgLines_ok {fl : Text → Option ℝ} {ls : List Text} {xs : List ℝ}
    (h : List.Forall₂ (fun l x => ∃ v rest, words l = v :: rest ∧ fl v = some x) ls xs) : cfgLines fl ls = .ok xs := by
  induction h with
  | nil => rfl
  | cons h _ ih =>
    obtain ⟨v, rest, hw, hv⟩ := h
    simp [cfgLines, hw, hv, ih]

theorem cfgEntries_ok (C : Fin 30 → ℝ) (more : List ℝ) : cfgEntries (List.ofFn C ++ more) = .ok C := by
  have hl : 30 ≤ (List.ofFn C ++ more).length := by simp
  unfold cfgEntries
  rw [dif_pos hl]
  congr 1
  ext i
  have : (i : ℕ) < (List.ofFn C).length := by rw [List.length_ofFn]; exact i.2
  change (List.ofFn C ++ more)[(i : ℕ)] = C i
  rw [List.getElem_append_left this, List.getElem_ofFn]

/-- Both files are read. -/
theorem load_eq {c : Energy.Consts} {fl : Text → Option ℝ} {par cfg : Text} {P : Par} {C : Fin 30 → ℝ}
    (hP : IsPar fl par P) (hC : IsCfg fl cfg C) : loadParCfg c fl par cfg = fromEntries c P C := by
  obtain ⟨d, e, hd⟩ := readPar_spec hP.lines
  obtain ⟨more, hm⟩ := hC
  have h1 : d.par = .ok P := par_ok fun n hn => (hd _ _).2 (hP.named n hn)
  have h2 : readCfg fl cfg = .ok (List.ofFn C ++ more) := cfgLines_ok hm
  unfold loadParCfg
  rw [e, h2]
  change (d.par >>= _) = _
  rw [h1]
  change (cfgEntries (List.ofFn C ++ more) >>= fun C => fromEntries c P C) = _
  rw [cfgEntries_ok]
  rfl

theorem behindGuide_eq {k : ℝ} (hk : k ≠ 0) (g col : ℝ) : behindGuide k g col = .ok (min col (g * (2 * π / k))) := by
  unfold behindGuide
  rw [if_neg hk]
  have e : π / 60 / 180 * 2 * π * g / k = π / 60 / 180 * (g * (2 * π / k)) := by ring
  have e' : col * π / 60 / 180 = π / 60 / 180 * col := by ring
  have hp : 0 < π / 60 / 180 := by positivity
  by_cases h : g * (2 * π / k) ≤ col
  · rw [if_pos (by rw [e, e']; exact mul_le_mul_of_nonneg_left h hp.le), min_eq_right h, mul_comm]
  · rw [if_neg (by rw [e, e']; exact fun h' => h (le_of_mul_le_mul_left h' hp)), min_eq_left (not_le.1 h).le]

theorem firstCollimation_eq {P : Par} (hk : P.k ≠ 0) (C : Fin 30 → ℝ) :
    firstCollimation P C = .ok (inPile P.k (C 3) (C 4) (P.alpha 0), inPile P.k (C 3) (C 5) (P.beta 0)) := by
  unfold firstCollimation inPile
  split_ifs
  · rw [behindGuide_eq hk, behindGuide_eq hk]
    rfl
  · rfl

theorem energy_eq (c : Energy.Consts) {k : ℝ} (hk : k ≠ 0) :
    ∃ s, Energy.create c { wavevector := some k } = .ok s ∧ s.en = neutronEnergy c k := by
  refine ⟨_, by simp [Energy.create, Energy.update, Energy.energyOf, hk]; rfl, ?_⟩
  have := c.m_pos.ne'
  have := pi_pos.ne'
  simp only [Energy.derive, neutronEnergy, Energy.Consts.hbar]
  field_simp

theorem fromEntries_eq (c : Energy.Consts) {P : Par} (hk : P.k ≠ 0) (hm : P.dm ≠ 0) (ha : P.da ≠ 0) (C : Fin 30 → ℝ) :
    fromEntries c P C = .ok (loadedOf P C (neutronEnergy c P.k) (inPile P.k (C 3) (C 4) (P.alpha 0))
      (inPile P.k (C 3) (C 5) (P.beta 0))) := by
  obtain ⟨s, hs, he⟩ := energy_eq c hk
  unfold fromEntries
  rw [firstCollimation_eq hk, hs]
  change (if P.dm = 0 ∨ P.da = 0 then _ else _) = _
  rw [if_neg (by simp [hm, ha]), he]
  rfl

theorem fromEntries_ok {c : Energy.Consts} {P : Par} {C : Fin 30 → ℝ} {r : ParLoaded} (h : fromEntries c P C = .ok r) :
    ∃ e h0 v0, r = loadedOf P C e h0 v0 := by
  unfold fromEntries at h
  cases h1 : firstCollimation P C with
  | error e => rw [h1] at h; cases h
  | ok p =>
    rw [h1] at h
    cases h2 : Energy.create c { wavevector := some P.k } with
    | error e => rw [h2] at h; cases h
    | ok s =>
      rw [h2] at h
      change (if P.dm = 0 ∨ P.da = 0 then _ else _) = _ at h
      split_ifs at h
      injection h with h
      exact ⟨_, _, _, h.symm⟩

theorem load_ok {c : Energy.Consts} {fl : Text → Option ℝ} {par cfg : Text} {r : ParLoaded}
    (h : loadParCfg c fl par cfg = .ok r) : ∃ P C e h0 v0, r = loadedOf P C e h0 v0 := by
  unfold loadParCfg at h
  cases h1 : readPar fl par with
  | error e => rw [h1] at h; cases h
  | ok d =>
    rw [h1] at h
    cases h2 : readCfg fl cfg with
    | error e => rw [h2] at h; cases h
    | ok l =>
      rw [h2] at h
      change (d.par >>= _) = _ at h
      cases h3 : d.par with
      | error e => rw [h3] at h; cases h
      | ok P =>
        rw [h3] at h
        change (cfgEntries l >>= _) = _ at h
        cases h4 : cfgEntries l with
        | error e => rw [h4] at h; cases h
        | ok C =>
          rw [h4] at h
          obtain ⟨e, h0, v0, hr⟩ := fromEntries_ok h
          exact ⟨P, C, e, h0, v0, hr⟩

/-! ## C158 -/

/-- C158, what is right: the two files are loaded, and the lattice, the orientation, the fixed energy and which of the
two energies it is, the collimations with the guide, the distances, the reflections, mosaics and sizes of the crystals are
those of the files.  Not so, in general, the senses and the curvatures of the crystals, the sample, the source, the monitor
and the detector; see the theorems below. -/
theorem C158_partial (c : Energy.Consts) {fl : Text → Option ℝ} {par cfg : Text} {P : Par} {C : Fin 30 → ℝ}
    (hP : IsPar fl par P) (hC : IsCfg fl cfg C) (hk : P.k ≠ 0) (hm : P.dm ≠ 0) (ha : P.da ≠ 0)
    (hf : P.kfix = 1 ∨ P.kfix = 2) :
    ∃ r, loadParCfg c fl par cfg = .ok r ∧
      r.setup.lattice = ⟨P.cell 0, P.cell 1, P.cell 2, P.cell 3, P.cell 4, P.cell 5⟩ ∧ r.setup.u = P.u ∧ r.setup.v = P.v ∧
      ∃ (m a : ℝ × Option ℝ × Option ℝ) (s : SampleAttrs) (g n d : Window), r.setup.settings = { byHand c P C with
        mono := { (byHand c P C).mono with dir := m.1, rh := m.2.1, rv := m.2.2 },
        ana := { (byHand c P C).ana with dir := a.1, rh := a.2.1, rv := a.2.2 },
        sample := s, guide := g, monitor := n, detector := d } := by
  refine ⟨_, (load_eq hP hC).trans (fromEntries_eq c hk hm ha C), rfl, rfl, rfl,
    (-1, some (radiusOf (P.sm * C 23)), some (radiusOf (P.sm * C 24))),
    (-1, some (radiusOf (P.sa * C 25)), some (radiusOf (P.sa * C 26))), sampleOf C,
    ⟨some (reduced (C 0) (C 1)), some (reduced (C 0) (C 2))⟩, ⟨some (C 28 / √12), some (C 29 / √12)⟩,
    ⟨some (reduced (C 10) (C 11)), some (reduced (C 10) (C 12))⟩, ?_⟩
  have hi : (if P.kfix = 2 then (-1 : ℝ) else P.kfix) = if P.kfix = 1 then 1 else -1 := by
    rcases hf with h | h <;> rw [h] <;> norm_num
  simp only [loadedOf, settingsOf, byHand, bladeOf, hi]

/-- C158, which energy is fixed: the incident one for KFIX 1, the final one for KFIX 2. -/
theorem C158_fixed_partial (c : Energy.Consts) {fl : Text → Option ℝ} {par cfg : Text} {P : Par} {C : Fin 30 → ℝ}
    (hP : IsPar fl par P) (hC : IsCfg fl cfg C) (hk : P.k ≠ 0) (hm : P.dm ≠ 0) (ha : P.da ≠ 0) :
    ∃ r, loadParCfg c fl par cfg = .ok r ∧ ∀ w,
      (P.kfix = 1 → incident r.setup.settings w = neutronEnergy c P.k ∧
        final r.setup.settings w = neutronEnergy c P.k - w) ∧
      (P.kfix = 2 → final r.setup.settings w = neutronEnergy c P.k ∧
        incident r.setup.settings w = neutronEnergy c P.k + w) := by
  refine ⟨_, (load_eq hP hC).trans (fromEntries_eq c hk hm ha C), fun w => ⟨fun h => ?_, fun h => ?_⟩⟩ <;>
    simp [incident, final, loadedOf, settingsOf, h] <;> norm_num

/-- C158, the mosaic of the sample: no loaded instrument has one, and the loaded instrument is the same for every value of
the mosaic in the file. -/
theorem C158_mosaic_false {c : Energy.Consts} {fl : Text → Option ℝ} {par par' cfg : Text} {P : Par} {C : Fin 30 → ℝ}
    (hP : IsPar fl par P) {x : ℝ} (hP' : IsPar fl par' { P with etas := x }) (hC : IsCfg fl cfg C) :
    loadParCfg c fl par cfg = loadParCfg c fl par' cfg ∧
    ∀ r, loadParCfg c fl par cfg = .ok r → r.setup.settings.sample.mosaic = none := by
  refine ⟨by rw [load_eq hP hC, load_eq hP' hC]; rfl, fun r hr => ?_⟩
  obtain ⟨P, C, e, h0, v0, rfl⟩ := load_ok hr
  rfl

/-- C158, the senses: every loaded instrument has the senses -1, 1, -1, whatever the files say. -/
theorem C158_senses_false {c : Energy.Consts} {fl : Text → Option ℝ} {par cfg : Text} {r : ParLoaded}
    (h : loadParCfg c fl par cfg = .ok r) :
    r.setup.settings.mono.dir = -1 ∧ r.setup.settings.sample.dir = 1 ∧ r.setup.settings.ana.dir = -1 := by
  obtain ⟨P, C, e, h0, v0, rfl⟩ := load_ok h
  exact ⟨rfl, rfl, rfl⟩

/-- C158, the relative senses: the attributes `dir1` and `dir2` of the loaded instrument say whether neighbouring elements
scatter in opposite senses (1) or in the same sense (-1), and `mondir` is the sense of the monochromator. -/
theorem C158_senses_partial (c : Energy.Consts) {fl : Text → Option ℝ} {par cfg : Text} {P : Par} {C : Fin 30 → ℝ}
    (hP : IsPar fl par P) (hC : IsCfg fl cfg C) (hk : P.k ≠ 0) (hm : P.dm ≠ 0) (ha : P.da ≠ 0)
    (hs : ∀ s ∈ [P.sm, P.ss, P.sa], s = 1 ∨ s = -1) :
    ∃ r, loadParCfg c fl par cfg = .ok r ∧ r.dir1 = -(P.sm * P.ss) ∧ r.dir2 = -(P.ss * P.sa) ∧ r.mondir = P.sm := by
  refine ⟨_, (load_eq hP hC).trans (fromEntries_eq c hk hm ha C), ?_, ?_, rfl⟩ <;>
    rcases hs P.sm (by simp) with h1 | h1 <;> rcases hs P.ss (by simp) with h2 | h2 <;>
    rcases hs P.sa (by simp) with h3 | h3 <;> simp [loadedOf, h1, h2, h3] <;> norm_num

/-- C158, the curvature: with the senses -1 in the file, curved crystals of the loaded instrument are bent the other way at
every point. -/
theorem C158_bent_false (c : Energy.Consts) {fl : Text → Option ℝ} {par cfg : Text} {P : Par} {C : Fin 30 → ℝ}
    (hP : IsPar fl par P) (hC : IsCfg fl cfg C) (hk : P.k ≠ 0) (hm : P.dm ≠ 0) (ha : P.da ≠ 0)
    (sm : P.sm = -1) (sa : P.sa = -1) (hc : ∀ i ∈ [23, 24, 25, 26], C i ≠ 0) :
    ∃ r, loadParCfg c fl par cfg = .ok r ∧ ∀ p, bend r.setup.settings p = -bend (byHand c P C) p := by
  refine ⟨_, (load_eq hP hC).trans (fromEntries_eq c hk hm ha C), fun p => ?_⟩
  have h1 := hc 23 (by simp)
  have h2 := hc 24 (by simp)
  have h3 := hc 25 (by simp)
  have h4 := hc 26 (by simp)
  ext i
  fin_cases i <;>
    simp [bend, radius, loadedOf, settingsOf, bladeOf, radiusOf, byHand, bent, sm, sa, h1, h2, h3, h4, div_neg]

/-- C158, the curvature, the other case: with the senses 1 in the file the radii are those of the file. -/
theorem C158_bent_partial (c : Energy.Consts) {fl : Text → Option ℝ} {par cfg : Text} {P : Par} {C : Fin 30 → ℝ}
    (hP : IsPar fl par P) (hC : IsCfg fl cfg C) (hk : P.k ≠ 0) (hm : P.dm ≠ 0) (ha : P.da ≠ 0)
    (sm : P.sm = 1) (sa : P.sa = 1) :
    ∃ r, loadParCfg c fl par cfg = .ok r ∧
      r.setup.settings.mono.rh.getD (10 ^ 6) = (byHand c P C).mono.rh.getD (10 ^ 6) ∧
      r.setup.settings.mono.rv.getD (10 ^ 6) = (byHand c P C).mono.rv.getD (10 ^ 6) ∧
      r.setup.settings.ana.rh.getD (10 ^ 6) = (byHand c P C).ana.rh.getD (10 ^ 6) ∧
      r.setup.settings.ana.rv.getD (10 ^ 6) = (byHand c P C).ana.rv.getD (10 ^ 6) := by
  have e : ∀ x : ℝ, (some (radiusOf (1 * x))).getD (10 ^ 6) = (bent x).getD (10 ^ 6) := fun x => by
    unfold radiusOf bent
    by_cases hx : x = 0 <;> simp [hx]
  refine ⟨_, (load_eq hP hC).trans (fromEntries_eq c hk hm ha C), ?_, ?_, ?_, ?_⟩ <;>
    simp only [loadedOf, settingsOf, bladeOf, byHand, sm, sa] <;> exact e _

theorem slit_pos {flag x : ℝ} (h : 0 < x) : 0 < slit flag x := by
  unfold slit
  split_ifs <;> positivity

theorem reduced_pos {flag x : ℝ} (h : 0 < x) : 0 < reduced flag x := by
  unfold reduced
  split_ifs <;> positivity

/-- The slits of the specification have the right spread. -/
theorem slit_variance {x : ℝ} (h : 0 < x) : variance (some (slit 0 x)) = ellipseVariance x ∧
    ∀ flag, flag ≠ 0 → variance (some (slit flag x)) = variance (some x) := by
  refine ⟨?_, fun flag hf => by simp [slit, hf]⟩
  rw [variance_some (slit_pos h), ellipseVariance_eq, slit, if_pos rfl, div_pow, mul_pow, Real.sq_sqrt (by norm_num)]
  ring

theorem reduced_variance {flag x : ℝ} (h : 0 < x) : variance (some (reduced flag x)) = variance (some (slit flag x)) / 12 := by
  rw [variance_some (reduced_pos h), variance_some (slit_pos h)]
  unfold reduced slit
  split_ifs
  · rw [div_pow, div_pow, mul_pow, Real.sq_sqrt (by norm_num)]
    ring
  · rw [div_pow, Real.sq_sqrt (by norm_num)]

/-- C158, source, monitor and detector: all their spreads are twelve times too small. -/
theorem C158_windows_false (c : Energy.Consts) {fl : Text → Option ℝ} {par cfg : Text} {P : Par} {C : Fin 30 → ℝ}
    (hP : IsPar fl par P) (hC : IsCfg fl cfg C) (hk : P.k ≠ 0) (hm : P.dm ≠ 0) (ha : P.da ≠ 0)
    (hc : ∀ i ∈ [1, 2, 11, 12, 28, 29], 0 < C i) :
    ∃ r, loadParCfg c fl par cfg = .ok r ∧
      variance r.setup.settings.guide.width = variance (byHand c P C).guide.width / 12 ∧
      variance r.setup.settings.guide.height = variance (byHand c P C).guide.height / 12 ∧
      variance r.setup.settings.monitor.width = variance (byHand c P C).monitor.width / 12 ∧
      variance r.setup.settings.monitor.height = variance (byHand c P C).monitor.height / 12 ∧
      variance r.setup.settings.detector.width = variance (byHand c P C).detector.width / 12 ∧
      variance r.setup.settings.detector.height = variance (byHand c P C).detector.height / 12 := by
  have e : ∀ x : ℝ, 0 < x → variance (some (x / √12)) = variance (some x) / 12 := fun x hx => by
    rw [variance_some (by positivity), variance_some hx, div_pow, Real.sq_sqrt (by norm_num)]
  exact ⟨_, (load_eq hP hC).trans (fromEntries_eq c hk hm ha C), reduced_variance (hc 1 (by simp)),
    reduced_variance (hc 2 (by simp)), e _ (hc 28 (by simp)), e _ (hc 29 (by simp)), reduced_variance (hc 11 (by simp)),
    reduced_variance (hc 12 (by simp))⟩

/-- C158, the sample: the spreads of a cuboid are a twelfth of its reduced edges, not of the squares of its edges, and the
edges along and across the momentum transfer are exchanged.  A cube has the right spreads for one size only. -/
theorem C158_sample_false (c : Energy.Consts) {fl : Text → Option ℝ} {par cfg : Text} {P : Par} {C : Fin 30 → ℝ}
    (hP : IsPar fl par P) (hC : IsCfg fl cfg C) (hk : P.k ≠ 0) (hm : P.dm ≠ 0) (ha : P.da ≠ 0) (h6 : C 6 = 1) (n : ℕ) :
    ∃ r, loadParCfg c fl par cfg = .ok r ∧
      sshapeAt r.setup.settings.sample n = .ok (diagonal ![C 7 / √12 / 12, C 8 / √12 / 12, C 9 / √12 / 12]) ∧
      sshapeAt (byHand c P C).sample n = .ok (diagonal ![C 8 ^ 2 / 12, C 7 ^ 2 / 12, C 9 ^ 2 / 12]) ∧
      (∀ a, 0 < a → C 7 = a → C 8 = a → C 9 = a →
        (sshapeAt r.setup.settings.sample n = sshapeAt (byHand c P C).sample n ↔ a = 1 / √12)) := by
  have s1 : sshapeAt (sampleOf C) n = .ok (diagonal ![C 7 / √12 / 12, C 8 / √12 / 12, C 9 / √12 / 12]) := by
    simp only [sshapeAt, sampleOf, reduced, h6, one_ne_zero, if_false]
    congr 1
    rw [if_neg (by decide), ← diagonal_smul]
    congr 1
    ext i
    fin_cases i <;> simp <;> ring
  have s2 : sshapeAt (byHand c P C).sample n = .ok (diagonal ![C 8 ^ 2 / 12, C 7 ^ 2 / 12, C 9 ^ 2 / 12]) := by
    simp [sshapeAt, byHand, slit, h6]
  refine ⟨_, (load_eq hP hC).trans (fromEntries_eq c hk hm ha C), s1, s2, fun a h0 h7 h8 h9 => ?_⟩
  have hs : (0 : ℝ) < √12 := by positivity
  rw [show sshapeAt (loadedOf P C _ _ _).setup.settings.sample n = _ from s1, s2, h7, h8, h9]
  constructor
  · intro h
    have := congrFun (diagonal_injective (Except.ok.inj h)) 0
    simp only [cons_val_zero] at this
    field_simp at this ⊢
    nlinarith
  · rintro rfl
    have hq : √12 ^ 2 = (12 : ℝ) := Real.sq_sqrt (by norm_num)
    congr 2
    ext i
    fin_cases i <;> simp <;> field_simp <;> rw [hq]

theorem cfgLines_blank {fl : Text → Option ℝ} {a b : List Text} {l : Text}
    (h : ∀ x ∈ a, ∃ v rest y, words x = v :: rest ∧ fl v = some y) (hl : words l = []) :
    cfgLines fl (a ++ l :: b) = .error .indexError := by
  induction a with
  | nil => simp [cfgLines, hl]
  | cons x a ih =>
    obtain ⟨v, rest, y, hw, hv⟩ := h x (by simp)
    simp [cfgLines, hw, hv, ih fun x hx => h x (by simp [hx])]

/-- C158, blank lines: a `cfg` file with one, also after all the numbers, is not loaded. -/
theorem C158_blank_false (c : Energy.Consts) {fl : Text → Option ℝ} {par cfg : Text} {P : Par} (hP : IsPar fl par P)
    {a b : List Text} {l : Text} (hc : fileLines cfg = a ++ l :: b) (hl : words l = [])
    (ha : ∀ x ∈ a, ∃ v rest y, words x = v :: rest ∧ fl v = some y) :
    loadParCfg c fl par cfg = .error .indexError := by
  obtain ⟨d, e, -⟩ := readPar_spec (fl := fl) (file := par) hP.lines
  have h2 : readCfg fl cfg = .error .indexError := by rw [readCfg, hc]; exact cfgLines_blank ha hl
  unfold loadParCfg
  rw [e, h2]
  rfl

/-- C158, the names: a file with all the names of the documentation and no other ones is not loaded, for the loader wants a
name that is not documented. -/
theorem C158_names_false (c : Energy.Consts) {fl : Text → Option ℝ} {par cfg : Text} {C : Fin 30 → ℝ}
    (hl : ∀ l ∈ fileLines par, ∃ n ∈ documentedNames, ∃ x, Assigns fl l n x)
    (hn : ∀ n ∈ documentedNames, ∃ x, Says fl par n x) (hC : IsCfg fl cfg C) :
    loadParCfg c fl par cfg = .error .keyError := by
  obtain ⟨d, e, hd⟩ := readPar_spec (fl := fl) (file := par) fun l h => by
    obtain ⟨n, -, x, hx⟩ := hl l h
    exact ⟨n, x, hx⟩
  have hg : ∀ n ∈ documentedNames, ∃ x, d.get n = .ok x := fun n h => by
    obtain ⟨x, hx⟩ := hn n h
    exact ⟨x, get_ok ((hd n x).2 hx)⟩
  have hf : d.get cs!"kfix" = .error .keyError := by
    have : d cs!"kfix" = none := by
      cases hk : d cs!"kfix" with
      | none => rfl
      | some x =>
        obtain ⟨b, l, a, hb, hx, -⟩ := (hd _ _).1 hk
        obtain ⟨n, hn, y, hy⟩ := hl l (by rw [hb]; simp)
        have := (assigns_unique hx hy).1
        exact absurd (this ▸ hn) (by decide)
    simp [ParDict.get, this]
  obtain ⟨more, hm⟩ := hC
  have h2 : readCfg fl cfg = .ok (List.ofFn C ++ more) := cfgLines_ok hm
  obtain ⟨x1, g1⟩ := hg cs!"sm" (by decide)
  obtain ⟨x2, g2⟩ := hg cs!"ss" (by decide)
  obtain ⟨x3, g3⟩ := hg cs!"sa" (by decide)
  have hp : d.par = .error .keyError := by
    unfold ParDict.par
    rw [g1, g2, g3, hf]
    rfl
  unfold loadParCfg
  rw [e, h2]
  change (d.par >>= _) = _
  rw [hp]
  rfl

/-! ## The hypotheses are met -/

/-- Whole numbers as a stand-in for `float`. -/
noncomputable def wholeFloat (t : Text) : Option ℝ := (intFloat t).map fun z => (z : ℝ)

/-- Name and number of a line. -/
def lineEntry (l : Text) : Option (Text × Int) := match words l with
  | v :: ('%' :: n) :: _ => (intFloat v).map fun z => (lower n, z)
  | _ => none

theorem lineEntry_assigns {l : Text} {e : Text × Int} (h : lineEntry l = some e) : Assigns wholeFloat l e.1 e.2 := by
  unfold lineEntry at h
  split at h
  · rename_i v n rest hw
    cases hv : intFloat v with
    | none => simp [hv] at h
    | some z =>
      simp only [hv, Option.map_some, Option.some.injEq] at h
      subst h
      exact ⟨v, n, rest, hw, by simp [wholeFloat, hv], rfl⟩
  · cases h

theorem entries_lines {ls : List Text} {es : List (Text × Int)} (h : ls.map lineEntry = es.map some) :
    ∀ l ∈ ls, ∃ e ∈ es, Assigns wholeFloat l e.1 e.2 := fun l hl => by
  have := List.mem_map_of_mem (f := lineEntry) hl
  rw [h, List.mem_map] at this
  obtain ⟨e, he, h'⟩ := this
  exact ⟨e, he, lineEntry_assigns h'.symm⟩

theorem entries_say {ls : List Text} {es : List (Text × Int)} (h : ls.map lineEntry = es.map some)
    (nd : (es.map Prod.fst).Nodup) : (∀ l ∈ ls, ∃ n x, Assigns wholeFloat l n x) ∧
    ∀ e ∈ es, ∃ before line after, ls = before ++ line :: after ∧ Assigns wholeFloat line e.1 e.2 ∧
      ∀ l ∈ after, ∀ y, ¬ Assigns wholeFloat l e.1 y := by
  refine ⟨fun l hl => ?_, ?_⟩
  · obtain ⟨e, -, he⟩ := entries_lines h l hl
    exact ⟨_, _, he⟩
  · induction es generalizing ls with
    | nil => simp
    | cons e es ih =>
      cases ls with
      | nil => simp at h
      | cons l ls =>
        simp only [List.map_cons, List.cons.injEq] at h
        simp only [List.map_cons, List.nodup_cons] at nd
        intro f hf
        rcases List.mem_cons.1 hf with rfl | hf
        · refine ⟨[], l, ls, rfl, lineEntry_assigns h.1, fun k hk y hy => ?_⟩
          obtain ⟨g, hg, hg'⟩ := entries_lines h.2 k hk
          exact nd.1 ((assigns_unique hy hg').1 ▸ List.mem_map_of_mem hg)
        · obtain ⟨b, k, a, rfl, h1, h2⟩ := ih h.2 nd.2 f hf
          exact ⟨l :: b, k, a, rfl, h1, h2⟩

/-- A `par` file, with comments, letters of both cases and lines that are not used. -/
def demoPar : Text := cs!"3 %DM (PG002)\n3\t%DA\n40 %ETAM\n30 %ETAA\n20 %ETAS\n-1 %SM\n1 %SS\n-1 %SA\n2 %K\n2 %KFIX\n60 %ALPHA1\n50 %ALPHA2\n40 %ALPHA3\n30 %ALPHA4\n120 %BETA1\n110 %BETA2\n100 %BETA3\n90 %BETA4\n5 %AS\n6 %BS\n7 %CS\n80 %AA\n85 %BB\n90 %CC\n1 %AX\n2 %AY\n0 %AZ\n0 %BX\n0 %BY\n1 %BZ\n4 %gmod\n"

noncomputable def demoEntries : Par where
  sm := -1
  ss := 1
  sa := -1
  kfix := 2
  alpha := ![60, 50, 40, 30]
  beta := ![120, 110, 100, 90]
  k := 2
  cell := ![5, 6, 7, 80, 85, 90]
  etas := 20
  u := ![1, 2, 0]
  v := ![0, 0, 1]
  dm := 3
  etam := 40
  da := 3
  etaa := 30

def demoTable : List (Text × Int) :=
  [(cs!"dm", 3), (cs!"da", 3), (cs!"etam", 40), (cs!"etaa", 30), (cs!"etas", 20), (cs!"sm", -1), (cs!"ss", 1),
   (cs!"sa", -1), (cs!"k", 2), (cs!"kfix", 2), (cs!"alpha1", 60), (cs!"alpha2", 50), (cs!"alpha3", 40),
   (cs!"alpha4", 30), (cs!"beta1", 120), (cs!"beta2", 110), (cs!"beta3", 100), (cs!"beta4", 90), (cs!"as", 5),
   (cs!"bs", 6), (cs!"cs", 7), (cs!"aa", 80), (cs!"bb", 85), (cs!"cc", 90), (cs!"ax", 1), (cs!"ay", 2), (cs!"az", 0),
   (cs!"bx", 0), (cs!"by", 0), (cs!"bz", 1), (cs!"gmod", 4)]

theorem demoPar_is : IsPar wholeFloat demoPar demoEntries := by
  have h := entries_say (ls := fileLines demoPar) (es := demoTable) (by decide +kernel) (by decide +kernel)
  refine ⟨h.1, ?_⟩
  have h2 : ∀ n z, (n, z) ∈ demoTable → ∀ x : ℝ, x = (z : ℝ) → Says wholeFloat demoPar n x := by
    rintro n z hz x rfl
    exact h.2 _ hz
  simp only [Par.named, List.forall_mem_cons, List.not_mem_nil, false_implies, implies_true, and_true]
  refine ⟨?_, ?_, ?_, ?_, ?_, ?_, ?_, ?_, ?_, ?_, ?_, ?_, ?_, ?_, ?_, ?_, ?_, ?_, ?_, ?_, ?_, ?_, ?_, ?_, ?_, ?_, ?_, ?_, ?_, ?_⟩
  · exact h2 _ 3 (by decide) _ (by simp [demoEntries])
  · exact h2 _ 3 (by decide) _ (by simp [demoEntries])
  · exact h2 _ 40 (by decide) _ (by simp [demoEntries])
  · exact h2 _ 30 (by decide) _ (by simp [demoEntries])
  · exact h2 _ 20 (by decide) _ (by simp [demoEntries])
  · exact h2 _ (-1) (by decide) _ (by simp [demoEntries])
  · exact h2 _ 1 (by decide) _ (by simp [demoEntries])
  · exact h2 _ (-1) (by decide) _ (by simp [demoEntries])
  · exact h2 _ 2 (by decide) _ (by simp [demoEntries])
  · exact h2 _ 2 (by decide) _ (by simp [demoEntries])
  · exact h2 _ 60 (by decide) _ (by simp [demoEntries])
  · exact h2 _ 50 (by decide) _ (by simp [demoEntries])
  · exact h2 _ 40 (by decide) _ (by simp [demoEntries])
  · exact h2 _ 30 (by decide) _ (by simp [demoEntries])
  · exact h2 _ 120 (by decide) _ (by simp [demoEntries])
  · exact h2 _ 110 (by decide) _ (by simp [demoEntries])
  · exact h2 _ 100 (by decide) _ (by simp [demoEntries])
  · exact h2 _ 90 (by decide) _ (by simp [demoEntries])
  · exact h2 _ 5 (by decide) _ (by simp [demoEntries])
  · exact h2 _ 6 (by decide) _ (by simp [demoEntries])
  · exact h2 _ 7 (by decide) _ (by simp [demoEntries])
  · exact h2 _ 80 (by decide) _ (by simp [demoEntries])
  · exact h2 _ 85 (by decide) _ (by simp [demoEntries])
  · exact h2 _ 90 (by decide) _ (by simp [demoEntries])
  · exact h2 _ 1 (by decide) _ (by simp [demoEntries])
  · exact h2 _ 2 (by decide) _ (by simp [demoEntries])
  · exact h2 _ 0 (by decide) _ (by simp [demoEntries])
  · exact h2 _ 0 (by decide) _ (by simp [demoEntries])
  · exact h2 _ 0 (by decide) _ (by simp [demoEntries])
  · exact h2 _ 1 (by decide) _ (by simp [demoEntries])

/-- A `cfg` file. -/
def demoCfg : Text := cs!"1 % =0 for circular source\n13\n9\n1\n2\n15\n1\n1\n1\n1\n0\n2\n10\n1\n22\n20\n1\n13\n17\n780\n210\n111\n80\n1\n2\n3\n4\n100\n4\n10 % height monitor\n"

noncomputable def demoNumbers : Fin 30 → ℝ :=
  ![1, 13, 9, 1, 2, 15, 1, 1, 1, 1, 0, 2, 10, 1, 22, 20, 1, 13, 17, 780, 210, 111, 80, 1, 2, 3, 4, 100, 4, 10]

theorem cfg_of_first {ls : List Text} {zs : List Int}
    (h : ls.map (fun l => (words l).head?.bind intFloat) = zs.map some) :
    List.Forall₂ (fun l x => ∃ v rest, words l = v :: rest ∧ wholeFloat v = some x) ls (zs.map fun z => (z : ℝ)) := by
  induction zs generalizing ls with
  | nil => simp at h; subst h; exact .nil
  | cons z zs ih =>
    cases ls with
    | nil => simp at h
    | cons l ls =>
      simp only [List.map_cons, List.cons.injEq] at h
      refine .cons ?_ (ih h.2)
      cases hw : words l with
      | nil => simp [hw] at h
      | cons v rest => exact ⟨v, rest, rfl, by
        have : intFloat v = some z := by simpa [hw] using h.1
        simp [wholeFloat, this]⟩

theorem demoCfg_is : IsCfg wholeFloat demoCfg demoNumbers := by
  refine ⟨[], ?_⟩
  have := cfg_of_first (ls := fileLines demoCfg) (zs := [1, 13, 9, 1, 2, 15, 1, 1, 1, 1, 0, 2, 10, 1, 22, 20, 1, 13, 17, 780,
    210, 111, 80, 1, 2, 3, 4, 100, 4, 10]) (by decide +kernel)
  convert this using 1
  simp [demoNumbers, List.ofFn_succ]

/-- The demonstration files: the divergence of the guide, 2 minutes per Å, replaces the first collimation; the crystals are
bent the wrong way. -/
example (c : Energy.Consts) : ∃ r, loadParCfg c wholeFloat demoPar demoCfg = .ok r ∧
    ∀ p, bend r.setup.settings p = -bend (byHand c demoEntries demoNumbers) p :=
  C158_bent_false c demoPar_is demoCfg_is (by norm_num [demoEntries]) (by norm_num [demoEntries])
    (by norm_num [demoEntries]) rfl rfl fun i hi => by
      fin_cases hi <;> simp [demoNumbers]

example (c : Energy.Consts) : ∃ r, loadParCfg c wholeFloat demoPar demoCfg = .ok r ∧
    sshapeAt r.setup.settings.sample 0 ≠ sshapeAt (byHand c demoEntries demoNumbers).sample 0 := by
  obtain ⟨r, h, -, -, h3⟩ := C158_sample_false c demoPar_is demoCfg_is (by norm_num [demoEntries])
    (by norm_num [demoEntries]) (by norm_num [demoEntries]) (by simp [demoNumbers]) 0
  refine ⟨r, h, fun e => ?_⟩
  have := (h3 1 one_pos (by simp [demoNumbers]) (by simp [demoNumbers]) (by simp [demoNumbers])).1 e
  rw [eq_div_iff (by positivity), one_mul] at this
  have h12 : √12 ^ 2 = (12 : ℝ) := Real.sq_sqrt (by norm_num)
  rw [this] at h12
  norm_num at h12

example (c : Energy.Consts) : ∃ r, loadParCfg c wholeFloat demoPar demoCfg = .ok r ∧ r.mondir = -1 := by
  obtain ⟨r, h, -, -, h3⟩ := C158_senses_partial c demoPar_is demoCfg_is (by norm_num [demoEntries])
    (by norm_num [demoEntries]) (by norm_num [demoEntries]) (by simp [demoEntries])
  exact ⟨r, h, h3.trans rfl⟩

/-- A `par` file that follows the documentation to the letter. -/
def plainPar : Text := cs!"1 %DM\n2 %DA\n3 %ETAM\n4 %ETAA\n5 %ETAS\n6 %SM\n7 %SS\n8 %SA\n9 %K\n10 %ALPHA1\n11 %ALPHA2\n12 %ALPHA3\n13 %ALPHA4\n14 %BETA1\n15 %BETA2\n16 %BETA3\n17 %BETA4\n18 %AS\n19 %BS\n20 %CS\n21 %AA\n22 %BB\n23 %CC\n24 %AX\n25 %AY\n26 %AZ\n27 %BX\n28 %BY\n29 %BZ\n30 %QX\n31 %QY\n32 %QZ\n33 %EN\n34 %dqx\n35 %dqy\n36 %dqz\n37 %de\n38 %gh\n39 %gk\n40 %gl\n41 %gmod\n"

def plainTable : List (Text × Int) :=
  [(cs!"dm", 1), (cs!"da", 2), (cs!"etam", 3), (cs!"etaa", 4), (cs!"etas", 5), (cs!"sm", 6), (cs!"ss", 7),
   (cs!"sa", 8), (cs!"k", 9), (cs!"alpha1", 10), (cs!"alpha2", 11), (cs!"alpha3", 12), (cs!"alpha4", 13),
   (cs!"beta1", 14), (cs!"beta2", 15), (cs!"beta3", 16), (cs!"beta4", 17), (cs!"as", 18), (cs!"bs", 19),
   (cs!"cs", 20), (cs!"aa", 21), (cs!"bb", 22), (cs!"cc", 23), (cs!"ax", 24), (cs!"ay", 25), (cs!"az", 26),
   (cs!"bx", 27), (cs!"by", 28), (cs!"bz", 29), (cs!"qx", 30), (cs!"qy", 31), (cs!"qz", 32), (cs!"en", 33),
   (cs!"dqx", 34), (cs!"dqy", 35), (cs!"dqz", 36), (cs!"de", 37), (cs!"gh", 38), (cs!"gk", 39), (cs!"gl", 40),
   (cs!"gmod", 41)]

/-- The file that follows the documentation is refused. -/
example (c : Energy.Consts) : loadParCfg c wholeFloat plainPar demoCfg = .error .keyError := by
  have h : (fileLines plainPar).map lineEntry = plainTable.map some := by decide +kernel
  refine C158_names_false c (fun l hl => ?_) (fun n hn => ?_) demoCfg_is
  · obtain ⟨e, he, ha⟩ := entries_lines h l hl
    have hs : ∀ e ∈ plainTable, e.1 ∈ documentedNames := by decide +kernel
    exact ⟨e.1, hs e he, _, ha⟩
  · have hs : ∀ n ∈ documentedNames, ∃ e ∈ plainTable, e.1 = n := by decide +kernel
    obtain ⟨e, he, rfl⟩ := hs n hn
    exact ⟨_, (entries_say h (by decide +kernel)).2 e he⟩

/-- The demonstration files with a blank line at the end. -/
example (c : Energy.Consts) : loadParCfg c wholeFloat demoPar (demoCfg ++ cs!"\n") = .error .indexError := by
  obtain ⟨more, hm⟩ := demoCfg_is
  have e : fileLines (demoCfg ++ cs!"\n") = fileLines demoCfg ++ [] :: [] := by decide +kernel
  refine C158_blank_false c demoPar_is e (by decide) fun x hx => ?_
  obtain ⟨y, v, rest, hw, hv⟩ : ∃ y v rest, words x = v :: rest ∧ wholeFloat v = some y := by
    generalize fileLines demoCfg = ls at hm hx
    generalize List.ofFn demoNumbers ++ more = xs at hm
    induction hm with
    | nil => cases hx
    | cons h _ ih =>
      rcases List.mem_cons.1 hx with rfl | hx
      · exact ⟨_, h⟩
      · exact ih hx
  exact ⟨v, rest, y, hw, hv⟩

end Verif.FileIO
