import Verif.Tools.Model
import Mathlib.Data.List.SplitOn

/-!
# Model of the window for resolution calculations

`neutronpy/gui.py`: the constructor of `MainWindow` (56-78) and `load_instrument` (80-177).  The widgets are modelled by their texts
(`ui/resolution.ui`).  Not modelled are Qt itself, the canvases, and the signals: as `Verif.Gui.C175_opens_false` shows, no window ever comes
into being that could receive one.
-/

namespace Verif.Gui

open Verif.Tools (getTau Caller TauArg)

/-- The fields for text (`ui/resolution.ui`). -/
inductive Field
  | energy | monoMosaic | monoVmosaic | monoHeight | monoWidth | monoDepth | monoHcurve | monoVcurve
  | abc | abg | sampleMosaic | sampleVmosaic | sampleHeight | sampleWidth | sampleDepth | sampleU | sampleV
  | anaMosaic | anaVmosaic | anaHeight | anaWidth | anaDepth | anaHcurve | anaVcurve
  | guideHeight | guideWidth | detectorHeight | detectorWidth | hcols | vcols | arms | q
  deriving DecidableEq

/-- The lists to choose from (`ui/resolution.ui`). -/
inductive Choice
  | fixed | energy | mono | ana | shape | sampleDir | monoDir | anaDir | method | moncor
  deriving DecidableEq

/-- What is entered in the window. -/
structure Form where
  text : Field → String
  choice : Choice → String

/-- The entries of the lists (`ui/resolution.ui`). -/
def items : Choice → List String
  | .fixed => ["ki", "kf"]
  | .energy => ["energy (meV)", "wavelength (A)", "wave vector (A-1)"]
  | .mono | .ana => ["PG(002)", "PG(004)", "PG(110)", "Ge(111)", "Ge(220)", "Ge(311)", "Be(002)", "Cu2MnAl(111)", "Co0.92Fe0.08(200)",
      "Ge(511)", "Ge(533)", "Si(111)", "Cu(111)", "Cu(002)", "Cu(220)", "Custom"]
  | .shape => ["Rectangular", "Cylindrical"]
  | .sampleDir | .monoDir | .anaDir => ["Clockwise", "Counter-Clockwise"]
  | .method => ["Cooper-Nathans", "Popovici"]
  | .moncor => ["On", "Off"]

/-- Exceptions. -/
inductive GuiErr
  | valueError | keyError | typeError | library
  deriving DecidableEq

/-- A crystal of the instrument as the window sets it; `none` is a curvature that is left as it is. -/
structure Crystal where
  tau : ℝ
  mosaic : ℝ
  vmosaic : ℝ
  dir : ℤ
  height : ℝ
  width : ℝ
  depth : ℝ
  rh : Option ℝ
  rv : Option ℝ

/-- The sample as the window sets it. -/
structure Sample where
  abc : ℝ × ℝ × ℝ
  abg : ℝ × ℝ × ℝ
  height : ℝ
  width : ℝ
  depth : ℝ
  u : List ℝ
  v : List ℝ
  dir : ℤ
  mosaic : ℝ
  vmosaic : ℝ
  shape : String

/-- The instrument as the window sets it, and the point. -/
structure Settings where
  sample : Sample
  mono : Crystal
  ana : Crystal
  efixed : ℝ
  infin : ℤ
  hcol : List ℝ
  vcol : List ℝ
  arms : List ℝ
  guideHeight : ℝ
  guideWidth : ℝ
  detectorHeight : ℝ
  detectorWidth : ℝ
  moncor : ℤ
  method : ℤ
  q : List ℝ

/-- What is outside of the file: `float` of a text; the energies of a wavelength and of a wavevector; and the calculations of the
instrument (gui.py 152-175), which may fail, and its description. -/
structure Library where
  num : String → Option ℝ
  ofWavelength : ℝ → Option ℝ
  ofWavevector : ℝ → Option ℝ
  calculate : Settings → Option String

/-- `float(widget.text())`. -/
def number (lib : Library) (s : String) : Except GuiErr ℝ := match lib.num s with
  | some x => .ok x
  | none => .error .valueError

/-- `text.split(',')`. -/
def split (s : String) : List String := (s.toList.splitOn ',').map String.ofList

/-- `[float(i) for i in widget.text().split(',')]`, as in gui.py 83. -/
def numbers (lib : Library) (s : String) : Except GuiErr (List ℝ) := (split s).mapM (number lib)

/-- Unpacking of three values. -/
def three : List ℝ → Except GuiErr (ℝ × ℝ × ℝ)
  | [a, b, c] => .ok (a, b, c)
  | _ => .error .valueError

/-- A value of a dictionary. -/
def choose {α : Type} (d : List (String × α)) (s : String) : Except GuiErr α := match d.lookup s with
  | some x => .ok x
  | none => .error .keyError

/-- `dir_dict`, `infin_dict`, `method_dict` and `moncor_dict` (gui.py 68-74). -/
def directions : List (String × ℤ) := [("Clockwise", 1), ("Counter-Clockwise", -1)]
@[inherit_doc directions] def fixedSides : List (String × ℤ) := [("ki", 1), ("kf", -1)]
@[inherit_doc directions] def methods : List (String × ℤ) := [("Cooper-Nathans", 0), ("Popovici", 1)]
@[inherit_doc directions] def corrections : List (String × ℤ) := [("On", 1), ("Off", 0)]

/-- `edrop_dict` (gui.py 70-72), made once from the text of the field. -/
def energies (lib : Library) (s : String) : Except GuiErr (List (String × ℝ)) := do
  let x ← number lib s
  let l ← (match lib.ofWavelength x with | some e => .ok e | none => .error .library)
  let k ← (match lib.ofWavevector x with | some e => .ok e | none => .error .library)
  return [("energy (meV)", x), ("wavelength (A)", l), ("wave vector (A-1)", k)]

/-- The reflection of a crystal (gui.py 99-104, 112-116).  `float` of the widget itself is a `TypeError`, and so is the division by the
`None` that stands for an unknown name. -/
noncomputable def reflection (name : String) : Except GuiErr ℝ :=
  if name = "Custom" then .error .typeError
  else match getTau .other (.name name.toList) with
    | .ok (some t) => .ok t
    | _ => .error .typeError

/-- A curvature (gui.py 139-142): the text `None` leaves it as it is. -/
def curvature (lib : Library) (s : String) : Except GuiErr (Option ℝ) := if s = "None" then .ok none else (number lib s).map some

/-- The curvatures of the analyzer (gui.py 144-147): the condition of the second assignment is the text of the monochromator, and it sets
the horizontal curvature. -/
def anaCurvature (lib : Library) (f : Form) : Except GuiErr (Option ℝ) := do
  let rh ← curvature lib (f.text .anaHcurve)
  if f.text .monoVcurve = "None" then return rh
  else
    let x ← number lib (f.text .anaVcurve)
    return some x

/-- The sample (gui.py 83-97). -/
def sampleOf (lib : Library) (f : Form) : Except GuiErr Sample := do
  let abc ← numbers lib (f.text .abc) >>= three
  let abg ← numbers lib (f.text .abg) >>= three
  let height ← number lib (f.text .sampleHeight)
  let width ← number lib (f.text .sampleWidth)
  let depth ← number lib (f.text .sampleDepth)
  let u ← numbers lib (f.text .sampleU)
  let v ← numbers lib (f.text .sampleV)
  let dir ← choose directions (f.choice .sampleDir)
  let mosaic ← number lib (f.text .sampleMosaic)
  let vmosaic ← number lib (f.text .sampleVmosaic)
  return ⟨abc, abg, height, width, depth, u, v, dir, mosaic, vmosaic, (f.choice .shape).toLower⟩

/-- The monochromator (gui.py 99-110, 139-142). -/
noncomputable def monoOf (lib : Library) (f : Form) : Except GuiErr Crystal := do
  let tau ← reflection (f.choice .mono)
  let mosaic ← number lib (f.text .monoMosaic)
  let vmosaic ← number lib (f.text .monoVmosaic)
  let dir ← choose directions (f.choice .monoDir)
  let height ← number lib (f.text .monoHeight)
  let width ← number lib (f.text .monoWidth)
  let depth ← number lib (f.text .monoDepth)
  let rh ← curvature lib (f.text .monoHcurve)
  let rv ← curvature lib (f.text .monoVcurve)
  return ⟨tau, mosaic, vmosaic, dir, height, width, depth, rh, rv⟩

/-- The analyzer (gui.py 112-122, 144-147). -/
noncomputable def anaOf (lib : Library) (f : Form) : Except GuiErr Crystal := do
  let tau ← reflection (f.choice .ana)
  let mosaic ← number lib (f.text .anaMosaic)
  let vmosaic ← number lib (f.text .anaVmosaic)
  let dir ← choose directions (f.choice .anaDir)
  let height ← number lib (f.text .anaHeight)
  let width ← number lib (f.text .anaWidth)
  let depth ← number lib (f.text .anaDepth)
  let rh ← anaCurvature lib f
  return ⟨tau, mosaic, vmosaic, dir, height, width, depth, rh, none⟩

/-- `load_instrument` up to the calculations (gui.py 81-149).  (The order of the assignments differs, which only shows in which of several
exceptions is raised.) -/
noncomputable def settings (lib : Library) (edrop : List (String × ℝ)) (f : Form) : Except GuiErr Settings := do
  let sample ← sampleOf lib f
  let mono ← monoOf lib f
  let ana ← anaOf lib f
  let efixed ← choose edrop (f.choice .energy)
  let infin ← choose fixedSides (f.choice .fixed)
  let hcol ← numbers lib (f.text .hcols)
  let vcol ← numbers lib (f.text .vcols)
  let arms ← numbers lib (f.text .arms)
  let gh ← number lib (f.text .guideHeight)
  let gw ← number lib (f.text .guideWidth)
  let dh ← number lib (f.text .detectorHeight)
  let dw ← number lib (f.text .detectorWidth)
  let moncor ← choose corrections (f.choice .moncor)
  let method ← choose methods (f.choice .method)
  let q ← numbers lib (f.text .q)
  return ⟨sample, mono, ana, efixed, infin, hcol, vcol, arms, gh, gw, dh, dw, moncor, method, q⟩

/-- What has happened: the settings with which the resolution was calculated, the text that is shown, and the exception. -/
structure Outcome where
  calculated : Option Settings := none
  shown : Option String := none
  raised : Option GuiErr := none

/-- `load_instrument` (gui.py 80-177).  `description_string` is a property (instrument/plot.py 419-420): its value, a text, is called, which
raises `TypeError`. -/
noncomputable def load (lib : Library) (edrop : List (String × ℝ)) (f : Form) : Outcome := match settings lib edrop f with
  | .error e => { raised := some e }
  | .ok s => match lib.calculate s with
    | none => { raised := some .library }
    | some _ => { calculated := some s, raised := some .typeError }

/-- `MainWindow()` (gui.py 56-78), which is all that `launch` does (236-242). -/
noncomputable def launch (lib : Library) (f : Form) : Outcome := match energies lib (f.text .energy) with
  | .error e => { raised := some e }
  | .ok edrop => load lib edrop f

end Verif.Gui
