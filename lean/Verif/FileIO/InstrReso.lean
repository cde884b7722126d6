import Verif.FileIO.Instr
import Verif.Resolution.Model

/-!
# How the resolution calculation reads the attributes of an instrument

`FileIO/Instr.lean` has instruments as objects with attributes, as the files do; `Resolution/Model.lean` has the
settings that the calculation uses.  Here are the attribute accesses in between.
-/

namespace Verif.FileIO

open Verif.Resolution (Settings Blade Window SampleAttrs Method)

variable {N : Type}

/-- A number; everything else raises `TypeError` in the arithmetic. -/
def asNumber (val : N → ℝ) : Value N → Option ℝ
  | .num x => some (val x)
  | _ => none

/-- `np.array(...)` of a sequence (instrument/tas_instrument.py 589-590), `arms[:4]` (690-695). -/
def asVector (val : N → ℝ) : Value N → Option (List ℝ)
  | .arr xs => some (xs.map val)
  | .list xs => some (xs.map val)
  | _ => none

/-- Four collimations; fewer raise `IndexError`, more are not modelled. -/
def asFour (val : N → ℝ) (v : Value N) : Option (Fin 4 → ℝ) :=
  match asVector val v with
  | some [a, b, c, d] => some ![a, b, c, d]
  | _ => none

/-- `GetTau` of an attribute (instrument/tas_instrument.py 709-710), `tau` for numbers and names. -/
def asTau (tau : N ⊕ Text → Option ℝ) : Value N → Option ℝ
  | .num x => tau (.inl x)
  | .text s => tau (.inr s)
  | _ => none

open Classical in
/-- `method`, which is compared with 1 and with names (instrument/tas_instrument.py 579-582): other numbers act as 0. -/
noncomputable def asMethod (val : N → ℝ) : Value N → Option Method
  | .num x => some (.number (if val x = 1 then 1 else 0))
  | .text s => some (.name s)
  | _ => none

/-- A text, for `sample.shape_type` (instrument/tas_instrument.py 675-679). -/
def asText : Value N → Option Text
  | .text s => some s
  | _ => none

/-- An attribute that has to be there. -/
def Obj.need {α : Type} (o : Obj N) (f : Value N → Option α) (g a : Text) : Option α := (o.get g a).bind f

/-- An attribute behind `hasattr`. -/
def Obj.maybe {α : Type} (o : Obj N) (f : Value N → Option α) (g a : Text) : Option (Option α) :=
  match o.get g a with
  | none => some none
  | some v => (f v).map some

/-- Monochromator and analyzer (instrument/tas_instrument.py 591-600, 656-673, 697-710, 719-721, 911-913).  `dir` is
the attribute behind the property `direct` (instrument/monochromator.py 104-110). -/
def Obj.blade (val : N → ℝ) (tau : N ⊕ Text → Option ℝ) (o : Obj N) (g : Text) : Option Blade := do
  let t ← o.need (asTau tau) g cs!"tau"
  let mosaic ← o.need (asNumber val) g cs!"mosaic"
  let vmosaic ← o.maybe (asNumber val) g cs!"vmosaic"
  let width ← o.maybe (asNumber val) g cs!"width"
  let height ← o.maybe (asNumber val) g cs!"height"
  let depth ← o.maybe (asNumber val) g cs!"depth"
  let rv ← o.maybe (asNumber val) g cs!"rv"
  let rh ← o.maybe (asNumber val) g cs!"rh"
  let dir ← o.need (asNumber val) g cs!"direct"
  some ⟨t, mosaic, vmosaic, width, height, depth, rv, rh, dir, none, none⟩

/-- Guide, monitor and detector (instrument/tas_instrument.py 633-654). -/
def Obj.window (val : N → ℝ) (o : Obj N) (g : Text) : Option Window := do
  let width ← o.maybe (asNumber val) g cs!"width"
  let height ← o.maybe (asNumber val) g cs!"height"
  some ⟨width, height⟩

/-- The sample (instrument/tas_instrument.py 675-688, 720, 900-904).  `Value` has no matrices, so that `sample.shape` is
never there. -/
def Obj.sampleAttrs (val : N → ℝ) (o : Obj N) : Option SampleAttrs := do
  let mosaic ← o.maybe (asNumber val) cs!"sample" cs!"mosaic"
  let vmosaic ← o.maybe (asNumber val) cs!"sample" cs!"vmosaic"
  let width ← o.maybe (asNumber val) cs!"sample" cs!"width"
  let depth ← o.maybe (asNumber val) cs!"sample" cs!"depth"
  let height ← o.maybe (asNumber val) cs!"sample" cs!"height"
  let shapeType ← o.maybe asText cs!"sample" cs!"shape_type"
  let dir ← o.need (asNumber val) cs!"sample" cs!"direct"
  some ⟨mosaic, vmosaic, width, depth, height, shapeType, none, dir⟩

/-- What `calc_resolution_in_Q_coords` reads of an instrument (instrument/tas_instrument.py 570-721); `none` if an
attribute that it needs is missing or of another kind. -/
noncomputable def Obj.settings (val : N → ℝ) (tau : N ⊕ Text → Option ℝ) (o : Obj N) : Option Settings := do
  let efixed ← o.need (asNumber val) [] cs!"efixed"
  let infin ← o.maybe (asNumber val) [] cs!"infin"
  let method ← o.maybe (asMethod val) [] cs!"method"
  let moncor ← o.maybe (asNumber val) [] cs!"moncor"
  let horifoc ← o.maybe (asNumber val) [] cs!"horifoc"
  let hcol ← o.need (asFour val) [] cs!"hcol"
  let vcol ← o.need (asFour val) [] cs!"vcol"
  let arms ← o.maybe (asVector val) [] cs!"arms"
  let mono ← o.blade val tau cs!"mono"
  let ana ← o.blade val tau cs!"ana"
  let thickness ← o.maybe (asNumber val) cs!"ana" cs!"thickness"
  let reflQ ← o.maybe (asNumber val) cs!"ana" cs!"Q"
  let sample ← o.sampleAttrs val
  let guide ← o.window val cs!"guide"
  let monitor ← o.window val cs!"monitor"
  let detector ← o.window val cs!"detector"
  some { efixed, infin, method, moncor, horifoc, hcol, vcol, arms, mono,
         ana := { ana with thickness := thickness, reflQ := reflQ }, sample, guide, monitor, detector }

/-- The cell and the orientation of the sample, read by `get_lattice` and `_StandardSystem`
(instrument/tas_instrument.py 473-481, 507-512). -/
def Obj.cell (val : N → ℝ) (o : Obj N) : Option ((ℝ × ℝ × ℝ) × (ℝ × ℝ × ℝ) × List ℝ × List ℝ) := do
  let a ← o.need (asNumber val) cs!"sample" cs!"a"
  let b ← o.need (asNumber val) cs!"sample" cs!"b"
  let c ← o.need (asNumber val) cs!"sample" cs!"c"
  let alpha ← o.need (asNumber val) cs!"sample" cs!"alpha"
  let beta ← o.need (asNumber val) cs!"sample" cs!"beta"
  let gamma ← o.need (asNumber val) cs!"sample" cs!"gamma"
  let u ← o.need (asVector val) cs!"sample" cs!"u"
  let v ← o.need (asVector val) cs!"sample" cs!"v"
  some ((a, b, c), (alpha, beta, gamma), u, v)

end Verif.FileIO
