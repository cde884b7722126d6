import Verif.Energy.Model
import Verif.FileIO.Detect
import Verif.FileIO.Save
import Verif.Resolution.Instrument

/-!
# Model of `load_instrument((parfile, cfgfile), 'parcfg')`

`neutronpy/fileio/instrument.py` 247-391.  Exact real arithmetic in place of floating point; `float` is a parameter
`fl`, `none` standing for its `ValueError`.
-/

namespace Verif.FileIO

open Real Matrix
open Verif.Resolution (Setup Settings Blade Window SampleAttrs Shape Method)

/-- Exceptions of the loader. -/
inductive ParErr
  | indexError | valueError | keyError | zeroDivision
  deriving DecidableEq

/-- The dictionary `par`. -/
abbrev ParDict := Text → Option ℝ

/-- fileio/instrument.py 253-254, `par[rows[1][1:].lower()] = float(rows[0])`: the value is computed first. -/
noncomputable def parLine (fl : Text → Option ℝ) (d : ParDict) (line : Text) : Except ParErr ParDict :=
  match words line with
  | [] => .error .indexError
  | v :: rest =>
    match fl v with
    | none => .error .valueError
    | some x =>
      match rest with
      | [] => .error .indexError
      | n :: _ => .ok (Function.update d (lower (n.drop 1)) (some x))

/-- fileio/instrument.py 251-254: one line after the other. -/
noncomputable def parLines (fl : Text → Option ℝ) : ParDict → List Text → Except ParErr ParDict
  | d, [] => .ok d
  | d, l :: ls =>
    match parLine fl d l with
    | .error e => .error e
    | .ok d' => parLines fl d' ls

/-- fileio/instrument.py 249-254. -/
noncomputable def readPar (fl : Text → Option ℝ) (file : Text) : Except ParErr ParDict :=
  parLines fl (fun _ => none) (fileLines file)

/-- fileio/instrument.py 258-261. -/
noncomputable def cfgLines (fl : Text → Option ℝ) : List Text → Except ParErr (List ℝ)
  | [] => .ok []
  | l :: ls =>
    match words l with
    | [] => .error .indexError
    | v :: _ =>
      match fl v with
      | none => .error .valueError
      | some x =>
        match cfgLines fl ls with
        | .error e => .error e
        | .ok xs => .ok (x :: xs)

/-- fileio/instrument.py 256-261. -/
noncomputable def readCfg (fl : Text → Option ℝ) (file : Text) : Except ParErr (List ℝ) :=
  cfgLines fl (fileLines file)

/-- The entries of `par` that are used. -/
structure Par where
  sm : ℝ
  ss : ℝ
  sa : ℝ
  kfix : ℝ
  alpha : Fin 4 → ℝ
  beta : Fin 4 → ℝ
  k : ℝ
  cell : Fin 6 → ℝ
  etas : ℝ
  u : Fin 3 → ℝ
  v : Fin 3 → ℝ
  dm : ℝ
  etam : ℝ
  da : ℝ
  etaa : ℝ

/-- `par[name]`. -/
def ParDict.get (d : ParDict) (name : Text) : Except ParErr ℝ := match d name with
  | some x => .ok x
  | none => .error .keyError

/-- All the entries of `par` the loader uses, in the order in which it first uses them
(fileio/instrument.py 263-279 and 351-362).  Simplified: here all of them are looked up before the list `cfg` is
used, so that a file with a missing name and too short a list yields `KeyError` where the code may yield
`IndexError`. -/
def ParDict.par (d : ParDict) : Except ParErr Par := do
  let sm ← d.get cs!"sm"
  let ss ← d.get cs!"ss"
  let sa ← d.get cs!"sa"
  let kfix ← d.get cs!"kfix"
  let a1 ← d.get cs!"alpha1"
  let a2 ← d.get cs!"alpha2"
  let a3 ← d.get cs!"alpha3"
  let a4 ← d.get cs!"alpha4"
  let b1 ← d.get cs!"beta1"
  let b2 ← d.get cs!"beta2"
  let b3 ← d.get cs!"beta3"
  let b4 ← d.get cs!"beta4"
  let k ← d.get cs!"k"
  let a ← d.get cs!"as"
  let b ← d.get cs!"bs"
  let c ← d.get cs!"cs"
  let al ← d.get cs!"aa"
  let be ← d.get cs!"bb"
  let ga ← d.get cs!"cc"
  let etas ← d.get cs!"etas"
  let ax ← d.get cs!"ax"
  let ay ← d.get cs!"ay"
  let az ← d.get cs!"az"
  let bx ← d.get cs!"bx"
  let by' ← d.get cs!"by"
  let bz ← d.get cs!"bz"
  let dm ← d.get cs!"dm"
  let etam ← d.get cs!"etam"
  let da ← d.get cs!"da"
  let etaa ← d.get cs!"etaa"
  return { sm := sm, ss := ss, sa := sa, kfix := kfix, alpha := ![a1, a2, a3, a4], beta := ![b1, b2, b3, b4], k := k,
           cell := ![a, b, c, al, be, ga], etas := etas, u := ![ax, ay, az], v := ![bx, by', bz], dm := dm,
           etam := etam, da := da, etaa := etaa }

/-- The entries of the list `cfg`: 30 are used, fileio/instrument.py 281-347. -/
def cfgEntries (l : List ℝ) : Except ParErr (Fin 30 → ℝ) :=
  if h : 30 ≤ l.length then .ok fun i => l[i] else .error .indexError

/-- fileio/instrument.py 293-296 and 297-300: the first collimation behind a guide.  Python floats. -/
noncomputable def behindGuide (k guide col : ℝ) : Except ParErr ℝ :=
  if k = 0 then .error .zeroDivision
  else if π / 60 / 180 * 2 * π * guide / k ≤ col * π / 60 / 180 then .ok (2 * π / k * guide) else .ok col

/-- fileio/instrument.py 292-300: `hcol[0]` and `vcol[0]`. -/
noncomputable def firstCollimation (P : Par) (C : Fin 30 → ℝ) : Except ParErr (ℝ × ℝ) :=
  if C 3 = 1 then do
    let h ← behindGuide P.k (C 4) (P.alpha 0)
    let v ← behindGuide P.k (C 5) (P.beta 0)
    return (h, v)
  else .ok (P.alpha 0, P.beta 0)

/-- fileio/instrument.py 281-287, 302-310, 312-318: a size of the source, the sample or the detector. -/
noncomputable def reduced (flag x : ℝ) : ℝ := if flag = 0 then x / 4 else x / √12

/-- fileio/instrument.py 337-343: the radius for an entry of `inv_rads`. -/
noncomputable def radiusOf (x : ℝ) : ℝ := if x = 0 then 10 ^ 6 else 1 / x

/-- What the loader returns: the instrument and the three attributes that it adds. -/
structure ParLoaded where
  setup : Setup
  dir1 : ℝ
  dir2 : ℝ
  mondir : ℝ

/-- The seventh positional argument of `Sample`, `par['etas']`, is its parameter `u` (crystal/sample.py 118-141);
it is replaced by the assignment to `sample.u` (fileio/instrument.py 356).  The other parameters keep their
defaults. -/
noncomputable def sampleOf (C : Fin 30 → ℝ) : SampleAttrs where
  mosaic := none
  vmosaic := none
  width := none
  depth := none
  height := none
  shapeType := some cs!"rectangular"
  shape := some (.one (diagonal ![reduced (C 6) (C 7), reduced (C 6) (C 8), reduced (C 6) (C 9)]))
  dir := 1

/-- fileio/instrument.py 360-386: the crystals, made by `Monochromator(tau, mosaic)` and `Analyzer(tau, mosaic)`
(instrument/tas_instrument.py 110-111) and changed afterwards.  `GetTau` of a number is the number. -/
noncomputable def bladeOf (d mosaic depth width height rv rh : ℝ) : Blade where
  tau := 2 * π / d
  mosaic := mosaic
  vmosaic := none
  width := some width
  height := some height
  depth := some depth
  rv := some rv
  rh := some rh
  dir := -1
  thickness := none
  reflQ := none

/-- fileio/instrument.py 273-391, for the fixed energy `e` and the first collimations `h0`, `v0`. -/
noncomputable def settingsOf (P : Par) (C : Fin 30 → ℝ) (e h0 v0 : ℝ) : Settings where
  efixed := e
  infin := some (if P.kfix = 2 then -1 else P.kfix)
  method := some (.number 1)
  moncor := none
  horifoc := none
  hcol := ![h0, P.alpha 1, P.alpha 2, P.alpha 3]
  vcol := ![v0, P.beta 1, P.beta 2, P.beta 3]
  arms := some [C 19, C 20, C 21, C 22, C 27]
  mono := bladeOf P.dm P.etam (C 13) (C 14) (C 15) (radiusOf (P.sm * C 24)) (radiusOf (P.sm * C 23))
  ana := bladeOf P.da P.etaa (C 16) (C 17) (C 18) (radiusOf (P.sa * C 26)) (radiusOf (P.sa * C 25))
  sample := sampleOf C
  guide := ⟨some (reduced (C 0) (C 1)), some (reduced (C 0) (C 2))⟩
  monitor := ⟨some (C 28 / √12), some (C 29 / √12)⟩
  detector := ⟨some (reduced (C 10) (C 11)), some (reduced (C 10) (C 12))⟩

/-- fileio/instrument.py 263-391. -/
noncomputable def loadedOf (P : Par) (C : Fin 30 → ℝ) (e h0 v0 : ℝ) : ParLoaded where
  setup := {
    settings := settingsOf P C e h0 v0
    lattice := ⟨P.cell 0, P.cell 1, P.cell 2, P.cell 3, P.cell 4, P.cell 5⟩
    u := P.u
    v := P.v }
  dir1 := if P.sm = P.ss then -1 else 1
  dir2 := if P.ss = P.sa then -1 else 1
  mondir := P.sm

/-- fileio/instrument.py 263-391 for the contents of the files. -/
noncomputable def fromEntries (c : Energy.Consts) (P : Par) (C : Fin 30 → ℝ) : Except ParErr ParLoaded := do
  let (h0, v0) ← firstCollimation P C
  let e ← match Energy.create c { wavevector := some P.k } with
    | .ok s => .ok s.en
    | .error _ => .error .zeroDivision
  if P.dm = 0 ∨ P.da = 0 then .error .zeroDivision
  else return loadedOf P C e h0 v0

/-- `load_instrument((parfile, cfgfile), 'parcfg')`, fileio/instrument.py 247-391. -/
noncomputable def loadParCfg (c : Energy.Consts) (fl : Text → Option ℝ) (parfile cfgfile : Text) : Except ParErr ParLoaded := do
  let d ← readPar fl parfile
  let l ← readCfg fl cfgfile
  let P ← d.par
  let C ← cfgEntries l
  fromEntries c P C

end Verif.FileIO
