import Mathlib.Logic.Function.Basic
import Verif.Common.Chars

/-!
# Model of the creation of instruments

`Instrument(…)` (instrument/instrument.py 33-58), the constructors of `TripleAxisInstrument` (instrument/tas_instrument.py 96-123),
`TimeOfFlightInstrument` (instrument/tof_instrument.py 78-112) and of the classes for Takin (instrument/takin.py 12-54).
-/

namespace Verif.Instrument.Create

/-- Names of parameters and attributes. -/
abbrev Name := List Char

/-- Exceptions. -/
inductive CreateErr
  | typeError | indexError | attributeError
  deriving DecidableEq, Repr

/-- The class of the object. -/
inductive Class
  | bare | tas | tof | takinTas | takinTof
  deriving DecidableEq, Repr

/-- The other classes and functions that are used, as functions of the values. -/
structure Lib (V : Type) where
  text : Name → V
  /-- a number in thousandths -/
  num : Int → V
  numbers : List Int → V
  isNone : V → Bool
  truthy : V → Bool
  /-- `np.array` -/
  array : V → V
  monochromator : V → V → V
  analyzer : V → V → V
  dummy : Name → V
  /-- the sample of the defaults, `Sample(6, 7, 8, 90, 90, 90)` with its vectors -/
  sample : V
  /-- the same with the distance 3600 -/
  tofSample : V
  u : V → V
  v : V → V
  energy : V → V
  /-- the list made of the argument `choppers`: sorted by distance, or with one element -/
  choppers : V → List V
  chopperList : List V → V
  pulseChopper : V
  monoChopper : V
  detector : V
  /-- the guides of the defaults, made of two choppers and the sample -/
  guides : V → V → V → V

variable {V : Type}

/-- The parameters of `TripleAxisInstrument` (instrument/tas_instrument.py 96-97). -/
def tasParams : List Name :=
  [cs!"efixed", cs!"sample", cs!"hcol", cs!"vcol", cs!"mono", cs!"mono_mosaic", cs!"ana", cs!"ana_mosaic"]

/-- The parameters of `TimeOfFlightInstrument` (instrument/tof_instrument.py 78). -/
def tofParams : List Name := [cs!"ei", cs!"choppers", cs!"sample", cs!"detector", cs!"guides", cs!"theta_i", cs!"phi_i"]

/-- How Python gives arguments to the parameters of a function with `**kwargs` as last one: the value of each parameter, if there is one,
and the other keywords in their order.  `kwargs` is a dictionary. -/
def bindArgs (params : List Name) (args : List V) (kwargs : List (Name × V)) :
    Except CreateErr ((Name → Option V) × List (Name × V)) :=
  if params.length < args.length then .error .typeError
  else if (params.take args.length).any fun n => (kwargs.lookup n).isSome then .error .typeError
  else .ok (fun n => ((params.zip args).lookup n).or (if n ∈ params then kwargs.lookup n else none),
    kwargs.filter fun e => e.1 ∉ params)

/-- An argument that may be `None`. -/
def orNone (L : Lib V) (a : Option V) (d : V) : V := match a with
  | some v => if L.isNone v then d else v
  | none => d

/-- An argument that may be anything that counts as false. -/
def orFalse (L : Lib V) (a : Option V) (d : V) : V := match a with
  | some v => if L.truthy v then v else d
  | none => d

/-- The attributes of an object. -/
abbrev Attrs (V : Type) := Name → Option V

/-- `self.<n> = v`.  Simplified: `orient1` and `orient2` are the vectors of the sample (instrument/tas_instrument.py 372-392), here
they are attributes of the instrument itself. -/
def Attrs.put (a : Attrs V) (n : Name) (v : V) : Attrs V := Function.update a n (some v)

/-- `for key, value in kwargs.items(): setattr(self, key, value)` (instrument/tas_instrument.py 122-123,
instrument/tof_instrument.py 111-112). -/
def Attrs.putAll (a : Attrs V) (kwargs : List (Name × V)) : Attrs V := kwargs.foldl (fun a e => a.put e.1 e.2) a

/-- `TripleAxisInstrument.__init__` (instrument/tas_instrument.py 96-123) on an object with the attributes `a`. -/
def initTas (L : Lib V) (a : Attrs V) (args : List V) (kwargs : List (Name × V)) : Except CreateErr (Attrs V) :=
  match bindArgs tasParams args kwargs with
  | .error e => .error e
  | .ok (g, extra) =>
    let sample := orNone L (g cs!"sample") L.sample
    .ok <| Attrs.putAll ((((((((((a.put cs!"mono" (L.monochromator ((g cs!"mono").getD (L.text cs!"PG(002)")) ((g cs!"mono_mosaic").getD (L.num 25000))))
      |>.put cs!"ana" (L.analyzer ((g cs!"ana").getD (L.text cs!"PG(002)")) ((g cs!"ana_mosaic").getD (L.num 25000))))
      |>.put cs!"hcol" (L.array (orNone L (g cs!"hcol") (L.numbers [40, 40, 40, 40]))))
      |>.put cs!"vcol" (L.array (orNone L (g cs!"vcol") (L.numbers [120, 120, 120, 120]))))
      |>.put cs!"efixed" ((g cs!"efixed").getD (L.num 14700)))
      |>.put cs!"sample" sample)
      |>.put cs!"orient1" (L.array (L.u sample)))
      |>.put cs!"orient2" (L.array (L.v sample)))
      |>.put cs!"detector" (L.dummy cs!"Detector"))
      |>.put cs!"monitor" (L.dummy cs!"Monitor")
      |>.put cs!"guide" (L.dummy cs!"Guide")) extra

/-- `TimeOfFlightInstrument.__init__` (instrument/tof_instrument.py 78-112). -/
def initTof (L : Lib V) (a : Attrs V) (args : List V) (kwargs : List (Name × V)) : Except CreateErr (Attrs V) :=
  match bindArgs tofParams args kwargs with
  | .error e => .error e
  | .ok (g, extra) =>
    let choppers := match g cs!"choppers" with
      | some c => if L.truthy c then L.choppers c else [L.pulseChopper, L.monoChopper]
      | none => [L.pulseChopper, L.monoChopper]
    let sample := orFalse L (g cs!"sample") L.tofSample
    let guides : Except CreateErr V := match (g cs!"guides").filter L.truthy with
      | some v => .ok v
      | none => match choppers with
        | c0 :: c1 :: _ => .ok (L.guides c0 c1 sample)
        | _ => .error .indexError
    match guides with
    | .error e => .error e
    | .ok guides =>
      .ok <| Attrs.putAll (((((((a.put cs!"ei" (L.energy ((g cs!"ei").getD (L.num 3000))))
        |>.put cs!"choppers" (L.chopperList choppers))
        |>.put cs!"sample" sample)
        |>.put cs!"detector" (orFalse L (g cs!"detector") L.detector))
        |>.put cs!"guides" guides)
        |>.put cs!"theta_i" ((g cs!"theta_i").getD (L.num 0)))
        |>.put cs!"phi_i" ((g cs!"phi_i").getD (L.num 0))) extra

/-- `if n not in kwargs: kwargs[n] = v`. -/
def setDefault (kwargs : List (Name × V)) (n : Name) (v : V) : List (Name × V) :=
  if (kwargs.lookup n).isSome then kwargs else kwargs ++ [(n, v)]

/-- `Instrument(*args, **kwargs)` (instrument/instrument.py 33-58); warnings are left out. -/
def create [DecidableEq V] (L : Lib V) (args : List V) (kwargs : List (Name × V)) : Except CreateErr (Class × Attrs V) :=
  let kwargs := setDefault (setDefault kwargs cs!"instrument_type" (L.text cs!"tas")) cs!"engine" (L.text cs!"neutronpy")
  let type := (kwargs.lookup cs!"instrument_type").getD (L.text [])
  let engine := (kwargs.lookup cs!"engine").getD (L.text [])
  let a : Attrs V := (Attrs.put (fun _ => none) cs!"instrument_type" type).put cs!"engine" engine
  if type = L.text cs!"tas" then
    if engine = L.text cs!"neutronpy" then (initTas L a args kwargs).map fun a => (.tas, a)
    else if engine = L.text cs!"takin" then (initTas L a args kwargs).map fun a => (.takinTas, a)
    else .ok (.bare, a)
  else if type = L.text cs!"tof" then
    if engine = L.text cs!"neutronpy" then (initTof L a args kwargs).map fun a => (.tof, a)
    else if engine = L.text cs!"takin" then .ok (.takinTof, a)
    else .ok (.bare, a)
  else .ok (.bare, a)

/-- `instrument.calc_resolution(hkle)` for an object of a class (instrument/takin.py 22-23, 42-43); `full` is what the method of the
two other classes does. -/
def calcResolution (full : Attrs V → Except CreateErr (Attrs V)) : Class × Attrs V → Except CreateErr (Attrs V)
  | (.tas, a) => full a
  | (.tof, a) => full a
  | (.takinTas, a) => .ok a
  | (.takinTof, a) => .ok a
  | (.bare, _) => .error .attributeError

end Verif.Instrument.Create
