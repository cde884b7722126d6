import Mathlib.Data.Rat.Defs
import Mathlib.Algebra.Order.Ring.Unbundled.Rat
import Verif.Common.Chars
import Verif.Instrument.Create

/-!
# Model of the printed forms of objects

`repr` of `Lattice` (crystal/lattice.py 81-82), `Sample` (crystal/sample.py 143-148), `Monochromator` (instrument/monochromator.py 71-76),
`Analyzer` (instrument/analyzer.py 75-80), `Detector` (instrument/detector.py 76-80), `Goniometer` (instrument/goniometer.py 45-47),
`Atom` and `MagneticAtom` (crystal/atom.py 61-62, 89-90), `SpaceGroup` (crystal/symmetry.py 57-58), `Energy` (energy.py 52-53) and
of the two kinds of instruments (instrument/tas_instrument.py 125-126, instrument/tof_instrument.py 114-115); and what Python makes of
such a text when it is evaluated.
-/

namespace Verif.Instrument.Printed

open Verif.Instrument.Create (Name)

/-- The tokens of Python; a number is a literal without sign, `other` is any token that does not occur in an expression of the kind
that is read here. -/
inductive Tok
  | name (s : Name)
  | num (q : ℚ)
  | quoted (s : Name)
  | minus | lpar | rpar | lbrack | rbrack | comma | eq | other
  deriving DecidableEq

/-- Values of attributes.  A text is given by its tokens.  Lists and arrays are those of numbers; numbers are exact, as `str` of a float
is in Python 3. -/
inductive Val
  | num (q : ℚ)
  | none
  | text (t : List Tok)
  | list (l : List ℚ)
  | arr (l : List ℚ)
  deriving DecidableEq

/-- Exceptions of the evaluation. -/
inductive PyErr
  | syntaxError | nameError | typeError
  deriving DecidableEq

/-! ## Printing -/

/-- `str` of a number. -/
def showNum (q : ℚ) : List Tok := if q < 0 then [.minus, .num (-q)] else [.num q]

/-- `', '.join(...)`. -/
def commas : List (List Tok) → List Tok
  | [] => []
  | [x] => x
  | x :: y :: r => x ++ .comma :: commas (y :: r)

/-- `str(value)`: a text is printed without quotes, an array of numpy without commas. -/
def Val.str : Val → List Tok
  | .num q => showNum q
  | .none => [.name cs!"None"]
  | .text t => t
  | .list l => .lbrack :: (commas (l.map showNum) ++ [.rbrack])
  | .arr l => .lbrack :: ((l.map showNum).flatten ++ [.rbrack])

/-- `'{0}={1}'.format(key, value)`. -/
def keyword (e : Name × Val) : List Tok := .name e.1 :: .eq :: e.2.str

/-- `"Class({0})".format(...)` with the arguments, first those without names, separated by commas. -/
def printed (cls : Name) (pos : List Val) (kw : List (Name × Val)) : List Tok :=
  .name cls :: .lpar :: (commas (pos.map Val.str ++ kw.map keyword) ++ [.rpar])

/-! ## Evaluation -/

/-- Negation, as Python does it for numbers. -/
def neg : Except PyErr Val → Except PyErr Val
  | .ok (.num q) => .ok (.num (-q))
  | .ok _ => .error .typeError
  | .error e => .error e

/-- Subtraction, as Python does it for numbers. -/
def sub : Except PyErr Val → Except PyErr Val → Except PyErr Val
  | .ok (.num p), .ok (.num q) => .ok (.num (p - q))
  | .ok _, .ok _ => .error .typeError
  | .error e, _ => .error e
  | .ok _, .error e => .error e

/-- The value of a name; the classes of the package and the constants are the only names there are.  (A class that is not called is a
value that none of the constructors below takes; it is an error here.) -/
def lookupName (s : Name) : Except PyErr Val := if s = cs!"None" then .ok .none else .error .nameError

/-- A list of values.  Simplified: lists of other things than numbers are an error. -/
def listOf : List (Except PyErr Val) → Except PyErr (List ℚ)
  | [] => .ok []
  | .ok (.num q) :: r => (listOf r).map (q :: ·)
  | .ok _ :: _ => .error .typeError
  | .error e :: _ => .error e

mutual
/-- Reads a term, a literal, a name, a call or a list, and evaluates it: `none` if it is not Python, else the value, or the exception
that evaluating it raises, and the rest of the text.  A call inside the arguments is that of a name which is not defined.  The first argument
bounds the depth of the recursion; the length of the text is enough. -/
def term : ℕ → List Tok → Option (Except PyErr Val × List Tok)
  | 0, _ => none
  | n + 1, ts => match ts with
    | .num q :: ts => some (.ok (.num q), ts)
    | .quoted s :: ts => some (.ok (.text [.name s]), ts)
    | .minus :: ts => (term n ts).map fun r => (neg r.1, r.2)
    | .name _ :: .lpar :: ts => (args n ts).map fun r => (.error .nameError, r.2)
    | .name s :: ts => some (lookupName s, ts)
    | .lbrack :: ts => (items n ts).map fun r => ((listOf r.1).map .list, r.2)
    | _ => none

/-- Reads the rest of a difference of which the first part has been read. -/
def diff : ℕ → Except PyErr Val → List Tok → Option (Except PyErr Val × List Tok)
  | 0, _, _ => none
  | n + 1, v, ts => match ts with
    | .minus :: ts => match term n ts with
      | some (w, ts) => diff n (sub v w) ts
      | none => none
    | ts => some (v, ts)

/-- Reads the elements of a list after the opening bracket. -/
def items : ℕ → List Tok → Option (List (Except PyErr Val) × List Tok)
  | 0, _ => none
  | n + 1, ts => match ts with
    | .rbrack :: ts => some ([], ts)
    | ts => match term n ts with
      | none => none
      | some (v, ts) => match diff n v ts with
        | some (v, .comma :: ts) => (items n ts).map fun r => (v :: r.1, r.2)
        | some (v, .rbrack :: ts) => some ([v], ts)
        | _ => none

/-- Reads the arguments of a call after the opening parenthesis. -/
def args : ℕ → List Tok → Option (List (Option Name × Except PyErr Val) × List Tok)
  | 0, _ => none
  | n + 1, ts => match ts with
    | .rpar :: ts => some ([], ts)
    | .name k :: .eq :: ts => match term n ts with
      | none => none
      | some (v, ts) => match diff n v ts with
        | some (v, .comma :: ts) => (args n ts).map fun r => ((some k, v) :: r.1, r.2)
        | some (v, .rpar :: ts) => some ([(some k, v)], ts)
        | _ => none
    | ts => match term n ts with
      | none => none
      | some (v, ts) => match diff n v ts with
        | some (v, .comma :: ts) => (args n ts).map fun r => ((none, v) :: r.1, r.2)
        | some (v, .rpar :: ts) => some ([(none, v)], ts)
        | _ => none
end

/-- The arguments of a call in the order in which they are evaluated: those without and those with a name.  An argument without name
after one with a name is not Python. -/
def arrange : List (Option Name × Except PyErr Val) → Except PyErr (List Val × List (Name × Val))
  | [] => .ok ([], [])
  | (none, v) :: r => do
    let v ← v
    let (p, k) ← arrange r
    pure (v :: p, k)
  | (some s, v) :: r => do
    let v ← v
    let (p, k) ← arrange r
    match p with
    | [] => pure ([], (s, v) :: k)
    | _ => throw .syntaxError

/-- What Python reads in a text that is the call of a class: the class and the values of the arguments. -/
def evaluated : List Tok → Except PyErr (Name × List Val × List (Name × Val))
  | .name cls :: .lpar :: ts => match args (ts.length + 1) ts with
    | some (as, []) => (arrange as).map fun r => (cls, r)
    | _ => .error .syntaxError
  | _ => .error .syntaxError

/-- How Python gives arguments to the parameters of a function; the first `n` parameters have no default. -/
def bindExact (params : List Name) (n : ℕ) (pos : List Val) (kw : List (Name × Val)) : Except PyErr (Name → Option Val) :=
  if params.length < pos.length then .error .typeError
  else if (params.take pos.length).any fun s => (kw.lookup s).isSome then .error .typeError
  else if kw.any fun e => e.1 ∉ params then .error .typeError
  else if ((params.take n).drop pos.length).any fun s => (kw.lookup s).isNone then .error .typeError
  else .ok fun s => ((params.zip pos).lookup s).or (kw.lookup s)

/-- An argument that was not given or is `None`. -/
def given (a : Option Val) : Option Val := match a with
  | some .none => none
  | a => a

/-! ## Classes -/

/-- A lattice (crystal/lattice.py 77-79), with lengths and angles that are numbers. -/
structure Cell where
  a : ℚ
  b : ℚ
  c : ℚ
  alpha : ℚ
  beta : ℚ
  gamma : ℚ
  deriving DecidableEq

def Cell.pos (l : Cell) : List Val := [.num l.a, .num l.b, .num l.c, .num l.alpha, .num l.beta, .num l.gamma]

/-- The six names of crystal/lattice.py 77 and crystal/sample.py 118. -/
def cellNames : List Name := [cs!"a", cs!"b", cs!"c", cs!"alpha", cs!"beta", cs!"gamma"]

/-- Six arguments as numbers.  (Other values would be stored as they are; they are an error here.) -/
def cellOf (g : Name → Option Val) : Except PyErr Cell :=
  match g cs!"a", g cs!"b", g cs!"c", g cs!"alpha", g cs!"beta", g cs!"gamma" with
  | some (.num a), some (.num b), some (.num c), some (.num al), some (.num be), some (.num ga) => .ok ⟨a, b, c, al, be, ga⟩
  | _, _, _, _, _, _ => .error .typeError

/-- crystal/lattice.py 81-82, `Lattice.__repr__`. -/
def Cell.repr (l : Cell) : List Tok := printed cs!"Lattice" l.pos []

/-- crystal/lattice.py 77-79, `Lattice(...)`. -/
def makeCell (pos : List Val) (kw : List (Name × Val)) : Except PyErr Cell := do cellOf (← bindExact cellNames 6 pos kw)

/-- A sample (crystal/sample.py 118-141).  An attribute that does not exist is `none`; `shapeType` is `shape_type`, given by the tokens of the
text.  The attribute `shape`, which only files and users set, is left out. -/
structure SampleObj where
  cell : Cell
  u : Option (List ℚ)
  v : Option (List ℚ)
  mosaic : Option ℚ
  vmosaic : Option ℚ
  dir : ℚ
  width : Option ℚ
  height : Option ℚ
  depth : Option ℚ
  shapeType : Val
  distance : Option ℚ
  deriving DecidableEq

/-- An attribute that is printed if it exists. -/
def ifAny (k : Name) (v : Option Val) : List (Name × Val) := (v.map fun v => (k, v)).toList

/-- crystal/sample.py 143-148, `Sample.__repr__`: the vectors are arrays. -/
def SampleObj.repr (s : SampleObj) : List Tok :=
  printed cs!"Sample" s.cell.pos (ifAny cs!"u" (s.u.map .arr) ++ (ifAny cs!"v" (s.v.map .arr) ++ (ifAny cs!"mosaic" (s.mosaic.map .num) ++
    (ifAny cs!"vmosaic" (s.vmosaic.map .num) ++ ((cs!"direct", .num s.dir) :: (ifAny cs!"width" (s.width.map .num) ++
    (ifAny cs!"height" (s.height.map .num) ++ ifAny cs!"depth" (s.depth.map .num))))))))

/-- The parameters of `Sample` (crystal/sample.py 118-119). -/
def sampleNames : List Name := cellNames ++ [cs!"u", cs!"v", cs!"mosaic", cs!"vmosaic", cs!"direct", cs!"width", cs!"height", cs!"depth",
  cs!"shape", cs!"distance"]

/-- `np.array(u)` of a list of numbers or of an array. -/
def vectorOf (a : Option Val) : Except PyErr (Option (List ℚ)) := match given a with
  | none => .ok none
  | some (.list l) => .ok (some l)
  | some (.arr l) => .ok (some l)
  | some _ => .error .typeError

/-- An argument that is a number or `None`.  (Other values would be stored as they are; they are an error here.) -/
def numberOf (a : Option Val) : Except PyErr (Option ℚ) := match given a with
  | none => .ok none
  | some (.num q) => .ok (some q)
  | some _ => .error .typeError

/-- crystal/sample.py 118-141, `Sample(...)`. -/
def makeSample (pos : List Val) (kw : List (Name × Val)) : Except PyErr SampleObj := do
  let g ← bindExact sampleNames 6 pos kw
  let cell ← cellOf g
  let u ← vectorOf (g cs!"u")
  let v ← vectorOf (g cs!"v")
  let mosaic ← numberOf (g cs!"mosaic")
  let vmosaic ← numberOf (g cs!"vmosaic")
  let dir ← numberOf (some ((g cs!"direct").getD (.num 1)))
  let width ← numberOf (g cs!"width")
  let height ← numberOf (g cs!"height")
  let depth ← numberOf (g cs!"depth")
  let distance ← numberOf (g cs!"distance")
  pure ⟨cell, u, v, mosaic, vmosaic, dir.getD 0, width, height, depth, (g cs!"shape").getD (.text [.name cs!"rectangular"]), distance⟩

/-- A monochromator (instrument/monochromator.py 53-69) or an analyzer (instrument/analyzer.py 65-73); `d` follows from `tau`.  `horifoc`,
`thickness` and `Q` are those of an analyzer. -/
structure CrystalObj where
  tau : Val
  mosaic : ℚ
  dir : ℚ
  vmosaic : Option ℚ
  height : Option ℚ
  width : Option ℚ
  depth : Option ℚ
  rh : Option ℚ
  rv : Option ℚ
  horifoc : Option ℚ
  thickness : Option ℚ
  Q : Option ℚ
  deriving DecidableEq

/-- The attributes that both classes print by name. -/
def CrystalObj.common (m : CrystalObj) : List (Name × Val) :=
  (cs!"direct", .num m.dir) :: (ifAny cs!"vmosaic" (m.vmosaic.map .num) ++ (ifAny cs!"height" (m.height.map .num) ++
    (ifAny cs!"width" (m.width.map .num) ++ (ifAny cs!"depth" (m.depth.map .num) ++ (ifAny cs!"rh" (m.rh.map .num) ++
    ifAny cs!"rv" (m.rv.map .num))))))

/-- instrument/monochromator.py 71-76, `Monochromator.__repr__`. -/
def CrystalObj.reprMono (m : CrystalObj) : List Tok := printed cs!"Monochromator" [m.tau, .num m.mosaic] m.common

/-- instrument/analyzer.py 75-80, `Analyzer.__repr__`. -/
def CrystalObj.reprAna (m : CrystalObj) : List Tok := printed cs!"Analyzer" [m.tau, .num m.mosaic]
  (m.common ++ (ifAny cs!"horifoc" (m.horifoc.map .num) ++ (ifAny cs!"thickness" (m.thickness.map .num) ++ ifAny cs!"Q" (m.Q.map .num))))

/-- The parameters of `Monochromator` (instrument/monochromator.py 53). -/
def monoNames : List Name := [cs!"tau", cs!"mosaic", cs!"direct", cs!"vmosaic", cs!"height", cs!"width", cs!"depth", cs!"rh", cs!"rv"]

/-- instrument/monochromator.py 53-69, `Monochromator(...)`.  (`GetTau` of an unknown crystal is in `Tools`.) -/
def makeMono (pos : List Val) (kw : List (Name × Val)) : Except PyErr CrystalObj := do
  let g ← bindExact monoNames 2 pos kw
  let mosaic ← numberOf (g cs!"mosaic")
  let dir ← numberOf (some ((g cs!"direct").getD (.num (-1))))
  let vmosaic ← numberOf (g cs!"vmosaic")
  let height ← numberOf (g cs!"height")
  let width ← numberOf (g cs!"width")
  let depth ← numberOf (g cs!"depth")
  let rh ← numberOf (g cs!"rh")
  let rv ← numberOf (g cs!"rv")
  pure ⟨(g cs!"tau").getD .none, mosaic.getD 0, dir.getD 0, vmosaic, height, width, depth, rh, rv, none, none, none⟩

/-- The parameters of `Analyzer` (instrument/analyzer.py 65-66). -/
def anaNames : List Name := monoNames ++ [cs!"horifoc", cs!"thickness", cs!"Q"]

/-- instrument/analyzer.py 65-73, `Analyzer(...)`: most arguments are not passed on. -/
def makeAna (pos : List Val) (kw : List (Name × Val)) : Except PyErr CrystalObj := do
  let g ← bindExact anaNames 2 pos kw
  let mosaic ← numberOf (g cs!"mosaic")
  let horifoc ← numberOf (some ((g cs!"horifoc").getD (.num (-1))))
  let thickness ← numberOf (g cs!"thickness")
  let Q ← numberOf (g cs!"Q")
  pure ⟨(g cs!"tau").getD .none, mosaic.getD 0, -1, none, none, none, none, none, none, horifoc, thickness, Q⟩

/-- instrument/detector.py 76-80, `Detector.__repr__`; there is no attribute `resolution`. -/
def detectorRepr (shape width height radius : Val) (orientation deadAngles : Option Val) : List Tok :=
  printed cs!"Detector" [shape, width, height, radius] [(cs!"resolution", .none), (cs!"orientation", orientation.getD .none),
    (cs!"dead_angles", deadAngles.getD .none)]

/-- The parameters of `Detector` (instrument/detector.py 62). -/
def detectorNames : List Name := [cs!"shape", cs!"width", cs!"height", cs!"radius", cs!"hpixels", cs!"vpixels", cs!"tau", cs!"thickness",
  cs!"orientation", cs!"dead_angles"]

/-- instrument/detector.py 62-74, `Detector(...)`, as far as the arguments are concerned. -/
def makeDetector (pos : List Val) (kw : List (Name × Val)) : Except PyErr (Name → Option Val) := bindExact detectorNames 6 pos kw

/-- A goniometer (instrument/goniometer.py 33-43): seven values. -/
structure GoniometerObj where
  u : Val
  thetaU : Val
  v : Val
  thetaV : Val
  sgu : Val
  sgl : Val
  omega : Val
  deriving DecidableEq

/-- instrument/goniometer.py 45-47, `Goniometer.__repr__`. -/
def GoniometerObj.repr (g : GoniometerObj) : List Tok := printed cs!"Goniometer" [g.u, g.thetaU, g.v, g.thetaV, g.sgu, g.sgl, g.omega] []

/-- The parameters of `Goniometer` (instrument/goniometer.py 33). -/
def goniometerNames : List Name := [cs!"u", cs!"theta_u", cs!"v", cs!"theta_v", cs!"sgu", cs!"sgl", cs!"omega"]

/-- instrument/goniometer.py 33-43, `Goniometer(...)`. -/
def makeGoniometer (pos : List Val) (kw : List (Name × Val)) : Except PyErr GoniometerObj := do
  let g ← bindExact goniometerNames 6 pos kw
  let get (s : Name) : Val := (g s).getD (.num 0)
  pure ⟨get cs!"u", get cs!"theta_u", get cs!"v", get cs!"theta_v", get cs!"sgu", get cs!"sgl", get cs!"omega"⟩

/-- crystal/atom.py 61-62, `Atom.__repr__`; the name of the ion is in quotes. -/
def atomRepr (ion : Name) : List Tok := [.name cs!"Atom", .lpar, .quoted ion, .rpar]

/-- crystal/atom.py 89-90, `MagneticAtom.__repr__`. -/
def magneticAtomRepr (ion : Name) : List Tok := [.name cs!"MagneticAtom", .lpar, .quoted ion, .rpar]

/-- The parameters of `Atom` (crystal/atom.py 37). -/
def atomNames : List Name := [cs!"ion", cs!"pos", cs!"occupancy", cs!"Mcell", cs!"massNorm", cs!"Uiso", cs!"Uaniso"]

/-- The parameters of `MagneticAtom` (crystal/atom.py 83). -/
def magneticAtomNames : List Name := [cs!"ion", cs!"pos", cs!"moment", cs!"occupancy"]

/-- crystal/symmetry.py 57-58, `SpaceGroup.__repr__`. -/
def groupRepr (number : ℕ) : List Tok := printed cs!"SpaceGroup" [.num number] []

/-- energy.py 52-53, `Energy.__repr__`. -/
def energyRepr (energy : ℚ) : List Tok := printed cs!"Energy" [.num energy] []

/-- instrument/tas_instrument.py 125-126, `TripleAxisInstrument.__repr__`. -/
def tasRepr (efixed : Val) : List Tok :=
  [.name cs!"Instrument", .lpar, .quoted cs!"tas", .comma, .name cs!"engine", .eq, .quoted cs!"neutronpy", .comma, .name cs!"efixed", .eq] ++
    efixed.str ++ [.rpar]

/-- instrument/tof_instrument.py 114-115, `TimeOfFlightInstrument.__repr__`.  The energy is formatted by `Energy.__str__` (energy.py 49-50, 156-178),
which gives the lines of `values`: `Energy: 3.000 meV` and so on. -/
def tofRepr (values : List Tok) : List Tok :=
  [.name cs!"Instrument", .lpar, .quoted cs!"tof", .comma, .name cs!"engine", .eq, .quoted cs!"neutronpy", .comma, .name cs!"ei", .eq] ++
    values ++ [.rpar]

/-- energy.py 169-178, the tokens of the first line of `values`, and any others. -/
def valuesText (energy : ℚ) (more : List Tok) : List Tok := [.name cs!"Energy", .other, .num energy, .name cs!"meV"] ++ more

end Verif.Instrument.Printed
