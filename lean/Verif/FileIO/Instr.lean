import Verif.FileIO.Text

/-!
# Model of the ASCII instrument files of `neutronpy/fileio/instrument.py`

Attribute values are numbers of an arbitrary type `N`, strings, numpy arrays,
Python lists, and `None`.  How Python and numpy write a number and how `float`
reads one is a parameter, `Numerals`: floating point formatting itself is not
modelled.  `intNumerals` is the exact formatting of whole numbers.
-/

namespace Verif.FileIO

/-- The Python exceptions the modelled code raises. -/
inductive Err
  | indexError | valueError | attributeError | fileNotFound | keyError | typeError | ioError
  | nameError | syntaxError | stopIteration
  deriving DecidableEq, Repr

/-- How numbers are written and read. -/
structure Numerals (N : Type) where
  /-- `str(x)` -/
  str : N → Text
  /-- The texts numpy puts for the elements of a one-dimensional array, already
  padded with blanks to a common width. -/
  cells : List N → List Text
  /-- `float(s)`, `none` for `ValueError`. -/
  float : Text → Option N

/-- The value of an attribute. -/
inductive Value (N : Type)
  | num (x : N)
  | text (s : Text)
  | arr (xs : List N)
  | list (xs : List N)
  | none
  deriving DecidableEq, Repr

variable {N : Type}

/-- `', '.join(parts)`. -/
def commaJoin : List Text → Text
  | [] => []
  | [w] => w
  | w :: ws => w ++ ',' :: ' ' :: commaJoin ws

/-- `str(value)` (fileio/instrument.py 558, 564).  numpy breaks the text of an
array that is longer than 75 characters into lines; that is not modelled, the
vectors saved here have three to five elements. -/
def Value.str (nm : Numerals N) : Value N → Text
  | .num x => nm.str x
  | .text s => s
  | .arr xs => '[' :: join ' ' (nm.cells xs) ++ [']']
  | .list xs => '[' :: commaJoin (xs.map nm.str) ++ [']']
  | .none => cs!"None"

/-- A triple-axis instrument as an object with attributes.  `own` are its own
attributes, `parts` the attributes of the objects it consists of (`mono`,
`ana`, …), `none` where there is no such object.  Attributes computed by
property setters (`mono.d` from `mono.tau`) are not modelled. -/
structure Obj (N : Type) where
  own : Text → Option (Value N)
  parts : Text → Option (Text → Option (Value N))

/-- `getattr(obj, attr)` for `g = ''` and `getattr(getattr(obj, g), attr)`
otherwise; `none` stands for `AttributeError` (fileio/instrument.py 555-566). -/
def Obj.get (o : Obj N) (g a : Text) : Option (Value N) :=
  if g = [] then o.own a
  else match o.parts g with
    | none => none
    | some p => p a

/-- The names of the saved attributes, group by group
(fileio/instrument.py 533-541 and 550-552). -/
def savedGroups : List (Text × List Text) :=
  [ ([], [cs!"efixed", cs!"arms", cs!"hcol", cs!"vcol", cs!"method", cs!"moncor", cs!"infin"]),
    (cs!"mono", [cs!"tau", cs!"height", cs!"width", cs!"depth", cs!"direct", cs!"mosaic",
      cs!"vmosaic", cs!"rh", cs!"rv"]),
    (cs!"ana", [cs!"tau", cs!"height", cs!"width", cs!"depth", cs!"direct", cs!"mosaic",
      cs!"vmosaic", cs!"rh", cs!"rv", cs!"horifoc", cs!"thickness", cs!"Q"]),
    (cs!"detector", [cs!"height", cs!"width", cs!"depth"]),
    (cs!"guide", [cs!"height", cs!"width"]),
    (cs!"sample", [cs!"a", cs!"b", cs!"c", cs!"alpha", cs!"beta", cs!"gamma", cs!"u", cs!"v",
      cs!"mosaic", cs!"vmosaic", cs!"height", cs!"width", cs!"depth", cs!"direct"]),
    (cs!"Smooth", [cs!"X", cs!"Y", cs!"Z", cs!"E"]) ]

/-- All saved attributes as pairs of group and name, in the order of the file. -/
def savedNames : List (Text × Text) :=
  savedGroups.flatMap fun g => g.2.map fun a => (g.1, a)

/-- One line of the file without its line end (fileio/instrument.py 558, 564). -/
def lineOf (nm : Numerals N) (g a : Text) (v : Value N) : Text :=
  if g = [] then cs!"instrument." ++ (a ++ (cs!" = " ++ v.str nm))
  else cs!"instrument." ++ (g ++ '.' :: (a ++ (cs!" = " ++ v.str nm)))

/-- `save_tas_instrument`, the lines collected for the ASCII format
(fileio/instrument.py 549-568). -/
def saveLines (nm : Numerals N) (o : Obj N) : List Text :=
  savedNames.filterMap fun n => (o.get n.1 n.2).map fun v => lineOf nm n.1 n.2 v

/-- The text written to the file (fileio/instrument.py 570-571). -/
def render (nm : Numerals N) (o : Obj N) : Text :=
  ((saveLines nm o).map (· ++ ['\n'])).flatten

/-- The file after `with open(name, mode) as f: f.writelines(lines)` with mode
`w+` or `r+` (fileio/instrument.py 544-547, 570-571): `w+` replaces the file,
`r+` needs an existing file and writes over its beginning. -/
def writeFile (overwrite : Bool) (old : Option Text) (new : Text) : Except Err Text :=
  if overwrite then .ok new
  else match old with
    | none => .error .fileNotFound
    | some o => .ok (new ++ o.drop new.length)

/-- Which class an instrument has (fileio/instrument.py 507-510). -/
inductive Kind
  | tripleAxis | timeOfFlight
  deriving DecidableEq, Repr

/-- `save_instrument(obj, filename, 'ascii', overwrite)`
(fileio/instrument.py 507-510, and 692-693 for time-of-flight instruments). -/
def saveInstrument (nm : Numerals N) (kind : Kind) (o : Obj N) (overwrite : Bool)
    (old : Option Text) : Except Err (Option Text) :=
  match kind with
  | .tripleAxis => (writeFile overwrite old (render nm o)).map some
  | .timeOfFlight => .ok old

/-! ### Loading -/

/-- fileio/instrument.py 397-403: a line as attribute path and text.  A missing
`=` is an `IndexError`. -/
def parseLine (line : Text) : Except Err (List Text × Text) :=
  match split '=' (erase cs!"instrument." (without '\n' line)) with
  | l :: r :: _ => .ok ((split '.' l).map strip, strip r)
  | _ => .error .indexError

/-- `[float(item) for item in value]` (fileio/instrument.py 412). -/
def floats (nm : Numerals N) : List Text → Except Err (List N)
  | [] => .ok []
  | t :: ts =>
    match nm.float t with
    | none => .error .valueError
    | some x => (floats nm ts).map (x :: ·)

/-- fileio/instrument.py 410-417: the value a text stands for. -/
def readValue (nm : Numerals N) (s : Text) : Except Err (Value N) :=
  if '[' ∈ s then (floats nm (split ' ' (without '[' (without ']' s)))).map .list
  else match nm.float s with
    | some x => .ok (.num x)
    | none => .ok (.text s)

/-- What an assignment stores: the setters of `sample.u` and `sample.v` make arrays (crystal/sample.py 168-186).  (The array
that numpy makes of a single number or text is not distinguished from it.) -/
def stored (g a : Text) (v : Value N) : Value N :=
  if g = cs!"sample" ∧ (a = cs!"u" ∨ a = cs!"v") then
    match v with
    | .list xs => .arr xs
    | v => v
  else v

/-- `setattr` on a part of an instrument (fileio/instrument.py 422-424).  `accepts` says which values the setter of
`mono.tau` and `ana.tau` takes (`GetTau` raises for unknown names); the other attributes take anything. -/
def assignPart (accepts : Value N → Bool) (o : Obj N) (g a : Text) (v : Value N) : Except Err (Obj N) :=
  match o.parts g with
  | none => .error .attributeError
  | some p =>
    if a = cs!"tau" ∧ accepts v = false then .error .keyError
    else .ok { o with parts := Function.update o.parts g
                                (some (Function.update p a (some (stored g a v)))) }

/-- `setattr` on an instrument or on one of its parts (fileio/instrument.py 419-424).  The orientation of an instrument is
that of its sample (instrument/tas_instrument.py 372-392). -/
def assign (accepts : Value N → Bool) (o : Obj N) (path : List Text) (v : Value N) :
    Except Err (Obj N) :=
  match path with
  | [] => .error .indexError
  | [a] =>
    if a = cs!"orient1" then assignPart accepts o cs!"sample" cs!"u" v
    else if a = cs!"orient2" then assignPart accepts o cs!"sample" cs!"v" v
    else .ok { o with own := Function.update o.own a (some v) }
  | g :: a :: _ => assignPart accepts o g a v

/-- `instrument.orient1` (instrument/tas_instrument.py 372-377). -/
def Obj.orient1 (o : Obj N) : Option (Value N) := o.get cs!"sample" cs!"u"

/-- `instrument.orient2` (instrument/tas_instrument.py 383-388). -/
def Obj.orient2 (o : Obj N) : Option (Value N) := o.get cs!"sample" cs!"v"

/-- fileio/instrument.py 407-424: one line after the other. -/
def assignAll (nm : Numerals N) (accepts : Value N → Bool) :
    Obj N → List (List Text × Text) → Except Err (Obj N)
  | o, [] => .ok o
  | o, (path, s) :: rest => do
    let v ← readValue nm s
    let o' ← assign accepts o path v
    assignAll nm accepts o' rest

/-- `load_instrument(filename, 'ascii')` (fileio/instrument.py 393-426), where
`start` is the instrument `Instrument()` makes (405). -/
def load (nm : Numerals N) (accepts : Value N → Bool) (start : Obj N) (file : Text) :
    Except Err (Obj N) := do
  let lines ← (fileLines file).mapM parseLine
  assignAll nm accepts start lines

/-! ### Whole numbers -/

/-- A decimal digit. -/
def digit (n : Nat) : Char := Char.ofNat (48 + n)

/-- The decimal digits of a natural number. -/
def natDigits (n : Nat) : Text :=
  if n < 10 then [digit n] else natDigits (n / 10) ++ [digit (n % 10)]
decreasing_by omega

/-- `str` of a whole number. -/
def intStr : Int → Text
  | .ofNat n => natDigits n
  | .negSucc n => '-' :: natDigits (n + 1)

/-- The value of a string of decimal digits. -/
def natOf : Text → Option Nat
  | [] => none
  | s => if s.all Char.isDigit then some (s.foldl (fun n c => 10 * n + (c.toNat - 48)) 0) else none

/-- `float` restricted to the texts of whole numbers. -/
def intFloat : Text → Option Int
  | '-' :: s => (natOf s).map fun n => -(n : Int)
  | s => (natOf s).map Int.ofNat

/-- The longest of some texts. -/
def width (ts : List Text) : Nat := (ts.map List.length).foldr max 0

/-- numpy right-justifies whole numbers to the width of the longest. -/
def intCells (xs : List Int) : List Text :=
  let ts := xs.map intStr
  ts.map fun t => List.replicate (width ts - t.length) ' ' ++ t

/-- Whole numbers. -/
def intNumerals : Numerals Int := ⟨intStr, intCells, intFloat⟩

end Verif.FileIO
