import Verif.FileIO.Instr
import Verif.Data.Model

/-!
# Model of `detect_filetype` and `load_data` (`neutronpy/fileio/data.py`)
-/

namespace Verif.FileIO

open Verif.Data (DataObj Tols combineInPlace)

/-- The keys of `load_filetype` (fileio/data.py 42-48). -/
inductive Filetype
  | dcsMslice | grasp | ice | icp | mad | neutronpy | spice
  deriving DecidableEq, Repr

/-- `s[-k:]` -/
def lastChars (k : Nat) (s : Text) : Text := s.drop (s.length - k)

/-- `s.lower()`, for letters a to z. -/
def lower (s : Text) : Text := s.map Char.toLower

/-- `s.upper()`, for letters a to z. -/
def upper (s : Text) : Text := s.map Char.toUpper

/-- The first two `f.readline()` (fileio/data.py 205-206), without their line
ends; past the end of the file `readline` returns the empty string. -/
def firstLines (content : Text) : Text × Text :=
  match fileLines content with
  | [] => ([], [])
  | [l] => (l, [])
  | l :: m :: _ => (l, m)

/-- fileio/data.py 207-220, the decision on the first two lines. -/
def detectLines (first second : Text) : Except Err Filetype :=
  if has cs!"#ICE" first then .ok .ice
  else if has cs!"# scan" first then .ok .spice
  else if has cs!"GRASP" (upper first) then .ok .grasp
  else if has cs!"Filename" second then .ok .icp
  else if has cs!"RRR" first || has cs!"AAA" first || has cs!"VVV" first then .ok .mad
  else if has cs!"NeutronPy" first then .ok .neutronpy
  else .error .valueError

/-- fileio/data.py 197-202, the decision on the file name. -/
def detectName (name : Text) : Option Filetype :=
  if lower (lastChars 3 name) = cs!"nxs" then some .grasp
  else if lower (lastChars 4 name) = cs!"iexy" ∨ lower (lastChars 3 name) = cs!"spe" ∨
      lower (lastChars 3 name) = cs!"xye" ∨ lastChars 4 name = cs!"xyie" then some .dcsMslice
  else if lower (lastChars 2 name) = cs!"h5" ∨ lower (lastChars 3 name) = cs!"npy" then
    some .neutronpy
  else none

/-- `detect_filetype(filename)` (fileio/data.py 183-220); `disk` are the text
files that exist. -/
def detect (disk : Text → Option Text) (name : Text) : Except Err Filetype :=
  match detectName name with
  | some t => .ok t
  | none =>
    match disk name with
    | none => .error .fileNotFound
    | some c => detectLines (firstLines c).1 (firstLines c).2

/-- The `filetype` argument of `load_data`. -/
inductive TypeArg
  | auto
  | known (t : Filetype)
  | unknown
  deriving DecidableEq, Repr

/-- Exceptions of `load_data`: those of this area and those of combining. -/
inductive LoadErr
  | file (e : Err)
  | data (e : Verif.Data.Err)
  deriving DecidableEq, Repr

section
variable {α : Type} [Field α] [LinearOrder α]

/-- The state of the loop of `load_data`: the variables `filetype`, `tols` and
`_data_object`. -/
structure LoadState (α : Type) where
  type : TypeArg
  tols : Tols α
  obj : Option (DataObj α)

/-- The type of the next file, and the variable `filetype` afterwards
(fileio/data.py 54-61): `'auto'` is replaced by what is detected, and stays
replaced. -/
def resolve (disk : Text → Option Text) (arg : TypeArg) (name : Text) : Except LoadErr Filetype :=
  match arg with
  | .auto => (detect disk name).mapError .file
  | .known t => .ok t
  | .unknown => .error (.file .keyError)

/-- `if isinstance(tols, numbers.Number)` (fileio/data.py 66-67). -/
def spread (tols : Tols α) (d : DataObj α) : Tols α :=
  match tols with
  | .scalar t => .vec (List.replicate (d.cols.length - 3) t)
  | .vec ts => .vec ts

/-- One pass of the loop (fileio/data.py 53-72).  `parse t name` is the file
read by the loader of type `t`. -/
def loadStep (disk : Text → Option Text) (parse : Filetype → Text → Except Err (DataObj α))
    (s : LoadState α) (name : Text) : Except LoadErr (LoadState α) := do
  let t ← resolve disk s.type name
  let d ← (parse t name).mapError .file
  let tols := spread s.tols d
  match s.obj with
  | none => return ⟨.known t, tols, some d⟩
  | some o =>
    let o' ← (combineInPlace o d (some tols)).mapError .data
    return ⟨.known t, tols, some o'⟩

/-- `load_data(files, filetype, tols)` (fileio/data.py 50-74).  With no files the
`return` finds no object. -/
def loadData (disk : Text → Option Text) (parse : Filetype → Text → Except Err (DataObj α))
    (type : TypeArg) (tols : Tols α) (files : List Text) : Except LoadErr (DataObj α) := do
  let s ← files.foldlM (loadStep disk parse) ⟨type, tols, none⟩
  match s.obj with
  | none => .error (.data .nameError)
  | some o => .ok o

end

end Verif.FileIO
