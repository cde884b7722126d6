import Verif.FileIO.Instr

/-!
# Model of `save_data` and of the loader of this package's own files

`neutronpy/fileio/data.py` 77-182 and `neutronpy/fileio/loaders/neutronpy.py`.
Numbers are an arbitrary type `α`: `np.savetxt` writes 18 decimals by default,
which `np.genfromtxt` reads back exactly.
-/

namespace Verif.FileIO

variable {α : Type}

/-- A value in the dictionary of columns: an array, a single number (what
`genfromtxt` leaves of a table with one row or one column), `None`, or some
other object. -/
inductive Col (α : Type)
  | arr (xs : List α)
  | scalar (x : α)
  | none
  | opaque
  deriving DecidableEq, Repr

/-- The attribute `_err` of a data object: it need not exist. -/
inductive ErrAttr (α : Type)
  | absent
  | isNone
  | vals (xs : List α)
  deriving DecidableEq, Repr

/-- A dictionary from strings to strings (`data_keys`, `Q_keys`). -/
abbrev Dict := List (Text × Text)

/-- The attributes of a data object that saving and loading handle.
`header` is the attribute `file_header`, which need not exist; its lines
contain no line ends. -/
structure Dat (α : Type) where
  cols : List (Text × Col α)
  dataKeys : Dict
  qKeys : Dict
  header : Option (List Text)
  err : ErrAttr α
  deriving DecidableEq, Repr

/-- How Python writes and evaluates a dictionary of strings: `str(d)` and
`eval(s)`, which raises `SyntaxError`. -/
structure DictText where
  str : Dict → Text
  eval : Text → Option Dict

/-- A line of an ASCII data file: a line of the header, which `np.savetxt`
precedes with `'# '`, or a row of numbers. -/
inductive Line (α : Type)
  | comment (s : Text)
  | row (xs : List α)
  deriving DecidableEq, Repr

/-- `d[key] = value` on an ordered dictionary. -/
def putCol (cols : List (Text × Col α)) (key : Text) (v : Col α) : List (Text × Col α) :=
  if key ∈ cols.map Prod.fst then cols.map fun c => if c.1 = key then (c.1, v) else c
  else cols ++ [(key, v)]

/-- What reading the property `error` does to the object (data/data.py 379-386):
a missing `_err` is set to `None`. -/
def readError (d : Dat α) : Dat α :=
  match d.err with
  | .absent => { d with err := .isNone }
  | _ => d

/-! ### ASCII -/

/-- The object after fileio/data.py 122-126: with an attribute `_err` the
*object's own* dictionary gets a column `'error'`. -/
def withErrorColumn (d : Dat α) : Dat α :=
  match d.err with
  | .absent => d
  | .isNone => { d with cols := putCol d.cols cs!"error" .none }
  | .vals e => { d with cols := putCol d.cols cs!"error" (.arr e) }

/-- The list of column names written (fileio/data.py 122, 125): those before,
and `'error'`, even if it is there already. -/
def writtenNames (d : Dat α) : List Text :=
  match d.err with
  | .absent => d.cols.map Prod.fst
  | _ => d.cols.map Prod.fst ++ [cs!"error"]

/-- A column as a row for `np.vstack`; `None` and other objects do not fit
(the shapes differ, or `np.savetxt` cannot format them). -/
def Col.flat : Col α → Option (List α)
  | .arr xs => some xs
  | .scalar x => some [x]
  | .none => Option.none
  | .opaque => Option.none

/-- `np.vstack(data.values()).T` (fileio/data.py 131): columns must have equal
lengths. -/
def stack (cols : List (List α)) : Except Err (List (List α)) :=
  match cols with
  | [] => .error .valueError
  | c :: cs =>
    if cs.all fun x => x.length = c.length then
      .ok ((List.range c.length).map fun i => (c :: cs).filterMap fun x => x[i]?)
    else .error .valueError

/-- The lines of the original header inside the new one (fileio/data.py
113-120). -/
def oldHeader (d : Dat α) : List Text :=
  match d.header with
  | none => [cs!"\t"]
  | some [] => [cs!"\t"]
  | some hs => hs.map ('\t' :: ·)

/-- The header (fileio/data.py 108-129), line by line. -/
def headerLines (dt : DictText) (date : Text) (d : Dat α) : List Text :=
  [cs!"### NeutronPy ::: " ++ (date ++ cs!" ###"), [], cs!"data_keys = " ++ dt.str d.dataKeys,
    cs!"Q_keys = " ++ dt.str d.qKeys, [], [], cs!"original_header = "] ++
  oldHeader d ++ [[], [], cs!"npy_col_headers =", join '\t' (writtenNames d)]

/-- `save_data(d, name, 'ascii')` (fileio/data.py 100-133, `save_instr=False`): the
object afterwards, and the file or the exception.  `np.vstack` is taken to accept
a generator, as the versions of NumPy this code was written for did.  The variable `mode` is not used;
`np.savetxt` replaces an existing file. -/
def saveAscii (dt : DictText) (date : Text) (d : Dat α) : Dat α × Except Err (List (Line α)) :=
  let d' := withErrorColumn d
  (d', do
    let cols ← match d'.cols.mapM (fun c => c.2.flat) with
      | none => .error .valueError
      | some cs => .ok cs
    let rows ← stack cols
    return (headerLines dt date d).map .comment ++ rows.map .row)

/-- `s.split()` without an argument. -/
def words : Text → List Text
  | [] => []
  | x :: xs =>
    if isSpace x then words xs
    else match xs with
      | [] => [[x]]
      | y :: _ =>
        if isSpace y then [x] :: words xs
        else match words xs with
          | [] => [[x]]
          | w :: ws => (x :: w) :: ws

/-- The first loop of `load_ascii` (loaders/neutronpy.py 95-102): the header
lines without the comment marks, and the column names.  That the line after
`npy_col_headers` is a row of numbers is not modelled; it is taken for a missing
line. -/
def scan : List (Line α) → Except Err (List Text × Option (List Text))
  | [] => .ok ([], none)
  | .row _ :: rest => scan rest
  | .comment s :: rest =>
    if has cs!"npy_col_headers" s then
      match rest with
      | .comment c :: rest' => do
        let (h, names) ← scan rest'
        return (h, some (names.getD (words c)))
      | _ => .error .stopIteration
    else do
      let (h, names) ← scan rest
      return (erase cs!"# " (cs!"# " ++ s) :: h, names)

/-- `np.genfromtxt(filename, unpack=True)` followed by iteration over the result
(loaders/neutronpy.py 104-108): the columns, but single numbers when the table
has one row or one column. -/
def genfromtxt (rows : List (List α)) : Except Err (List (Col α)) :=
  match rows with
  | [] => .ok []
  | r :: rs =>
    if rs.all fun x => x.length = r.length then
      match rs, r with
      | [], [_] => .error .typeError
      | [], r => .ok (r.map .scalar)
      | _, [_] => .ok ((r :: rs).flatMap fun x => x.map .scalar)
      | _, r => .ok ((List.range r.length).map fun j => .arr ((r :: rs).filterMap fun x => x[j]?))
    else .error .valueError

/-- `data[head] = col` for each pair (loaders/neutronpy.py 106-108). -/
def fill (names : List Text) (cols : List (Col α)) : List (Text × Col α) :=
  (List.zip names cols).foldl (fun acc c => putCol acc c.1 c.2) []

/-- The index after the last line that mentions `original_header`
(loaders/neutronpy.py 112-114). -/
def startOf : List Text → Option Nat
  | [] => none
  | l :: ls =>
    match startOf ls with
    | some n => some (n + 1)
    | none => if has cs!"original_header" l then some 1 else none

/-- The dictionary on the last line that mentions `word`, evaluated after `cut`
is removed (loaders/neutronpy.py 116-121).  All such lines are evaluated. -/
def keysOf (dt : DictText) (word cut : Text) : List Text → Except Err (Option Dict)
  | [] => .ok none
  | l :: ls =>
    if has word l then
      match dt.eval (erase cut l) with
      | none => .error .syntaxError
      | some k => do
        let rest ← keysOf dt word cut ls
        return some (rest.getD k)
    else keysOf dt word cut ls

/-- The names `Data.__init__` uses (data/data.py 95-96). -/
def defaultDataKeys : Dict :=
  [(cs!"monitor", cs!"monitor"), (cs!"detector", cs!"detector"), (cs!"time", cs!"time")]

/-- data/data.py 96. -/
def defaultQKeys : Dict :=
  [(cs!"h", cs!"h"), (cs!"k", cs!"k"), (cs!"l", cs!"l"), (cs!"e", cs!"e"), (cs!"temp", cs!"temp")]

/-- The numbers of a line that is not a comment. -/
def Line.row? : Line α → Option (List α)
  | .row r => some r
  | .comment _ => none

/-- `Neutronpy().load(filename)` for a text file (loaders/neutronpy.py 33-41 and
80-138, `build_hkl=True`, `load_instrument=False`).  The plot defaults taken from
the header are not modelled. -/
def loadAscii (dt : DictText) (file : List (Line α)) : Except Err (Dat α) := do
  match file with
  | .comment s :: _ => if has cs!"NeutronPy" s then pure () else .error .ioError
  | _ => .error .ioError
  let (h, names) ← scan file
  let cols ← genfromtxt (file.filterMap Line.row?)
  let names ← match names with
    | none => .error .nameError
    | some ns => .ok ns
  let qk ← keysOf dt cs!"Q_keys" cs!"Q_keys =" h
  let dk ← keysOf dt cs!"data_keys" cs!"data_keys = " h
  let start ← match startOf h with
    | none => .error .nameError
    | some n => .ok n
  return { cols := fill names cols, dataKeys := dk.getD defaultDataKeys,
           qKeys := qk.getD defaultQKeys, header := some ((h.take (h.length - 3)).drop start),
           err := .absent }

/-! ### HDF5 and pickle -/

/-- The group `data` of an HDF5 file: the two groups of attributes and the
arrays. -/
structure H5Data (α : Type) where
  dataKeys : Dict
  qKeys : Dict
  sets : List (Text × Col α)
  deriving DecidableEq, Repr

/-- The content of a file. -/
inductive Content (α : Type)
  | lines (ls : List (Line α))
  | hdf5 (data : Option (H5Data α))
  | pickle (d : Dat α)
  deriving DecidableEq, Repr

/-- The three formats of `save_data`. -/
inductive Format
  | ascii | hdf5 | pickle
  deriving DecidableEq, Repr

/-- `save_data(d, name, 'hdf5', overwrite=ow)` (fileio/data.py 138-167, `save_instr=False`): the file
afterwards and the exception, if there is one.  `file_header` is a list and has
no `encode`, so it is left out (149-152).  A column that is not an array cannot
be stored. -/
def saveHdf5 (ow : Bool) (old : Option (Content α)) (d : Dat α) :
    Option (Content α) × Option Err :=
  let start : Except Err (Option (H5Data α)) :=
    if ow then .ok none
    else match old with
      | none => .ok none
      | some (.hdf5 g) => .ok g
      | some _ => .error .ioError
  match start with
  | .error e => (old, some e)
  | .ok (some g) => (some (.hdf5 (some g)), some .valueError)
  | .ok none =>
    if d.cols.all fun c => c.2.flat.isSome then
      match d.err with
      | .absent => (some (.hdf5 (some ⟨d.dataKeys, d.qKeys, d.cols⟩)), none)
      | .isNone => (some (.hdf5 (some ⟨d.dataKeys, d.qKeys, d.cols⟩)), some .typeError)
      | .vals e =>
        if cs!"error" ∈ d.cols.map Prod.fst then
          (some (.hdf5 (some ⟨d.dataKeys, d.qKeys, d.cols⟩)), some .valueError)
        else (some (.hdf5 (some ⟨d.dataKeys, d.qKeys, d.cols ++ [(cs!"error", .arr e)]⟩)), none)
    else (some (.hdf5 (some ⟨d.dataKeys, d.qKeys, d.cols.takeWhile fun c => c.2.flat.isSome⟩)),
      some .typeError)

/-- `save_data(d, name, format, overwrite=ow)` (fileio/data.py 100-180): the
object and the file afterwards, and the exception, if there is one.  `old` is
what is in the file written to: `name` with the ending `.npy` or `.h5`, or `name`
itself for `pickle`. -/
def saveData (dt : DictText) (date : Text) (fmt : Format) (ow : Bool) (old : Option (Content α))
    (d : Dat α) : Dat α × Option (Content α) × Option Err :=
  match fmt with
  | .ascii =>
    match saveAscii dt date d with
    | (d', .ok ls) => (d', some (.lines ls), none)
    | (d', .error e) => (d', old, some e)
  | .hdf5 => (d, saveHdf5 ow old d)
  | .pickle => (d, some (.pickle d), none)

/-- `str(value)` of an attribute that was stored as bytes, in Python 3
(loaders/neutronpy.py 69, 73). -/
def bytesStr (s : Text) : Text := cs!"b'" ++ (s ++ cs!"'")

/-- `load_hdf5` (loaders/neutronpy.py 58-75, `build_hkl=True`).  The two groups of
attributes become columns too.  h5py lists the members of a group in the order
of their names; here they are in the order of creation, the two groups last. -/
def loadHdf5 (file : Content α) : Except Err (Dat α) :=
  match file with
  | .hdf5 (some g) => .ok
      { cols := g.sets ++ [(cs!"data_keys", .opaque), (cs!"Q_keys", .opaque)],
        dataKeys := g.dataKeys.map fun k => (k.1, bytesStr k.2),
        qKeys := g.qKeys.map fun k => (k.1, bytesStr k.2),
        header := none, err := .absent }
  | .hdf5 none => .error .keyError
  | _ => .error .ioError

end Verif.FileIO
