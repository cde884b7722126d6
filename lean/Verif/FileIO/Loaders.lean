import Verif.FileIO.Save
import Verif.Data.Arith

/-!
# Model of the loaders for the files of other programs

`neutronpy/fileio/loaders/spice.py`, `mad.py`, `ice.py`, `icp.py`, `grasp.py` and
`dcs_mslice.py`, on the lines of a text file.  HDF5 (`load_nxs`) is not modelled.
Numbers are an arbitrary type `α`.
-/

namespace Verif.FileIO

variable {α : Type}

/-- How texts are read as numbers: `float(s)` and `int(s)`, `none` for
`ValueError`, and the number that `np.genfromtxt` puts where `float` fails.
Negative values of `int` are not modelled. -/
structure Reader (α : Type) where
  float : Text → Option α
  int : Text → Option Nat
  nan : α

/-- `np.genfromtxt` on one piece of text. -/
def Reader.num (r : Reader α) (t : Text) : α := (r.float t).getD r.nan

/-- `float(s)` where the exception is not caught. -/
def Reader.floatE (r : Reader α) (t : Text) : Except Err α :=
  match r.float t with
  | some x => .ok x
  | none => .error .valueError

/-- `int(s)` where the exception is not caught. -/
def Reader.intE (r : Reader α) (t : Text) : Except Err Nat :=
  match r.int t with
  | some x => .ok x
  | none => .error .valueError

/-- The pieces of text of each line that `np.genfromtxt` and `np.loadtxt` look
at: lines are cut at `'#'`, and those with nothing left are skipped. -/
def tableTokens (ls : List Text) : List (List Text) :=
  (ls.map fun l => words (l.takeWhile (· ≠ '#'))).filter (· ≠ [])

/-- `np.genfromtxt(filename, unpack=True, skip_header=skip)`, iterated over. -/
def readTable (r : Reader α) (skip : Nat) (ls : List Text) : Except Err (List (Col α)) :=
  genfromtxt ((tableTokens (ls.drop skip)).map (·.map r.num))

/-- The same with `skip_footer=1`: the last line with any text is left out, and
may have another number of columns. -/
def readTableButLast (r : Reader α) (skip : Nat) (ls : List Text) : Except Err (List (Col α)) :=
  genfromtxt ((tableTokens (ls.drop skip)).map (·.map r.num)).dropLast

/-- The same with `usecols=(0, ..., k-1)`: longer rows are cut, shorter rows are
an error. -/
def readTableCols (r : Reader α) (k : Nat) (ls : List Text) : Except Err (List (Col α)) :=
  let rows := (tableTokens ls).map (·.map r.num)
  if rows.all fun x => k ≤ x.length then genfromtxt (rows.map (·.take k)) else .error .valueError

/-- `np.loadtxt(filename, skiprows=skip, unpack=True)`, iterated over: like
`genfromtxt`, but what is not a number is an error. -/
def loadtxt (r : Reader α) (skip : Nat) (ls : List Text) : Except Err (List (Col α)) := do
  let rows ← (tableTokens (ls.drop skip)).mapM fun row => row.mapM r.floatE
  genfromtxt rows

/-- `del data[key]`. -/
def delCol (key : Text) (cols : List (Text × Col α)) : Except Err (List (Text × Col α)) :=
  if key ∈ cols.map Prod.fst then .ok (cols.filter fun c => c.1 ≠ key) else .error .keyError

/-- A variable that no line of the file set. -/
def bound {β : Type} : Option β → Except Err β
  | some x => .ok x
  | none => .error .nameError

/-! ### SPICE -/

/-- The loop over the lines (loaders/spice.py 32-39): the header lines without
the comment marks, and the column names. -/
def spiceScan : List Text → Except Err (List Text × Option (List Text))
  | [] => .ok ([], none)
  | l :: rest =>
    if has cs!"col_headers" l then
      match rest with
      | [] => .error .stopIteration
      | n :: rest' => do
        let (h, names) ← spiceScan rest'
        return (h, some (names.getD (words n).tail))
    else if '#' ∈ l then do
      let (h, names) ← spiceScan rest
      return (erase cs!"# " l :: h, names)
    else spiceScan rest

/-- What follows the last `'='`, without blanks (loaders/spice.py 56, 58). -/
def afterEq (l : Text) : Text := strip ((split '=' l).getLastD [])

/-- The value on the last header line that mentions `word` (loaders/spice.py
54-58). -/
def lastSetting (word : Text) (h : List Text) : Option Text :=
  (h.filter (has word)).getLast?.map afterEq

/-- A data object with the default axes of its plots. -/
structure Loaded (α : Type) where
  dat : Dat α
  plotX : Option Text
  plotY : Option Text
  deriving DecidableEq, Repr

/-- loaders/spice.py 52 -/
def spiceDataKeys : Dict :=
  [(cs!"monitor", cs!"monitor"), (cs!"detector", cs!"detector"), (cs!"time", cs!"time")]

/-- loaders/spice.py 61 -/
def spiceQKeys : Dict :=
  [(cs!"h", cs!"h"), (cs!"k", cs!"k"), (cs!"l", cs!"l"), (cs!"e", cs!"e"), (cs!"temp", cs!"tvti")]

/-- `Spice().load(filename, build_hkl)` (loaders/spice.py 32-61). -/
def loadSpice (r : Reader α) (build : Bool) (ls : List Text) : Except Err (Loaded α) := do
  let (h, names) ← spiceScan ls
  let args ← readTable r 0 ls
  let names ← bound names
  let cols ← delCol cs!"Pt." (fill names args)
  return { dat := { cols := cols, dataKeys := spiceDataKeys,
                    qKeys := if build then spiceQKeys else defaultQKeys,
                    header := some h, err := .absent },
           plotX := lastSetting cs!"def_x" h, plotY := lastSetting cs!"def_y" h }

/-- What `load_instrument=True` takes from the header. -/
structure SpiceInstr (α : Type) where
  monoTau : Option Text := none
  anaTau : Option Text := none
  hcol : Option (List α) := none
  mosaic : Option α := none
  abc : Option (List α) := none
  abg : Option (List α) := none
  deriving DecidableEq, Repr

/-- The name of a setting (loaders/spice.py 66, 67, ...). -/
def beforeEq (l : Text) : Text := strip ((split '=' l).headD [])

/-- One header line (loaders/spice.py 66-78).  Values are given to the attributes
of a new instrument; what its setters make of them is not part of this. -/
def spiceSetting (r : Reader α) (s : SpiceInstr α) (item : Text) : Except Err (SpiceInstr α) :=
  if beforeEq item = cs!"monochromator" then .ok { s with monoTau := some (afterEq item) }
  else if beforeEq item = cs!"analyzer" then .ok { s with anaTau := some (afterEq item) }
  else if beforeEq item = cs!"collimation" then do
    let hcol ← (split '-' ((split '=' item).getLastD [])).mapM fun c => r.floatE (strip c)
    return { s with hcol := some hcol }
  else if beforeEq item = cs!"samplemosaic" then do
    return { s with mosaic := some (← r.floatE (afterEq item)) }
  else if beforeEq item = cs!"latticeconstants" then do
    let cells := split ',' ((split '=' item).getLastD [])
    let abc ← (cells.take 3).mapM fun c => r.floatE (strip c)
    let abg ← (cells.drop 3).mapM fun c => r.floatE (strip c)
    return { s with abc := some abc, abg := some abg }
  else .ok s

/-- The loop over the header (loaders/spice.py 63-80). -/
def spiceInstr (r : Reader α) (h : List Text) : Except Err (SpiceInstr α) :=
  h.foldlM (spiceSetting r) {}

/-! ### MAD -/

/-- The loop over the lines (loaders/mad.py 32-39): column names and the number
of lines before the numbers. -/
def madScan (i : Nat) : List Text → Except Err (Option (List Text × Nat))
  | [] => .ok none
  | l :: rest =>
    if has cs!"DATA_:" l then
      match rest with
      | [] => .error .stopIteration
      | n :: _ => .ok (some (words n, i + 2))
    else madScan (i + 1) rest

/-- loaders/mad.py 49 -/
def madDataKeys : Dict :=
  [(cs!"detector", cs!"CNTS"), (cs!"time", cs!"TIME"), (cs!"monitor", cs!"M1")]

/-- loaders/mad.py 52 -/
def madQKeys : Dict :=
  [(cs!"h", cs!"QH"), (cs!"k", cs!"QK"), (cs!"l", cs!"QL"), (cs!"e", cs!"EN"), (cs!"temp", cs!"TT")]

/-- `Mad().load(filename, build_hkl)` (loaders/mad.py 32-52). -/
def loadMad (r : Reader α) (build : Bool) (ls : List Text) : Except Err (Dat α) := do
  let (names, skip) ← bound (← madScan 0 ls)
  let args ← readTableButLast r skip ls
  return { cols := fill names args, dataKeys := madDataKeys,
           qKeys := if build then madQKeys else defaultQKeys, header := none, err := .absent }

/-! ### ICE -/

/-- The first line that contains `word` (loaders/ice.py 33-37, loaders/icp.py
37-40). -/
def firstWith (word : Text) (ls : List Text) : Option Text := ls.find? (has word)

/-- loaders/ice.py 47 -/
def iceDataKeys : Dict :=
  [(cs!"detector", cs!"Detector"), (cs!"monitor", cs!"Monitor"), (cs!"time", cs!"Time")]

/-- loaders/ice.py 51 -/
def iceQKeys : Dict :=
  [(cs!"h", cs!"QX"), (cs!"k", cs!"QY"), (cs!"l", cs!"QZ"), (cs!"e", cs!"E"), (cs!"temp", cs!"Temp")]

/-- `Ice().load(filename, build_hkl)` (loaders/ice.py 32-51). -/
def loadIce (r : Reader α) (build : Bool) (ls : List Text) : Except Err (Dat α) := do
  let args ← readTableCols r 9 ls
  let line ← bound (firstWith cs!"Columns" ls)
  return { cols := fill (words line).tail args, dataKeys := iceDataKeys,
           qKeys := if build then iceQKeys else defaultQKeys, header := none, err := .absent }

/-! ### ICP -/

/-- `re.findall(r"(?='(.*?)')", line)` (loaders/icp.py 36, 37): the pieces of text
between one quotation mark and the next. -/
def quoted (l : Text) : List Text := (split '\'' l).tail.dropLast

/-- `xs[-k]` -/
def fromEnd (k : Nat) (xs : List Text) : Except Err Text :=
  if k ≤ xs.length then
    match xs[xs.length - k]? with
    | some x => .ok x
    | none => .error .indexError
  else .error .indexError

/-- The two numbers in the first line (loaders/icp.py 36-37). -/
def icpMonitor (r : Reader α) (l : Text) : Except Err (α × α) := do
  let _ ← r.intE (← fromEnd 2 (quoted l))
  let ms ← (words (← fromEnd 4 (quoted l))).mapM r.floatE
  match ms with
  | [m0, prf] => .ok (m0, prf)
  | _ => .error .valueError

/-- A column of `args[0].shape` filled with one value (loaders/icp.py 50-51). -/
def constLike (v : α) : List (Col α) → Except Err (Col α)
  | [] => .error .indexError
  | .arr xs :: _ => .ok (.arr (List.replicate xs.length v))
  | _ :: _ => .ok (.scalar v)

/-- loaders/icp.py 55 -/
def icpDataKeys : Dict :=
  [(cs!"detector", cs!"Counts"), (cs!"time", cs!"min"), (cs!"monitor", cs!"monitor")]

/-- loaders/icp.py 58 -/
def icpQKeys : Dict :=
  [(cs!"h", cs!"Q(x)"), (cs!"k", cs!"Q(y)"), (cs!"l", cs!"Q(z)"), (cs!"e", cs!"E"),
    (cs!"temp", cs!"T-act")]

/-- `Icp().load(filename, build_hkl)` (loaders/icp.py 33-58).  `mul` is the
multiplication of floats.  An empty file leaves the names of the columns unset. -/
def loadIcp (r : Reader α) (mul : α → α → α) (build : Bool) (ls : List Text) :
    Except Err (Dat α) := do
  let (m0, prf) ← match ls with
    | [] => .error .nameError
    | l :: _ => icpMonitor r l
  let args ← readTable r 12 ls
  let line ← bound (firstWith cs!"Q(x)" ls)
  let v ← constLike (mul m0 prf) args
  return { cols := putCol (fill (words line) args) cs!"monitor" v, dataKeys := icpDataKeys,
           qKeys := if build then icpQKeys else defaultQKeys, header := none, err := .absent }

/-! ### GRASP -/

/-- The loop over the lines (loaders/grasp.py 62-69): column names and the number
of lines before the numbers. -/
def graspScan (i : Nat) : List Text → Option (List Text × Nat)
  | [] => none
  | l :: rest =>
    if has cs!"I" l && has cs!"Err_I" l then some (words l, i + 1) else graspScan (i + 1) rest

/-- A column of ones with the shape of another column (loaders/grasp.py 76, 77);
`data['I']` may be missing. -/
def onesLike (one : α) (key : Text) (cols : List (Text × Col α)) : Except Err (Col α) :=
  match cols.lookup key with
  | some (.arr xs) => .ok (.arr (List.replicate xs.length one))
  | some _ => .ok (.scalar one)
  | none => .error .keyError

/-- loaders/grasp.py 80 -/
def graspDataKeys : Dict :=
  [(cs!"detector", cs!"I"), (cs!"monitor", cs!"monitor"), (cs!"time", cs!"time")]

/-- The values of a column, for `_err`. -/
def Col.vals : Col α → List α
  | .arr xs => xs
  | .scalar x => [x]
  | _ => []

/-- `load_dat` (loaders/grasp.py 61-81). -/
def loadGraspDat (r : Reader α) (one : α) (ls : List Text) : Except Err (Dat α) := do
  let (names, skip) ← bound (graspScan 0 ls)
  let args ← loadtxt r skip ls
  let cols := fill names args
  let mon ← onesLike one cs!"I" cols
  let cols := putCol (putCol cols cs!"monitor" mon) cs!"time" mon
  let e ← match cols.lookup cs!"Err_I" with
    | some c => .ok c.vals
    | none => .error .keyError
  return { cols := cols, dataKeys := graspDataKeys, qKeys := defaultQKeys, header := none,
           err := .vals e }

/-! ### DCS_MSLICE -/

/-- The four formats (loaders/dcs_mslice.py 27-30). -/
inductive Subtype
  | iexy | xyie | spe | xye
  deriving DecidableEq, Repr

/-- `s[-k:]` -/
def endOf (k : Nat) (s : Text) : Text := s.drop (s.length - k)

/-- `determine_subtype` (loaders/dcs_mslice.py 34-50).  The second line read is
the empty string only at the end of the file: a blank line still has its line
end. -/
def dcsSubtype (name : Text) (ls : List Text) : Except Err Subtype :=
  let first := ls.headD []
  let second := ls[1]?
  if endOf 4 name = cs!"iexy" ∨ (words first).length = 4 then .ok .iexy
  else if endOf 4 name = cs!"xyie" ∨ ((words first).length = 2 ∧ second = none) then .ok .xyie
  else if endOf 3 name = cs!"spe" ∨ ((words first).length = 2 ∧ has cs!"###" (second.getD [])) then
    .ok .spe
  else if endOf 3 name = cs!"xye" ∨ (words first).length = 3 then .ok .xye
  else .error .ioError

/-- `len(col)` -/
def Col.len : Col α → Except Err Nat
  | .arr xs => .ok xs.length
  | _ => .error .typeError

/-- loaders/dcs_mslice.py 55, 114, 137, 145 -/
def dcsDataKeys : Dict :=
  [(cs!"detector", cs!"intensity"), (cs!"monitor", cs!"monitor"), (cs!"time", cs!"time")]

/-- `load_iexy` (loaders/dcs_mslice.py 52-56). -/
def loadIexy (r : Reader α) (one : α) (ls : List Text) : Except Err (Dat α) := do
  match ← loadtxt r 0 ls with
  | [i, e, x, y] => do
    let n ← i.len
    return { cols := [(cs!"intensity", i), (cs!"error", e), (cs!"x", x), (cs!"y", y),
               (cs!"monitor", .arr (List.replicate n one)), (cs!"time", .arr (List.replicate n one))],
             dataKeys := dcsDataKeys, qKeys := defaultQKeys, header := none, err := .vals e.vals }
  | _ => .error .valueError

/-- `load_xye` (loaders/dcs_mslice.py 142-146). -/
def loadXye (r : Reader α) (one : α) (ls : List Text) : Except Err (Dat α) := do
  match ← loadtxt r 0 ls with
  | [x, y, e] => do
    let n ← y.len
    return { cols := [(cs!"intensity", y), (cs!"error", e), (cs!"x", x),
               (cs!"monitor", .arr (List.replicate n one)), (cs!"time", .arr (List.replicate n one))],
             dataKeys := dcsDataKeys, qKeys := defaultQKeys, header := none, err := .vals e.vals }
  | _ => .error .valueError

/-- What `load_xyie` and `load_spe` store: the six columns, and the
two-dimensional `_err`. -/
structure Grid (α : Type) where
  intensity : List α
  error : List α
  x : List α
  y : List α
  monitor : List α
  time : List α
  err : List (List α)
  deriving DecidableEq, Repr

/-- `np.array(rows).astype(float)` for rows of texts: the numbers, rows of equal
lengths.  Rows of different lengths are an error. -/
def floats2d (r : Reader α) (rows : List (List Text)) : Except Err (List (List α)) := do
  let vs ← rows.mapM fun row => row.mapM r.floatE
  if vs.all fun v => v.length = (vs.headD []).length then return vs else .error .valueError

/-- `np.squeeze(a).shape[0]` for `a` with these rows. -/
def squeezedLen (rows : List (List α)) : Except Err Nat :=
  match rows with
  | [] => .ok 0
  | [[_]] => .error .indexError
  | [r] => .ok r.length
  | _ :: _ :: rs => .ok (rs.length + 2)

/-- `a.T.shape == (nx, ny)` for `a` with these rows; with no rows `a` is
one-dimensional. -/
def isShape (rows : List (List α)) (nx ny : Nat) : Bool :=
  rows.length = ny && rows.all (fun v => v.length = nx) && rows ≠ []

/-- `data[a:b]` -/
def slice {β : Type} (a b : Nat) (xs : List β) : List β := (xs.take b).drop a

/-- `X.flatten()` for `X, Y = np.meshgrid(x, y)`: one copy of `x` for every `y`. -/
def meshX (x y : List α) : List α := y.flatMap fun _ => x

/-- The object that `load_xyie` and `load_spe` make of the two axes and the rows
of intensities and errors (loaders/dcs_mslice.py 108-113, 131-136): the column
`y` is made from `X`, and `monitor` and `time` have one entry per row. -/
def mkGrid (one : α) (x y : List α) (i e : List (List α)) : Grid α :=
  { intensity := i.flatten, error := e.flatten, x := meshX x y, y := meshX x y,
    monitor := List.replicate i.length one, time := List.replicate i.length one, err := e }

/-- `tuple(int(i) for i in data[0])` (loaders/dcs_mslice.py 123). -/
def firstShape (r : Reader α) : List (List Text) → Except Err (List Nat)
  | [] => .error .indexError
  | d :: _ => d.mapM r.intE

/-- `load_xyie` (loaders/dcs_mslice.py 117-140).  The comparison of shapes stops at
the first difference. -/
def loadXyie (r : Reader α) (one : α) (ls : List Text) : Except Err (Grid α) := do
  let data := ls.map words
  match ← firstShape r data with
  | nx :: ny :: more => do
    let sum := nx + ny + more.sum
    let x ← floats2d r (slice 2 (2 + nx) data)
    let y ← floats2d r (slice (3 + nx) (3 + nx + ny) data)
    let i ← floats2d r (slice (4 + sum) (4 + sum + ny) data)
    let e ← floats2d r (slice (5 + sum + ny) (5 + sum + 2 * ny) data)
    let lx ← squeezedLen x
    if lx ≠ nx then .error .valueError else
    let ly ← squeezedLen y
    if ly ≠ ny then .error .valueError else
    if isShape i nx ny && isShape e nx ny && more = [] then
      return mkGrid one x.flatten y.flatten i e
    else .error .valueError
  | _ => .error .indexError

/-! ### SPE -/

/-- A line of an SPE file (loaders/dcs_mslice.py 61-66): one with `'###'` is kept
as it is, others are split. -/
inductive SpeLine
  | mark
  | toks (ts : List Text)
  deriving DecidableEq, Repr

/-- `line.replace('-', ' -').replace('e -', 'e-')` (loaders/dcs_mslice.py 63): a
blank before every minus sign that does not follow an `'e'`.  The first argument
is the character before. -/
def spaceMinus (prev : Char) : Text → Text
  | [] => []
  | c :: cs =>
    if c = '-' ∧ prev ≠ 'e' then ' ' :: '-' :: spaceMinus '-' cs else c :: spaceMinus c cs

/-- loaders/dcs_mslice.py 62-66 -/
def speLine (l : Text) : SpeLine :=
  if has cs!"###" l then .mark else .toks (words (spaceMinus ' ' l))

/-- The two loops that collect the axes (loaders/dcs_mslice.py 78-82, 85-89):
collecting stops at a line with `'###'` or when `full` holds of the number of
values collected.  Returned are the values and the number of lines before the
line at which it stopped; `none` when no line stopped it. -/
def collect (full : Nat → Bool) (acc : List Text) : List SpeLine → Option (List Text × Nat)
  | [] => none
  | .mark :: _ => some (acc, 0)
  | .toks ts :: rest =>
    if full acc.length then some (acc, 0)
    else (collect full (acc ++ ts) rest).map fun p => (p.1, p.2 + 1)

/-- The values up to the next line with `'###'`, and the lines after it. -/
def blockGo : List SpeLine → List Text × Option (List SpeLine)
  | [] => ([], none)
  | .mark :: rest => ([], some rest)
  | .toks ts :: rest => (ts ++ (blockGo rest).1, (blockGo rest).2)

/-- One block of intensities or errors (loaders/dcs_mslice.py 97-103): its values,
and the lines after it; at the end of the file the position does not move. -/
def block (ls : List SpeLine) : List Text × List SpeLine :=
  ((blockGo ls).1, (blockGo ls).2.getD ls)

/-- `np.squeeze(np.array(ts).astype(float))[:k]` (loaders/dcs_mslice.py 91, 92,
104): a single value becomes a number that cannot be cut. -/
def axisOf (r : Reader α) (k : Nat) (ts : List Text) : Except Err (List α) := do
  let vs ← ts.mapM r.floatE
  match vs with
  | [_] => .error .indexError
  | _ => return vs.take k

/-- The loop over the blocks (loaders/dcs_mslice.py 95-104). -/
def blocks (r : Reader α) (ne : Nat) : Nat → List SpeLine → Except Err (List (List α))
  | 0, _ => .ok []
  | n + 1, ls => do
    let v ← axisOf r ne (block ls).1
    let vs ← blocks r ne n (block ls).2
    return v :: vs

/-- `xs[0::2]` -/
def evens {β : Type} : List β → List β
  | [] => []
  | [x] => [x]
  | x :: _ :: xs => x :: evens xs

/-- `xs[1::2]` -/
def odds {β : Type} (xs : List β) : List β := evens xs.tail

/-- `np.array(rows).T` (loaders/dcs_mslice.py 105, 106); rows of different lengths
are an error. -/
def transposed (rows : List (List α)) : Except Err (List (List α)) :=
  if rows.all fun v => v.length = (rows.headD []).length then
    .ok ((List.range (rows.headD []).length).map fun j => rows.filterMap fun v => v[j]?)
  else .error .valueError

/-- The first line of an SPE file, as two numbers (loaders/dcs_mslice.py 68, 79,
86).  A first line with `'###'` is a text, whose characters are not numbers.
Simplified: `shape[0]` and `shape[1]` are read only later, so a first line
with fewer numbers may raise another exception. -/
def speShape (r : Reader α) : List SpeLine → Except Err (Nat × Nat)
  | [] => .error .indexError
  | .mark :: _ => .error .valueError
  | .toks ts :: _ => do
    match ← ts.mapM r.intE with
    | nx :: ny :: _ => .ok (nx, ny)
    | _ => .error .indexError

/-- `load_spe` (loaders/dcs_mslice.py 58-115).  The second axis stops on the
length of the *first* one (86).  When no line stops the first loop `line_num` is not
set; when none stops the second, it keeps its value. -/
def loadSpe (r : Reader α) (one : α) (ls : List Text) : Except Err (Grid α) := do
  let data := ls.map speLine
  let (nx, ny) ← speShape r data
  let (xs, n) ← bound (collect (fun k => nx ≤ k) [] (data.drop 2))
  let line := 3 + n
  let rest := data.drop line
  let (ys, line) := match collect (fun _ => ny ≤ xs.length) [] rest with
    | some (ys, n) => (ys, line + (n + 1))
    | none => (rest.flatMap (fun l => match l with | .mark => [] | .toks ts => ts), line)
  let x ← axisOf r nx xs
  let y ← axisOf r ny ys
  let vs ← blocks r ny (nx * 2) (data.drop line)
  let i ← transposed (evens vs)
  let e ← transposed (odds vs)
  return mkGrid one x y i e

/-- The data object with the columns of a grid, as `Data` makes it; the
two-dimensional `_err` is left out. -/
def Grid.obj [Zero α] (g : Grid α) : Verif.Data.DataObj α where
  cols := [("intensity", g.intensity), ("error", g.error), ("x", g.x), ("y", g.y),
    ("monitor", g.monitor), ("time", g.time)]
  dk := { monitor := "monitor", detector := "intensity", time := "time" }
  qk := { h := "h", k := "k", l := "l", e := "e", temp := "temp" }
  m0 := 0
  t0 := 0
  timeNorm := false
  err := none

end Verif.FileIO
