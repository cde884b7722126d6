import Mathlib.Data.Rat.Defs
import Mathlib.Data.List.Basic

/-!
# Model of the objects that instruments share

An instrument refers to a sample and to arrays of collimations.  Here these are objects in a store, so that two instruments, or an
instrument and its caller, can refer to the same one.
-/

namespace Verif.Instrument.Shared

/-- Vectors.  (Their elements are rational numbers here; they are only copied.) -/
abbrev Vec := List ℚ

/-- Exceptions: an attribute that is missing, an index that is too large, a name that is not bound. -/
inductive Err
  | attributeError | indexError | nameError
  deriving DecidableEq

/-- A sample: the attributes `_u` and `_v` are set only if they are given (crystal/sample.py 121-124). -/
structure Samp where
  u : Option Vec
  v : Option Vec
  deriving DecidableEq

/-- A triple-axis instrument (instrument/tas_instrument.py 96-122): references to its sample and to the array of horizontal collimations.
(The vertical collimations are treated in the same way; the crystals are always made by the constructor.) -/
structure Inst where
  sample : ℕ
  hcol : ℕ
  deriving DecidableEq

/-- All objects there are. -/
structure Store where
  samples : List Samp := []
  arrays : List Vec := []
  insts : List Inst := []
  deriving DecidableEq

/-- What a user does. -/
inductive Op
  /-- `Sample(…, u=u, v=v)` -/
  | sample (u v : Option Vec)
  /-- `np.array(xs)` -/
  | array (xs : Vec)
  /-- `Instrument(sample=s, hcol=a)` -/
  | inst (s a : Option ℕ)
  /-- `instrument.orient1 = vec` -/
  | orient1 (i : ℕ) (vec : Vec)
  /-- `instrument.orient2 = vec` -/
  | orient2 (i : ℕ) (vec : Vec)
  /-- `instrument.sample = s` -/
  | setSample (i s : ℕ)
  /-- `instrument.hcol = a` -/
  | setHcol (i a : ℕ)
  /-- `instrument.hcol[k] = x` -/
  | hcolItem (i k : ℕ) (x : ℚ)
  /-- `s.u = vec` -/
  | sampleU (s : ℕ) (vec : Vec)
  /-- `a[k] = x` -/
  | item (a k : ℕ) (x : ℚ)
  deriving DecidableEq

/-- The object with a reference. -/
def get {α : Type} (l : List α) (n : ℕ) : Except Err α := match l[n]? with
  | some x => .ok x
  | none => .error .nameError

/-- The sample of a new instrument (instrument/tas_instrument.py 99-102, 115): the one given, or a new one. -/
def sampleFor (st : Store) : Option ℕ → Except Err (ℕ × Store)
  | some s => do
    let _ ← get st.samples s
    return (s, st)
  | none => .ok (st.samples.length, { st with samples := st.samples ++ [⟨some [1, 0, 0], some [0, 1, 0]⟩] })

/-- The collimations of a new instrument (instrument/tas_instrument.py 104-105, 112): a copy of what is given, or the default. -/
def hcolFor (st : Store) : Option ℕ → Except Err (ℕ × Store)
  | some a => do
    let xs ← get st.arrays a
    return (st.arrays.length, { st with arrays := st.arrays ++ [xs] })
  | none => .ok (st.arrays.length, { st with arrays := st.arrays ++ [[40, 40, 40, 40]] })

/-- `a[k] = x` of an array of the store. -/
def setItem (st : Store) (a k : ℕ) (x : ℚ) : Except Err Store := do
  let xs ← get st.arrays a
  if k < xs.length then return { st with arrays := st.arrays.set a (xs.set k x) } else .error .indexError

/-- One statement.  The setters of `orient1` and `orient2` set the vectors of the sample (instrument/tas_instrument.py 379-381, 390-392),
those of `sample` and `hcol` keep what they are given (instrument/tas_instrument.py 304-306, 368-370); the constructor sets the vectors of
the sample to copies of themselves (instrument/tas_instrument.py 116-117). -/
def run (st : Store) : Op → Except Err Store
  | .sample u v => .ok { st with samples := st.samples ++ [⟨u, v⟩] }
  | .array xs => .ok { st with arrays := st.arrays ++ [xs] }
  | .inst s a => do
    let (s, st) ← sampleFor st s
    let (h, st) ← hcolFor st a
    let m ← get st.samples s
    match m.u, m.v with
    | some _, some _ => .ok { st with insts := st.insts ++ [⟨s, h⟩] }
    | _, _ => .error .attributeError
  | .orient1 i vec => do
    let t ← get st.insts i
    let m ← get st.samples t.sample
    return { st with samples := st.samples.set t.sample { m with u := some vec } }
  | .orient2 i vec => do
    let t ← get st.insts i
    let m ← get st.samples t.sample
    return { st with samples := st.samples.set t.sample { m with v := some vec } }
  | .setSample i s => do
    let t ← get st.insts i
    let _ ← get st.samples s
    return { st with insts := st.insts.set i { t with sample := s } }
  | .setHcol i a => do
    let t ← get st.insts i
    let _ ← get st.arrays a
    return { st with insts := st.insts.set i { t with hcol := a } }
  | .hcolItem i k x => do
    let t ← get st.insts i
    setItem st t.hcol k x
  | .sampleU s vec => do
    let m ← get st.samples s
    return { st with samples := st.samples.set s { m with u := some vec } }
  | .item a k x => setItem st a k x

/-- A history of statements. -/
def runs (st : Store) (ops : List Op) : Except Err Store := ops.foldlM run st

/-- `instrument.orient1` (instrument/tas_instrument.py 372-377). -/
def Store.orient1 (st : Store) (i : ℕ) : Option Vec := do
  let t ← st.insts[i]?
  let m ← st.samples[t.sample]?
  m.u

/-- `instrument.orient2` (instrument/tas_instrument.py 383-388). -/
def Store.orient2 (st : Store) (i : ℕ) : Option Vec := do
  let t ← st.insts[i]?
  let m ← st.samples[t.sample]?
  m.v

/-- `instrument.hcol` (instrument/tas_instrument.py 291-302). -/
def Store.hcol (st : Store) (i : ℕ) : Option Vec := do
  let t ← st.insts[i]?
  st.arrays[t.hcol]?

end Verif.Instrument.Shared
