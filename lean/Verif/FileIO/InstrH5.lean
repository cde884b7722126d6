import Verif.FileIO.Instr

/-!
# Model of the HDF5 instrument files of `neutronpy/fileio/instrument.py`

What h5py keeps of an attribute is modelled by `HVal`; the file by the
attributes of the group `instrument` and of its subgroups.  The empty text,
for which h5py needs a type of its own, is not treated specially.
-/

namespace Verif.FileIO

variable {N : Type}

/-- The value of an HDF5 attribute. -/
inductive HVal (N : Type)
  | num (x : N)
  | bytes (s : Text)
  | arr (xs : List N)

/-- `value.encode('utf8')` for texts, then `grp.attrs.create(attr, value)`
(fileio/instrument.py 595-603): lists become arrays, and there is no HDF5 type for `None`. -/
def toH5 : Value N → Except Err (HVal N)
  | .num x => .ok (.num x)
  | .text s => .ok (.bytes s)
  | .arr xs => .ok (.arr xs)
  | .list xs => .ok (.arr xs)
  | .none => .error .typeError

/-- The group `instrument` of a file: its own attributes and those of its subgroups, each with
the name of the group and its own.  A subgroup without attributes is deleted (607-608). -/
structure H5 (N : Type) where
  own : List ((Text × Text) × HVal N)
  parts : List ((Text × Text) × HVal N)

/-- The loop over the attributes of one or more groups (fileio/instrument.py 592-605); attributes
that the object does not have are left out. -/
def h5Entries (o : Obj N) : List (Text × Text) → Except Err (List ((Text × Text) × HVal N))
  | [] => .ok []
  | n :: ns =>
    match o.get n.1 n.2 with
    | none => h5Entries o ns
    | some v => do
      let h ← toH5 v
      let r ← h5Entries o ns
      pure ((n, h) :: r)

/-- What is written (fileio/instrument.py 580-608).  An instrument without attributes of its own
would be deleted under the name `''`, which raises `KeyError` (607-608). -/
def h5Contents (o : Obj N) : Except Err (H5 N) := do
  let own ← h5Entries o (savedNames.filter fun n => n.1.isEmpty)
  if own.isEmpty then throw .keyError
  let parts ← h5Entries o (savedNames.filter fun n => !n.1.isEmpty)
  pure ⟨own, parts⟩

/-- `save_tas_instrument(obj, filename, 'hdf5', overwrite)` (fileio/instrument.py 573-608).  A file
either has a group `instrument` or not; creating the group a second time raises `ValueError`. -/
def saveH5 (overwrite : Bool) (old : Option (Option (H5 N))) (o : Obj N) : Except Err (Option (H5 N)) :=
  match overwrite, old with
  | false, some (some _) => .error .valueError
  | _, _ => do
    let f ← h5Contents o
    pure (some f)

/-- The value read from an attribute of the instrument itself (fileio/instrument.py 437-438), which is not
decoded.  `Value` has no bytes; they are represented by the text that Python shows for them. -/
def ownValue : HVal N → Value N
  | .num x => .num x
  | .bytes s => .text (cs!"b'" ++ s ++ ['\''])
  | .arr xs => .arr xs

/-- The value read from an attribute of a part, decoded (fileio/instrument.py 442-444). -/
def partValue : HVal N → Value N
  | .num x => .num x
  | .bytes s => .text s
  | .arr xs => .arr xs

/-- The order in which h5py lists the subgroups (fileio/instrument.py 435, 440): by name. -/
def groupOrder : List Text :=
  [cs!"Smooth", cs!"ana", cs!"detector", cs!"guide", cs!"mono", cs!"sample"]

/-- The assignments of the loader, in their order (fileio/instrument.py 437-446). -/
def h5Assignments (f : H5 N) : List ((Text × Text) × Value N) :=
  f.own.map (fun e => (e.1, ownValue e.2)) ++
    groupOrder.flatMap fun g => (f.parts.filter fun e => decide (e.1.1 = g)).map fun e => (e.1, partValue e.2)

/-- The assignments one after the other. -/
def assignSeq (accepts : Value N → Bool) : Obj N → List ((Text × Text) × Value N) → Except Err (Obj N)
  | o, [] => .ok o
  | o, (n, v) :: rest => do
    let o' ← assign accepts o (if n.1.isEmpty then [n.2] else [n.1, n.2]) v
    assignSeq accepts o' rest

/-- `load_instrument(filename, 'hdf5')` (fileio/instrument.py 428-448), where `start` is the instrument
`Instrument()` makes; a file without the group raises `KeyError`. -/
def loadH5 (accepts : Value N → Bool) (start : Obj N) : Option (H5 N) → Except Err (Obj N)
  | none => .error .keyError
  | some f => assignSeq accepts start (h5Assignments f)

/-- The formats of `save_tof_instrument`. -/
inductive InstrFormat
  | ascii | hdf5 | taz | other
  deriving DecidableEq

/-- `save_tof_instrument` (fileio/instrument.py 690-718): the supported formats do nothing. -/
def saveTof {F : Type} (format : InstrFormat) (old : Option F) : Except Err (Option F) :=
  match format with
  | .other => .error .valueError
  | _ => .ok old

end Verif.FileIO
