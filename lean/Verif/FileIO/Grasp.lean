import Verif.FileIO.Detect
import Verif.FileIO.Loaders

/-!
# Model of the choice of a reader, and of the NeXus files of GRASP

`load` of the loaders with more than one format (loaders/grasp.py 16-35, loaders/neutronpy.py 18-40,
loaders/dcs_mslice.py 16-50), and `load_nxs` (loaders/grasp.py 37-58).
-/

namespace Verif.FileIO

/-- The readers of the loaders. -/
inductive Reading
  | nxs | dat | hdf5 | ascii | dcs (s : Subtype) | only (t : Filetype)
  deriving DecidableEq, Repr

/-- `Grasp.load` (loaders/grasp.py 27-35). -/
def graspReading (name content : Text) : Except Err Reading :=
  if lower (lastChars 3 name) = cs!"nxs" then .ok .nxs
  else if lower (lastChars 3 name) = cs!"dat" ∨ has cs!"GRASP" (firstLines content).1 then .ok .dat
  else .error .ioError

/-- `Neutronpy.load` (loaders/neutronpy.py 32-40). -/
def neutronpyReading (name content : Text) : Except Err Reading :=
  if lower (lastChars 2 name) = cs!"h5" then .ok .hdf5
  else if has cs!"NeutronPy" (firstLines content).1 then .ok .ascii
  else .error .ioError

/-- The reader that the loader of a type takes (fileio/data.py 42-63 and the files above).  The other loaders have one
reader each. -/
def reading (t : Filetype) (name content : Text) : Except Err Reading :=
  match t with
  | .grasp => graspReading name content
  | .neutronpy => neutronpyReading name content
  | .dcsMslice => (dcsSubtype name (fileLines content)).map .dcs
  | t => .ok (.only t)

/-! ### NeXus files -/

variable {α : Type}

/-- An array: its shape, and its values in their order. -/
structure NdArr (α : Type) where
  shape : List Nat
  vals : List α
  deriving DecidableEq

/-- `np.squeeze`: axes of length one are left out. -/
def NdArr.squeeze (a : NdArr α) : NdArr α := ⟨a.shape.filter (· ≠ 1), a.vals⟩

/-- `np.ones(shape)`. -/
def onesOf (one : α) (shape : List Nat) : NdArr α := ⟨shape, List.replicate shape.prod one⟩

/-- A data set of the file; a missing one is a `KeyError`. -/
def dataset (file : Text → Option (NdArr α)) (name : Text) : Except Err (NdArr α) :=
  match file (cs!"entry0/data1/" ++ name) with
  | some a => .ok a.squeeze
  | none => .error .keyError

/-- What is loaded: the columns, `data_keys` and `_err`. -/
structure NxsDat (α : Type) where
  cols : List (Text × NdArr α)
  dataKeys : Dict
  err : NdArr α

/-- `load_nxs` (loaders/grasp.py 37-58). -/
def loadNxs (one : α) (file : Text → Option (NdArr α)) : Except Err (NxsDat α) := do
  let i ← dataset file cs!"intensity1"
  let qx ← dataset file cs!"qx1"
  let qy ← dataset file cs!"qy1"
  let qa ← dataset file cs!"qangle1"
  let mq ← dataset file cs!"mod_q1"
  let e ← dataset file cs!"err_intensity1"
  return { cols := [(cs!"intensity", i), (cs!"qx", qx), (cs!"qy", qy), (cs!"qangles", qa), (cs!"mod_q", mq),
                    (cs!"err_intensity", e), (cs!"monitor", onesOf one i.shape), (cs!"time", onesOf one i.shape)],
           dataKeys := [(cs!"detector", cs!"intensity"), (cs!"monitor", cs!"monitor"), (cs!"time", cs!"time")],
           err := e }

end Verif.FileIO
