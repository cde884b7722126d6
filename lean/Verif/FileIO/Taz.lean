import Verif.FileIO.Instr

/-!
# Model of the taz instrument files of `neutronpy/fileio/instrument.py`

A taz file is an XML document.  Writing and parsing XML is not modelled: a file is the list of the elements below `reso`
with their texts.
-/

namespace Verif.FileIO

/-- What an element of a taz file stands for: an attribute of the instrument, an element of a vector of it, counted from
its end, or an attribute of a part. -/
inductive Target
  | own (a : Text)
  | elem (a : Text) (i : Nat)
  | child (p a : Text)
  deriving DecidableEq, Repr

/-- `taz_keys` (fileio/instrument.py 10-59), the texts `a`, `a[-i]` and `p.a` taken apart. -/
def tazKeys : List (Text × Target) :=
  [ (cs!"algo", .own cs!"method"),
    (cs!"ana_d", .child cs!"ana" cs!"d"),
    (cs!"ana_effic", .own []),
    (cs!"ana_mosaic", .child cs!"ana" cs!"mosaic"),
    (cs!"ana_scatter_sense", .child cs!"ana" cs!"direct"),
    (cs!"h_coll_after_sample", .elem cs!"hcol" 2),
    (cs!"h_coll_ana", .elem cs!"hcol" 1),
    (cs!"h_coll_before_sample", .elem cs!"hcol" 3),
    (cs!"h_coll_mono", .elem cs!"hcol" 4),
    (cs!"mono_d", .child cs!"mono" cs!"d"),
    (cs!"mono_mosaic", .child cs!"mono" cs!"mosaic"),
    (cs!"mono_refl", .own []),
    (cs!"mono_scatter_sense", .child cs!"mono" cs!"direct"),
    (cs!"pop_ana_curvh", .child cs!"ana" cs!"rh"),
    (cs!"pop_ana_curvv", .child cs!"ana" cs!"rv"),
    (cs!"pop_ana_h", .child cs!"ana" cs!"height"),
    (cs!"pop_ana_thick", .child cs!"ana" cs!"depth"),
    (cs!"pop_ana_use_curvh", .own []),
    (cs!"pop_ana_use_curvv", .own []),
    (cs!"pop_ana_w", .child cs!"ana" cs!"width"),
    (cs!"pop_det_h", .child cs!"detector" cs!"height"),
    (cs!"pop_det_rect", .own []),
    (cs!"pop_det_w", .child cs!"detector" cs!"width"),
    (cs!"pop_dist_ana_det", .elem cs!"arms" 2),
    (cs!"pop_dist_mono_sample", .elem cs!"arms" 4),
    (cs!"pop_dist_sample_ana", .elem cs!"arms" 3),
    (cs!"pop_dist_src_mono", .elem cs!"arms" 5),
    (cs!"pop_guide_divh", .elem cs!"arms" 1),
    (cs!"pop_guide_divv", .own []),
    (cs!"pop_mono_curvh", .child cs!"mono" cs!"rh"),
    (cs!"pop_mono_curvv", .child cs!"mono" cs!"rv"),
    (cs!"pop_mono_h", .child cs!"mono" cs!"height"),
    (cs!"pop_mono_thick", .child cs!"mono" cs!"depth"),
    (cs!"pop_mono_use_curvh", .own []),
    (cs!"pop_mono_use_curvv", .own []),
    (cs!"pop_mono_w", .child cs!"mono" cs!"width"),
    (cs!"pop_sample_cuboid", .child cs!"sample" cs!"depth"),
    (cs!"pop_sample_h", .child cs!"sample" cs!"height"),
    (cs!"pop_sample_wperpq", .own []),
    (cs!"pop_sample_wq", .child cs!"sample" cs!"width"),
    (cs!"pop_src_h", .child cs!"guide" cs!"height"),
    (cs!"pop_src_rect", .own []),
    (cs!"pop_src_w", .child cs!"guide" cs!"width"),
    (cs!"sample_mosaic", .child cs!"sample" cs!"mosaic"),
    (cs!"sample_scatter_sense", .child cs!"sample" cs!"direct"),
    (cs!"use_guide", .own []),
    (cs!"v_coll_after_sample", .elem cs!"vcol" 2),
    (cs!"v_coll_ana", .elem cs!"vcol" 1),
    (cs!"v_coll_before_sample", .elem cs!"vcol" 3),
    (cs!"v_coll_mono", .elem cs!"vcol" 4) ]

/-- `str` of the numbers in `defaults` (fileio/instrument.py 631-633). -/
def tazDefaults : List Text :=
  [ cs!"1", cs!"0", cs!"0", cs!"1", cs!"0", cs!"3.355", cs!"45", cs!"1", cs!"5", cs!"3.355", cs!"45", cs!"1", cs!"30",
    cs!"10000.0", cs!"30", cs!"10000.0", cs!"10000.0", cs!"10000.0", cs!"10000.0", cs!"10000.0", cs!"12", cs!"6", cs!"1",
    cs!"0", cs!"200", cs!"8", cs!"0.15", cs!"0", cs!"1", cs!"12", cs!"1.5", cs!"0", cs!"3", cs!"1.5", cs!"0", cs!"0",
    cs!"8", cs!"0.3", cs!"0", cs!"0", cs!"12", cs!"2.5", cs!"5", cs!"1", cs!"10", cs!"200", cs!"115", cs!"85", cs!"15",
    cs!"15" ]

variable {N : Type}

/-- `str(value[-i])` for an attribute (fileio/instrument.py 648).  A number or `None` cannot be indexed. -/
def Value.fromEnd (nm : Numerals N) (i : Nat) : Value N → Except Err Text
  | .arr xs => match xs.reverse[i - 1]? with
    | some x => .ok (nm.str x)
    | Option.none => .error .indexError
  | .list xs => match xs.reverse[i - 1]? with
    | some x => .ok (nm.str x)
    | Option.none => .error .indexError
  | .text s => match s.reverse[i - 1]? with
    | some c => .ok [c]
    | Option.none => .error .indexError
  | .num _ => .error .typeError
  | .none => .error .typeError

/-- fileio/instrument.py 637-656: the text of one element; the default if there is no such attribute. -/
def tazText (nm : Numerals N) (o : Obj N) (t : Target) (dflt : Text) : Except Err Text :=
  match t with
  | .own a => match o.own a with
    | none => .ok dflt
    | some v => .ok (v.str nm)
  | .elem a i => match o.own a with
    | none => .ok dflt
    | some v => v.fromEnd nm i
  | .child p a => match o.parts p with
    | none => .ok dflt
    | some q => match q a with
      | none => .ok dflt
      | some v => .ok (v.str nm)

/-- fileio/instrument.py 635-658: the elements one after the other. -/
def tazElems (nm : Numerals N) (o : Obj N) : List ((Text × Target) × Text) → Except Err (List (Text × Text))
  | [] => .ok []
  | ((ele, t), d) :: rest =>
    match tazText nm o t d with
    | .error e => .error e
    | .ok s => match tazElems nm o rest with
      | .error e => .error e
      | .ok l => .ok ((ele, s) :: l)

/-- `save_tas_instrument(obj, filename, 'taz')` up to the writing of the XML text (fileio/instrument.py 612-658). -/
def saveTaz (nm : Numerals N) (o : Obj N) : Except Err (List (Text × Text)) :=
  tazElems nm o (tazKeys.zip tazDefaults)

/-- The file as it is parsed: the text of an element without text is `None`. -/
def reparsed (file : List (Text × Text)) : List (Text × Option Text) :=
  file.map fun e => (e.1, if e.2 = [] then none else some e.2)

/-- `reso.find(key).text` (fileio/instrument.py 462). -/
def findText (file : List (Text × Option Text)) (key : Text) : Except Err (Option Text) :=
  match file.find? fun e => e.1 = key with
  | none => .error .attributeError
  | some e => .ok e.2

/-- fileio/instrument.py 459-462: the texts of all keys.  (In the dictionary the values of the key `''` overwrite one
another; here all of them are kept and assigned one after the other, with the same result.) -/
def readTaz (file : List (Text × Option Text)) : List (Text × Target) → Except Err (List (Target × Option Text))
  | [] => .ok []
  | (ele, t) :: rest =>
    match findText file ele with
    | .error e => .error e
    | .ok s => match readTaz file rest with
      | .error e => .error e
      | .ok l => .ok ((t, s) :: l)

/-- `values[key]` (fileio/instrument.py 464-466). -/
def textAt (vs : List (Target × Option Text)) (t : Target) : Except Err (Option Text) :=
  match vs.find? fun e => e.1 = t with
  | none => .error .keyError
  | some e => .ok e.2

/-- fileio/instrument.py 464-467: a vector, empty texts left out. -/
def vectorOf (nm : Numerals N) (vs : List (Target × Option Text)) (a : Text) : List Nat → Except Err (List N)
  | [] => .ok []
  | i :: is =>
    match textAt vs (.elem a i) with
    | .error e => .error e
    | .ok none => .error .typeError
    | .ok (some []) => vectorOf nm vs a is
    | .ok (some (c :: s)) =>
      match nm.float (c :: s) with
      | none => .error .valueError
      | some x => match vectorOf nm vs a is with
        | .error e => .error e
        | .ok xs => .ok (x :: xs)

/-- The text of an element as a value. -/
def textValue : Option Text → Value N
  | none => .none
  | some s => .text s

/-- fileio/instrument.py 473-479: one assignment. -/
def putText (o : Obj N) (t : Target) (s : Option Text) : Except Err (Obj N) :=
  match t with
  | .elem _ _ => .ok o
  | .own a => .ok { o with own := Function.update o.own a (some (textValue s)) }
  | .child p a => match o.parts p with
    | none => .error .attributeError
    | some q => .ok { o with parts := Function.update o.parts p (some (Function.update q a (some (textValue s)))) }

/-- fileio/instrument.py 472-479: all assignments. -/
def putTexts : Obj N → List (Target × Option Text) → Except Err (Obj N)
  | o, [] => .ok o
  | o, (t, s) :: rest => match putText o t s with
    | .error e => .error e
    | .ok o' => putTexts o' rest

/-- `load_instrument(filename, 'taz')` after parsing the file (fileio/instrument.py 457-481), where `start` is the
instrument `Instrument()` makes. -/
def loadTaz (nm : Numerals N) (start : Obj N) (file : List (Text × Option Text)) : Except Err (Obj N) :=
  match readTaz file tazKeys with
  | .error e => .error e
  | .ok vs => match vectorOf nm vs cs!"hcol" [4, 3, 2, 1] with
    | .error e => .error e
    | .ok h => match vectorOf nm vs cs!"vcol" [4, 3, 2, 1] with
      | .error e => .error e
      | .ok v => match vectorOf nm vs cs!"arms" [5, 4, 3, 2, 1] with
        | .error e => .error e
        | .ok a => putTexts { start with own := Function.update (Function.update (Function.update start.own cs!"hcol"
            (some (.list h))) cs!"vcol" (some (.list v))) cs!"arms" (some (.list a)) } vs

end Verif.FileIO
