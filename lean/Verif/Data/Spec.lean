import Verif.Data.Model

/-!
# Row-wise specification of combining two data sets

Independent of the loops of the implementation: a data set is a list of rows,
each row having a coordinate tuple and a tuple of counts.
-/

namespace Verif.Data

variable {α : Type} [Field α] [LinearOrder α]

/-- One measured point: coordinates (all non-count columns) and counts. -/
structure Row (α : Type) where
  coord : List α
  counts : List α
  deriving DecidableEq, Repr

/-- Coordinatewise closeness, tolerances inclusive. -/
def Near (tols : List α) (a b : Row α) : Prop :=
  List.Forall₂ (fun (p : α × α) t => |p.1 - p.2| ≤ t) (a.coord.zip b.coord) tols

instance (tols : List α) (a b : Row α) : Decidable (Near tols a b) := by
  unfold Near; infer_instance

/-- Add the counts of a row. -/
def Row.add (a b : Row α) : Row α := ⟨a.coord, List.zipWith (· + ·) a.counts b.counts⟩

/-- The index of the first row of `A` close to `b`. -/
def firstNear (tols : List α) (A : List (Row α)) (b : Row α) : Option Nat :=
  A.findIdx? (fun a => decide (Near tols a b))

/-- The specification of combining: row `j` of `A` collects the rows of `B`
whose first close row it is; the other rows of `B` are appended. -/
def specMerge (tols : List α) (A B : List (Row α)) : List (Row α) :=
  A.mapIdx (fun j a => (B.filter (fun b => firstNear tols A b = some j)).foldl Row.add a)
    ++ B.filter (fun b => firstNear tols A b = none)

/-- All columns have length `n`. -/
def Rect (n : Nat) (t : Table α) : Prop := ∀ c ∈ t, c.2.length = n

/-- The values of row `i`. -/
def valuesAt (t : Table α) (i : Nat) : List α := t.map (fun c => c.2.getD i 0)

/-- The transposed view of a table with `n` rows. -/
def rowsOf (dk : DataKeys) (n : Nat) (t : Table α) : List (Row α) :=
  (List.range n).map fun i =>
    ⟨valuesAt (t.filter (fun c => decide (c.1 ∉ dk.values))) i,
     valuesAt (t.filter (fun c => decide (c.1 ∈ dk.values))) i⟩

/-- Lexicographic order of coordinate tuples with the last coordinate most
significant. -/
def CoordLe (a b : Row α) : Prop :=
  a.coord = b.coord ∨ List.Lex (· < ·) a.coord.reverse b.coord.reverse

/-- Two data sets that `combine_data` documents as combinable ("equivalent data
columns"): rectangular with `na` and `nb` rows, the same distinct column names in
the same order, the same naming of the count columns, all three count columns
present under different names, and at least one coordinate column. -/
structure Combinable (a b : DataObj α) (na nb : Nat) : Prop where
  keys : b.cols.map Prod.fst = a.cols.map Prod.fst
  nodup : (a.cols.map Prod.fst).Nodup
  rectA : Rect na a.cols
  rectB : Rect nb b.cols
  dk : b.dk = a.dk
  names : a.dk.values.Nodup
  present : ∀ k ∈ a.dk.values, k ∈ a.cols.map Prod.fst
  coord : ∃ k ∈ a.cols.map Prod.fst, k ∉ a.dk.values

/-- Number of coordinate columns. -/
def ncoord (a : DataObj α) : Nat := (a.cols.filter (fun c => decide (c.1 ∉ a.dk.values))).length

/-- What the optional argument `tols` means for `n` coordinates: one tolerance
per coordinate, a single number stands for all, the default is `5e-4`. -/
inductive TolsMean (n : Nat) : Option (Tols α) → List α → Prop
  | default : TolsMean n none (List.replicate n (5 / 10000))
  | scalar (t : α) : TolsMean n (some (.scalar t)) (List.replicate n t)
  | single (t : α) : TolsMean n (some (.vec [t])) (List.replicate n t)
  | vec (ts : List α) (h : ts.length = n) : TolsMean n (some (.vec ts)) ts

/-- The set of measured coordinates. -/
def coordsOf (R : List (Row α)) : Set (List α) := {c | ∃ r ∈ R, r.coord = c}

/-- The total of count number `i` measured at coordinate `c`: the data set seen
as a map from coordinates to counts. -/
def countsMap (R : List (Row α)) (c : List α) (i : Nat) : α :=
  (R.map fun r => if r.coord = c then r.counts.getD i 0 else 0).sum

/-- No coordinate is measured twice. -/
def DistinctCoords (R : List (Row α)) : Prop := (R.map Row.coord).Nodup

/-- With these tolerances two rows of the list are close only if they have equal
coordinates (in particular: zero tolerance; or points on a common grid whose
step exceeds the tolerance). -/
def Separated (tols : List α) (R : List (Row α)) : Prop :=
  ∀ a ∈ R, ∀ b ∈ R, Near tols a b ↔ a.coord = b.coord

/-- Number of rows of a table. -/
def nrows (t : Table α) : Nat := (t.head?.map (fun c => c.2.length)).getD 0

/-- The rows of a data set. -/
def rows (d : DataObj α) : List (Row α) := rowsOf d.dk (nrows d.cols) d.cols

/-- A scan with the given columns: rectangular, distinct names, three count
columns and at least one coordinate column. -/
structure Scan (dk : DataKeys) (keys : List String) (d : DataObj α) : Prop where
  dk_eq : d.dk = dk
  keys_eq : d.cols.map Prod.fst = keys
  nodup : keys.Nodup
  rect : Rect (nrows d.cols) d.cols
  names : dk.values.Nodup
  present : ∀ k ∈ dk.values, k ∈ keys
  coord : ∃ k ∈ keys, k ∉ dk.values

/-- Number of coordinate columns among `keys`. -/
def ncoordKeys (dk : DataKeys) (keys : List String) : Nat :=
  (keys.filter (fun k => decide (k ∉ dk.values))).length

end Verif.Data
