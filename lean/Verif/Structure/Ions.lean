import Verif.Common.Exc
import Verif.Structure.IonTable

/-! # Which ions a material can be made of

`Material.__init__` looks every ion up in the periodic table, for the mass of the cell, and then in the table of scattering lengths, for every atom. Only the look-ups and the missing values are modelled here; the numbers are not. -/

namespace Verif.Structure.Ions

open Verif

/-- The exceptions: `KeyError` and `TypeError`. -/
inductive Err | key | type
  deriving DecidableEq

/-- `periodic_table()[ion]['mass']` (neutronpy/constants.py 37-54); every element of the table has a numeric mass, so only the look-up can fail. -/
def mass (ion : List Char) : Except Err Unit :=
  if ion ∈ elements then .ok () else .error .key

/-- `scattering_lengths()[ion]` (neutronpy/constants.py 57-73). -/
def row (ion : List Char) : Except Err Row :=
  match lengths.find? (fun r => decide (r.name = ion)) with
  | some r => .ok r
  | none => .error .key

/-- The look-ups of `Atom.__init__` (neutronpy/crystal/atom.py 45-59): a missing length is `None`, which cannot be multiplied (53) or divided (55). -/
def atom (massNorm : Bool) (ion : List Char) : Except Err Row := do
  let r ← row ion
  if massNorm then
    mass ion
    if r.b then pure r else throw .type
  else
    if r.b then pure r else throw .type

/-- An entry of the composition: the ion, and the number of atoms that it becomes (one without a space group, the number of symmetrized positions with one). -/
structure Entry where
  ion : List Char
  copies : Nat

/-- The loop over the composition that adds up the mass of the cell (neutronpy/crystal/material.py 198-202). -/
def masses : List Entry → Except Err Unit
  | [] => .ok ()
  | e :: es => do mass e.ion; masses es

/-- The `n` atoms of one ion (neutronpy/crystal/material.py 226-233). -/
def copies (massNorm : Bool) (ion : List Char) : Nat → Except Err (List Row)
  | 0 => .ok []
  | n + 1 => do
    let a ← atom massNorm ion
    let as ← copies massNorm ion n
    pure (a :: as)

/-- The loop that makes the atoms (neutronpy/crystal/material.py 217-249). -/
def atoms (massNorm : Bool) : List Entry → Except Err (List Row)
  | [] => .ok []
  | e :: es => do
    let a ← copies massNorm e.ion e.copies
    let as ← atoms massNorm es
    pure (a ++ as)

/-- `Material.__init__` (neutronpy/crystal/material.py 192-266), as far as the ions are concerned. -/
def material (massNorm : Bool) (comp : List Entry) : Except Err (List Row) := do
  masses comp
  atoms massNorm comp

/-- A loop over the atoms that uses the values `f`: `None` raises in the sum or product. -/
def uses (f : Row → Bool) : List Row → Except Err Unit
  | [] => .ok ()
  | r :: rs => if f r then uses f rs else .error .type

/-- `total_scattering_cross_section` (neutronpy/crystal/material.py 271-278). -/
def totalXs (rs : List Row) : Except Err Unit := uses (fun r => r.coh && r.inc) rs

/-- The sums of `calc_optimal_thickness` (neutronpy/crystal/material.py 345-347). -/
def thickness (rs : List Row) : Except Err Unit := do
  uses (·.coh) rs
  uses (·.inc) rs
  uses (·.abs) rs

/-- The sum of `calc_incoh_elas_xs` (neutronpy/crystal/material.py 368-371). -/
def incoherent (rs : List Row) : Except Err Unit := uses (·.inc) rs

end Verif.Structure.Ions
