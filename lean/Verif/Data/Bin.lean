import Verif.Data.Arith

/-!
# Model of rebinning (`neutronpy/data/data.py` 561-687)

NaN rows for empty cells are modelled by `none`; input data without NaN is
assumed (numbers are a field).  Worker processes get copies of the object, so
nothing they do is seen by the parent.
-/

namespace Verif.Data

variable {α : Type} [Field α] [LinearOrder α]

/-- `[lower_bound, upper_bound, num_points]`. -/
structure BinAxis (α : Type) where
  lo : α
  hi : α
  n : Nat
  deriving DecidableEq, Repr

/-- `np.average` without weights. -/
def avg (xs : List α) : α := xs.sum / xs.length

/-- Centres and step of one axis (data/data.py 647-652): a single cell over the whole
range, or `np.linspace`.  (`linspace` with zero points gives no cells.) -/
def axisCells (s : BinAxis α) : List α × α :=
  if s.n = 1 then ([(s.lo + s.hi) / 2], s.hi - s.lo)
  else
    let step := (s.hi - s.lo) / (s.n - 1)
    ((List.range s.n).map (fun i : Nat => s.lo + i * step), step)

/-- All combinations, the first list varying slowest. -/
def cart : List (List α) → List (List α)
  | [] => [[]]
  | q :: qs => q.flatMap fun x => (cart qs).map (x :: ·)

/-- Exchange the first two entries. -/
def swap01 : List α → List α
  | a :: b :: r => b :: a :: r
  | r => r

/-- `Q = np.vstack(flattened np.meshgrid(*q)).T` (data/data.py 656-657).  With the
default `indexing='xy'` the second axis varies slowest, then the first, then the
others.  No axis at all is a `ValueError` of `vstack`. -/
def grid : List (List α) → Except Err (List (List α))
  | [] => .error .valueError
  | [q] => .ok (q.map ([·]))
  | q0 :: q1 :: qs => .ok ((cart (q1 :: q0 :: qs)).map swap01)

/-- `_bin_keys` (data/data.py 626-631). -/
def binKeys (toBin : List (String × BinAxis α)) (qk : QKeys) (buildHkl : Bool) : List String :=
  let ks := toBin.map Prod.fst
  if buildHkl then
    [("h", qk.h), ("k", qk.k), ("l", qk.l), ("e", qk.e), ("temp", qk.temp)].foldl
      (fun ks kv => ks.erase kv.1 ++ [kv.2]) ks
  else ks

/-- `value.min()`. -/
def colMin : List α → Except Err α
  | [] => .error .valueError
  | x :: xs => .ok (xs.foldl min x)

/-- data/data.py 636-643: the axis of a key. -/
def binArg (d : DataObj α) (toBin : List (String × BinAxis α)) (key : String) :
    Except Err (BinAxis α) :=
  match toBin.lookup key with
  | some a => .ok a
  | none =>
    if key ∈ d.qk.values then do
      let c ← d.cols.get key
      return ⟨← colMin c, ← nanmax c, 1⟩
    else .error .keyError

/-- data/data.py 585-588 for one point. -/
def inCell (steps c x : List α) : Bool :=
  (x.zip (c.zip steps)).all fun t =>
    decide (t.1 ≤ t.2.1 + t.2.2 / 2) && decide (t.2.1 - t.2.2 / 2 ≤ t.1)

/-- One pass of the loop in `_bin_parallel` (data/data.py 580-597): averages of the
columns that are not binned and the error, or `none` for an empty cell. -/
def binCell (sqrt : α → α) (d : DataObj α) (keys : List String) (steps : List α) (c : List α) :
    Except Err (Option (List α × α)) := do
  let cols ← keys.mapM d.cols.get
  let n := (cols.headD []).length
  if cols.all (fun col => col.length = n) then
    let outs := (d.cols.filter (fun col => decide (col.1 ∉ keys))).map Prod.snd
    let (err, _) ← error sqrt d
    let ind := (List.range n).filter fun i => inCell steps c (cols.map (fun col => col.getD i 0))
    if ind = [] then return none
    else
      let avgs ← outs.mapM fun col => do return avg (← take ind col)
      let e ← take ind err
      return some (avgs, sqrt (avg (e.map (· ^ 2))))
  else .error .valueError

/-- `Q_chunks` (data/data.py 660). -/
def chunks {β : Type} (p : Nat) (Q : List β) : List (List β) :=
  (List.range p).map fun n =>
    (Q.take ((n + 1) * Q.length / p)).drop (n * Q.length / p)

/-- data/data.py 674-681: the new columns. `kept` are the cells that were not empty. -/
def assemble (keys : List String) (kept : List (List α × List α × α)) : Nat → Table α → Table α
  | _, [] => []
  | n, col :: cs =>
    if col.1 ∈ keys then
      (col.1, kept.map fun r => r.1.getD (keys.idxOf col.1) 0) :: assemble keys kept n cs
    else (col.1, kept.map fun r => r.2.1.getD n 0) :: assemble keys kept (n + 1) cs

/-- `Data.bin` (data/data.py 601-687) with `nprocs` worker processes. -/
def bin (sqrt : α → α) (nprocs : Nat) (d : DataObj α) (toBin : List (String × BinAxis α))
    (buildHkl : Bool) : Except Err (DataObj α) := do
  let keys := binKeys toBin d.qk buildHkl
  let args ← keys.mapM (binArg d toBin)
  let Q ← grid (args.map fun a => (axisCells a).1)
  let outputs ← (chunks nprocs Q).mapM fun ch =>
    ch.mapM (binCell sqrt d keys (args.map fun a => (axisCells a).2))
  let kept := (Q.zip outputs.flatten).filterMap fun r => r.2.map fun o => (r.1, o)
  return { d with cols := assemble keys kept 0 d.cols, err := some (kept.map fun r => r.2.2) }

end Verif.Data
