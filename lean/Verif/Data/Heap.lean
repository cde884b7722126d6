import Verif.Data.CombineRefine
import Mathlib.Data.List.GetD

set_option linter.unusedSectionVars false

/-!
# Heap model of `combine_data`

The same function as `combineTable`, but with numpy arrays as mutable objects:
a column dictionary maps names to addresses of arrays, and the function is
allowed to write to any array.  This is the level at which "`a + b` does not
change `a` or `b`" is a statement with content.
-/

namespace Verif.Data

variable {α : Type} [Field α] [LinearOrder α]

/-- The arrays of the process, by address. -/
abbrev Heap (α : Type) := List (List α)

/-- `Data._data` as a dictionary of references. -/
abbrev Dict := List (String × Nat)

/-- A data object: references to its columns and the naming of the counts. -/
structure HObj where
  dict : Dict
  dk : DataKeys

/-- The contents of the columns. -/
def view (H : Heap α) (d : Dict) : Table α := d.map fun c => (c.1, H.getD c.2 [])

/-- `copy.deepcopy(self._data)` (data/data.py 451): a new array for every column.
Simplification: two columns that are the *same* array object would stay shared
under `deepcopy`; here they would be separated. -/
def deepcopy (H : Heap α) : Dict → Heap α × Dict
  | [] => (H, [])
  | c :: cs =>
    let r := deepcopy (H ++ [H.getD c.2 []]) cs
    (r.1, (c.1, H.length) :: r.2)

/-- data/data.py 458-460, `_data_temp[_key][j] += obj._data[_key][i]`: in-place
update of the arrays of `_data_temp`. -/
def addCountsH (dk : DataKeys) (obj : Dict) (i j : Nat) : Dict → Heap α → Except Err (Heap α)
  | [], H => .ok H
  | c :: cs, H =>
    if isCount dk c.1 then do
      let x ← getE (H.getD c.2 []) j
      let y ← getE (← Table.get (view H obj) c.1) i
      addCountsH dk obj i j cs (H.set c.2 ((H.getD c.2 []).set j (x + y)))
    else addCountsH dk obj i j cs H

/-- data/data.py 463-464, `np.concatenate` makes new arrays and rebinds the names. -/
def appendRowH (obj : Dict) (i : Nat) : Dict → Heap α → Except Err (Heap α × Dict)
  | [], H => .ok (H, [])
  | c :: cs, H => do
    let y ← getE (← Table.get (view H obj) c.1) i
    let r ← appendRowH obj i cs (H ++ [H.getD c.2 [] ++ [y]])
    return (r.1, (c.1, H.length) :: r.2)

/-- One iteration of the outer loop (data/data.py 452-464). -/
def combineStepH (self obj : HObj) (tols : Tols α) (st : Heap α × Dict) (i : Nat) :
    Except Err (Heap α × Dict) := do
  let new ← valsAt (coordCols obj.dk (view st.1 obj.dict)) i
  let n ← Table.get (view st.1 self.dict) self.dk.detector
  match ← findMatch tols (coordCols self.dk (view st.1 self.dict)) new (List.range n.length) with
  | some j => do return (← addCountsH self.dk obj.dict i j st.2 st.1, st.2)
  | none => appendRowH obj.dict i st.2 st.1

/-- `value[ind]` for every column (data/data.py 469-470): new arrays. -/
def takeH (ind : List Nat) : Dict → Heap α → Except Err (Heap α × Dict)
  | [], H => .ok (H, [])
  | c :: cs, H => do
    let v ← take ind (H.getD c.2 [])
    let r ← takeH ind cs (H ++ [v])
    return (r.1, (c.1, H.length) :: r.2)

/-- data/data.py 466-470. -/
def sortH (dk : DataKeys) (st : Heap α × Dict) : Except Err (Heap α × Dict) :=
  match coordCols dk (view st.1 st.2) with
  | [] => .error .typeError
  | c :: cs =>
    if cs.all (fun d => d.2.length = c.2.length) then
      takeH (lexsort (c :: cs) c.2.length) st.2 st.1
    else .error .valueError

/-- `combine_data` (data/data.py 443-470) on the heap: the heap afterwards and the new
column dictionary. -/
def combineH (H : Heap α) (self obj : HObj) (tols : Tols α) : Except Err (Heap α × Dict) := do
  let d ← Table.get (view H obj.dict) obj.dk.detector
  let st ← (List.range d.length).foldlM (combineStepH self obj tols) (deepcopy H self.dict)
  sortH self.dk st

/-- All references are valid. -/
def Valid (H : Heap α) (d : Dict) : Prop := ∀ c ∈ d, c.2 < H.length

/-- `H'` extends `H`: everything allocated in `H` still has its contents. -/
def Extends (n : Nat) (H H' : Heap α) : Prop :=
  n ≤ H'.length ∧ ∀ a < n, H'.getD a [] = H.getD a []

/-- References point to distinct arrays allocated at or after `n`. -/
structure Fresh (n : Nat) (H : Heap α) (d : Dict) : Prop where
  valid : Valid H d
  new : ∀ c ∈ d, n ≤ c.2
  nodup : (d.map Prod.snd).Nodup

theorem Extends.refl {H : Heap α} {n : Nat} (h : n ≤ H.length) : Extends n H H :=
  ⟨h, fun _ _ => rfl⟩

theorem Extends.trans {n : Nat} {H H' H'' : Heap α} (h1 : Extends n H H') (h2 : Extends n H' H'') :
    Extends n H H'' := ⟨h2.1, fun a ha => (h2.2 a ha).trans (h1.2 a ha)⟩

theorem Extends.view {n : Nat} {H H' : Heap α} (h : Extends n H H') {d : Dict}
    (hd : ∀ c ∈ d, c.2 < n) : view H' d = view H d := by
  unfold Verif.Data.view
  apply List.map_congr_left
  intro c hc
  rw [h.2 c.2 (hd c hc)]

theorem Extends.append {n : Nat} {H : Heap α} (h : n ≤ H.length) (ext : Heap α) :
    Extends n H (H ++ ext) := by
  refine ⟨by simp; omega, fun a ha => ?_⟩
  rw [List.getD_append _ _ _ _ (by omega)]

theorem getD_append_length (H : Heap α) (x : List α) : (H ++ [x]).getD H.length [] = x := by
  simp

theorem deepcopy_spec (d : Dict) : ∀ (H : Heap α), Valid H d →
    ∃ ext, (deepcopy H d).1 = H ++ ext ∧
      view (deepcopy H d).1 (deepcopy H d).2 = view H d ∧
      Fresh H.length (deepcopy H d).1 (deepcopy H d).2 := by
  induction d with
  | nil => intro H _; exact ⟨[], by simp [deepcopy], rfl, ⟨by simp [deepcopy, Valid], by simp [deepcopy],
      by simp [deepcopy]⟩⟩
  | cons c cs ih =>
    intro H hv
    have hv' : Valid (H ++ [H.getD c.2 []]) cs := by
      intro c' hc'
      have := hv c' (by simp [hc'])
      simp; omega
    obtain ⟨ext, h1, h2, h3⟩ := ih _ hv'
    have hext : Extends H.length H (deepcopy (H ++ [H.getD c.2 []]) cs).1 := by
      rw [h1, List.append_assoc]; exact Extends.append le_rfl _
    refine ⟨[H.getD c.2 []] ++ ext, by simp only [deepcopy]; rw [h1, List.append_assoc], ?_, ?_⟩
    · have hself : (deepcopy (H ++ [H.getD c.2 []]) cs).1.getD H.length [] = H.getD c.2 [] := by
        rw [h1, List.getD_append _ _ _ _ (by simp), getD_append_length]
      have hcs : view (H ++ [H.getD c.2 []]) cs = view H cs :=
        (Extends.append le_rfl [H.getD c.2 []]).view (fun c' hc' => hv c' (by simp [hc']))
      simp only [deepcopy, view, List.map_cons] at *
      rw [hself, h2, hcs]
    · refine ⟨?_, ?_, ?_⟩
      · intro c' hc'
        simp only [deepcopy, List.mem_cons] at hc' ⊢
        rcases hc' with rfl | hc'
        · rw [h1]; simp
        · exact h3.valid c' hc'
      · intro c' hc'
        simp only [deepcopy, List.mem_cons] at hc'
        rcases hc' with rfl | hc'
        · exact le_rfl
        · have := h3.new c' hc'
          simp at this; omega
      · simp only [deepcopy, List.map_cons, List.nodup_cons]
        refine ⟨?_, h3.nodup⟩
        intro hmem
        obtain ⟨c', hc', e⟩ := List.mem_map.1 hmem
        have := h3.new c' hc'
        simp at this; omega

theorem mapM_cons_ok {β γ : Type} {f : β → Except Err γ} {x : β} {xs : List β} {r : List γ}
    (h : (x :: xs).mapM f = .ok r) : ∃ y ys, f x = .ok y ∧ xs.mapM f = .ok ys ∧ r = y :: ys := by
  rw [List.mapM_cons] at h
  cases h1 : f x with
  | error e => rw [h1] at h; cases h
  | ok y =>
    cases h2 : xs.mapM f with
    | error e => rw [h1, h2] at h; cases h
    | ok ys => rw [h1, h2] at h; cases h; exact ⟨y, ys, rfl, rfl, rfl⟩

theorem addCountsH_ok {dk : DataKeys} {obj : Dict} {i j n : Nat} (hobj : ∀ c ∈ obj, c.2 < n)
    (cs : Dict) : ∀ (H : Heap α) (t' : Table α), Fresh n H cs →
    addCounts dk (view H obj) i j (view H cs) = .ok t' → n ≤ H.length →
    ∃ H', addCountsH dk obj i j cs H = .ok H' ∧ Extends n H H' ∧ view H' cs = t' ∧
      H'.length = H.length ∧ ∀ a, a ∉ cs.map Prod.snd → H'.getD a [] = H.getD a [] := by
  induction cs with
  | nil =>
    intro H t' _ h hn
    refine ⟨H, rfl, Extends.refl hn, ?_, rfl, fun _ _ => rfl⟩
    simp only [addCounts, view, List.map_nil, List.mapM_nil] at h ⊢
    cases h; rfl
  | cons c cs ih =>
    intro H t' hf h hn
    have hf' : Fresh n H cs := ⟨fun c' h => hf.valid c' (by simp [h]),
      fun c' h => hf.new c' (by simp [h]), (List.nodup_cons.1 hf.nodup).2⟩
    have hc2 : c.2 ∉ cs.map Prod.snd := (List.nodup_cons.1 hf.nodup).1
    have hcv := hf.valid c (by simp)
    have hcn := hf.new c (by simp)
    obtain ⟨y, ys, h1, h2, rfl⟩ := mapM_cons_ok h
    unfold addCountsH
    by_cases hk : isCount dk c.1 = true
    · simp only [hk, if_true] at h1 ⊢
      cases hx : getE (H.getD c.2 []) j with
      | error e => rw [hx] at h1; cases h1
      | ok x =>
      rw [hx] at h1
      cases hg : Table.get (view H obj) c.1 with
      | error e => rw [hg] at h1; cases h1
      | ok o =>
      rw [hg] at h1
      cases hy : getE o i with
      | error e =>
        have h1' : (Except.bind (getE o i) fun y => (Except.ok (c.1, (H.getD c.2 []).set j (x + y)) : Except Err _)) = Except.ok y := h1
        rw [hy] at h1'; cases h1'
      | ok z =>
      have h1' : (Except.bind (getE o i) fun y => (Except.ok (c.1, (H.getD c.2 []).set j (x + y)) : Except Err _)) = Except.ok y := h1
      rw [hy] at h1'
      have hy' : (c.1, (H.getD c.2 []).set j (x + z)) = y := Except.ok.inj h1'
      let H1 := H.set c.2 ((H.getD c.2 []).set j (x + z))
      have hH1 : ∀ a, a ≠ c.2 → H1.getD a [] = H.getD a [] := by
        intro a ha
        simp only [H1, List.getD_eq_getElem?_getD]
        rw [List.getElem?_set_ne (Ne.symm ha)]
      have hH1l : H1.length = H.length := by simp [H1]
      have e1 : Extends n H H1 := ⟨by omega, fun a ha => hH1 a (by omega)⟩
      have hcs : view H1 cs = view H cs := by
        unfold view
        apply List.map_congr_left
        intro c' hc'
        rw [hH1 c'.2 (fun e => hc2 (e ▸ List.mem_map.2 ⟨c', hc', rfl⟩))]
      obtain ⟨H', k1, k2, k3, k4, k5⟩ := ih H1 ys
        ⟨fun c' h => by rw [hH1l]; exact hf'.valid c' h, hf'.new, hf'.nodup⟩
        (by rw [e1.view hobj, hcs]; exact h2) (by omega)
      refine ⟨H', ?_, e1.trans k2, ?_, by omega, ?_⟩
      · show Except.bind (getE o i) _ = _
        rw [hy]; exact k1
      · have : H'.getD c.2 [] = (H.getD c.2 []).set j (x + z) := by
          rw [k5 c.2 hc2]
          simp [H1, List.getD_eq_getElem?_getD, hcv]
        simp only [view, List.map_cons] at k3 ⊢
        rw [this, hy', k3]
      · intro a ha
        simp only [List.map_cons, List.mem_cons, not_or] at ha
        rw [k5 a ha.2, hH1 a ha.1]
    · simp only [hk] at h1 ⊢
      have hy : (c.1, H.getD c.2 []) = y := Except.ok.inj h1
      obtain ⟨H', k1, k2, k3, k4, k5⟩ := ih H ys hf' h2 hn
      refine ⟨H', k1, k2, ?_, k4, ?_⟩
      · have := k5 c.2 hc2
        simp only [view, List.map_cons] at k3 ⊢
        rw [this, hy, k3]
      · intro a ha
        simp only [List.map_cons, List.mem_cons, not_or] at ha
        exact k5 a ha.2

/-- Common part of the two loops that allocate one new array per column. -/
theorem alloc_cons {n : Nat} {H H' : Heap α} {k : String} {v : List α} {cs' : Dict} {t : Table α}
    (hn : n ≤ H.length) (ext : Heap α) (h1 : H' = (H ++ [v]) ++ ext) (h2 : view H' cs' = t)
    (h3 : Fresh (H ++ [v]).length H' cs') :
    view H' ((k, H.length) :: cs') = (k, v) :: t ∧ Fresh n H' ((k, H.length) :: cs') := by
  refine ⟨?_, ?_, ?_, ?_⟩
  · have : H'.getD H.length [] = v := by
      rw [h1, List.getD_append _ _ _ _ (by simp), getD_append_length]
    simp only [view, List.map_cons] at h2 ⊢
    rw [this, h2]
  · intro c' hc'
    rcases List.mem_cons.1 hc' with rfl | hc'
    · rw [h1]; simp
    · exact h3.valid c' hc'
  · intro c' hc'
    rcases List.mem_cons.1 hc' with rfl | hc'
    · exact hn
    · have := h3.new c' hc'; simp at this; omega
  · simp only [List.map_cons, List.nodup_cons]
    refine ⟨?_, h3.nodup⟩
    intro hmem
    obtain ⟨c', hc', e⟩ := List.mem_map.1 hmem
    have := h3.new c' hc'
    simp at this; omega

theorem appendRowH_ok {obj : Dict} {i n : Nat} (hobj : ∀ c ∈ obj, c.2 < n)
    (cs : Dict) : ∀ (H : Heap α) (t' : Table α), Valid H cs →
    appendRow (view H obj) i (view H cs) = .ok t' → n ≤ H.length →
    ∃ ext d', appendRowH obj i cs H = .ok (H ++ ext, d') ∧
      view (H ++ ext) d' = t' ∧ Fresh H.length (H ++ ext) d' := by
  induction cs with
  | nil =>
    intro H t' _ h hn
    refine ⟨[], [], by simp [appendRowH], ?_, ⟨by simp [Valid], by simp, by simp⟩⟩
    simp only [appendRow, view, List.map_nil, List.mapM_nil] at h ⊢
    cases h; rfl
  | cons c cs ih =>
    intro H t' hv h hn
    obtain ⟨y, ys, h1, h2, rfl⟩ := mapM_cons_ok h
    unfold appendRowH
    simp only at h1
    cases hg : Table.get (view H obj) c.1 with
    | error e => rw [hg] at h1; cases h1
    | ok o =>
    rw [hg] at h1
    have h1' : (Except.bind (getE o i) fun y => (Except.ok (c.1, H.getD c.2 [] ++ [y]) : Except Err _)) = Except.ok y := h1
    cases hy : getE o i with
    | error e => rw [hy] at h1'; cases h1'
    | ok z =>
    rw [hy] at h1'
    have hy' : (c.1, H.getD c.2 [] ++ [z]) = y := Except.ok.inj h1'
    have hx := Extends.append (n := H.length) le_rfl [H.getD c.2 [] ++ [z]]
    obtain ⟨ext, d', k1, k2, k3⟩ := ih (H ++ [H.getD c.2 [] ++ [z]]) ys
      (fun c' h => by have := hv c' (by simp [h]); simp; omega)
      (by
        rw [hx.view (d := cs) (fun c' h => hv c' (by simp [h])),
          (Extends.append hn [H.getD c.2 [] ++ [z]]).view hobj]
        exact h2) (by simp; omega)
    obtain ⟨k4, k5⟩ := alloc_cons (k := c.1) (le_refl H.length) ext rfl k2 k3
    refine ⟨[H.getD c.2 [] ++ [z]] ++ ext, (c.1, H.length) :: d', ?_, ?_, ?_⟩
    · show Except.bind (getE o i) _ = _
      rw [hy]
      show Except.bind (appendRowH obj i cs (H ++ [H.getD c.2 [] ++ [z]])) _ = _
      rw [k1, List.append_assoc]; rfl
    · rw [← List.append_assoc, k4, hy']
    · rw [← List.append_assoc]; exact k5

theorem takeH_ok {ind : List Nat} (cs : Dict) : ∀ (H : Heap α) (t' : Table α), Valid H cs →
    (view H cs).mapM (fun d => do return (d.1, ← take ind d.2)) = .ok t' →
    ∃ ext d', takeH ind cs H = .ok (H ++ ext, d') ∧
      view (H ++ ext) d' = t' ∧ Fresh H.length (H ++ ext) d' := by
  induction cs with
  | nil =>
    intro H t' _ h
    refine ⟨[], [], by simp [takeH], ?_, ⟨by simp [Valid], by simp, by simp⟩⟩
    simp only [view, List.map_nil, List.mapM_nil] at h ⊢
    cases h; rfl
  | cons c cs ih =>
    intro H t' hv h
    obtain ⟨y, ys, h1, h2, rfl⟩ := mapM_cons_ok h
    unfold takeH
    simp only at h1
    cases hg : take ind (H.getD c.2 []) with
    | error e => rw [hg] at h1; cases h1
    | ok v =>
    rw [hg] at h1
    have hy' : (c.1, v) = y := Except.ok.inj h1
    have hx := Extends.append (n := H.length) le_rfl [v]
    obtain ⟨ext, d', k1, k2, k3⟩ := ih (H ++ [v]) ys
      (fun c' h => by have := hv c' (by simp [h]); simp; omega)
      (by
        have e := hx.view (d := cs) (fun c' h => hv c' (by simp [h]))
        rw [e]; exact h2)
    obtain ⟨k4, k5⟩ := alloc_cons (k := c.1) (le_refl H.length) ext rfl k2 k3
    refine ⟨[v] ++ ext, (c.1, H.length) :: d', ?_, ?_, ?_⟩
    · show Except.bind (takeH ind cs (H ++ [v])) _ = _
      rw [k1, List.append_assoc]; rfl
    · rw [← List.append_assoc, k4, hy']
    · rw [← List.append_assoc]; exact k5

/-- The data object seen through the heap. -/
def HObj.obj (H : Heap α) (o : HObj) : DataObj α :=
  { emptyData with cols := view H o.dict, dk := o.dk }

theorem combineStepH_ok {self obj : HObj} {tols : Tols α} {n : Nat} {H0 H : Heap α} {temp : Dict}
    (hs : ∀ c ∈ self.dict, c.2 < n) (ho : ∀ c ∈ obj.dict, c.2 < n) (he : Extends n H0 H)
    (hf : Fresh n H temp) {i : Nat} {t' : Table α}
    (h : combineStep (self.obj H0) (obj.obj H0) tols (view H temp) i = .ok t') :
    ∃ H' temp', combineStepH self obj tols (H, temp) i = .ok (H', temp') ∧ Extends n H0 H' ∧
      Fresh n H' temp' ∧ view H' temp' = t' := by
  unfold combineStep at h
  unfold combineStepH
  simp only [HObj.obj] at h
  simp only [he.view hs, he.view ho]
  cases h1 : valsAt (coordCols obj.dk (view H0 obj.dict)) i with
  | error e => rw [h1] at h; cases h
  | ok new =>
  rw [h1] at h
  cases h2 : Table.get (view H0 self.dict) self.dk.detector with
  | error e => rw [h2] at h; cases h
  | ok d =>
  rw [h2] at h
  have h' : Except.bind (findMatch tols (coordCols self.dk (view H0 self.dict)) new
    (List.range d.length)) _ = .ok t' := h
  show ∃ H' temp', Except.bind (findMatch tols (coordCols self.dk (view H0 self.dict)) new
    (List.range d.length)) _ = .ok (H', temp') ∧ _
  cases h3 : findMatch tols (coordCols self.dk (view H0 self.dict)) new (List.range d.length) with
  | error e => rw [h3] at h'; cases h'
  | ok m =>
  rw [h3] at h'
  cases m with
  | some j =>
    have h4 : addCounts self.dk (view H obj.dict) i j (view H temp) = .ok t' := by
      rw [he.view ho]; exact h'
    obtain ⟨H', k1, k2, k3, k4, k5⟩ := addCountsH_ok ho temp H t' hf h4 he.1
    refine ⟨H', temp, ?_, he.trans k2, ⟨fun c hc => by rw [k4]; exact hf.valid c hc, hf.new,
      hf.nodup⟩, k3⟩
    show Except.bind (addCountsH self.dk obj.dict i j temp H) _ = _
    rw [k1]; rfl
  | none =>
    have h4 : appendRow (view H obj.dict) i (view H temp) = .ok t' := by
      rw [he.view ho]; exact h'
    obtain ⟨ext, d', k1, k2, k3⟩ := appendRowH_ok ho temp H t' hf.valid h4 he.1
    exact ⟨H ++ ext, d', k1, he.trans (Extends.append he.1 ext),
      ⟨k3.valid, fun c hc => le_trans he.1 (k3.new c hc), k3.nodup⟩, k2⟩

theorem loopH_ok {self obj : HObj} {tols : Tols α} {n : Nat} {H0 : Heap α}
    (hs : ∀ c ∈ self.dict, c.2 < n) (ho : ∀ c ∈ obj.dict, c.2 < n) (is : List Nat) :
    ∀ (H : Heap α) (temp : Dict) (t' : Table α), Extends n H0 H → Fresh n H temp →
    is.foldlM (combineStep (self.obj H0) (obj.obj H0) tols) (view H temp) = .ok t' →
    ∃ H' temp', is.foldlM (combineStepH self obj tols) (H, temp) = .ok (H', temp') ∧
      Extends n H0 H' ∧ Fresh n H' temp' ∧ view H' temp' = t' := by
  induction is with
  | nil =>
    intro H temp t' he hf h
    exact ⟨H, temp, rfl, he, hf, Except.ok.inj h⟩
  | cons i is ih =>
    intro H temp t' he hf h
    rw [List.foldlM_cons] at h
    cases h1 : combineStep (self.obj H0) (obj.obj H0) tols (view H temp) i with
    | error e => rw [h1] at h; cases h
    | ok t1 =>
      rw [h1] at h
      obtain ⟨H1, temp1, k1, k2, k3, k4⟩ := combineStepH_ok hs ho he hf h1
      subst k4
      obtain ⟨H', temp', m1, m2, m3, m4⟩ := ih H1 temp1 t' k2 k3 h
      refine ⟨H', temp', ?_, m2, m3, m4⟩
      rw [List.foldlM_cons, k1]; exact m1

/-- The heap version computes the same table, in freshly allocated arrays, and
leaves every array that existed before unchanged. -/
theorem combineH_ok {H : Heap α} {self obj : HObj} {tols : Tols α} (hs : Valid H self.dict)
    (ho : Valid H obj.dict) {t : Table α}
    (h : combineTable (self.obj H) (obj.obj H) (some tols) = .ok t) :
    ∃ H' d', combineH H self obj tols = .ok (H', d') ∧ Extends H.length H H' ∧
      Fresh H.length H' d' ∧ view H' d' = t := by
  unfold combineTable at h
  unfold combineH
  simp only [HObj.obj, resolveTols] at h
  cases h1 : Table.get (view H obj.dict) obj.dk.detector with
  | error e => rw [h1] at h; cases h
  | ok d =>
  rw [h1] at h
  have h' : Except.bind ((List.range d.length).foldlM
    (combineStep (self.obj H) (obj.obj H) tols) (view H self.dict)) _ = .ok t := h
  cases h2 : (List.range d.length).foldlM
    (combineStep (self.obj H) (obj.obj H) tols) (view H self.dict) with
  | error e => rw [h2] at h'; cases h'
  | ok temp =>
  rw [h2] at h'
  obtain ⟨ext, d1, d2, d3⟩ := deepcopy_spec self.dict H hs
  have hx : Extends H.length H (deepcopy H self.dict).1 := by
    rw [d1]; exact Extends.append le_rfl ext
  obtain ⟨H', temp', k1, k2, k3, k4⟩ := loopH_ok (tols := tols) hs ho (List.range d.length)
    (deepcopy H self.dict).1 (deepcopy H self.dict).2 temp hx d3 (by rw [d2]; exact h2)
  have hsort : sortTable self.dk temp = .ok t := h'
  have goal : ∃ H'' d'', sortH self.dk (H', temp') = .ok (H'', d'') ∧ Extends H.length H H'' ∧
      Fresh H.length H'' d'' ∧ view H'' d'' = t := by
    unfold sortH
    unfold sortTable at hsort
    rw [k4]
    cases hcc : coordCols self.dk temp with
    | nil => rw [hcc] at hsort; cases hsort
    | cons c cs =>
      rw [hcc] at hsort
      simp only at hsort ⊢
      split at hsort
      · next hall =>
        rw [if_pos hall]
        obtain ⟨ext', d', m1, m2, m3⟩ := takeH_ok temp' H' t k3.valid (by rw [k4]; exact hsort)
        exact ⟨H' ++ ext', d', m1, k2.trans (Extends.append k2.1 ext'),
          ⟨m3.valid, fun c hc => le_trans k2.1 (m3.new c hc), m3.nodup⟩, m2⟩
      · cases hsort
  obtain ⟨H'', d'', g1, g2, g3, g4⟩ := goal
  refine ⟨H'', d'', ?_, g2, g3, g4⟩
  show Except.bind ((List.range d.length).foldlM (combineStepH self obj tols)
    (deepcopy H self.dict)) _ = _
  rw [k1]; exact g1

/-- `d[key] = ref` on a dictionary of references. -/
def Dict.put (d : Dict) (key : String) (a : Nat) : Dict :=
  if (d.lookup key).isSome then d.map (fun c => if c.1 = key then (c.1, a) else c)
  else d ++ [(key, a)]

/-- Allocation. -/
def alloc (H : Heap α) (v : List α) : Heap α × Nat := (H ++ [v], H.length)

/-- The object returned by `subtract_background` (data/data.py 540-550) on the heap:
`copy.copy(self.data)` is a *shallow* copy of the column dictionary, the three
count columns are then rebound to new arrays.  `int` are the new intensities.
(The deep copy made at 546 is dropped when `_data` is overwritten at 550.) -/
def subtractH (H : Heap α) (self : HObj) (int : List α) : Heap α × HObj :=
  let (H, a1) := alloc H int
  let (H, a2) := alloc H (List.replicate int.length 1)
  let (H, a3) := alloc H (List.replicate int.length 1)
  (H, ⟨((self.dict.put self.dk.detector a1).put self.dk.monitor a2).put self.dk.time a3, self.dk⟩)

/-- The object returned by `__mul__` (data/data.py 158-161) on the heap: a deep copy
whose detector column is then rebound to a new array. -/
def mulH (H : Heap α) (self : HObj) (det : List α) : Heap α × HObj :=
  let (H, d) := deepcopy H self.dict
  let (H, a) := alloc H det
  (H, ⟨d.put self.dk.detector a, self.dk⟩)

/-- `array[i] = v`, writing into an array in place. -/
def writeH (H : Heap α) (addr i : Nat) (v : α) : Heap α := H.set addr ((H.getD addr []).set i v)

theorem Dict.mem_put {d : Dict} {key : String} {a : Nat} {c : String × Nat}
    (h : c ∈ d.put key a) : c ∈ d ∨ c.2 = a := by
  unfold Dict.put at h
  split at h
  · obtain ⟨c', hc', rfl⟩ := List.mem_map.1 h
    split
    · exact Or.inr rfl
    · exact Or.inl hc'
  · rcases List.mem_append.1 h with h | h
    · exact Or.inl h
    · rw [List.mem_singleton] at h; subst h; exact Or.inr rfl

end Verif.Data
