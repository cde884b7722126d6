import Verif.Structure.Props
import Verif.Symmetry.PropsDatabase
import Mathlib.Data.List.Perm.Basic

/-! # Properties C85, C86, C87: materials with a space group -/

namespace Verif.Structure

open Real Matrix Verif.Crystal Verif.Symmetry

/-- The translations of the operations lie in [0, 1). -/
def Reduced (ops : List Op) : Prop := ∀ o ∈ ops, ∀ i, 0 ≤ o.trans i ∧ o.trans i < 1

/-- The reflection equivalent to `hkl` under an operation: `h R`. -/
def equivReflection (op : Op) (hkl : Vec) : Vec := fun j => ∑ i, hkl i * op.rot i j

theorem comp_perm {ops : List Op} (hg : IsGroup ops) (hr : Reduced ops) {op : Op} (hop : op ∈ ops) :
    (ops.map (comp op)).Perm ops := by
  obtain ⟨inv, hinv, h1, h2⟩ := hg.inv op hop
  have hinj : ∀ a ∈ ops, ∀ b ∈ ops, comp op a = comp op b → a = b := by
    intro a ha b hb h
    rw [← ident_comp (hr a ha), ← ident_comp (hr b hb), ← h2, comp_assoc, comp_assoc, h]
  refine (List.perm_ext_iff_of_nodup (hg.nodup.map_on hinj) hg.nodup).2 fun y => ?_
  rw [List.mem_map]
  constructor
  · rintro ⟨a, ha, rfl⟩
    exact hg.comp _ hop _ ha
  · intro hy
    exact ⟨comp inv y, hg.comp _ hinv _ hy, by rw [← comp_assoc, h1, ident_comp (hr y hy)]⟩

theorem phase_equiv {hkl p q : Vec} (hz : ∃ z : Fin 3 → ℤ, ∀ i, hkl i = z i) (h : Equiv p q) :
    phase hkl p = phase hkl q := by
  obtain ⟨n, hn⟩ := h
  obtain ⟨z, hz⟩ := hz
  have : p = q + fun i => (n i : ℝ) := by
    funext i
    have := hn i
    simp only [Pi.add_apply]
    linarith
  rw [this, phase_add, phase_int (p := fun i => (n i : ℝ)), mul_one]
  refine ⟨z 0 * n 0 + z 1 * n 1 + z 2 * n 2, ?_⟩
  rw [hz 0, hz 1, hz 2]
  push_cast
  ring

theorem phase_act (op : Op) (hkl p : Vec) :
    phase (equivReflection op hkl) p * phase hkl (fun i => (op.trans i : ℝ)) = phase hkl (act op p) := by
  unfold phase
  rw [← Complex.exp_add]
  congr 1
  simp only [equivReflection, act, Fin.sum_univ_three]
  push_cast
  ring

/-- The sum over one orbit at an equivalent reflection. -/
theorem orbit_sum {ops : List Op} (hg : IsGroup ops) (hr : Reduced ops) {op : Op} (hop : op ∈ ops) {hkl : Vec}
    (hz : ∃ z : Fin 3 → ℤ, ∀ i, hkl i = z i) (x : Vec) :
    (ops.map fun o => phase (equivReflection op hkl) (act o x)).sum * phase hkl (fun i => (op.trans i : ℝ)) =
      (ops.map fun o => phase hkl (act o x)).sum := by
  rw [← List.sum_map_mul_right]
  have : (fun o => phase (equivReflection op hkl) (act o x) * phase hkl (fun i => (op.trans i : ℝ))) =
      (fun o => phase hkl (act o x)) ∘ comp op := by
    funext o
    rw [phase_act]
    exact phase_equiv hz (act_comp op o x)
  rw [this, ← List.map_map]
  exact ((comp_perm hg hr hop).map _).sum_eq

theorem mapM_ok_forall {α β ε : Type} {f : α → Except ε β} {xs : List α} {ys : List β}
    (h : xs.mapM f = .ok ys) : List.Forall₂ (fun x y => f x = .ok y) xs ys := by
  induction xs generalizing ys with
  | nil =>
    rw [List.mapM_nil] at h
    cases h
    exact .nil
  | cons x xs ih =>
    rw [List.mapM_cons, bind_eq_ok] at h
    obtain ⟨y, hy, h⟩ := h
    rw [bind_eq_ok] at h
    obtain ⟨ys', hys, h⟩ := h
    cases h
    exact .cons hy (ih hys)

theorem atomsGroup_blocks {ops : List Op} {comp : List Item} {fu : ℝ} {mn : Bool} {atoms : List Atom}
    (h : atomsGroup ops comp fu mn = .ok atoms) : ∃ bs : List (List Atom), atoms = bs.flatten ∧
      ∀ b ∈ bs, ∃ it m ui u, b = (symmetrizePosition ops it.pos).map fun p => mkAtom it p m mn ui u := by
  unfold atomsGroup at h
  rw [bind_eq_ok] at h
  obtain ⟨bs, hbs, h⟩ := h
  cases h
  refine ⟨bs, rfl, ?_⟩
  have hf := mapM_ok_forall hbs
  clear hbs
  generalize comp.zipIdx = xs at hf
  induction hf with
  | nil => intro b hb; cases hb
  | cons h1 _ ih =>
    intro b hb
    rcases List.mem_cons.1 hb with rfl | hb
    · rw [bind_eq_ok] at h1
      obtain ⟨u, _, h1⟩ := h1
      cases h1
      exact ⟨_, _, _, u, rfl⟩
    · exact ih b hb

/-- **C85** equivalent reflections: for a material with a space group, atoms without displacement
parameters and integer `hkl`, the structure factors at `hkl` and at `hkl R` differ by the phase of
the translation of the operation. -/
theorem C85_equivalent {l : Lattice} {w : ℝ} {ops : List Op} (hg : IsGroup ops) (hr : Reduced ops)
    {comp : List Item} {fu : ℝ} {mn : Bool} {atoms : List Atom}
    (ha : atomsGroup ops comp fu mn = .ok atoms) (hrig : ∀ a ∈ atoms, Rigid a)
    {op : Op} (hop : op ∈ ops) {hkl : Vec} (hz : ∃ z : Fin 3 → ℤ, ∀ i, hkl i = z i) {F : ℂ}
    (hF : calcNucStrFac l w atoms hkl = .ok F) :
    ∃ F', calcNucStrFac l w atoms (equivReflection op hkl) = .ok F' ∧
      F' * phase hkl (fun i => (op.trans i : ℝ)) = F ∧ ‖F'‖ = ‖F‖ := by
  rw [calc_eq_ok] at hF
  obtain ⟨hd, hF⟩ := hF
  rw [total_rigid hrig hd] at hF
  refine ⟨_, calc_ok hd _, ?_⟩
  have key : total l w atoms (equivReflection op hkl) * phase hkl (fun i => (op.trans i : ℝ)) = F := by
    rw [total_rigid hrig hd, hF]
    obtain ⟨bs, rfl, hb⟩ := atomsGroup_blocks ha
    clear ha hd hF hrig
    induction bs with
    | nil => simp
    | cons b bs ih =>
      simp only [List.flatten_cons, List.map_append, List.sum_append, add_mul]
      rw [ih fun b' h => hb b' (List.mem_cons_of_mem _ h)]
      congr 1
      obtain ⟨it, m, ui, u, rfl⟩ := hb b (List.mem_cons_self ..)
      have : ∀ k : Vec, (((symmetrizePosition ops it.pos).map fun p => mkAtom it p m mn ui u).map
          fun a => (a.occupancy : ℂ) * a.b * phase k a.pos).sum =
          (it.occupancy : ℂ) * (mkAtom it 0 m mn ui u).b * (ops.map fun o => phase k (act o it.pos)).sum := by
        intro k
        rw [← List.sum_map_mul_left, symmetrizePosition, List.map_map, List.map_map]
        rfl
      rw [this, this, mul_assoc, orbit_sum hg hr hop hz]
  refine ⟨key, ?_⟩
  rw [← key, norm_mul, phase_norm, mul_one]

/-- **C85** systematic absences: a reflection that an operation maps to itself while the phase of
its translation is not one has no intensity. -/
theorem C85_absent {l : Lattice} {w : ℝ} {ops : List Op} (hg : IsGroup ops) (hr : Reduced ops)
    {comp : List Item} {fu : ℝ} {mn : Bool} {atoms : List Atom}
    (ha : atomsGroup ops comp fu mn = .ok atoms) (hrig : ∀ a ∈ atoms, Rigid a)
    {op : Op} (hop : op ∈ ops) {hkl : Vec} (hz : ∃ z : Fin 3 → ℤ, ∀ i, hkl i = z i)
    (hfix : equivReflection op hkl = hkl)
    (hne : ¬ ∃ z : ℤ, hkl 0 * op.trans 0 + hkl 1 * op.trans 1 + hkl 2 * op.trans 2 = z) {F : ℂ}
    (hF : calcNucStrFac l w atoms hkl = .ok F) : F = 0 := by
  obtain ⟨F', h1, h2, _⟩ := C85_equivalent hg hr ha hrig hop hz hF
  rw [hfix, hF] at h1
  cases h1
  by_contra hF0
  apply hne
  have h1 : phase hkl (fun i => (op.trans i : ℝ)) = 1 := mul_left_cancel₀ hF0 (by rw [h2, mul_one])
  unfold phase at h1
  rw [Complex.exp_eq_one_iff] at h1
  obtain ⟨n, hn⟩ := h1
  refine ⟨n, ?_⟩
  have hpi : (2 * π * Complex.I : ℂ) ≠ 0 := Complex.two_pi_I_ne_zero
  have : (hkl 0 * (op.trans 0 : ℝ) + hkl 1 * (op.trans 1 : ℝ) + hkl 2 * (op.trans 2 : ℝ) : ℂ) = n := by
    apply mul_left_cancel₀ hpi
    rw [← mul_comm (n : ℂ), ← hn]
    ring
  exact_mod_cast this

/-- The operations of the database are reduced. -/
theorem database_reduced {e : Entry} (he : e ∈ database) {gens ops : List Op} {b : Bool}
    (h1 : getGeneratorFromStr e.generators = .ok gens) (h2 : symmetryOps gens e.total = .ok (ops, b)) :
    IsGroup ops ∧ Reduced ops := by
  obtain ⟨gens', ops', b', h3, h4, h5, h6, h7⟩ := C47_database e he
  rw [h1] at h3
  cases h3
  rw [h2] at h4
  cases h4
  refine ⟨h5, fun o ho i => ?_⟩
  have h := check_database e he
  unfold check at h
  rw [h1] at h
  exact (generated_grid (by norm_num) (check_sound h).1 ((h7 o).1 ho) i).2

/-- **C85** for every space group of the database. -/
theorem C85_database {l : Lattice} {w : ℝ} {e : Entry} (he : e ∈ database) :
    ∃ gens ops, spaceGroup database (.int e.number) = .ok (e, gens, ops) ∧
    ∀ (comp : List Item) (fu : ℝ) (mn : Bool) (atoms : List Atom), atomsGroup ops comp fu mn = .ok atoms →
    (∀ a ∈ atoms, Rigid a) → ∀ op ∈ ops, ∀ hkl : Vec, (∃ z : Fin 3 → ℤ, ∀ i, hkl i = z i) → ∀ F,
    calcNucStrFac l w atoms hkl = .ok F →
    ∃ F', calcNucStrFac l w atoms (equivReflection op hkl) = .ok F' ∧ ‖F'‖ = ‖F‖ := by
  obtain ⟨gens, ops, b, h1, h2, _⟩ := C47_database e he
  obtain ⟨hg, hr⟩ := database_reduced he h1 h2
  refine ⟨gens, ops, ?_, ?_⟩
  · simp only [spaceGroup, (C83_names e he).1, h1, h2, ok_bind, pure_ok]
  · intro comp fu mn atoms ha hrig op hop hkl hz F hF
    obtain ⟨F', h1, _, h3⟩ := C85_equivalent hg hr ha hrig hop hz hF
    exact ⟨F', h1, h3⟩

/-! ## C86 -/

theorem _root_.Verif.Symmetry.Equiv.symm {p q : Vec} (h : Equiv p q) : Equiv q p := by
  obtain ⟨z, hz⟩ := h
  refine ⟨fun i => -z i, fun i => ?_⟩
  push_cast
  rw [← hz i]
  ring

theorem _root_.Verif.Symmetry.Equiv.trans {p q r : Vec} (h : Equiv p q) (h' : Equiv q r) : Equiv p r := by
  obtain ⟨z, hz⟩ := h
  obtain ⟨y, hy⟩ := h'
  refine ⟨fun i => z i + y i, fun i => ?_⟩
  push_cast
  rw [← hz i, ← hy i]
  ring

theorem _root_.Verif.Symmetry.Equiv.act {p q : Vec} (op : Op) (h : Equiv p q) : Equiv (act op p) (act op q) := by
  have := C49_translation [op] h
  simp only [symmetrizePosition, List.map_cons, List.map_nil] at this
  cases this
  assumption

/-- **C86** the positions of the atoms made from one entry are inequivalent exactly when no operation
but the identity leaves the position where it is. -/
theorem C86_distinct_partial {ops : List Op} (hg : IsGroup ops) (hr : Reduced ops) (x : Vec) :
    (symmetrizePosition ops x).Pairwise (fun p q => ¬ Equiv p q) ↔
      ∀ op ∈ ops, Equiv (act op x) x → op = ident := by
  have hid : act ident x = x := by funext i; simp [act, ident]
  unfold symmetrizePosition
  rw [List.pairwise_map]
  constructor
  · intro h op hop he
    by_contra hne
    have : Std.Symm (fun a b : Op => ¬ Equiv (act a x) (act b x)) := ⟨fun a b hab hba => hab hba.symm⟩
    exact h.forall hop hg.ident hne (by rw [hid]; exact he)
  · intro h
    refine hg.nodup.pairwise_of_forall_ne fun a ha b hb hne he => hne ?_
    obtain ⟨inv, hinv, h1, h2⟩ := hg.inv b hb
    have h3 : Equiv (act (comp inv a) x) x := by
      refine (act_comp inv a x).symm.trans ((he.act inv).trans ?_)
      have := act_comp inv b x
      rwa [h2, hid] at this
    have h4 := h _ (hg.comp _ hinv _ ha) h3
    rw [← ident_comp (hr a ha), ← h1, comp_assoc, h4, comp_ident (hr b hb)]

/-- **C86** is false: in `P-1` an atom at the origin is counted twice, and scatters twice as much. -/
theorem C86_not_once : ∃ e gens ops, spaceGroup database (.str cs!"P-1") = .ok (e, gens, ops) ∧
    ∀ (it : Item) (fu : ℝ), it.pos = 0 → it.uiso = none → it.uaniso = none → ∃ a : Atom,
      atomsGroup ops [it] fu false = .ok [a, a] ∧ atomsPlain [it] fu false = [a] ∧
      ∀ (l : Lattice) (w : ℝ) (hkl : Vec) (F : ℂ), calcNucStrFac l w (atomsPlain [it] fu false) hkl = .ok F →
        calcNucStrFac l w [a, a] hkl = .ok (2 * F) := by
  have hc : (match spaceGroup database (.str cs!"P-1") with
      | .error _ => false
      | .ok p => decide (p.2.2 = [ident, ⟨fun i j => if i = j then -1 else 0, 0⟩])) = true := by
    decide +kernel
  split at hc
  · cases hc
  rename_i p hp
  have hops := of_decide_eq_true hc
  refine ⟨p.1, p.2.1, p.2.2, hp, ?_⟩
  intro it fu h1 h2 h3
  have hpos : symmetrizePosition p.2.2 it.pos = [it.pos, it.pos] := by
    rw [hops, h1]
    simp only [symmetrizePosition, List.map_cons, List.map_nil]
    congr 1
    · funext i; simp [act, ident]
    · congr 1
      funext i; simp [act]
  refine ⟨_, ?_, rfl, ?_⟩
  · unfold atomsGroup
    simp only [List.zipIdx_cons, List.zipIdx_nil, List.mapM_cons, List.mapM_nil, hpos, uanisoUsed,
      List.length_cons, List.length_nil, beq_self_eq_true, if_true, ok_bind, pure_ok,
      List.map_cons, List.map_nil, List.flatten_cons, List.flatten_nil, List.append_nil]
  · intro l w hkl F hF
    have : calcNucStrFac l w ([mkAtom it it.pos (muCell [it] * fu) false (it.uiso.getD 0) (it.uaniso.getD 0)] ++
      [mkAtom it it.pos (muCell [it] * fu) false (it.uiso.getD 0) (it.uaniso.getD 0)]) hkl = .ok (2 * F) :=
      (C50_additive _ _ _ _).2 ⟨F, F, hF, hF, two_mul F⟩
    exact this

/-- A concrete case for `C85_equivalent`: the operations of `P-1` and an atom at the origin. -/
example : ∃ ops : List Op, IsGroup ops ∧ Reduced ops ∧ ∃ atoms F,
    atomsGroup ops [⟨9, 50, 0, 1, none, none, 1, 1, 1⟩] 1 false = .ok atoms ∧ (∀ a ∈ atoms, Rigid a) ∧
    calcNucStrFac ⟨4, 5, 6, 90, 90, 90⟩ 2 atoms ![1, 0, 2] = .ok F := by
  obtain ⟨e, gens, ops, h, h1⟩ := C86_not_once
  obtain ⟨a, h2, h3, h4⟩ := h1 ⟨9, 50, 0, 1, none, none, 1, 1, 1⟩ 1 rfl rfl rfl
  unfold spaceGroup at h
  rw [bind_eq_ok] at h
  obtain ⟨e', he', h⟩ := h
  rw [bind_eq_ok] at h
  obtain ⟨g', hg', h⟩ := h
  rw [bind_eq_ok] at h
  obtain ⟨o', ho', h⟩ := h
  cases h
  have hmem : e ∈ database := by
    unfold lookup at he'
    simp only at he'
    split at he'
    · rename_i x hx
      cases he'
      exact List.mem_of_find?_eq_some hx
    · split at he'
      · rename_i x hx
        cases he'
        exact (List.mem_filter.1 (List.mem_of_getLast? hx)).1
      · cases he'
  obtain ⟨hg, hr⟩ := database_reduced hmem hg' ho'
  have hv : Valid ⟨4, 5, 6, 90, 90, 90⟩ := by constructor <;> norm_num
  have ha : a = mkAtom ⟨9, 50, 0, 1, none, none, 1, 1, 1⟩ 0 (muCell [⟨9, 50, 0, 1, none, none, 1, 1, 1⟩] * 1)
      false 0 0 := (List.singleton_inj.1 h3).symm
  obtain ⟨F, hF⟩ := (C52_nan hv (w := 2) (by norm_num) a (by rw [ha]; rfl) ![1, 0, 2]).1
  refine ⟨_, hg, hr, [a, a], 2 * F, h2, ?_, h4 _ _ _ F (by rw [h3]; exact hF)⟩
  intro b hb
  have : b = a := by simpa using hb
  rw [this, ha]
  exact ⟨rfl, rfl⟩

/-! ## C87 -/

/-- **C87** without a space group the anisotropic parameters given are the ones used. -/
theorem C87_plain (comp : List Item) (fu : ℝ) (mn : Bool) :
    List.Forall₂ (fun it a => ∀ u, it.uaniso = some u → a.uaniso = u) comp (atomsPlain comp fu mn) := by
  unfold atomsPlain
  rw [List.forall₂_map_right_iff]
  exact List.forall₂_same.2 fun it _ u h => by simp [mkAtom, h]

theorem mapM_zipIdx_ok {β ε : Type} {α : Type} (f : α × ℕ → Except ε β) (g : α × ℕ → β) (xs : List (α × ℕ))
    (h : ∀ x ∈ xs, f x = .ok (g x)) : xs.mapM f = .ok (xs.map g) := by
  induction xs with
  | nil => rfl
  | cons x xs ih =>
    rw [List.mapM_cons, h x (List.mem_cons_self ..), ok_bind, ih fun y hy => h y (List.mem_cons_of_mem _ hy)]
    rfl

/-- **C87** with a space group: when every entry gives the parameters, they are used. -/
theorem C87_all_given_partial {ops : List Op} {comp : List Item} (fu : ℝ) (mn : Bool)
    (h : ∀ it ∈ comp, it.uaniso.isSome) : ∃ atoms, atomsGroup ops comp fu mn = .ok atoms ∧
      ∀ a ∈ atoms, ∃ it ∈ comp, it.uaniso = some a.uaniso ∧ a.pos ∈ symmetrizePosition ops it.pos := by
  let g : Item × ℕ → List Atom := fun p => (symmetrizePosition ops p.1.pos).map fun q =>
    mkAtom p.1 q (muCell comp * fu) mn (p.1.uiso.getD 0) (p.1.uaniso.getD 0)
  have hlast : ∀ it, comp.getLast? = some it → it.uaniso.isSome = true := fun it hit =>
    h it (List.mem_of_getLast? hit)
  refine ⟨(comp.zipIdx.map g).flatten, ?_, ?_⟩
  · unfold atomsGroup
    simp only
    rw [mapM_zipIdx_ok _ g]
    · rfl
    rintro ⟨it, i⟩ hmem
    have hit : it ∈ comp := (List.mem_zipIdx hmem).2.2 ▸ List.getElem_mem _
    have hsome := h it hit
    obtain ⟨u, hu⟩ := Option.isSome_iff_exists.1 hsome
    have hlh : lastHasUaniso comp = true := by
      unfold lastHasUaniso
      cases hc : comp.getLast? with
      | none =>
        rw [List.getLast?_eq_none_iff] at hc
        rw [hc] at hit
        cases hit
      | some x => exact hlast x hc
    rw [hlh]
    simp only [uanisoUsed, hu, if_true, Option.getD_some, ite_self, ok_bind, pure_ok, g]
  · intro a ha
    rw [List.mem_flatten] at ha
    obtain ⟨b, hb, hab⟩ := ha
    obtain ⟨⟨it, i⟩, hmem, rfl⟩ := List.mem_map.1 hb
    obtain ⟨q, hq, rfl⟩ := List.mem_map.1 hab
    have hit : it ∈ comp := (List.mem_zipIdx hmem).2.2 ▸ List.getElem_mem _
    obtain ⟨u, hu⟩ := Option.isSome_iff_exists.1 (h it hit)
    exact ⟨it, hit, by simp [mkAtom, hu], hq⟩

/-- **C87** is false: when the last entry of the composition gives no anisotropic parameters, those of
all other entries are discarded. -/
theorem C87_discarded {ops : List Op} {comp : List Item} {last : Item} (fu : ℝ) (mn : Bool)
    (hl : last.uaniso = none) : ∃ atoms, atomsGroup ops (comp ++ [last]) fu mn = .ok atoms ∧
      atoms.length = (comp.length + 1) * ops.length ∧ ∀ a ∈ atoms, a.uaniso = 0 := by
  let g : Item × ℕ → List Atom := fun p => (symmetrizePosition ops p.1.pos).map fun q =>
    mkAtom p.1 q (muCell (comp ++ [last]) * fu) mn (p.1.uiso.getD 0) 0
  refine ⟨((comp ++ [last]).zipIdx.map g).flatten, ?_, ?_, ?_⟩
  · unfold atomsGroup
    simp only
    rw [mapM_zipIdx_ok _ g]
    · rfl
    rintro ⟨it, i⟩ hmem
    have hlh : lastHasUaniso (comp ++ [last]) = false := by
      simp [lastHasUaniso, hl]
    rw [hlh]
    have : uanisoUsed false (i + 1 == (comp ++ [last]).length) it = .ok 0 := by
      unfold uanisoUsed
      split_ifs with h1 h2
      · have hi : i = comp.length := by simpa using h1
        have h3 := (List.mem_zipIdx hmem).2.2
        simp only [hi, Nat.sub_zero] at h3
        simp only [List.getElem_concat_length] at h3
        rw [h3, hl]
        rfl
      · exact h2.elim
      · rfl
    simp only [this, ok_bind, pure_ok, g]
  · rw [List.length_flatten, List.map_map]
    have : (List.length ∘ g) = fun _ => ops.length := by
      funext p; simp [g, symmetrizePosition]
    rw [this]
    simp
  · intro a ha
    rw [List.mem_flatten] at ha
    obtain ⟨b, hb, hab⟩ := ha
    obtain ⟨p, _, rfl⟩ := List.mem_map.1 hb
    obtain ⟨q, _, rfl⟩ := List.mem_map.1 hab
    rfl

/-- **C87** and when the last entry gives them but another one does not, construction fails. -/
theorem C87_key_error {ops : List Op} {first last : Item} (fu : ℝ) (mn : Bool) {u : Mat}
    (hf : first.uaniso = none) (hl : last.uaniso = some u) :
    atomsGroup ops [first, last] fu mn = .error .keyError := by
  unfold atomsGroup
  simp [uanisoUsed, lastHasUaniso, hf, hl, error_bind]

end Verif.Structure
