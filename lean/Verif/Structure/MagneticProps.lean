import Mathlib.Algebra.Order.Floor.Ring
import Mathlib.Tactic.FieldSimp
import Mathlib.Tactic.Linarith
import Mathlib.Tactic.NormNum
import Mathlib.Tactic.Positivity
import Verif.Structure.Magnetic
import Verif.Symmetry.Props

/-! # C178: magnetic unit cells; C179: the arguments of the magnetic form factor -/

namespace Verif.Structure.Magnetic

open Verif

/-! ## Specification -/

/-- The description of an atom gives everything. -/
def AtomDict.Complete {K V : Type} (a : AtomDict K V) : Prop :=
  a.ion.isSome ∧ a.pos.isSome ∧ a.moment.isSome ∧ a.occupancy.isSome

/-- The atom `m` is the described atom `a`, moved to `p`. -/
def Describes {K V : Type} (a : AtomDict K V) (p : Fin 3 → K) (m : MagAtom K V) : Prop :=
  a.ion = some m.ion ∧ m.pos = p ∧ a.moment = some m.moment ∧ a.occupancy = some m.occupancy

/-- The image of a position under a symmetry operation. -/
def Image {K : Type} [Field K] (op : Symmetry.Op) (x y : Fin 3 → K) : Prop :=
  ∀ i, y i = (op.rot i 0 : K) * x 0 + (op.rot i 1 : K) * x 1 + (op.rot i 2 : K) * x 2 + (op.trans i : K)

/-! ## Lemmas -/

private theorem need_some {α : Type} {o : Option α} {a : α} (h : need o = .ok a) : o = some a := by
  cases o with
  | none => exact nomatch h
  | some b => cases h; rfl

private theorem mkAtom_ok {K V : Type} {a : AtomDict K V} {p : Fin 3 → K} {m : MagAtom K V}
    (h : mkAtom a p = .ok m) : Describes a p m := by
  simp only [mkAtom, bind_eq_ok] at h
  obtain ⟨i, hi, mo, hm, o, ho, h⟩ := h
  cases h
  exact ⟨need_some hi, rfl, need_some hm, need_some ho⟩

private theorem single_ok {K V : Type} {a : AtomDict K V} {m : MagAtom K V}
    (h : single a = .ok m) : ∃ p, a.pos = some p ∧ Describes a p m := by
  simp only [single, bind_eq_ok] at h
  obtain ⟨i, hi, p, hp, mo, hm, o, ho, h⟩ := h
  cases h
  exact ⟨p, need_some hp, need_some hi, rfl, need_some hm, need_some ho⟩

private theorem collect_ok {α β : Type} {f : α → Except Err β} : ∀ {l : List α} {r : List β},
    collect f l = .ok r → List.Forall₂ (fun a b => f a = .ok b) l r
  | [], _, h => by cases h; exact .nil
  | a :: as, r, h => by
    simp only [collect, bind_eq_ok] at h
    obtain ⟨b, hb, bs, hbs, h⟩ := h
    cases h
    exact .cons hb (collect_ok hbs)

private theorem collect_of {α β : Type} {f : α → Except Err β} : ∀ {l : List α},
    (∀ a ∈ l, ∃ b, f a = .ok b) → ∃ r, collect f l = .ok r
  | [], _ => ⟨[], rfl⟩
  | a :: as, h => by
    obtain ⟨b, hb⟩ := h a List.mem_cons_self
    obtain ⟨bs, hbs⟩ := collect_of fun x hx => h x (List.mem_cons_of_mem _ hx)
    refine ⟨b :: bs, ?_⟩
    simp only [collect, hb, hbs, ok_bind]; rfl

private theorem mkAtom_of {K V : Type} {a : AtomDict K V} (h : a.Complete) (p : Fin 3 → K) :
    ∃ m, mkAtom a p = .ok m := by
  obtain ⟨h1, -, h3, h4⟩ := h
  obtain ⟨i, hi⟩ := Option.isSome_iff_exists.mp h1
  obtain ⟨m, hm⟩ := Option.isSome_iff_exists.mp h3
  obtain ⟨o, ho⟩ := Option.isSome_iff_exists.mp h4
  exact ⟨⟨i, p, m, o⟩, by simp only [mkAtom, hi, hm, ho, need, ok_bind]; rfl⟩

private theorem single_of {K V : Type} {a : AtomDict K V} (h : a.Complete) : ∃ m, single a = .ok m := by
  obtain ⟨h1, h2, h3, h4⟩ := h
  obtain ⟨i, hi⟩ := Option.isSome_iff_exists.mp h1
  obtain ⟨p, hp⟩ := Option.isSome_iff_exists.mp h2
  obtain ⟨m, hm⟩ := Option.isSome_iff_exists.mp h3
  obtain ⟨o, ho⟩ := Option.isSome_iff_exists.mp h4
  exact ⟨⟨i, p, m, o⟩, by simp only [single, hi, hp, hm, ho, need, ok_bind]; rfl⟩

private theorem act_image {K : Type} [Field K] (op : Symmetry.Op) (x : Fin 3 → K) :
    Image op x (Symmetry.act op x) := by
  intro i
  simp only [Symmetry.act, Fin.sum_univ_three]

private theorem image_act {K : Type} [Field K] {op : Symmetry.Op} {x y : Fin 3 → K}
    (h : Image op x y) : y = Symmetry.act op x :=
  funext fun i => (h i).trans (act_image op x i).symm

private theorem mkCell_ok {K V : Type} [Field K] {d : CellDict K V} {c : MagCell K V} (h : mkCell d = .ok c) :
    cellAtoms d = .ok c.atoms ∧ d.propagation = some c.propagation ∧ d.abc = some c.abc ∧ d.abg = some c.abg ∧
      c.chirality = (if d.chirality.isNone then some 0 else none) ∧
      c.phase = (if d.ph.isNone then some 0 else none) := by
  simp only [mkCell, bind_eq_ok] at h
  obtain ⟨as, has, p, hp, x, hx, y, hy, h⟩ := h
  cases h
  exact ⟨has, need_some hp, need_some hx, need_some hy, rfl, rfl⟩

/-! ## C178 -/

/-- **C178 (partial).** A magnetic cell keeps the propagation vector and the lattice that it is given. Without a space group its atoms are the described ones, in their order; with one they are, for every described atom in turn, its images under the operations of the group in turn, with the ion, moment and occupancy of the description. -/
theorem C178_cell_partial {K V : Type} [Field K] {d : CellDict K V} {c : MagCell K V} (h : mkCell d = .ok c) :
    d.propagation = some c.propagation ∧ d.abc = some c.abc ∧ d.abg = some c.abg ∧
    ∃ as, d.atoms = some as ∧
      (d.spaceGroup = none → List.Forall₂ (fun a m => ∃ p, a.pos = some p ∧ Describes a p m) as c.atoms) ∧
      (∀ arg, d.spaceGroup = some arg → ∃ e gens ops, Symmetry.spaceGroup Symmetry.database arg = .ok (e, gens, ops) ∧
        ∃ parts, c.atoms = List.flatten parts ∧ List.Forall₂ (fun a ms => ∃ x, a.pos = some x ∧
          List.Forall₂ (fun op m => ∃ y, Image op x y ∧ Describes a y m) ops ms) as parts) := by
  obtain ⟨h1, h2, h3, h4, -⟩ := mkCell_ok h
  refine ⟨h2, h3, h4, ?_⟩
  unfold cellAtoms at h1
  split at h1
  · rename_i arg harg
    split at h1
    · exact nomatch h1
    · rename_i e gens ops hsg
      simp only [bind_eq_ok] at h1
      obtain ⟨as, has, l, hl, h1⟩ := h1
      refine ⟨as, need_some has, fun hn => (nomatch harg.symm.trans hn), fun arg' h' => ?_⟩
      cases harg.symm.trans h'
      refine ⟨e, gens, ops, hsg, l, (Except.ok.inj h1).symm, (collect_ok hl).imp fun a ms hms => ?_⟩
      simp only [images, bind_eq_ok] at hms
      obtain ⟨x, hx, hms⟩ := hms
      refine ⟨x, need_some hx, ?_⟩
      have := collect_ok hms
      rw [Symmetry.symmetrizePosition, List.forall₂_map_left_iff] at this
      exact this.imp fun op m hm => ⟨_, act_image op x, mkAtom_ok hm⟩
  · rename_i hn
    simp only [bind_eq_ok] at h1
    obtain ⟨as, has, h1⟩ := h1
    exact ⟨as, need_some has, fun _ => (collect_ok h1).imp fun a m hm => single_ok hm,
      fun arg harg => nomatch hn.symm.trans harg⟩

/-- **C178.** Every complete description gives a cell, when its space group is one of the database or there is none. -/
theorem C178_accepts {K V : Type} [Field K] (d : CellDict K V) {as : List (AtomDict K V)}
    (has : d.atoms = some as) (hall : ∀ a ∈ as, a.Complete)
    (hp : d.propagation.isSome) (ha : d.abc.isSome) (hg : d.abg.isSome)
    (hs : ∀ arg, d.spaceGroup = some arg → ∃ r, Symmetry.spaceGroup Symmetry.database arg = .ok r) :
    ∃ c, mkCell d = .ok c := by
  obtain ⟨p, hp⟩ := Option.isSome_iff_exists.mp hp
  obtain ⟨x, hx⟩ := Option.isSome_iff_exists.mp ha
  obtain ⟨y, hy⟩ := Option.isSome_iff_exists.mp hg
  have : ∃ l, cellAtoms d = .ok l := by
    unfold cellAtoms
    cases hsg : d.spaceGroup with
    | none =>
      obtain ⟨r, hr⟩ := collect_of (f := single) fun a h => single_of (hall a h)
      exact ⟨r, by simp only [has, need, ok_bind, hr]⟩
    | some arg =>
      obtain ⟨⟨e, gens, ops⟩, hr⟩ := hs arg hsg
      have : ∀ a ∈ as, ∃ l, images ops a = .ok l := by
        intro a h
        obtain ⟨q, hq⟩ := Option.isSome_iff_exists.mp (hall a h).2.1
        obtain ⟨l, hl⟩ := collect_of (f := mkAtom a) (l := Symmetry.symmetrizePosition ops q)
          fun z _ => mkAtom_of (hall a h) z
        exact ⟨l, by simp only [images, hq, need, ok_bind, hl]⟩
      obtain ⟨l, hl⟩ := collect_of this
      refine ⟨l.flatten, ?_⟩
      simp only [hr, has, need, ok_bind, hl]; rfl
  obtain ⟨l, hl⟩ := this
  refine ⟨⟨if d.chirality.isNone then some 0 else none, if d.ph.isNone then some 0 else none, l, p, x, y⟩, ?_⟩
  simp only [mkCell, hl, hp, hx, hy, need, ok_bind]; rfl

/-- One described atom at (1/4, 0, 0), with a chirality and without a phase, gives a cell. -/
example : ∃ c, mkCell (K := ℚ) (V := Unit) ⟨some 1, none, none,
    some [⟨some cs!"Fe", some fun i => if i = 0 then 1 / 4 else 0, some (), some 1⟩],
    some fun _ => 1 / 2, some fun _ => 4, some fun _ => 90⟩ = .ok c :=
  C178_accepts _ rfl (by simp [AtomDict.Complete]) rfl rfl rfl nofun

/-- **C178 (counterexample).** The chirality and the phase of the cell can be read, as 0, only when they are not given; whatever value is given is not kept, and reading it raises `AttributeError`. -/
theorem C178_given_false {K V : Type} [Field K] {d : CellDict K V} {c : MagCell K V} (h : mkCell d = .ok c) :
    (d.chirality = none → read c.chirality = .ok 0) ∧ (d.ph = none → read c.phase = .ok 0) ∧
    (∀ x, d.chirality = some x → read c.chirality = .error .noAttribute) ∧
    (∀ x, d.ph = some x → read c.phase = .error .noAttribute) := by
  obtain ⟨-, -, -, -, h5, h6⟩ := mkCell_ok h
  rw [h5, h6]
  exact ⟨fun h => by rw [h]; rfl, fun h => by rw [h]; rfl, fun x h => by rw [h]; rfl, fun x h => by rw [h]; rfl⟩

/-- **C178 (counterexample).** An atom at a special position is listed several times: in P-1 one at the origin becomes two at the origin. -/
theorem C178_special_false {V : Type} (moment : V) (d : CellDict ℚ V) (hs : d.spaceGroup = some (.int 2))
    (ha : d.atoms = some [⟨some cs!"Fe", some 0, some moment, some 1⟩]) {c : MagCell ℚ V} (h : mkCell d = .ok c) :
    ∃ m, c.atoms = [m, m] := by
  obtain ⟨-, -, -, as, has, -, hsg⟩ := C178_cell_partial h
  obtain ⟨e, gens, ops, hops, parts, hparts, hall⟩ := hsg _ hs
  have chk : (match Symmetry.spaceGroup Symmetry.database (.int 2) with
    | .ok (_, _, ops) => decide (ops.map (·.trans) = [0, 0])
    | .error _ => false) = true := by decide +kernel
  rw [hops] at chk
  have chk : ops.map (·.trans) = [0, 0] := of_decide_eq_true chk
  cases ha.symm.trans has
  cases hall with
  | cons hx hrest =>
    cases hrest
    obtain ⟨x, hx, hms⟩ := hx
    cases hx
    match ops, chk, hms with
    | [p, q], chk, .cons (b := m) (l₂ := rest) hm hrest =>
      cases hrest with
      | cons hm' hrest =>
        cases hrest
        rename_i m'
        simp only [List.map_cons, List.map_nil, List.cons.injEq, and_true] at chk
        have key : ∀ (op : Symmetry.Op) (m : MagAtom ℚ V), op.trans = 0 → (∃ y, Image op 0 y ∧
            Describes ⟨some cs!"Fe", some 0, some moment, some 1⟩ y m) → m = ⟨cs!"Fe", 0, moment, 1⟩ := by
          rintro op ⟨i, po, mo, oc⟩ ht ⟨y, hy, h1, h2, h3, h4⟩
          have : y = 0 := by
            funext j
            have := hy j
            simpa [ht] using this
          simp only at h1 h2 h3 h4
          cases h1; cases h3; cases h4
          rw [h2, this]
        refine ⟨m, ?_⟩
        rw [hparts, key p m chk.1 hm, key q m' chk.2 hm']
        rfl

/-- Such a cell exists. -/
example : ∃ c, mkCell (K := ℚ) (V := ℚ) ⟨none, none, some (.int 2), some [⟨some cs!"Fe", some 0, some 2, some 1⟩],
    some fun _ => 1 / 2, some fun _ => 4, some fun _ => 90⟩ = .ok c := by
  refine C178_accepts _ rfl (by simp [AtomDict.Complete]) rfl rfl rfl fun arg harg => ?_
  cases harg
  have chk : (match Symmetry.spaceGroup Symmetry.database (.int 2) with
    | .ok _ => true
    | .error _ => false) = true := by decide +kernel
  revert chk
  cases Symmetry.spaceGroup Symmetry.database (.int 2) with
  | error e => exact nofun
  | ok r => exact fun _ => ⟨r, rfl⟩

/-- **C178 (counterexample).** A `Material` with the key `magnetic_unit_cell` raises `KeyError`, with the key `magnetic_cell` it has no magnetic cell, and with both the first is not used. -/
theorem C178_material_false {K V : Type} [Field K] (d : CellDict K V) :
    materialCell (some d) none = .error .key ∧ materialCell none (some d) = .ok none ∧
    ∀ d' : CellDict K V, materialCell (some d) (some d') = materialCell (some d') (some d') :=
  ⟨rfl, rfl, fun _ => rfl⟩

/-! ## C179 -/

/-- The points of a range: from `a` to `b`, in equal steps of at least `s` and less than `2 s`. -/
def Grid (a b s : ℝ) (qs : List ℝ) : Prop :=
  ∃ (n : ℕ) (t : ℝ), 1 ≤ n ∧ s ≤ t ∧ t < 2 * s ∧ qs.length = n + 1 ∧ a + n * t = b ∧
    ∀ i : ℕ, i ≤ n → qs[i]? = some (a + i * t)

private theorem linspace_grid (a b : ℝ) (h : a + 0.025 ≤ b) :
    ∃ qs, linspace a b (pyInt ((b - a) / 0.025) + 1) = .ok qs ∧ Grid a b 0.025 qs := by
  have hpos : (1 : ℝ) ≤ (b - a) / 0.025 := by
    rw [le_div_iff₀ (by norm_num)]; linarith
  have hint : pyInt ((b - a) / 0.025) = ⌊(b - a) / 0.025⌋ := by
    unfold pyInt; rw [if_pos (by linarith)]
  have hfl : (1 : ℤ) ≤ ⌊(b - a) / 0.025⌋ := Int.le_floor.mpr (by exact_mod_cast hpos)
  obtain ⟨n, hn⟩ := Int.eq_ofNat_of_zero_le (show 0 ≤ ⌊(b - a) / 0.025⌋ by omega)
  rw [hint, hn]
  have hn1 : 1 ≤ n := by omega
  have hnR : (1 : ℝ) ≤ n := by exact_mod_cast hn1
  have hlo : (n : ℝ) ≤ (b - a) / 0.025 := by
    have := Int.floor_le ((b - a) / 0.025); rw [hn] at this; exact_mod_cast this
  have hhi : (b - a) / 0.025 < n + 1 := by
    have := Int.lt_floor_add_one ((b - a) / 0.025); rw [hn] at this; exact_mod_cast this
  rw [le_div_iff₀ (by norm_num)] at hlo
  rw [div_lt_iff₀ (by norm_num)] at hhi
  unfold linspace
  rw [if_neg (by omega), if_neg (by omega)]
  refine ⟨_, rfl, n, (b - a) / n, hn1, ?_, ?_, ?_, ?_, ?_⟩
  · rw [le_div_iff₀ (by linarith)]; linarith
  · rw [div_lt_iff₀ (by linarith)]; nlinarith
  · simp
  · field_simp; ring
  · intro i hi
    have : i < ((n : ℤ) + 1).toNat := by omega
    rw [List.getElem?_map, List.getElem?_range this]
    simp

/-- **C179 (partial).** For a number and for an array the result has one entry for every `q`, with the form factor at that `q`. Without `q` the entries are for the points of the range, 0 to 2 when none is given, from its beginning to its end in equal steps from 0.025 to 0.05, when the range is at least 0.025 long. -/
theorem C179_points_partial (j0 j2 j4 : Coeffs) (g : Option ℝ) (hg : g ≠ some 0) :
    (∀ q r, formFactor j0 j2 j4 (.num q) g r = .ok [((magFormFac j0 j2 j4 g q).1, q)]) ∧
    (∀ qs r, ∃ out, formFactor j0 j2 j4 (.array qs) g r = .ok out ∧ out.map (·.2) = qs ∧
      ∀ x ∈ out, x.1 = (magFormFac j0 j2 j4 g x.2).1) ∧
    (∃ out, formFactor j0 j2 j4 .absent g none = .ok out ∧ Grid 0 2 0.025 (out.map (·.2)) ∧
      ∀ x ∈ out, x.1 = (magFormFac j0 j2 j4 g x.2).1) ∧
    (∀ a b, a + 0.025 ≤ b → ∃ out, formFactor j0 j2 j4 .absent g (some (a, b)) = .ok out ∧
      Grid a b 0.025 (out.map (·.2)) ∧ ∀ x ∈ out, x.1 = (magFormFac j0 j2 j4 g x.2).1) := by
  have key : ∀ q r qs, points q r = .ok qs → formFactor j0 j2 j4 q g r =
      .ok (qs.map fun q => ((magFormFac j0 j2 j4 g q).1, q)) := by
    intro q r qs h
    simp only [formFactor, h, ok_bind, if_neg hg]; rfl
  have out : ∀ q r qs, points q r = .ok qs → ∃ out, formFactor j0 j2 j4 q g r = .ok out ∧ out.map (·.2) = qs ∧
      ∀ x ∈ out, x.1 = (magFormFac j0 j2 j4 g x.2).1 := by
    intro q r qs h
    refine ⟨_, key q r qs h, by simp [List.map_map, Function.comp_def], ?_⟩
    simp
  refine ⟨fun q r => key (.num q) r [q] rfl, fun qs r => out _ _ _ rfl, ?_, ?_⟩
  · obtain ⟨qs, h, hgrid⟩ := linspace_grid 0 2 (by norm_num)
    rw [sub_zero] at h
    obtain ⟨o, h1, h2, h3⟩ := out .absent none qs h
    exact ⟨o, h1, h2 ▸ hgrid, h3⟩
  · intro a b hab
    obtain ⟨qs, h, hgrid⟩ := linspace_grid a b hab
    obtain ⟨o, h1, h2, h3⟩ := out .absent (some (a, b)) qs h
    exact ⟨o, h1, h2 ▸ hgrid, h3⟩

/-- The default range has 81 points. -/
example : ∃ qs, points .absent none = .ok qs ∧ qs.length = 81 := by
  have : pyInt (2 / 0.025) = 80 := by
    unfold pyInt; rw [if_pos (by norm_num)]
    rw [show (2 / 0.025 : ℝ) = ((80 : ℤ) : ℝ) by norm_num, Int.floor_intCast]
  unfold points
  simp only [this, linspace]
  exact ⟨_, rfl, by simp⟩

/-- **C179 (counterexample).** A list, which the documentation allows, raises `TypeError`; so does a tuple. -/
theorem C179_list_false (j0 j2 j4 : Coeffs) (qs : List ℝ) (g : Option ℝ) (r : Option (ℝ × ℝ)) :
    formFactor j0 j2 j4 (.list qs) g r = .error .type := rfl

/-- **C179 (counterexample).** A range shorter than 0.025 has only its beginning; a range given from its end to its beginning has no points when shorter than 0.05 and raises `ValueError` otherwise. -/
theorem C179_range_false (a b : ℝ) :
    (a ≤ b → b < a + 0.025 → points .absent (some (a, b)) = .ok [a]) ∧
    (a - 0.05 < b → b ≤ a - 0.025 → points .absent (some (a, b)) = .ok []) ∧
    (b ≤ a - 0.05 → points .absent (some (a, b)) = .error .value) := by
  refine ⟨fun h1 h2 => ?_, fun h1 h2 => ?_, fun h => ?_⟩
  · have : pyInt ((b - a) / 0.025) = 0 := by
      unfold pyInt
      rw [if_pos (div_nonneg (by linarith) (by norm_num)), Int.floor_eq_iff]
      constructor
      · simp only [Int.cast_zero]; exact div_nonneg (by linarith) (by norm_num)
      · rw [div_lt_iff₀ (by norm_num)]; push_cast; linarith
    simp only [points, this, linspace]
    norm_num
  · have : pyInt ((b - a) / 0.025) = -1 := by
      unfold pyInt
      rw [if_neg (not_le.mpr (div_neg_of_neg_of_pos (by linarith) (by norm_num))), Int.ceil_eq_iff]
      constructor
      · rw [lt_div_iff₀ (by norm_num)]; push_cast; linarith
      · rw [div_le_iff₀ (by norm_num)]; push_cast; linarith
    simp only [points, this, linspace]
    norm_num
  · have : pyInt ((b - a) / 0.025) ≤ -2 := by
      unfold pyInt
      rw [if_neg (not_le.mpr (div_neg_of_neg_of_pos (by linarith) (by norm_num))), Int.ceil_le,
        div_le_iff₀ (by norm_num)]
      push_cast; linarith
    simp only [points, linspace]
    rw [if_pos (by omega)]

/-- **C179 (counterexample).** An ion that is not in the table raises `KeyError`, never the `ValueError` that the code prepares; and there are such ions, as the free ion of europium without charge. -/
theorem C179_unknown_false :
    (∀ ion, (∃ i, formFactorIon ion = .ok i) ↔ ion ∈ ions) ∧
    (∀ ion, ion ∉ ions → formFactorIon ion = .error .key) ∧ (∀ ion, formFactorIon ion ≠ .error .value) ∧
    cs!"Eu" ∉ ions ∧ cs!"Fe2+" ∈ ions := by
  refine ⟨fun ion => ?_, fun ion h => by unfold formFactorIon; rw [if_neg h], fun ion h => ?_,
    by decide +kernel, by decide +kernel⟩
  · unfold formFactorIon
    by_cases h : ion ∈ ions
    · rw [if_pos h]; exact ⟨fun _ => h, fun _ => ⟨ion, rfl⟩⟩
    · rw [if_neg h]; exact ⟨fun ⟨_, h'⟩ => (nomatch h'), fun h' => absurd h' h⟩
  · unfold formFactorIon at h
    split at h <;> exact nomatch h

/-- **C179.** A g-factor of zero raises `ZeroDivisionError`, for every `q` and range that give points. -/
theorem C179_zero (j0 j2 j4 : Coeffs) {q : QArg} {r : Option (ℝ × ℝ)} {qs : List ℝ} (h : points q r = .ok qs) :
    formFactor j0 j2 j4 q (some 0) r = .error .zeroDivision := by
  simp only [formFactor, h, ok_bind, if_true]; rfl

example : ∃ qs, points (.num 1) none = .ok qs := ⟨_, rfl⟩

end Verif.Structure.Magnetic
