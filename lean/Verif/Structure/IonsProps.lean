import Mathlib.Data.List.Basic
import Verif.Structure.Ions

/-! # C177: which ions a material can be made of -/

namespace Verif.Structure.Ions

open Verif

/-! ## Specification -/

/-- The scattering length of the ion is tabulated. -/
def Tabulated (ion : List Char) : Prop := ∃ r ∈ lengths, r.name = ion ∧ r.b = true

/-- The ion is an element. -/
def Element (ion : List Char) : Prop := ion ∈ elements

/-- The ion is an isotope: its name begins with its mass number. -/
def Isotope (ion : List Char) : Prop := ∃ c cs, ion = c :: cs ∧ c.isDigit = true

/-! ## Facts about the tables -/

private theorem names_nodup : (lengths.map (·.name)).Nodup := by decide +kernel

private theorem elements_alpha :
    (elements.all fun e => match e with | [] => true | c :: _ => !c.isDigit) = true := by decide +kernel

private theorem complete :
    (lengths.all fun r => !(elements.contains r.name && r.b) || (r.coh && r.inc && r.abs)) = true := by
  decide +kernel

private theorem kinds :
    (lengths.all fun r => elements.contains r.name ||
      (match r.name with | [] => false | c :: _ => c.isDigit)) = true := by decide +kernel

private theorem isotope_not_element {ion : List Char} (h : Isotope ion) : ¬ Element ion := by
  obtain ⟨c, cs, rfl, hc⟩ := h
  intro he
  have := List.all_eq_true.mp elements_alpha _ he
  simp [hc] at this

private theorem find_of_nodup : ∀ {l : List Row} {r : Row}, (l.map (·.name)).Nodup → r ∈ l →
    l.find? (fun x => decide (x.name = r.name)) = some r
  | [], _, _, h => nomatch h
  | x :: xs, r, hn, h => by
    rw [List.map_cons, List.nodup_cons] at hn
    rcases List.mem_cons.mp h with rfl | h
    · simp
    · have : x.name ≠ r.name := fun e => hn.1 (e ▸ List.mem_map_of_mem h)
      rw [List.find?_cons_of_neg (by simpa using this)]
      exact find_of_nodup hn.2 h

private theorem row_of_mem {r : Row} (h : r ∈ lengths) : row r.name = .ok r := by
  unfold row; rw [find_of_nodup names_nodup h]

private theorem row_ok {ion : List Char} {r : Row} (h : row ion = .ok r) : r ∈ lengths ∧ r.name = ion := by
  unfold row at h
  split at h
  · rename_i x hx
    cases h
    exact ⟨List.mem_of_find?_eq_some hx, by simpa using List.find?_some hx⟩
  · exact nomatch h

private theorem row_missing {ion : List Char} (h : ∀ r ∈ lengths, r.name ≠ ion) : row ion = .error .key := by
  unfold row
  split
  · rename_i x hx
    exact absurd (by simpa using List.find?_some hx) (h x (List.mem_of_find?_eq_some hx))
  · rfl

/-! ## The atom -/

private theorem atom_ok_iff {mn : Bool} {ion : List Char} {r : Row} :
    atom mn ion = .ok r ↔ r ∈ lengths ∧ r.name = ion ∧ r.b = true ∧ (mn = true → Element ion) := by
  constructor
  · intro h
    unfold atom at h
    rw [bind_eq_ok] at h
    obtain ⟨x, hx, h⟩ := h
    obtain ⟨hm, hn⟩ := row_ok hx
    cases mn with
    | false =>
      cases hb : x.b <;> simp [hb, pure, Except.pure, throw, throwThe, MonadExceptOf.throw] at h
      subst h; exact ⟨hm, hn, hb, nofun⟩
    | true =>
      simp only [if_true] at h
      unfold mass at h
      by_cases he : ion ∈ elements
      · rw [if_pos he] at h
        cases hb : x.b <;> simp [hb, bind, Except.bind, pure, Except.pure, throw, throwThe, MonadExceptOf.throw] at h
        subst h; exact ⟨hm, hn, hb, fun _ => he⟩
      · rw [if_neg he] at h; exact nomatch h
  · rintro ⟨hm, rfl, hb, he⟩
    unfold atom
    rw [row_of_mem hm, ok_bind]
    cases mn with
    | false => simp [hb, pure, Except.pure]
    | true =>
      have : r.name ∈ elements := he rfl
      simp [mass, this, hb, bind, Except.bind, pure, Except.pure]

private theorem masses_ok_iff : ∀ {comp : List Entry}, masses comp = .ok () ↔ ∀ e ∈ comp, Element e.ion
  | [] => by simp [masses]
  | e :: es => by
    unfold masses mass
    by_cases h : e.ion ∈ elements
    · rw [if_pos h, ok_bind, masses_ok_iff]
      simp [Element, h]
    · rw [if_neg h, error_bind]
      simp [Element, h]

private theorem masses_error : ∀ {comp : List Entry}, (∃ e ∈ comp, ¬ Element e.ion) → masses comp = .error .key
  | [], h => by simp at h
  | e :: es, h => by
    unfold masses mass
    by_cases he : e.ion ∈ elements
    · rw [if_pos he, ok_bind]
      apply masses_error
      obtain ⟨x, hx, hn⟩ := h
      rcases List.mem_cons.mp hx with rfl | hx
      · exact absurd he hn
      · exact ⟨x, hx, hn⟩
    · rw [if_neg he]; rfl

private theorem copies_ok {mn : Bool} {ion : List Char} {r : Row} (h : atom mn ion = .ok r) :
    ∀ n, copies mn ion n = .ok (List.replicate n r)
  | 0 => rfl
  | n + 1 => by
    unfold copies
    rw [h, ok_bind, copies_ok h n, ok_bind]
    rfl

private theorem copies_atom {mn : Bool} {ion : List Char} {n : ℕ} (hn : 1 ≤ n) {as : List Row}
    (h : copies mn ion n = .ok as) : ∃ r, atom mn ion = .ok r := by
  obtain ⟨n, rfl⟩ := Nat.exists_eq_add_of_le' hn
  unfold copies at h
  rw [bind_eq_ok] at h
  obtain ⟨a, ha, -⟩ := h
  exact ⟨a, ha⟩

private theorem atoms_of {mn : Bool} : ∀ {comp : List Entry},
    (∀ e ∈ comp, Element e.ion ∧ Tabulated e.ion) →
    ∃ rs, atoms mn comp = .ok rs ∧ rs.map (·.name) = comp.flatMap (fun e => List.replicate e.copies e.ion) ∧
      ∀ r ∈ rs, r ∈ lengths ∧ r.b = true ∧ Element r.name
  | [], _ => ⟨[], rfl, rfl, by simp⟩
  | e :: es, h => by
    obtain ⟨rs, hrs, hmap, hall⟩ := atoms_of (mn := mn) (fun x hx => h x (List.mem_cons_of_mem _ hx))
    obtain ⟨he, r, hr, hname, hb⟩ := h e List.mem_cons_self
    have ha : atom mn e.ion = .ok r := atom_ok_iff.mpr ⟨hr, hname, hb, fun _ => he⟩
    refine ⟨List.replicate e.copies r ++ rs, ?_, ?_, ?_⟩
    · unfold atoms
      rw [copies_ok ha, ok_bind, hrs, ok_bind]; rfl
    · rw [List.map_append, hmap, List.map_replicate, hname, List.flatMap_cons]
    · intro x hx
      rcases List.mem_append.mp hx with hx | hx
      · obtain ⟨-, rfl⟩ := List.mem_replicate.mp hx
        exact ⟨hr, hb, hname ▸ he⟩
      · exact hall x hx

private theorem atoms_inv {mn : Bool} : ∀ {comp : List Entry} {rs : List Row},
    (∀ e ∈ comp, 1 ≤ e.copies) → atoms mn comp = .ok rs → ∀ e ∈ comp, Tabulated e.ion
  | [], _, _, _ => by simp
  | e :: es, rs, hc, h => by
    unfold atoms at h
    rw [bind_eq_ok] at h
    obtain ⟨a, ha, h⟩ := h
    rw [bind_eq_ok] at h
    obtain ⟨b, hb, -⟩ := h
    intro x hx
    rcases List.mem_cons.mp hx with rfl | hx
    · obtain ⟨r, hr⟩ := copies_atom (hc x List.mem_cons_self) ha
      obtain ⟨h1, h2, h3, -⟩ := atom_ok_iff.mp hr
      exact ⟨r, h1, h2, h3⟩
    · exact atoms_inv (fun y hy => hc y (List.mem_cons_of_mem _ hy)) hb x hx

private theorem uses_ok {f : Row → Bool} : ∀ {rs : List Row}, (∀ r ∈ rs, f r = true) → uses f rs = .ok ()
  | [], _ => rfl
  | r :: rs, h => by
    unfold uses
    rw [if_pos (h r List.mem_cons_self)]
    exact uses_ok fun x hx => h x (List.mem_cons_of_mem _ hx)

/-! ## C177 -/

/-- **C177 (partial).** A material can be made of exactly the compositions whose ions are all elements with a tabulated scattering length; its atoms are then the entries of the composition, each as often as it has positions, and none of its cross-sections meets a missing value. -/
theorem C177_usable_partial (mn : Bool) (comp : List Entry) (hc : ∀ e ∈ comp, 1 ≤ e.copies) :
    ((∃ rs, material mn comp = .ok rs) ↔ ∀ e ∈ comp, Element e.ion ∧ Tabulated e.ion) ∧
    ∀ rs, material mn comp = .ok rs →
      rs.map (·.name) = comp.flatMap (fun e => List.replicate e.copies e.ion) ∧
      totalXs rs = .ok () ∧ thickness rs = .ok () ∧ incoherent rs = .ok () := by
  have key : (∃ rs, material mn comp = .ok rs) ↔ ∀ e ∈ comp, Element e.ion ∧ Tabulated e.ion := by
    constructor
    · rintro ⟨rs, h⟩
      unfold material at h
      rw [bind_eq_ok] at h
      obtain ⟨_, h1, h2⟩ := h
      exact fun e he => ⟨masses_ok_iff.mp h1 e he, atoms_inv hc h2 e he⟩
    · intro h
      obtain ⟨rs, hrs, -⟩ := atoms_of (mn := mn) h
      refine ⟨rs, ?_⟩
      unfold material
      rw [masses_ok_iff.mpr fun e he => (h e he).1, ok_bind, hrs]
  refine ⟨key, fun rs h => ?_⟩
  obtain ⟨rs', hrs, hmap, hall⟩ := atoms_of (mn := mn) (key.mp ⟨rs, h⟩)
  have : material mn comp = .ok rs' := by
    unfold material
    rw [masses_ok_iff.mpr fun e he => (key.mp ⟨rs, h⟩ e he).1, ok_bind, hrs]
  rw [this] at h
  cases h
  have full : ∀ r ∈ rs, r.coh = true ∧ r.inc = true ∧ r.abs = true := by
    intro r hr
    obtain ⟨h1, h2, h3⟩ := hall r hr
    have := List.all_eq_true.mp complete r h1
    have hcon : elements.contains r.name = true := by simpa [Element] using h3
    simp only [hcon, h2, Bool.and_self, Bool.not_true, Bool.false_or, Bool.and_eq_true] at this
    exact ⟨this.1.1, this.1.2, this.2⟩
  refine ⟨hmap, uses_ok fun r hr => by simp [full r hr], ?_, uses_ok fun r hr => (full r hr).2.1⟩
  unfold thickness
  rw [uses_ok fun r hr => (full r hr).1, ok_bind, uses_ok fun r hr => (full r hr).2.1, ok_bind,
    uses_ok fun r hr => (full r hr).2.2]

private theorem uses_iff {f : Row → Bool} : ∀ {rs : List Row}, uses f rs = .ok () ↔ ∀ r ∈ rs, f r = true
  | [] => by simp [uses]
  | r :: rs => by
    unfold uses
    by_cases h : f r = true
    · simp [h, uses_iff (rs := rs)]
    · simp [h]

/-- **C177**: which values each of the cross-sections needs: with a missing one among the atoms the calculation raises. -/
theorem C177_needed (rs : List Row) :
    (totalXs rs = .ok () ↔ ∀ r ∈ rs, r.coh = true ∧ r.inc = true) ∧
    (thickness rs = .ok () ↔ ∀ r ∈ rs, r.coh = true ∧ r.inc = true ∧ r.abs = true) ∧
    (incoherent rs = .ok () ↔ ∀ r ∈ rs, r.inc = true) := by
  refine ⟨?_, ?_, uses_iff⟩
  · unfold totalXs
    rw [uses_iff]
    simp
  · unfold thickness
    constructor
    · intro h
      rw [bind_eq_ok] at h
      obtain ⟨_, h1, h⟩ := h
      rw [bind_eq_ok] at h
      obtain ⟨_, h2, h3⟩ := h
      exact fun r hr => ⟨uses_iff.1 h1 r hr, uses_iff.1 h2 r hr, uses_iff.1 h3 r hr⟩
    · intro h
      rw [uses_ok fun r hr => (h r hr).1, ok_bind, uses_ok fun r hr => (h r hr).2.1, ok_bind, uses_ok fun r hr => (h r hr).2.2]

/-- Silicon dioxide with two positions of oxygen is a material. -/
example : ∃ rs, material true [⟨cs!"Si", 1⟩, ⟨cs!"O", 2⟩] = .ok rs ∧ rs.length = 3 :=
  ⟨_, rfl, rfl⟩

/-- **C177 (counterexample).** No isotope can be part of a material: whatever else it is made of, the look-up of the mass raises `KeyError` — although every entry of the table of scattering lengths is an element or an isotope, and `Atom` accepts each isotope whose scattering length is tabulated. -/
theorem C177_isotopes_false :
    (∀ mn comp, (∃ e ∈ comp, Isotope e.ion) → material mn comp = .error .key) ∧
    (∀ r ∈ lengths, Element r.name ∨ Isotope r.name) ∧
    (∀ ion, Isotope ion → Tabulated ion → ∃ r, atom false ion = .ok r) ∧
    (Isotope cs!"7Li" ∧ Tabulated cs!"7Li") := by
  refine ⟨fun mn comp ⟨e, he, hi⟩ => ?_, fun r hr => ?_, ?_, ⟨'7', cs!"Li", rfl, rfl⟩, ?_⟩
  · unfold material
    rw [masses_error ⟨e, he, isotope_not_element hi⟩]; rfl
  · have := List.all_eq_true.mp kinds r hr
    rcases Bool.or_eq_true _ _ ▸ this with h | h
    · exact .inl (show _ ∈ _ by simpa using h)
    · right
      cases hn : r.name with
      | nil => rw [hn] at h; exact nomatch h
      | cons c cs => rw [hn] at h; exact ⟨c, cs, rfl, h⟩
  · rintro ion - ⟨r, h1, h2, h3⟩
    exact ⟨r, atom_ok_iff.mpr ⟨h1, h2, h3, nofun⟩⟩
  · exact ⟨⟨cs!"7Li", true, true, true, true⟩, by decide +kernel, rfl, rfl⟩

/-- Of the 266 isotopes of the table 246 have a scattering length. -/
example : (lengths.filter fun r => !elements.contains r.name).length = 266 ∧
    (lengths.filter fun r => !elements.contains r.name && r.b).length = 246 := by decide +kernel

/-- **C177.** What is raised for an element that cannot be used: `KeyError` when it has no entry among the scattering lengths, `TypeError` when the entry has no scattering length. -/
theorem C177_unknown (mn : Bool) (ion : List Char) (n : ℕ) (hn : 1 ≤ n) (he : Element ion) :
    ((∀ r ∈ lengths, r.name ≠ ion) → material mn [⟨ion, n⟩] = .error .key) ∧
    (∀ r ∈ lengths, r.name = ion → r.b = false → material mn [⟨ion, n⟩] = .error .type) := by
  obtain ⟨n, rfl⟩ := Nat.exists_eq_add_of_le' hn
  have he' : ion ∈ elements := he
  constructor
  · intro h
    simp only [material, masses, mass, if_pos he', ok_bind, atoms, copies, atom, row_missing h, error_bind]
  · rintro r hr rfl hb
    simp only [material, masses, mass, if_pos he', ok_bind, atoms, copies, atom, row_of_mem hr, hb]
    cases mn <;> rfl

/-- Plutonium has an entry without a scattering length, berkelium none. -/
example : Element cs!"Pu" ∧ (∃ r ∈ lengths, r.name = cs!"Pu" ∧ r.b = false) ∧
    Element cs!"Bk" ∧ ∀ r ∈ lengths, r.name ≠ cs!"Bk" := by
  unfold Element; decide +kernel

end Verif.Structure.Ions
