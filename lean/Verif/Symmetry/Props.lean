import Verif.Symmetry.Spec
import Mathlib.LinearAlgebra.Matrix.NonsingularInverse

/-!
# Properties C47 and C49: generated operations and symmetrised positions
-/

namespace Verif.Symmetry

section Saturation

variable {N : ℕ} {gens : List Op} {total : ℕ}

/-- Closure under composition with generators from the left gives all generated operations. -/
theorem generated_mem {ops : List Op} (hg : ∀ x ∈ gens, x ∈ ops)
    (hc : ∀ g ∈ gens, ∀ x ∈ ops, comp g x ∈ ops) {x : Op} (hx : Generated gens x) :
    x ∈ ops ∧ ∀ y ∈ ops, comp x y ∈ ops := by
  induction hx with
  | base h => exact ⟨hg _ h, hc _ h⟩
  | comp _ _ iha ihb =>
    refine ⟨iha.2 _ ihb.1, fun y hy => ?_⟩
    rw [comp_assoc]
    exact iha.2 _ (ihb.2 y hy)

theorem generated_grid (hN : 0 < N) (hgrid : ∀ g ∈ gens, OnGrid N g) {x : Op}
    (hx : Generated gens x) : OnGrid N x := by
  induction hx with
  | base h => exact hgrid _ h
  | comp _ _ iha ihb => exact onGrid_comp hN iha ihb

theorem symmetryOps_spec (hN : 0 < N) (hNb : N ≤ 10 ^ 15) (hgrid : ∀ g ∈ gens, OnGrid N g)
    (hnd : gens.Nodup) : ∃ s n, saturate mulRaw same total (total + 1) gens gens = some (s, n) ∧
      (∀ x ∈ gens, x ∈ s) ∧ s.Nodup ∧ (∀ x ∈ s, Generated gens x) ∧
      (n = [] → ∀ x, Generated gens x → x ∈ s) ∧ (n = [] ∨ total ≤ s.length) := by
  have hP : ∀ a b, OnGrid N a → OnGrid N b → OnGrid N (mulRaw a b) := by
    intro a b ha hb
    rw [mulRaw_eq hN hNb ha hb]
    exact onGrid_comp hN ha hb
  have hQ : ∀ a b, (OnGrid N a ∧ Generated gens a) → (OnGrid N b ∧ Generated gens b) →
      (OnGrid N (mulRaw a b) ∧ Generated gens (mulRaw a b)) := by
    intro a b ha hb
    refine ⟨hP a b ha.1 hb.1, ?_⟩
    rw [mulRaw_eq hN hNb ha.1 hb.1]
    exact .comp ha.2 hb.2
  obtain ⟨s, n, h1, h2, h3⟩ := saturate_spec (P := OnGrid N) (Q := fun x => OnGrid N x ∧ Generated gens x)
    (gens := gens) (total := total) (fun a b ha hb => same_iff hN hNb ha hb) hP hQ (total + 1)
    (symm := gens) (new := gens)
    ⟨fun _ h => h, hnd, hgrid, fun x hx => ⟨hgrid x hx, .base hx⟩, fun _ h => h,
      fun g hg hn => absurd hg hn⟩ (by omega)
  refine ⟨s, n, h1, h2.base, h2.nodup, fun x hx => (h2.gen x hx).2, ?_, h3⟩
  rintro rfl x hx
  refine (generated_mem h2.base ?_ hx).1
  intro g hg y hy
  have := h2.done y hy (by simp) g hg
  rwa [mulRaw_eq hN hNb (hgrid g hg) (h2.good y hy)] at this

/-- **C47** the operations contain the generators, without repetition, and each of them is composed
of generators. -/
theorem C47_contents_partial (hN : 0 < N) (hNb : N ≤ 10 ^ 15) (hgrid : ∀ g ∈ gens, OnGrid N g)
    (hnd : gens.Nodup) {ops : List Op} {b : Bool} (h : symmetryOps gens total = .ok (ops, b)) :
    (∀ x ∈ gens, x ∈ ops) ∧ ops.Nodup ∧ ops.length = total ∧ ∀ x ∈ ops, Generated gens x := by
  obtain ⟨s, n, h1, h2, h3, h4, h5, h6⟩ := symmetryOps_spec (total := total) hN hNb hgrid hnd
  unfold symmetryOps at h
  rw [h1] at h
  simp only at h
  split_ifs at h with hl
  cases h
  exact ⟨h2, h3, hl, h4⟩

/-- **C47** when the loop ends because nothing new was found, all compositions are present. -/
theorem C47_exhausted (hN : 0 < N) (hNb : N ≤ 10 ^ 15) (hgrid : ∀ g ∈ gens, OnGrid N g)
    (hnd : gens.Nodup) {ops : List Op} (h : symmetryOps gens total = .ok (ops, true)) :
    (∀ x, x ∈ ops ↔ Generated gens x) ∧ ∀ a ∈ ops, ∀ b ∈ ops, comp a b ∈ ops := by
  obtain ⟨s, n, h1, h2, h3, h4, h5, h6⟩ := symmetryOps_spec (total := total) hN hNb hgrid hnd
  unfold symmetryOps at h
  rw [h1] at h
  simp only at h
  split_ifs at h with hl
  simp only [Except.ok.injEq, Prod.mk.injEq, List.isEmpty_iff] at h
  obtain ⟨rfl, rfl⟩ := h
  have : ∀ x, x ∈ s ↔ Generated gens x := fun x => ⟨h4 x, h5 rfl x⟩
  refine ⟨this, fun a ha b hb => ?_⟩
  rw [this] at *
  exact .comp ha hb

/-- **C47** the operations are closed under composition exactly when the recorded number of
operations is the number of operations the generators generate. -/
theorem C47_closed_iff (hN : 0 < N) (hNb : N ≤ 10 ^ 15) (hgrid : ∀ g ∈ gens, OnGrid N g)
    (hnd : gens.Nodup) {ops : List Op} {b : Bool} (h : symmetryOps gens total = .ok (ops, b)) :
    (∀ a ∈ ops, ∀ b ∈ ops, comp a b ∈ ops) ↔
      {x | Generated gens x}.Finite ∧ {x | Generated gens x}.ncard = total := by
  obtain ⟨h1, h2, h3, h4⟩ := C47_contents_partial hN hNb hgrid hnd h
  have hcard : {x | x ∈ ops}.ncard = total := by
    have : {x | x ∈ ops} = (ops.toFinset : Set Op) := by ext x; simp
    rw [this, Set.ncard_coe_finset, List.toFinset_card_of_nodup h2, h3]
  constructor
  · intro hc
    have : {x | Generated gens x} = {x | x ∈ ops} := by
      ext x
      exact ⟨fun hx => (generated_mem h1 (fun g hg y hy => hc g (h1 g hg) y hy) hx).1, h4 x⟩
    rw [this]
    exact ⟨List.finite_toSet ops, hcard⟩
  · rintro ⟨hf, hn⟩
    have heq : {x | x ∈ ops} = {x | Generated gens x} :=
      Set.eq_of_subset_of_ncard_le (fun x hx => h4 x hx) (by rw [hcard, hn]) hf
    intro x hx y hy
    have : comp x y ∈ {x | Generated gens x} := .comp (h4 x hx) (h4 y hy)
    rw [← heq] at this
    exact this

/-- **C47** the construction succeeds when the recorded number of operations is right, and
fails only through the assertion. -/
theorem C47_builds (hN : 0 < N) (hNb : N ≤ 10 ^ 15) (hgrid : ∀ g ∈ gens, OnGrid N g)
    (hnd : gens.Nodup) :
    ({x | Generated gens x}.Finite → {x | Generated gens x}.ncard = total →
      ∃ ops b, symmetryOps gens total = .ok (ops, b) ∧ ∀ x, x ∈ ops ↔ Generated gens x) ∧
    ∀ e, symmetryOps gens total = .error e → e = .assertionError := by
  obtain ⟨s, n, h1, h2, h3, h4, h5, h6⟩ := symmetryOps_spec (total := total) hN hNb hgrid hnd
  constructor
  · intro hf hn
    have hcard : {x | x ∈ s}.ncard = s.length := by
      have : {x | x ∈ s} = (s.toFinset : Set Op) := by ext x; simp
      rw [this, Set.ncard_coe_finset, List.toFinset_card_of_nodup h3]
    have hle : s.length ≤ total := by
      rw [← hcard, ← hn]
      exact Set.ncard_le_ncard (fun x hx => h4 x hx) hf
    have hall : ∀ x, Generated gens x → x ∈ s := by
      rcases h6 with h6 | h6
      · exact h5 h6
      · intro x hx
        have heq : {x | x ∈ s} = {x | Generated gens x} :=
          Set.eq_of_subset_of_ncard_le (fun x hx => h4 x hx) (by rw [hcard, hn]; exact h6) hf
        exact (Set.ext_iff.1 heq x).2 hx
    have heq : {x | x ∈ s} = {x | Generated gens x} := by
      ext x; exact ⟨h4 x, hall x⟩
    refine ⟨s, n.isEmpty, ?_, fun x => ⟨h4 x, hall x⟩⟩
    unfold symmetryOps
    rw [h1]
    simp only
    rw [if_pos (by rw [← hcard, heq, hn])]
  · intro e he
    unfold symmetryOps at he
    rw [h1] at he
    simp only at he
    split_ifs at he
    cases he
    rfl

/-! ## Inverses -/

theorem det_comp (a b : Op) : Matrix.det (Matrix.of (comp a b).rot) =
    Matrix.det (Matrix.of a.rot) * Matrix.det (Matrix.of b.rot) := by
  rw [← Matrix.det_mul]
  congr 1

theorem det_generated (hdet : ∀ g ∈ gens, IsUnit (Matrix.det (Matrix.of g.rot))) {x : Op}
    (hx : Generated gens x) : IsUnit (Matrix.det (Matrix.of x.rot)) := by
  induction hx with
  | base h => exact hdet _ h
  | comp _ _ iha ihb => rw [det_comp]; exact iha.mul ihb

theorem comp_left_injective {a b c : Op} (ha : IsUnit (Matrix.det (Matrix.of a.rot)))
    (hb : ∀ i, 0 ≤ b.trans i ∧ b.trans i < 1) (hc : ∀ i, 0 ≤ c.trans i ∧ c.trans i < 1)
    (h : comp a b = comp a c) : b = c := by
  rw [Op.ext_iff'] at h
  have hinv := Matrix.nonsing_inv_mul (Matrix.of a.rot) ha
  generalize (Matrix.of a.rot)⁻¹ = R at hinv
  have hR : ∀ i j, ∑ k, R i k * a.rot k j = if i = j then 1 else 0 := by
    intro i j
    have := congrFun (congrFun hinv i) j
    rw [Matrix.mul_apply, Matrix.one_apply] at this
    exact this
  rw [Op.ext_iff']
  constructor
  · have hm : Matrix.of a.rot * Matrix.of b.rot = Matrix.of a.rot * Matrix.of c.rot := by
      ext i j; exact h.1 i j
    have hm2 : R * (Matrix.of a.rot * Matrix.of b.rot) = R * (Matrix.of a.rot * Matrix.of c.rot) := by
      rw [hm]
    rw [← Matrix.mul_assoc, ← Matrix.mul_assoc, hinv, Matrix.one_mul, Matrix.one_mul] at hm2
    intro i j
    exact congrFun (congrFun hm2 i) j
  · have hz : ∀ i, ∃ z : ℤ, (∑ k, (a.rot i k : ℚ) * (b.trans k - c.trans k)) = z := by
      intro i
      have := h.2 i
      simp only [comp] at this
      rw [Int.fract_eq_fract] at this
      obtain ⟨z, hz⟩ := this
      refine ⟨z, ?_⟩
      rw [← hz]
      simp only [Fin.sum_univ_three]
      ring
    choose z hz using hz
    intro i
    have key : b.trans i - c.trans i = ((∑ k, R i k * z k : ℤ) : ℚ) := by
      have e1 : (∑ k, (R i k : ℚ) * (∑ j, (a.rot k j : ℚ) * (b.trans j - c.trans j))) =
          b.trans i - c.trans i := by
        have e2 : ∀ j, (∑ k, (R i k : ℚ) * (a.rot k j : ℚ)) = if i = j then 1 else 0 := by
          intro j
          have := hR i j
          exact_mod_cast congrArg (Int.cast : ℤ → ℚ) this
        have e3 : (∑ k, (R i k : ℚ) * (∑ j, (a.rot k j : ℚ) * (b.trans j - c.trans j))) =
            ∑ j, (∑ k, (R i k : ℚ) * (a.rot k j : ℚ)) * (b.trans j - c.trans j) := by
          simp only [Fin.sum_univ_three]; ring
        rw [e3]
        simp only [e2]
        simp
      rw [← e1]
      simp only [hz]
      push_cast
      rfl
    have h1 := hb i
    have h2 := hc i
    have : (∑ k, R i k * z k : ℤ) = 0 := by
      have hlt : |((∑ k, R i k * z k : ℤ) : ℚ)| < 1 := by
        rw [← key, abs_lt]; constructor <;> linarith
      rw [← Int.cast_abs] at hlt
      have : |(∑ k, R i k * z k : ℤ)| < 1 := by exact_mod_cast hlt
      exact Int.abs_lt_one_iff.1 this
    rw [this] at key
    push_cast at key
    linarith

theorem comp_ident {a : Op} (ha : ∀ i, 0 ≤ a.trans i ∧ a.trans i < 1) : comp a ident = a := by
  rw [Op.ext_iff']
  constructor
  · intro i j; simp [comp, ident]
  · intro i
    simp only [comp, ident]
    rw [Int.fract_eq_iff]
    exact ⟨(ha i).1, (ha i).2, 0, by simp⟩

theorem ident_comp {a : Op} (ha : ∀ i, 0 ≤ a.trans i ∧ a.trans i < 1) : comp ident a = a := by
  rw [Op.ext_iff']
  constructor
  · intro i j; simp [comp, ident]
  · intro i
    simp only [comp, ident]
    rw [Int.fract_eq_iff]
    exact ⟨(ha i).1, (ha i).2, 0, by simp⟩

/-- **C47** the operations form a group modulo lattice translations, for invertible generators that
include the identity. -/
theorem C47_group (hN : 0 < N) (hNb : N ≤ 10 ^ 15) (hgrid : ∀ g ∈ gens, OnGrid N g)
    (hnd : gens.Nodup) (hid : ident ∈ gens) (hdet : ∀ g ∈ gens, IsUnit (Matrix.det (Matrix.of g.rot)))
    (hf : {x | Generated gens x}.Finite) (hn : {x | Generated gens x}.ncard = total) :
    ∃ ops b, symmetryOps gens total = .ok (ops, b) ∧ IsGroup ops ∧ ops.length = total ∧
      ∀ x, x ∈ ops ↔ Generated gens x := by
  obtain ⟨ops, b, h1, h2⟩ := (C47_builds hN hNb hgrid hnd).1 hf hn
  obtain ⟨h3, h4, h5, _⟩ := C47_contents_partial hN hNb hgrid hnd h1
  have hrange : ∀ x ∈ ops, ∀ i, 0 ≤ x.trans i ∧ x.trans i < 1 := fun x hx i =>
    (generated_grid hN hgrid ((h2 x).1 hx) i).2
  have hcomp : ∀ a ∈ ops, ∀ b ∈ ops, comp a b ∈ ops := by
    intro a ha b hb
    rw [h2] at *
    exact .comp ha hb
  have hright : ∀ a ∈ ops, ∃ b ∈ ops, comp a b = ident := by
    intro a ha
    have hinj : Set.InjOn (comp a) (ops.toFinset : Set Op) := by
      intro x hx y hy hxy
      have hx : x ∈ ops := by simpa using hx
      have hy : y ∈ ops := by simpa using hy
      exact comp_left_injective (det_generated hdet ((h2 a).1 ha)) (hrange x hx) (hrange y hy) hxy
    have hmaps : Set.MapsTo (comp a) (ops.toFinset : Set Op) (ops.toFinset : Set Op) := by
      intro x hx
      have hx : x ∈ ops := by simpa using hx
      simpa using hcomp a ha x hx
    have hsurj := Finset.surjOn_of_injOn_of_card_le (comp a) hmaps hinj le_rfl
    obtain ⟨b, hb, he⟩ := hsurj (by simpa using h3 _ hid : ident ∈ (ops.toFinset : Set Op))
    exact ⟨b, by simpa using hb, he⟩
  refine ⟨ops, b, h1, ⟨h4, h3 _ hid, hcomp, ?_⟩, h5, h2⟩
  intro a ha
  obtain ⟨b, hb, hab⟩ := hright a ha
  obtain ⟨c, hc, hbc⟩ := hright b hb
  refine ⟨b, hb, hab, ?_⟩
  have : a = c := by
    rw [← comp_ident (hrange a ha), ← hbc, ← comp_assoc, hab, ident_comp (hrange c hc)]
  rw [this, hbc]

theorem ok_of_check {r : Except Err (List Op × Bool)} {p : List Op → Bool → Bool}
    (h : (match r with | .ok x => p x.1 x.2 | .error _ => false) = true) :
    ∃ ops b, r = .ok (ops, b) ∧ p ops b = true := by
  cases r with
  | error e => cases h
  | ok x => exact ⟨x.1, x.2, rfl, h⟩

/-- A concrete case: the generators of `P12_1/m1` give four operations. -/
example : ∃ ops b, symmetryOps [ident,
    ⟨fun i j => if i = j then (if i = 1 then 1 else -1) else 0, ![0, 1 / 2, 0]⟩,
    ⟨fun i j => if i = j then -1 else 0, 0⟩] 4 = .ok (ops, b) ∧
    (decide (ops.length = 4) && ops.all fun x => ops.all fun y => ops.any (same (comp x y))) = true :=
  ok_of_check (p := fun ops _ => decide (ops.length = 4) &&
    ops.all fun x => ops.all fun y => ops.any (same (comp x y))) (by decide +kernel)

/-- **C47** with a wrong recorded number the list may be returned although it is not closed:
three generators of a group of eight operations and `total = 3`. -/
theorem C47_wrong_total_false : ∃ gens : List Op, (∀ g ∈ gens, OnGrid 1 g) ∧ gens.Nodup ∧
    ∃ ops b, symmetryOps gens 3 = .ok (ops, b) ∧ ¬ ∀ a ∈ ops, ∀ b ∈ ops, comp a b ∈ ops := by
  let gs : List Op := [⟨fun i j => if i = j then (if i = 0 then -1 else 1) else 0, 0⟩,
    ⟨fun i j => if i = j then (if i = 1 then -1 else 1) else 0, 0⟩,
    ⟨fun i j => if i = j then (if i = 2 then -1 else 1) else 0, 0⟩]
  have hok : ∃ ops b, symmetryOps gs 3 = .ok (ops, b) ∧
      (!(ops.all fun x => ops.all fun y => decide (comp x y ∈ ops))) = true :=
    ok_of_check (p := fun ops _ => !(ops.all fun x => ops.all fun y => decide (comp x y ∈ ops)))
      (by decide +kernel)
  refine ⟨gs, ?_, by decide +kernel, ?_⟩
  · intro g hg i
    have : g.trans = 0 := by
      simp only [gs, List.mem_cons, List.not_mem_nil, or_false] at hg
      rcases hg with rfl | rfl | rfl <;> rfl
    rw [this]
    exact ⟨⟨0, by simp⟩, by simp⟩
  · obtain ⟨ops, b, h1, h2⟩ := hok
    refine ⟨ops, b, h1, fun h => ?_⟩
    rw [Bool.not_eq_true', List.all_eq_false] at h2
    obtain ⟨x, hx, h3⟩ := h2
    exact h3 (List.all_eq_true.2 fun y hy => decide_eq_true (h x hx y hy))

/-- **C47** a generator that is given twice stays twice in the list: the loop only looks for the compositions that
are missing.  (No entry of the database repeats a generator, `C47_database`.) -/
theorem C47_repeated_false : ∃ gens : List Op, (∀ g ∈ gens, OnGrid 1 g) ∧
    ∃ ops b, symmetryOps gens 2 = .ok (ops, b) ∧ ¬ ops.Nodup := by
  have hok : ∃ ops b, symmetryOps [ident, ident] 2 = .ok (ops, b) ∧ (!decide ops.Nodup) = true :=
    ok_of_check (p := fun ops _ => !decide ops.Nodup) (by decide +kernel)
  refine ⟨[ident, ident], ?_, ?_⟩
  · intro g hg i
    have : g = ident := by simpa using hg
    rw [this]
    exact ⟨⟨0, by simp [ident]⟩, by simp [ident]⟩
  · obtain ⟨ops, b, h1, h2⟩ := hok
    exact ⟨ops, b, h1, of_decide_eq_false (by simpa using h2)⟩

end Saturation

/-! ## C49 -/

/-- Positions that differ by a lattice translation. -/
def Equiv {K : Type} [Field K] (p q : Fin 3 → K) : Prop := ∃ z : Fin 3 → ℤ, ∀ i, p i - q i = z i

/-- Applying a composition is applying one operation after the other, up to a lattice translation. -/
theorem act_comp {K : Type} [Field K] [CharZero K] (a b : Op) (x : Fin 3 → K) :
    Equiv (act a (act b x)) (act (comp a b) x) := by
  refine ⟨fun i => ⌊(∑ k, (a.rot i k : ℚ) * b.trans k) + a.trans i⌋, fun i => ?_⟩
  simp only [act, comp, Int.fract]
  have : ((((∑ k, (a.rot i k : ℚ) * b.trans k) + a.trans i -
      ((⌊(∑ k, (a.rot i k : ℚ) * b.trans k) + a.trans i⌋ : ℤ) : ℚ) : ℚ)) : K) =
      (∑ k, (a.rot i k : K) * (b.trans k : K)) + (a.trans i : K) -
        ((⌊(∑ k, (a.rot i k : ℚ) * b.trans k) + a.trans i⌋ : ℤ) : K) := by
    push_cast
    rfl
  rw [this]
  simp only [Fin.sum_univ_three]
  push_cast
  ring

/-- **C49** one position per operation; the positions contain the input, any two of them are related
by an operation of the group, and every operation maps them among themselves, up to lattice
translations. -/
theorem C49_orbit {K : Type} [Field K] [CharZero K] {ops : List Op} (hg : IsGroup ops) (x : Fin 3 → K) :
    (symmetrizePosition ops x).length = ops.length ∧ x ∈ symmetrizePosition ops x ∧
    (∀ op ∈ ops, ∀ p ∈ symmetrizePosition ops x, ∃ q ∈ symmetrizePosition ops x, Equiv (act op p) q) ∧
    (∀ p ∈ symmetrizePosition ops x, ∀ q ∈ symmetrizePosition ops x, ∃ op ∈ ops, Equiv (act op p) q) := by
  have hmem : ∀ p, p ∈ symmetrizePosition ops x ↔ ∃ op ∈ ops, act op x = p := fun p => List.mem_map
  refine ⟨by simp [symmetrizePosition], ?_, ?_, ?_⟩
  · rw [hmem]
    refine ⟨_, hg.ident, ?_⟩
    funext i
    simp [act, ident]
  · intro op hop p hp
    obtain ⟨o, ho, rfl⟩ := (hmem p).1 hp
    exact ⟨act (comp op o) x, (hmem _).2 ⟨_, hg.comp _ hop _ ho, rfl⟩, act_comp op o x⟩
  · intro p hp q hq
    obtain ⟨o, ho, rfl⟩ := (hmem p).1 hp
    obtain ⟨o', ho', rfl⟩ := (hmem q).1 hq
    obtain ⟨oi, hoi, _, hinv⟩ := hg.inv o ho
    refine ⟨comp o' oi, hg.comp _ ho' _ hoi, ?_⟩
    obtain ⟨z, hz⟩ := act_comp (comp o' oi) o x
    have e : comp (comp o' oi) o = comp o' ident := by rw [comp_assoc, hinv]
    obtain ⟨w, hw⟩ := act_comp o' ident x
    have hid : act ident x = x := by funext i; simp [act, ident]
    rw [hid, ← e] at hw
    refine ⟨fun i => z i - w i, fun i => ?_⟩
    have h1 := hz i
    have h2 := hw i
    push_cast
    linear_combination h1 - h2

/-- **C49** symmetrising an equivalent position gives equivalent positions. -/
theorem C49_translation {K : Type} [Field K] [CharZero K] (ops : List Op) {x y : Fin 3 → K}
    (h : Equiv x y) : List.Forall₂ Equiv (symmetrizePosition ops x) (symmetrizePosition ops y) := by
  obtain ⟨z, hz⟩ := h
  induction ops with
  | nil => exact .nil
  | cons op ops ih =>
    refine .cons ⟨fun i => ∑ k, op.rot i k * z k, fun i => ?_⟩ ih
    simp only [act, Fin.sum_univ_three]
    push_cast
    rw [← hz 0, ← hz 1, ← hz 2]
    ring

end Verif.Symmetry
