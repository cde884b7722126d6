import Verif.Structure.OrbitProps

/-! # Property C224: how often the atoms of an orbit are counted -/

namespace Verif.Structure

open Real Matrix Verif.Crystal Verif.Symmetry

/-! ## Specification -/

open Classical in
/-- The number of operations that leave a position where it is, up to a lattice translation. -/
noncomputable def fixers (ops : List Op) (x : Vec) : ℕ := ops.countP fun op => Equiv (act op x) x

open Classical in
/-- How often a position is found in a list, up to lattice translations. -/
noncomputable def timesListed (L : List Vec) (p : Vec) : ℕ := L.countP fun q => Equiv q p

/-- `ps` has each of the positions in `L` once, up to lattice translations. -/
structure Once (L ps : List Vec) : Prop where
  distinct : ps.Pairwise fun p q => ¬ Equiv p q
  inside : ∀ p ∈ ps, ∃ q ∈ L, Equiv q p
  all : ∀ q ∈ L, ∃ p ∈ ps, Equiv q p

/-! ## Lemmas -/

theorem equiv_self (p : Vec) : Equiv p p := ⟨0, fun i => by simp⟩

/-- Each position can be listed once. -/
theorem once_exists (L : List Vec) : ∃ ps, Once L ps := by
  induction L with
  | nil => exact ⟨[], .nil, by simp, by simp⟩
  | cons q L ih =>
    obtain ⟨ps, h1, h2, h3⟩ := ih
    by_cases h : ∃ p ∈ ps, Equiv q p
    · refine ⟨ps, h1, fun p hp => ?_, fun r hr => ?_⟩
      · obtain ⟨r, hr, he⟩ := h2 p hp
        exact ⟨r, List.mem_cons_of_mem _ hr, he⟩
      · rcases List.mem_cons.1 hr with rfl | hr
        · exact h
        · exact h3 r hr
    · push Not at h
      refine ⟨q :: ps, List.pairwise_cons.2 ⟨h, h1⟩, fun p hp => ?_, fun r hr => ?_⟩
      · rcases List.mem_cons.1 hp with rfl | hp
        · exact ⟨p, List.mem_cons_self, equiv_self p⟩
        · obtain ⟨r, hr, he⟩ := h2 p hp
          exact ⟨r, List.mem_cons_of_mem _ hr, he⟩
      · rcases List.mem_cons.1 hr with rfl | hr
        · exact ⟨r, List.mem_cons_self, equiv_self r⟩
        · obtain ⟨p, hp, he⟩ := h3 r hr
          exact ⟨p, List.mem_cons_of_mem _ hp, he⟩

open Classical in
theorem sum_filter_split (L : List Vec) (P : Vec → Prop) (f : Vec → ℂ) :
    (L.map f).sum = ((L.filter fun q => P q).map f).sum + ((L.filter fun q => ¬ P q).map f).sum := by
  induction L with
  | nil => simp
  | cons q L ih =>
    by_cases h : P q
    · simp [h, ih, add_assoc]
    · simp only [List.map_cons, List.sum_cons, ih, h, not_false_eq_true, decide_true, decide_false, List.filter_cons, if_true,
        Bool.false_eq_true, if_false]
      ring

open Classical in
/-- A sum over a list in which every position is found `s` times. -/
theorem sum_once {f : Vec → ℂ} (hf : ∀ p q : Vec, Equiv p q → f p = f q) {s : ℕ} (ps : List Vec) : ∀ L : List Vec, Once L ps →
    (∀ p ∈ ps, timesListed L p = s) → (L.map f).sum = s * (ps.map f).sum := by
  induction ps with
  | nil =>
    intro L h _
    have : L = [] := by
      rw [List.eq_nil_iff_forall_not_mem]
      intro q hq
      obtain ⟨p, hp, _⟩ := h.all q hq
      simp at hp
    simp [this]
  | cons p ps ih =>
    intro L h hs
    obtain ⟨hd, hps⟩ := List.pairwise_cons.1 h.distinct
    rw [sum_filter_split L (fun q => Equiv q p) f]
    have h1 : ((L.filter fun q => Equiv q p).map f).sum = s * f p := by
      have hc : ∀ q ∈ L.filter fun q => Equiv q p, f q = f p := by
        intro q hq
        exact hf q p (by simpa using (List.mem_filter.1 hq).2)
      rw [List.map_congr_left hc, List.map_const', List.sum_replicate, nsmul_eq_mul]
      have := hs p List.mem_cons_self
      unfold timesListed at this
      rw [← this, List.countP_eq_length_filter]
    have h2 : ((L.filter fun q => ¬ Equiv q p).map f).sum = s * (ps.map f).sum := by
      refine ih _ ⟨hps, fun q hq => ?_, fun q hq => ?_⟩ fun q hq => ?_
      · obtain ⟨r, hr, he⟩ := h.inside q (List.mem_cons_of_mem _ hq)
        refine ⟨r, List.mem_filter.2 ⟨hr, ?_⟩, he⟩
        simpa using fun h' : Equiv r p => hd q hq (h'.symm.trans he)
      · obtain ⟨hqL, hne⟩ := List.mem_filter.1 hq
        obtain ⟨r, hr, he⟩ := h.all q hqL
        rcases List.mem_cons.1 hr with rfl | hr
        · simp [he] at hne
        · exact ⟨r, hr, he⟩
      · rw [← hs q (List.mem_cons_of_mem _ hq)]
        unfold timesListed
        rw [List.countP_filter]
        refine List.countP_congr fun r _ => ?_
        simp only [decide_not, Bool.and_eq_true, decide_eq_true_eq, Bool.not_eq_eq_eq_not, Bool.not_true, decide_eq_false_iff_not]
        exact ⟨fun h' => h'.1, fun h' => ⟨h', fun h'' => hd q hq (h''.symm.trans h')⟩⟩
    rw [h1, h2, List.map_cons, List.sum_cons]
    ring

/-- The atoms of a material without displacement parameters are at rest. -/
theorem group_rigid {ops : List Op} {c : List Item} {fu : ℝ} {mn : Bool} {as : List Atom} (hc : AtRest c)
    (has : atomsGroup ops c fu mn = .ok as) : ∀ a ∈ as, Rigid a := by
  intro a haa
  unfold atomsGroup at has
  rw [bind_eq_ok] at has
  obtain ⟨bs, hbs, has⟩ := has
  cases has
  have hf := mapM_ok_forall hbs
  obtain ⟨b, hb, hab⟩ := List.mem_flatten.1 haa
  obtain ⟨i, hi, rfl⟩ := List.mem_iff_getElem.1 hb
  have hx := (List.forall₂_iff_get.1 hf).2 i (by rw [hf.length_eq]; exact hi) hi
  simp only [List.get_eq_getElem] at hx
  rw [bind_eq_ok] at hx
  obtain ⟨u, hu', hx⟩ := hx
  have hx' := Except.ok.inj hx
  rw [← hx'] at hab
  obtain ⟨p, _, rfl⟩ := List.mem_map.1 hab
  have hi' : i < c.length := by
    have := hf.length_eq
    simp only [List.length_zipIdx] at this
    omega
  have hit : (c.zipIdx[i]'(by simpa using hi')).1 = c[i] := by simp
  rw [hit] at hu' ⊢
  have hci := hc _ (List.getElem_mem hi')
  refine ⟨?_, ?_⟩
  · show c[i].uiso.getD 0 = 0
    rw [hci.1]; rfl
  · show u = 0
    unfold uanisoUsed at hu'
    rw [hci.2] at hu'
    split at hu'
    · exact (Except.ok.inj hu').symm
    · split at hu'
      · cases hu'
      · exact (Except.ok.inj hu').symm

/-! ## C224 -/

/-- **C224** every position of an orbit is listed equally often: once for each operation that leaves the position that was
given where it is. -/
theorem C224_equally {ops : List Op} (hg : IsGroup ops) (hr : Reduced ops) (x : Vec) :
    ∀ p ∈ symmetrizePosition ops x, timesListed (symmetrizePosition ops x) p = fixers ops x := by
  classical
  intro p hp
  obtain ⟨g, hgm, rfl⟩ := List.mem_map.1 hp
  obtain ⟨inv, hinv, h1, h2⟩ := hg.inv g hgm
  unfold timesListed fixers symmetrizePosition
  rw [List.countP_map, ← (comp_perm hg hr hgm).countP_eq, List.countP_map]
  refine List.countP_congr fun op _ => ?_
  simp only [Function.comp, decide_eq_true_eq]
  constructor
  · intro h
    have h3 := ((act_comp g op x).trans h).act inv
    have back : ∀ y : Vec, Equiv (act inv (act g y)) y := by
      intro y
      have := act_comp inv g y
      rwa [h2, act_ident] at this
    exact ((back _).symm.trans h3).trans (back x)
  · intro h
    exact (act_comp g op x).symm.trans (h.act g)

/-- **C224** the multiplicity of a position, the number of different positions in its orbit, times the number of operations that
leave it where it is is the number of operations of the group. -/
theorem C224_multiplicity {ops : List Op} (hg : IsGroup ops) (hr : Reduced ops) (x : Vec) :
    (∃ ps, Once (symmetrizePosition ops x) ps) ∧
      ∀ ps, Once (symmetrizePosition ops x) ps → ps.length * fixers ops x = ops.length := by
  classical
  refine ⟨once_exists _, fun ps h => ?_⟩
  have hs : ∀ p ∈ ps, timesListed (symmetrizePosition ops x) p = fixers ops x := by
    intro p hp
    obtain ⟨q, hq, he⟩ := h.inside p hp
    rw [← C224_equally hg hr x q hq]
    unfold timesListed
    refine List.countP_congr fun r _ => ?_
    simp only [decide_eq_true_eq]
    exact ⟨fun h' => h'.trans he.symm, fun h' => h'.trans he⟩
  have := sum_once (f := fun _ => 1) (fun (_ _ : Vec) _ => rfl) ps _ h hs
  simp only [List.map_const', List.sum_replicate, nsmul_eq_mul, mul_one, symmetrizePosition, List.length_map] at this
  have h4 : ops.length = fixers ops x * ps.length := by exact_mod_cast this
  rw [h4, mul_comm]

/-- **C224** (for atoms without displacement parameters and without mass normalisation) the structure factor of a material with
a space group is the sum over the different atoms of each orbit, each orbit weighted with the number of operations that leave
its atoms where they are. -/
theorem C224_weights {l : Lattice} {w : ℝ} {ops : List Op} (hg : IsGroup ops) (hr : Reduced ops) {comp : List Item} (hu : AtRest comp)
    {fu : ℝ} {atoms : List Atom} (ha : atomsGroup ops comp fu false = .ok atoms) {hkl : Vec} (hz : ∃ z : Fin 3 → ℤ, ∀ i, hkl i = z i)
    {F : ℂ} (hF : calcNucStrFac l w atoms hkl = .ok F) (orbit : Item → List Vec)
    (ho : ∀ it ∈ comp, Once (symmetrizePosition ops it.pos) (orbit it)) :
    F = (comp.map fun it => (fixers ops it.pos : ℂ) * (it.occupancy * (it.b0 / 10) * ((orbit it).map fun p =>
      Complex.exp (2 * π * Complex.I * (hkl 0 * p 0 + hkl 1 * p 1 + hkl 2 * p 2))).sum)).sum := by
  classical
  rw [calc_eq_ok] at hF
  rw [total_rigid (group_rigid hu ha) hF.1, atomsGroup_sum ha] at hF
  rw [hF.2]
  congr 1
  refine List.map_congr_left fun it hit => ?_
  have hs : ∀ p ∈ orbit it, timesListed (symmetrizePosition ops it.pos) p = fixers ops it.pos := by
    intro p hp
    obtain ⟨q, hq, he⟩ := (ho it hit).inside p hp
    rw [← C224_equally hg hr it.pos q hq]
    unfold timesListed
    refine List.countP_congr fun r _ => ?_
    simp only [decide_eq_true_eq]
    exact ⟨fun h' => h'.trans he.symm, fun h' => h'.trans he⟩
  have hsum := sum_once (f := phase hkl) (fun (p q : Vec) h => phase_equiv hz h) (orbit it) _ (ho it hit) hs
  rw [symmetrizePosition, List.map_map] at hsum
  have e : (ops.map fun o => phase hkl (act o it.pos)).sum = (ops.map (phase hkl ∘ fun op => act op it.pos)).sum := rfl
  have e2 : ∀ p : Vec, phase hkl p = Complex.exp (2 * π * Complex.I * (hkl 0 * p 0 + hkl 1 * p 1 + hkl 2 * p 2)) := by
    intro p
    unfold phase
    congr 1
    ring
  rw [e, hsum, List.map_congr_left fun p _ => e2 p]
  simp only [mkAtom, Bool.false_eq_true, if_false]
  ring

/-- **C224** for the space groups of the database: the multiplicity of a position divides the number of operations. -/
theorem C224_database {e : Entry} (he : e ∈ database) (x : Vec) : ∃ gens ops, spaceGroup database (.int e.number) = .ok (e, gens, ops) ∧
    (∃ ps, Once (symmetrizePosition ops x) ps) ∧
    (∀ ps, Once (symmetrizePosition ops x) ps → ps.length * fixers ops x = e.total) ∧
    ∀ p ∈ symmetrizePosition ops x, timesListed (symmetrizePosition ops x) p = fixers ops x := by
  obtain ⟨gens, ops, b, h1, h2, h3, h4, _⟩ := C47_database e he
  obtain ⟨hg, hr⟩ := database_reduced he h1 h2
  refine ⟨gens, ops, ?_, (C224_multiplicity hg hr x).1, ?_, C224_equally hg hr x⟩
  · simp only [spaceGroup, (C83_names e he).1, h1, h2, ok_bind, pure_ok]
  · rw [← h4]
    exact (C224_multiplicity hg hr x).2

/-- With an inversion the origin is left where it is by both operations, and its orbit has one position. -/
example : IsGroup [ident, inversion] ∧ Reduced [ident, inversion] ∧ Once (symmetrizePosition [ident, inversion] 0) [0] := by
  refine ⟨⟨by decide +kernel, by decide +kernel, by decide +kernel, by decide +kernel⟩, ?_, ?_⟩
  · intro o ho i
    simp only [List.mem_cons, List.not_mem_nil, or_false] at ho
    rcases ho with rfl | rfl <;> exact ⟨le_refl _, by norm_num [ident, inversion]⟩
  · have h : symmetrizePosition [ident, inversion] (0 : Vec) = [0, 0] := by
      simp only [symmetrizePosition, List.map_cons, List.map_nil]
      congr 1
      · exact act_ident 0
      · congr 1
        funext i
        simp [act, inversion]
    rw [h]
    refine ⟨by simp, ?_, ?_⟩ <;> simp [equiv_self]

end Verif.Structure
