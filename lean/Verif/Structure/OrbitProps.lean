import Verif.Structure.PropsGroup
import Verif.Structure.SupercellProps

/-! # Property C213: an orbit can be given by any of its atoms -/

namespace Verif.Structure

open Real Matrix Verif.Crystal Verif.Symmetry

/-! ## Specification -/

/-- Two entries of a composition describe the same atoms: they differ in the position at most, and some operation of
the group takes one position to the other, up to a lattice translation. -/
def SameOrbit (ops : List Op) (it it' : Item) : Prop :=
  it' = { it with pos := it'.pos } ∧ ∃ op ∈ ops, Equiv (act op it.pos) it'.pos

/-! ## Lemmas -/

theorem comp_perm_right {ops : List Op} (hg : IsGroup ops) (hr : Reduced ops) {op : Op} (hop : op ∈ ops) :
    (ops.map fun o => comp o op).Perm ops := by
  obtain ⟨inv, hinv, h1, h2⟩ := hg.inv op hop
  have hinj : ∀ a ∈ ops, ∀ b ∈ ops, comp a op = comp b op → a = b := by
    intro a ha b hb h
    rw [← comp_ident (hr a ha), ← comp_ident (hr b hb), ← h1, ← comp_assoc, ← comp_assoc, h]
  refine (List.perm_ext_iff_of_nodup (hg.nodup.map_on hinj) hg.nodup).2 fun y => ?_
  rw [List.mem_map]
  constructor
  · rintro ⟨a, ha, rfl⟩
    exact hg.comp _ ha _ hop
  · intro hy
    exact ⟨comp y inv, hg.comp _ hy _ hinv, by rw [comp_assoc, h2, comp_ident (hr y hy)]⟩

/-- The sum over an orbit does not depend on the atom that gives it. -/
theorem orbit_sum_same {ops : List Op} (hg : IsGroup ops) (hr : Reduced ops) {op : Op} (hop : op ∈ ops) {hkl : Vec}
    (hz : ∃ z : Fin 3 → ℤ, ∀ i, hkl i = z i) {x y : Vec} (h : Equiv (act op x) y) :
    (ops.map fun o => phase hkl (act o y)).sum = (ops.map fun o => phase hkl (act o x)).sum := by
  have : (fun o => phase hkl (act o y)) = (fun o => phase hkl (act o x)) ∘ fun o => comp o op := by
    funext o
    exact phase_equiv hz ((h.symm.act o).trans (act_comp o op x))
  rw [this, ← List.map_map]
  exact ((comp_perm_right hg hr hop).map _).sum_eq

theorem atomsGroup_sum {ops : List Op} {comp : List Item} {fu : ℝ} {mn : Bool} {atoms : List Atom}
    (h : atomsGroup ops comp fu mn = .ok atoms) (hkl : Vec) :
    (atoms.map fun a => (a.occupancy : ℂ) * a.b * phase hkl a.pos).sum =
      (comp.map fun it => (it.occupancy : ℂ) * (mkAtom it 0 (muCell comp * fu) mn 0 0).b *
        (ops.map fun o => phase hkl (act o it.pos)).sum).sum := by
  unfold atomsGroup at h
  rw [bind_eq_ok] at h
  obtain ⟨bs, hbs, h⟩ := h
  cases h
  have hf := mapM_ok_forall hbs
  clear hbs
  have hc : comp = comp.zipIdx.map Prod.fst := by simp
  generalize muCell comp * fu = M at hf ⊢
  generalize lastHasUaniso comp = L at hf
  generalize comp.length = n at hf
  rw [hc]
  clear hc
  generalize comp.zipIdx = xs at hf ⊢
  induction hf with
  | nil => simp
  | @cons x b xs bs h1 _ ih =>
    simp only [List.flatten_cons, List.map_append, List.sum_append, List.map_cons, List.sum_cons]
    rw [ih]
    congr 1
    rw [bind_eq_ok] at h1
    obtain ⟨u, _, h1⟩ := h1
    cases h1
    rw [← List.sum_map_mul_left, symmetrizePosition, List.map_map, List.map_map]
    rfl

theorem sameOrbit_builds {ops : List Op} {comp comp' : List Item} (h : List.Forall₂ (SameOrbit ops) comp comp') {fu : ℝ} {mn : Bool}
    {atoms : List Atom} (ha : atomsGroup ops comp fu mn = .ok atoms) :
    muCell comp' = muCell comp ∧ ∃ atoms', atomsGroup ops comp' fu mn = .ok atoms' := by
  have hmu : muCell comp' = muCell comp := by
    unfold muCell
    clear ha
    induction h with
    | nil => rfl
    | cons h0 _ ih =>
      simp only [List.map_cons, List.sum_cons, ih]
      rw [h0.1]
  have hlast : lastHasUaniso comp' = lastHasUaniso comp := by
    unfold lastHasUaniso
    clear ha hmu
    have := List.forall₂_reverse_iff.2 h
    rw [← List.head?_reverse, ← List.head?_reverse]
    generalize comp.reverse = a at this ⊢
    generalize comp'.reverse = b at this ⊢
    cases this with
    | nil => rfl
    | cons h0 _ =>
      simp only [List.head?_cons]
      rw [h0.1]
  refine ⟨hmu, ?_⟩
  unfold atomsGroup at ha ⊢
  rw [bind_eq_ok] at ha
  obtain ⟨bs, hbs, -⟩ := ha
  rw [hmu, hlast, ← h.length_eq]
  have key : ∀ (k : ℕ) (f f' : Item × ℕ → Except MErr (List Atom)) (bs : List (List Atom)),
      (∀ it it' i b, SameOrbit ops it it' → f (it, i) = .ok b → ∃ b', f' (it', i) = .ok b') →
      (comp.zipIdx k).mapM f = .ok bs → ∃ bs', (comp'.zipIdx k).mapM f' = .ok bs' := by
    clear hbs bs hlast hmu
    intro k f f' bs hff hbs
    induction h generalizing k bs with
    | nil => exact ⟨[], rfl⟩
    | @cons it it' l l' h0 _ ih =>
      rw [List.zipIdx_cons, List.mapM_cons, bind_eq_ok] at hbs
      obtain ⟨b, h1, hbs⟩ := hbs
      rw [bind_eq_ok] at hbs
      obtain ⟨bs2, h2, _⟩ := hbs
      obtain ⟨b', h1'⟩ := hff _ _ _ _ h0 h1
      obtain ⟨bs', h2'⟩ := ih (k + 1) bs2 h2
      exact ⟨b' :: bs', by rw [List.zipIdx_cons, List.mapM_cons, h1', ok_bind, h2', ok_bind]; rfl⟩
  obtain ⟨bs', hbs'⟩ := key 0 _ (fun x => do
      let u ← uanisoUsed (lastHasUaniso comp) (x.2 + 1 == comp.length) x.1
      pure ((symmetrizePosition ops x.1.pos).map fun p =>
        mkAtom x.1 p (muCell comp * fu) mn (x.1.uiso.getD 0) u)) bs (by
    intro it it' i b h0 h1
    rw [bind_eq_ok] at h1
    obtain ⟨u, hu, _⟩ := h1
    have : uanisoUsed (lastHasUaniso comp) (i + 1 == comp.length) it' = .ok u := by
      rw [← hu, h0.1]
      rfl
    exact ⟨_, by simp only [this, ok_bind]; rfl⟩) hbs
  refine ⟨bs'.flatten, ?_⟩
  dsimp only
  rw [hbs', ok_bind]
  rfl

/-! ## The theorems -/

/-- **C213** for a material with a space group and atoms without displacement parameters, any atom of an orbit can be
given instead of another: the material can be made as well and has the same structure factors at integer reflections,
with and without mass normalisation.
Missing: the structure factor may be `nan` for one of the descriptions only (`C213_nan_false`), and displacement
parameters (`C213_displaced_false`). -/
theorem C213_any_atom_partial {l : Lattice} {w : ℝ} {ops : List Op} (hg : IsGroup ops) (hr : Reduced ops)
    {comp comp' : List Item} (h : List.Forall₂ (SameOrbit ops) comp comp') {fu : ℝ} {mn : Bool} {atoms : List Atom}
    (ha : atomsGroup ops comp fu mn = .ok atoms) (hu : ∀ it ∈ comp, it.uiso = none ∧ it.uaniso = none) :
    ∃ atoms', atomsGroup ops comp' fu mn = .ok atoms' ∧ ∀ hkl : Vec, (∃ z : Fin 3 → ℤ, ∀ i, hkl i = z i) →
      ∀ F F', calcNucStrFac l w atoms hkl = .ok F → calcNucStrFac l w atoms' hkl = .ok F' → F' = F := by
  obtain ⟨hmu, atoms', ha'⟩ := sameOrbit_builds h ha
  refine ⟨atoms', ha', ?_⟩
  intro hkl hz F F' hF hF'
  have rig : ∀ {c : List Item} {as : List Atom}, (∀ it ∈ c, it.uiso = none ∧ it.uaniso = none) →
      atomsGroup ops c fu mn = .ok as → ∀ a ∈ as, Rigid a := by
    intro c as hc has a haa
    unfold atomsGroup at has
    rw [bind_eq_ok] at has
    obtain ⟨bs, hbs, has⟩ := has
    cases has
    have hf := mapM_ok_forall hbs
    obtain ⟨b, hb, hab⟩ := List.mem_flatten.1 haa
    obtain ⟨i, hi, rfl⟩ := List.mem_iff_getElem.1 hb
    have hx := (List.forall₂_iff_get.1 hf).2 i (by rw [hf.length_eq]; exact hi) hi
    simp only [List.get_eq_getElem] at hx
    rw [bind_eq_ok] at hx
    obtain ⟨u, hu', hx⟩ := hx
    have hx' := Except.ok.inj hx
    rw [← hx'] at hab
    obtain ⟨p, _, rfl⟩ := List.mem_map.1 hab
    have hi' : i < c.length := by
      have := hf.length_eq
      simp only [List.length_zipIdx] at this
      omega
    have hit : (c.zipIdx[i]'(by simpa using hi')).1 = c[i] := by simp
    rw [hit] at hu' ⊢
    have hci := hc _ (List.getElem_mem hi')
    refine ⟨?_, ?_⟩
    · show c[i].uiso.getD 0 = 0
      rw [hci.1]; rfl
    · show u = 0
      unfold uanisoUsed at hu'
      rw [hci.2] at hu'
      split at hu'
      · exact (Except.ok.inj hu').symm
      · split at hu'
        · cases hu'
        · exact (Except.ok.inj hu').symm
  have hu2 : ∀ it ∈ comp', it.uiso = none ∧ it.uaniso = none := by
    intro it hit
    obtain ⟨i, hi, rfl⟩ := List.mem_iff_getElem.1 hit
    have hx := (List.forall₂_iff_get.1 h).2 i (by rw [h.length_eq]; exact hi) hi
    simp only [List.get_eq_getElem] at hx
    have hi' : i < comp.length := by rw [h.length_eq]; exact hi
    have e := hu _ (List.getElem_mem hi')
    refine ⟨?_, ?_⟩
    · rw [hx.1]; exact e.1
    · rw [hx.1]; exact e.2
  rw [calc_eq_ok] at hF hF'
  rw [total_rigid (rig hu ha) hF.1, atomsGroup_sum ha] at hF
  rw [total_rigid (rig hu2 ha') hF'.1, atomsGroup_sum ha', hmu] at hF'
  rw [hF.2, hF'.2]
  generalize muCell comp * fu = M
  clear ha ha' hF hF' hu hu2 hmu rig
  induction h with
  | nil => rfl
  | @cons it it' c c' h0 _ ih =>
    simp only [List.map_cons, List.sum_cons]
    rw [ih]
    congr 1
    obtain ⟨e1, op, hop, he⟩ := h0
    rw [orbit_sum_same hg hr hop hz he]
    rw [e1]
    rfl

/-! ## Where it fails -/

theorem trivial_group : IsGroup [ident] ∧ Reduced [ident] := by
  have hc : comp ident ident = ident := ident_comp (a := ident) fun i => ⟨le_refl _, by norm_num [ident]⟩
  refine ⟨⟨by simp, by simp, ?_, ?_⟩, ?_⟩
  · intro a ha b hb
    rw [List.mem_singleton] at ha hb
    subst ha hb
    rw [hc]; simp
  · intro a ha
    rw [List.mem_singleton] at ha
    subst ha
    exact ⟨ident, by simp, hc, hc⟩
  · intro o ho i
    rw [List.mem_singleton] at ho
    subst ho
    exact ⟨le_refl _, by norm_num [ident]⟩

theorem act_ident (x : Vec) : act ident x = x := by funext i; simp [act, ident]

/-- The same atom in another cell. -/
theorem next_cell (u : Option ℝ) (n : Fin 3 → ℤ) :
    SameOrbit [ident] (originItem u) { originItem u with pos := fun i => (n i : ℝ) } := by
  refine ⟨rfl, ident, by simp, fun i => -n i, fun i => ?_⟩
  rw [act_ident]
  simp [originItem]

theorem one_atom (it : Item) (hu : it.uaniso = none) :
    atomsGroup [ident] [it] 1 false = .ok [mkAtom it it.pos (muCell [it] * 1) false (it.uiso.getD 0) 0] := by
  unfold atomsGroup
  simp only [List.zipIdx_cons, List.zipIdx_nil, List.mapM_cons, List.mapM_nil, symmetrizePosition, uanisoUsed, act_ident,
    List.length_cons, List.length_nil, beq_self_eq_true, if_true, ok_bind, pure_ok, hu, Option.getD_none,
    List.map_cons, List.map_nil, List.flatten_cons, List.flatten_nil, List.append_nil]

/-- **C213** is false: in every unit cell and for every wavelength an atom can be given in such a way that the structure
factor is `nan`, because the code evaluates a scattering angle at the position of the atom. -/
theorem C213_nan_false {l : Lattice} (hl : Valid l) {w : ℝ} (hw : 0 < w) (hkl : Vec) : ∃ it it' atoms atoms' F,
    SameOrbit [ident] it it' ∧ it.uiso = none ∧ it.uaniso = none ∧
    atomsGroup [ident] [it] 1 false = .ok atoms ∧ atomsGroup [ident] [it'] 1 false = .ok atoms' ∧
    calcNucStrFac l w atoms hkl = .ok F ∧ calcNucStrFac l w atoms' hkl = .error .nan := by
  obtain ⟨⟨F, hF⟩, n, hn⟩ := C52_nan hl hw (mkAtom (originItem none) 0 (muCell [originItem none] * 1) false 0 0) rfl hkl
  refine ⟨originItem none, { originItem none with pos := fun i => (n i : ℝ) }, _, _, F, next_cell none n, rfl, rfl,
    one_atom _ rfl, one_atom _ rfl, hF, ?_⟩
  rw [← hn]
  congr 2
  simp [shift, mkAtom, originItem]

/-- **C213** is false with displacement parameters: in every unit cell, an atom at the origin is not attenuated and the
same atom given in the next cell is. -/
theorem C213_displaced_false {l : Lattice} (hl : Valid l) : ∃ w it it' atoms atoms' F F', 0 < w ∧ SameOrbit [ident] it it' ∧
    atomsGroup [ident] [it] 1 false = .ok atoms ∧ atomsGroup [ident] [it'] 1 false = .ok atoms' ∧
    calcNucStrFac l w atoms 0 = .ok F ∧ calcNucStrFac l w atoms' 0 = .ok F' ∧ F' ≠ F := by
  have hne : (![1, 0, 0] : Vec) ≠ 0 := fun h => by simpa using congrFun h 0
  obtain ⟨d, hd, _⟩ := C41_scaling hl hne (one_ne_zero (α := ℝ))
  obtain ⟨E, G, hE, hG⟩ := valid_realised hl
  obtain ⟨d', h1, hdpos, _, _⟩ := C41_spacing hl hE hG hne
  rw [hd] at h1
  cases h1
  obtain ⟨tt, htt, _, _, hb⟩ := C41_bragg hl hne hd hdpos.le (by linarith : d ≤ 2 * d)
  have hs : sin (deg2rad (tt / 2)) ≠ 0 := by
    intro h0
    unfold deg2rad at h0
    rw [h0, mul_zero] at hb
    exact hdpos.ne' hb
  have hs2 : 0 < sin (deg2rad (tt / 2)) ^ 2 := by positivity
  have hn : (fun i => ((![1, 0, 0] : Fin 3 → ℤ) i : ℝ)) = (![1, 0, 0] : Vec) := by
    funext i; fin_cases i <;> simp
  refine ⟨d, originItem (some 1), { originItem (some 1) with pos := fun i => ((![1, 0, 0] : Fin 3 → ℤ) i : ℝ) }, _, _, _,
    (exp (-8 * π ^ 2 * 1 * sin (deg2rad (tt / 2)) ^ 2 / d ^ 2) : ℝ), hdpos, next_cell (some 1) _, one_atom _ rfl, one_atom _ rfl,
    C103_origin_ignored hl hdpos.ne' rfl 0, ?_, ?_⟩
  · have hA : amp l d (mkAtom { originItem (some 1) with pos := fun i => ((![1, 0, 0] : Fin 3 → ℤ) i : ℝ) }
        (fun i => ((![1, 0, 0] : Fin 3 → ℤ) i : ℝ))
        (muCell [{ originItem (some 1) with pos := fun i => ((![1, 0, 0] : Fin 3 → ℤ) i : ℝ) }] * 1) false ((some (1 : ℝ)).getD 0) 0) =
        .ok ((exp (-8 * π ^ 2 * 1 * sin (deg2rad (tt / 2)) ^ 2 / d ^ 2) : ℝ)) := by
      unfold amp dwIso
      simp only [mkAtom, hn, htt, ok_bind, npDiv_ok (pow_ne_zero 2 hdpos.ne'), pure_ok]
      simp [originItem, dwAniso]
    rw [calc_eq_ok]
    constructor
    · intro a ha
      rw [List.mem_singleton] at ha
      subst ha
      exact ⟨_, hA⟩
    · simp only [total, List.map_cons, List.map_nil, List.sum_cons, List.sum_nil, add_zero, ampOf]
      have hA' := hA
      simp only [originItem] at hA' ⊢
      rw [hA']
      simp [phase]
  · intro h
    have hlt : exp (-8 * π ^ 2 * 1 * sin (deg2rad (tt / 2)) ^ 2 / d ^ 2) < 1 := by
      rw [exp_lt_one_iff, div_neg_iff]
      right
      have := pi_pos
      constructor
      · have : 0 < π ^ 2 * sin (deg2rad (tt / 2)) ^ 2 := by positivity
        nlinarith
      · positivity
    have h2 : exp (-8 * π ^ 2 * 1 * sin (deg2rad (tt / 2)) ^ 2 / d ^ 2) = 1 := by
      have h3 := congrArg Complex.re h
      rw [Complex.ofReal_re] at h3
      rw [h3]
      simp [mkAtom, originItem]
    linarith

/-- The inversion. -/
def inversion : Op := ⟨![![-1, 0, 0], ![0, -1, 0], ![0, 0, -1]], 0⟩

/-- The hypotheses of `C213_any_atom_partial` are met: with an inversion, an atom at `1/4` or at `3/4`. -/
example : IsGroup [ident, inversion] ∧ Reduced [ident, inversion] ∧
    List.Forall₂ (SameOrbit [ident, inversion]) [{ originItem none with pos := ![1 / 4, 0, 0] }]
      [{ originItem none with pos := ![3 / 4, 0, 0] }] ∧
    ∃ atoms, atomsGroup [ident, inversion] [{ originItem none with pos := ![1 / 4, 0, 0] }] 1 false = .ok atoms := by
  refine ⟨⟨by decide +kernel, by decide +kernel, by decide +kernel, by decide +kernel⟩, ?_, .cons ⟨rfl, inversion, by simp, ![-1, 0, 0], fun i => ?_⟩ .nil, ?_⟩
  · intro o ho i
    simp only [List.mem_cons, List.not_mem_nil, or_false] at ho
    rcases ho with rfl | rfl <;> exact ⟨le_refl _, by norm_num [ident, inversion]⟩
  · fin_cases i <;> simp [act, inversion, Fin.sum_univ_three] <;> norm_num
  · exact ⟨_, rfl⟩

end Verif.Structure
