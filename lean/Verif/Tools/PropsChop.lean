import Verif.Tools.PropsKin

/-!
# Property C237: chopping what is chopped
-/

namespace Verif.Tools

/-! ## Lemmas -/

theorem zap_zap {s t : ℚ} (h : s ≤ t) (x : ℚ) : zap t (zap s x) = zap t x ∧ zap s (zap t x) = zap t x := by
  unfold zap
  by_cases h1 : |x| < s
  · have h2 : |x| < t := h1.trans_le h
    simp [h1, h2]
  · by_cases h2 : |x| < t <;> simp [h1, h2]

theorem zapScalar_twice (t x : ℚ) : zapScalar t (zapScalar t x) = zapScalar t x := by
  unfold zapScalar
  by_cases h : x < t <;> simp [h]

mutual
/-- Every complex scalar has an imaginary part that is not zero and not below the tolerance in use. -/
def Solid (tol : ℚ) : Val → Prop
  | .complex _ im => im ≠ 0 ∧ tol ≤ im
  | .real _ | .array _ | .carray _ | .other => True
  | .tup l | .lst l => SolidL l
/-- `Solid` for the items of a container. -/
def SolidL : List Val → Prop
  | [] => True
  | v :: r => Solid defaultTol v ∧ SolidL r
end

theorem carray_twice (t : ℚ) (l : List (ℚ × ℚ)) :
    (l.map fun z => (zap t z.1, zap t z.2)).map (fun z => (zap t z.1, zap t z.2)) = l.map fun z => (zap t z.1, zap t z.2) := by
  rw [List.map_map]
  exact List.map_congr_left fun z _ => Prod.ext (zap_zap le_rfl z.1).1 (zap_zap le_rfl z.2).1

mutual
theorem chop_twice (tol : ℚ) : ∀ v, Solid tol v → ∃ r w w', chop tol v = some (r, w) ∧ chop tol r = some (r, w')
  | .real x, _ => ⟨_, _, _, by rw [chop], by rw [chop, zapScalar_twice]⟩
  | .complex re im, h => by
    obtain ⟨h1, h2⟩ := h
    have e : zapScalar tol im = im := if_neg (not_lt.2 h2)
    exact ⟨_, _, _, by rw [chop, if_pos h1], by rw [chop, zapScalar_twice, e, if_pos h1, e]⟩
  | .array l, _ => ⟨_, _, _, by rw [chop], by
      rw [chop, List.map_map]
      have : zap tol ∘ zap tol = zap tol := funext fun x => (zap_zap le_rfl x).1
      rw [this]⟩
  | .carray l, _ => ⟨.carray (l.map fun z => (zap tol z.1, zap tol z.2)), .carray l,
      .carray (l.map fun z => (zap tol z.1, zap tol z.2)), by rw [chop], by rw [chop, carray_twice]⟩
  | .other, _ => ⟨_, _, _, by rw [chop], by rw [chop]⟩
  | .tup l, h => by
    obtain ⟨r, w, w', h1, h2⟩ := chopL_twice l h
    exact ⟨.tup r, .tup w, .tup w', by rw [chop, h1]; rfl, by rw [chop, h2]; rfl⟩
  | .lst l, h => by
    obtain ⟨r, w, w', h1, h2⟩ := chopL_twice l h
    exact ⟨.lst r, .lst w, .lst w', by rw [chop, h1]; rfl, by rw [chop, h2]; rfl⟩
theorem chopL_twice : ∀ l, SolidL l → ∃ r w w', chopL l = some (r, w) ∧ chopL r = some (r, w')
  | [], _ => ⟨[], [], [], by rw [chopL], by rw [chopL]⟩
  | v :: l, h => by
    obtain ⟨a, b, b', h1, h2⟩ := chop_twice defaultTol v h.1
    obtain ⟨r, w, w', h3, h4⟩ := chopL_twice l h.2
    exact ⟨a :: r, b :: w, b' :: w', by rw [chopL, h1, h3], by rw [chopL, h2, h4]⟩
end

/-! ## C237 -/

/-- C237 (partial).  Chopping a second time changes nothing, for values nested to any depth whose complex scalars have
an imaginary part above the tolerance.  Missing: other complex scalars, see `C237_complex_false`. -/
theorem C237_twice_partial (tol : ℚ) (v : Val) (h : Solid tol v) :
    ∃ r, (chop tol v).map Prod.fst = some r ∧ (chop tol r).map Prod.fst = some r := by
  obtain ⟨r, w, w', h1, h2⟩ := chop_twice tol v h
  exact ⟨r, by rw [h1]; rfl, by rw [h2]; rfl⟩

/-- C237 is false for complex scalars: if the imaginary part is chopped, the result cannot be chopped again. -/
theorem C237_complex_false {tol re im : ℚ} (h0 : im ≠ 0) (h : im < tol) :
    ∃ r w, chop tol (.complex re im) = some (r, w) ∧ chop tol r = none := by
  refine ⟨.complex (zapScalar tol re) 0, .complex re im, ?_, ?_⟩
  · rw [chop, if_pos h0]
    simp [zapScalar, h]
  · rw [chop, if_neg (by simp)]

/-- C237.  Of two tolerances used for an array one after the other, in either order, the larger counts. -/
theorem C237_tolerances {s t : ℚ} (h : s ≤ t) (l : List ℚ) :
    ∃ a b, (chop s (.array l)).map Prod.fst = some a ∧ (chop t (.array l)).map Prod.fst = some b ∧
      (chop t a).map Prod.fst = some b ∧ (chop s b).map Prod.fst = some b := by
  refine ⟨.array (l.map (zap s)), .array (l.map (zap t)), by rw [chop]; rfl, by rw [chop]; rfl, ?_, ?_⟩
  · rw [chop, List.map_map, show zap t ∘ zap s = zap t from funext fun x => (zap_zap h x).1]
    rfl
  · rw [chop, List.map_map, show zap s ∘ zap t = zap t from funext fun x => (zap_zap h x).2]
    rfl

/-- C237.  No entry of an array moves by the tolerance or more, and the sign is kept. -/
theorem C237_near {tol : ℚ} (ht : 0 < tol) (l : List ℚ) :
    ∃ m, (chop tol (.array l)).map Prod.fst = some (.array m) ∧
      List.Forall₂ (fun x y => |x - y| < tol ∧ (0 ≤ x → 0 ≤ y) ∧ (x ≤ 0 → y ≤ 0)) l m := by
  refine ⟨l.map (zap tol), by rw [chop]; rfl, ?_⟩
  rw [List.forall₂_map_right_iff, List.forall₂_same]
  intro x _
  unfold zap
  by_cases h : |x| < tol
  · simp [h]
  · simp [h, ht]

example : Solid 1 (.lst [.real (-3), .tup [.array [-1, 2], .complex 0 1], .other]) := by
  simp [Solid, SolidL, defaultTol]
  norm_num

end Verif.Tools
