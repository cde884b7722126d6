import Verif.Symmetry.DatabaseCheck

/-!
# Properties C47, C49, C83, C84 for the space groups of the database
-/

namespace Verif.Symmetry

theorem check_database : ∀ e ∈ database, check e = true := by
  intro e he
  simp only [database, List.mem_append] at he
  rcases he with (((h | h) | h) | h) | h
  · exact List.all_eq_true.1 check_db1 e h
  · exact List.all_eq_true.1 check_db2 e h
  · exact List.all_eq_true.1 check_db3 e h
  · exact List.all_eq_true.1 check_db4 e h
  · exact List.all_eq_true.1 check_db5 e h

/-- **C47** the operations of every space group of the database: the construction succeeds, gives the
recorded number of operations, they are exactly the compositions of the generators, and they form a
group modulo lattice translations. -/
theorem C47_database : ∀ e ∈ database, ∃ gens ops b, getGeneratorFromStr e.generators = .ok gens ∧
    symmetryOps gens e.total = .ok (ops, b) ∧ IsGroup ops ∧ ops.length = e.total ∧
    ∀ x, x ∈ ops ↔ Generated gens x := by
  intro e he
  have h := check_database e he
  unfold check at h
  split at h
  · cases h
  · rename_i gs hgs
    obtain ⟨h1, h2, h3, h4, h5, h6⟩ := check_sound h
    obtain ⟨ops, b, h7, h8, h9, h10⟩ := C47_group (by norm_num) (by norm_num) h1 h2 h3 h4 h5 h6
    exact ⟨gs, ops, b, hgs, h7, h8, h9, h10⟩

theorem lookup_of_match {a : Arg} {e : Entry}
    (h : (match lookup database a with | .ok e' => decide (e' = e) | .error _ => false) = true) :
    lookup database a = .ok e := by
  split at h
  · rename_i e' h'; rw [h', of_decide_eq_true h]
  · cases h

/-- **C83** a space group is the same whether it is named by its number, its key, its
Hermann-Mauguin symbol or its full name. -/
theorem C83_names : ∀ e ∈ database, lookup database (.int e.number) = .ok e ∧
    lookup database (.str e.key) = .ok e ∧ lookup database (.str e.hm) = .ok e ∧
    lookup database (.str e.fullName) = .ok e := by
  intro e he
  have := List.all_eq_true.1 lookup_table e he
  simp only [Bool.and_eq_true] at this
  exact ⟨lookup_of_match this.1.1.1, lookup_of_match this.1.1.2, lookup_of_match this.1.2,
    lookup_of_match this.2⟩

/-- **C83** `SpaceGroup(n)` exists exactly for 1 to 230. -/
theorem C83_numbers (n : ℤ) :
    (1 ≤ n ∧ n ≤ 230 ↔ ∃ e gens ops, spaceGroup database (.int n) = .ok (e, gens, ops)) ∧
    ∀ e gens ops, spaceGroup database (.int n) = .ok (e, gens, ops) →
      (e.number : ℤ) = n ∧ IsGroup ops ∧ ops.length = e.total := by
  have hall : ∀ k : ℕ, k < 230 → ∃ e ∈ database, e.number = k + 1 := by
    have : (List.range 230).all (fun k => database.any fun e => decide (e.number = k + 1)) = true := by
      decide +kernel
    intro k hk
    obtain ⟨e, he, h⟩ := List.any_eq_true.1 (List.all_eq_true.1 this k (List.mem_range.2 hk))
    exact ⟨e, he, of_decide_eq_true h⟩
  have hrange : ∀ e ∈ database, 1 ≤ e.number ∧ e.number ≤ 230 := by
    have : database.all (fun e => decide (1 ≤ e.number ∧ e.number ≤ 230)) = true := by decide +kernel
    exact fun e he => of_decide_eq_true (List.all_eq_true.1 this e he)
  have hsg : ∀ e ∈ database, ∀ a, lookup database a = .ok e → ∃ gens ops,
      spaceGroup database a = .ok (e, gens, ops) ∧ IsGroup ops ∧ ops.length = e.total := by
    intro e he a ha
    obtain ⟨gens, ops, b, h1, h2, h3, h4, _⟩ := C47_database e he
    refine ⟨gens, ops, ?_, h3, h4⟩
    simp only [spaceGroup, ha, h1, h2, ok_bind, pure_ok]
  have hlook : ∀ e, lookup database (.int n) = .ok e → e ∈ database ∧ (e.number : ℤ) = n := by
    intro e h
    unfold lookup lastMatch at h
    simp only at h
    split at h
    · rename_i e' h'
      cases h
      have := List.mem_of_getLast? h'
      rw [List.mem_filter] at this
      exact ⟨this.1, of_decide_eq_true this.2⟩
    · cases h
  constructor
  · constructor
    · rintro ⟨h1, h2⟩
      obtain ⟨e, he, hn⟩ := hall (n.toNat - 1) (by omega)
      have hn' : (e.number : ℤ) = n := by omega
      obtain ⟨gens, ops, h, _⟩ := hsg e he _ (C83_names e he).1
      rw [hn'] at h
      exact ⟨e, gens, ops, h⟩
    · rintro ⟨e, gens, ops, h⟩
      unfold spaceGroup at h
      rw [bind_eq_ok] at h
      obtain ⟨e', h1, _⟩ := h
      obtain ⟨h3, h4⟩ := hlook e' h1
      have := hrange e' h3
      omega
  · intro e gens ops h
    have h' := h
    unfold spaceGroup at h
    rw [bind_eq_ok] at h
    obtain ⟨e', h1, h⟩ := h
    obtain ⟨h3, h4⟩ := hlook e' h1
    obtain ⟨gens', ops', h5, h6, h7⟩ := hsg e' h3 _ h1
    rw [h'] at h5
    cases h5
    exact ⟨h4, h6, h7⟩

/-- **C49** for the space groups of the database. -/
theorem C49_database {K : Type} [Field K] [CharZero K] {e : Entry} (he : e ∈ database) (x : Fin 3 → K) :
    ∃ gens ops, spaceGroup database (.str e.key) = .ok (e, gens, ops) ∧
    (symmetrizePosition ops x).length = e.total ∧ x ∈ symmetrizePosition ops x ∧
    ∀ op ∈ ops, ∀ p ∈ symmetrizePosition ops x, ∃ q ∈ symmetrizePosition ops x, Equiv (act op p) q := by
  obtain ⟨gens, ops, b, h1, h2, h3, h4, _⟩ := C47_database e he
  obtain ⟨o1, o2, o3, _⟩ := C49_orbit h3 x
  refine ⟨gens, ops, ?_, by rw [o1, h4], o2, o3⟩
  simp only [spaceGroup, (C83_names e he).2.1, h1, h2, ok_bind, pure_ok]

/-! ## C84 -/

/-- What the documentation promises for an unknown name. -/
def Unknown (db : List Entry) : Arg → Prop
  | .int n => ∀ e ∈ db, (e.number : ℤ) ≠ n
  | .str s => ∀ e ∈ db, e.key ≠ s ∧ e.hm ≠ s ∧ e.fullName ≠ s
  | .other => True

theorem lookup_unknown {db : List Entry} {a : Arg} (h : Unknown db a) :
    lookup db a = .error (match a with | .other => .keyError | _ => .attributeError) := by
  cases a with
  | other => rfl
  | int n =>
    have : lastMatch db (fun e => (e.number : ℤ) = n) = none := by
      rw [lastMatch, List.getLast?_eq_none_iff, List.filter_eq_nil_iff]
      intro e he hd
      exact h e he (of_decide_eq_true hd)
    simp only [lookup]
    rw [this]
  | str s =>
    have h1 : db.find? (fun e => decide (e.key = s)) = none := by
      rw [List.find?_eq_none]
      intro e he hd
      exact (h e he).1 (of_decide_eq_true hd)
    have h2 : lastMatch db (fun e => decide (e.hm = s) || decide (e.fullName = s)) = none := by
      rw [lastMatch, List.getLast?_eq_none_iff, List.filter_eq_nil_iff]
      intro e he hd
      rcases (Bool.or_eq_true _ _).mp hd with hd | hd
      · exact (h e he).2.1 (of_decide_eq_true hd)
      · exact (h e he).2.2 (of_decide_eq_true hd)
    simp only [lookup]
    rw [h1, h2]

/-- **C84** constructing an unknown group raises, with `KeyError` only for arguments that are
neither a string nor an integer. -/
theorem C84_constructor (db : List Entry) {a : Arg} (h : Unknown db a) :
    spaceGroup db a = .error (match a with | .other => .keyError | _ => .attributeError) := by
  simp only [spaceGroup, lookup_unknown h, error_bind]

example : Unknown database (.int 231) ∧ Unknown database (.str cs!"Pm3m") := by
  constructor
  · have : (database.all fun e => decide ((e.number : ℤ) ≠ 231)) = true := by decide +kernel
    exact fun e he => of_decide_eq_true (List.all_eq_true.1 this e he)
  · have : (database.all fun e => decide (e.key ≠ cs!"Pm3m" ∧ e.hm ≠ cs!"Pm3m" ∧ e.fullName ≠ cs!"Pm3m")) = true := by
      decide +kernel
    exact fun e he => of_decide_eq_true (List.all_eq_true.1 this e he)

/-- **C84** setting a known name gives the group a new object would be. -/
theorem C84_setter_partial {db : List Entry} {old e : Entry} {a : Arg} (h : lookup db a = .ok e) :
    setSymbol db old a = spaceGroup db a := by
  simp only [setSymbol, spaceGroup, h, ok_bind]

/-- **C84** is false for the setter: an unknown name or number is accepted without an error and the
group stays what it was. -/
theorem C84_setter_silent (db : List Entry) {old : Entry} {a : Arg} (h : Unknown db a) (ha : a ≠ .other)
    (hold : lookup db (.str old.key) = .ok old) :
    setSymbol db old a = spaceGroup db (.str old.key) := by
  have := lookup_unknown h
  cases a with
  | other => exact absurd rfl ha
  | int n => simp only [setSymbol, spaceGroup, this, hold, ok_bind, pure_ok]
  | str s => simp only [setSymbol, spaceGroup, this, hold, ok_bind, pure_ok]

/-- **C84** the negation on the database: every group accepts the number 231. -/
theorem C84_not_rejected : ∀ old ∈ database, ∃ e gens ops,
    setSymbol database old (.int 231) = .ok (e, gens, ops) ∧ e = old := by
  intro old ho
  obtain ⟨gens, ops, b, h1, h2, _⟩ := C47_database old ho
  refine ⟨old, gens, ops, ?_, rfl⟩
  rw [C84_setter_silent database (a := .int 231) _ (by simp) (C83_names old ho).2.1]
  · simp only [spaceGroup, (C83_names old ho).2.1, h1, h2, ok_bind, pure_ok]
  · have : (database.all fun e => decide ((e.number : ℤ) ≠ 231)) = true := by decide +kernel
    exact fun e he => of_decide_eq_true (List.all_eq_true.1 this e he)

end Verif.Symmetry
