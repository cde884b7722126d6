import Verif.Instrument.PrintedLemmas
import Verif.Instrument.Model
import Verif.Symmetry.PropsDatabase
import Verif.Energy.Props

/-! # Property theorems: the printed form of an object makes it again (C185) -/

namespace Verif.Instrument.Printed

open Verif.Instrument.Create (Name)

/-- What evaluating a text gives, for a class and its constructor. -/
def remade {α : Type} (cls : Name) (make : List Val → List (Name × Val) → Except PyErr α) (text : List Tok) : Except PyErr α :=
  match evaluated text with
  | .ok (c, pos, kw) => if c = cls then make pos kw else .error .nameError
  | .error e => .error e

theorem remade_printed {α : Type} (cls : Name) (make : List Val → List (Name × Val) → Except PyErr α) {pos : List Val} {kw : List (Name × Val)}
    (hp : ∀ v ∈ pos, Plain v) (hk : ∀ e ∈ kw, Plain e.2) : remade cls make (printed cls pos kw) = make pos kw := by
  unfold remade
  rw [evaluated_printed cls hp hk]
  simp

theorem cell_plain (l : Cell) : ∀ v ∈ l.pos, Plain v := by
  intro v hv
  simp only [Cell.pos, List.mem_cons, List.not_mem_nil, or_false] at hv
  rcases hv with rfl | rfl | rfl | rfl | rfl | rfl <;> trivial

theorem plain_ifAny {k : Name} {o : Option ℚ} : ∀ e ∈ ifAny k (o.map .num), Plain e.2 := by
  cases o <;> simp [ifAny, Plain]

/-- C185 for a `Lattice`: evaluating its text gives a lattice with the same six numbers. -/
theorem C185_lattice (l : Cell) : remade cs!"Lattice" makeCell l.repr = .ok l := by
  unfold Cell.repr
  rw [remade_printed _ _ (cell_plain l) (by simp)]
  rfl

/-- C185 for a `Goniometer` whose vectors are lists. -/
theorem C185_goniometer_partial {g : GoniometerObj} (h : ∀ v ∈ [g.u, g.thetaU, g.v, g.thetaV, g.sgu, g.sgl, g.omega], Plain v) :
    remade cs!"Goniometer" makeGoniometer g.repr = .ok g := by
  unfold GoniometerObj.repr
  rw [remade_printed _ _ h (by simp)]
  rfl

/-- C185 for a `SpaceGroup`: every group of the database prints a text that makes the same group. -/
theorem C185_group : ∀ e ∈ Verif.Symmetry.database, remade cs!"SpaceGroup" (fun pos kw => match pos, kw with
    | [.num q], [] => if q.den = 1 then .ok (Verif.Symmetry.lookup Verif.Symmetry.database (.int q.num)) else .error .typeError
    | _, _ => .error .typeError) (groupRepr e.number) = .ok (.ok e) := by
  intro e he
  unfold groupRepr
  rw [remade_printed _ _ (by simp [Plain]) (by simp)]
  simp [(Verif.Symmetry.C83_names e he).1]

/-- C185 for an `Energy` given by a number: the text makes an energy with the same properties. -/
theorem C185_energy (c : Verif.Energy.Consts) (q : ℚ) : remade cs!"Energy" (fun pos kw => match pos, kw with
    | [.num q], [] => .ok (Verif.Energy.create c ⟨some (q : ℝ), none, none, none, none, none⟩)
    | _, _ => .error .typeError) (energyRepr q) = .ok (.ok (Verif.Energy.derive c q)) := by
  unfold energyRepr
  rw [remade_printed _ _ (by simp [Plain]) (by simp)]
  rfl

/-! ## Samples -/

theorem numberOf_num (o : Option ℚ) : numberOf (o.map .num) = .ok o := by cases o <;> rfl

/-- C185 for a `Sample` without orientation vectors: the text makes a sample with the same attributes, but without its distance, and
with the default shape. -/
theorem C185_sample {s : SampleObj} (hu : s.u = none) (hv : s.v = none) :
    remade cs!"Sample" makeSample s.repr = .ok { s with shapeType := .text [.name cs!"rectangular"], distance := none } := by
  obtain ⟨cell, u, v, mosaic, vmosaic, dir, width, height, depth, st, distance⟩ := s
  simp only at hu hv
  subst hu hv
  unfold SampleObj.repr
  rw [remade_printed _ _ (cell_plain _)]
  · cases mosaic <;> cases vmosaic <;> cases width <;> cases height <;> cases depth <;> rfl
  · intro e he
    simp only [Option.map_none, List.mem_append, List.mem_cons] at he
    rcases he with h | h | h | h | rfl | h | h | h
    · simp [ifAny] at h
    · simp [ifAny] at h
    · exact plain_ifAny e h
    · exact plain_ifAny e h
    · trivial
    · exact plain_ifAny e h
    · exact plain_ifAny e h
    · exact plain_ifAny e h

/-- C185 (partial) for a `Sample`.  Missing: samples with orientation vectors (`C185_vectors_false`), with a distance or of another shape
(`C185_distance_false`). -/
theorem C185_sample_partial {s : SampleObj} (hu : s.u = none) (hv : s.v = none) (hd : s.distance = none)
    (hs : s.shapeType = .text [.name cs!"rectangular"]) : remade cs!"Sample" makeSample s.repr = .ok s := by
  rw [C185_sample hu hv]
  obtain ⟨cell, u, v, mosaic, vmosaic, dir, width, height, depth, st, distance⟩ := s
  simp only at hd hs
  subst hd hs
  rfl

/-- C185 fails.  A sample with a distance, or of another shape, prints a text that makes another sample. -/
theorem C185_distance_false {s : SampleObj} (hu : s.u = none) (hv : s.v = none)
    (h : s.distance ≠ none ∨ s.shapeType ≠ .text [.name cs!"rectangular"]) : remade cs!"Sample" makeSample s.repr ≠ .ok s := by
  rw [C185_sample hu hv]
  intro e
  have e := Except.ok.inj e
  rcases h with h | h
  · exact h (congrArg SampleObj.distance e).symm
  · exact h (congrArg SampleObj.shapeType e).symm

theorem args_prefix (as : List (Option Name × Val)) (h : ∀ a ∈ as, Plain a.2) (x : List Tok) (r : List (List Tok)) : ∀ n,
    (commas (as.map argText ++ x :: r)).length + 2 ≤ n → ∃ m, (commas (x :: r)).length + 2 ≤ m ∧ ∀ ts,
    args n (commas (as.map argText ++ x :: r) ++ .rpar :: ts) =
      (args m (commas (x :: r) ++ .rpar :: ts)).map fun q => ((as.map fun a => (a.1, .ok a.2)) ++ q.1, q.2) := by
  induction as with
  | nil => exact fun n hn => ⟨n, hn, fun ts => by simp⟩
  | cons a as ih =>
    intro n hn
    obtain ⟨k, rfl⟩ : ∃ k, n = k + 1 := ⟨n - 1, by omega⟩
    have hc : commas ((a :: as).map argText ++ x :: r) = argText a ++ .comma :: commas (as.map argText ++ x :: r) := by
      cases as <;> simp [commas]
    rw [hc] at hn ⊢
    simp only [List.length_append, List.length_cons] at hn
    obtain ⟨m, hm, e⟩ := ih (fun b hb => h b (List.mem_cons_of_mem _ hb)) k (by omega)
    refine ⟨m, hm, fun ts => ?_⟩
    rw [List.append_assoc, List.cons_append, args_step (h a (by simp)) (by omega) ⟨_, .inl rfl⟩]
    simp only
    rw [e ts]
    cases args m (commas (x :: r) ++ .rpar :: ts) <;> simp

/-- C185 fails.  The text of a sample with an orientation vector is not Python, or makes a sample whose vector has one component. -/
theorem C185_vectors_false {s : SampleObj} {x y : ℚ} {l : List ℚ} (hu : s.u = some (x :: y :: l)) :
    remade cs!"Sample" makeSample s.repr ≠ .ok s := by
  intro hs
  obtain ⟨kw, hkw⟩ : ∃ kw, s.repr = printed cs!"Sample" s.cell.pos ((cs!"u", .arr (x :: y :: l)) :: kw) := by
    unfold SampleObj.repr
    rw [hu]
    exact ⟨_, rfl⟩
  rw [hkw] at hs
  unfold remade evaluated printed at hs
  simp only at hs
  have e : s.cell.pos.map Val.str ++ ((cs!"u", Val.arr (x :: y :: l)) :: kw).map keyword =
      (s.cell.pos.map fun v => ((none : Option Name), v)).map argText ++ keyword (cs!"u", .arr (x :: y :: l)) :: kw.map keyword := by
    simp [List.map_map, Function.comp_def, argText]
  rw [e] at hs
  obtain ⟨m, hm, ha⟩ := args_prefix (s.cell.pos.map fun v => ((none : Option Name), v)) (by
    intro a ha
    obtain ⟨v, hv, rfl⟩ := List.mem_map.1 ha
    exact cell_plain _ v hv) (keyword (cs!"u", .arr (x :: y :: l))) (kw.map keyword)
    ((commas ((s.cell.pos.map fun v => ((none : Option Name), v)).map argText ++ keyword (cs!"u", .arr (x :: y :: l)) :: kw.map keyword) ++
      [Tok.rpar]).length + 1) (by rw [List.length_append]; simp)
  rw [ha []] at hs
  obtain ⟨rest, hrest, hc⟩ : ∃ rest, Ends rest ∧ commas (keyword (cs!"u", Val.arr (x :: y :: l)) :: kw.map keyword) ++ [.rpar] =
      .name cs!"u" :: .eq :: ((Val.arr (x :: y :: l)).str ++ rest) := by
    cases kw with
    | nil => exact ⟨[.rpar], ⟨[], .inr (.inl rfl)⟩, by simp [commas, keyword]⟩
    | cons k kw => exact ⟨.comma :: (commas ((k :: kw).map keyword) ++ [.rpar]), ⟨_, .inl rfl⟩, by simp [commas, keyword]⟩
  rw [hc] at hs
  obtain ⟨m, rfl⟩ : ∃ k, m = k + 1 := ⟨m - 1, by omega⟩
  simp only [args] at hs
  rcases term_array x (y :: l) m rest with h | ⟨r, h, hr⟩
  · rw [h] at hs
    simp at hs
  · rw [h] at hs
    simp only at hs
    cases m with
    | zero => simp [diff] at hs
    | succ m =>
      rw [diff_ends hrest] at hs
      -- what the rest of the text may be
      have key : ∀ q : List (Option Name × Except PyErr Val), (match (arrange ((s.cell.pos.map fun v => ((none : Option Name), v)).map
          (fun a => (a.1, Except.ok a.2)) ++ (some cs!"u", r) :: q)).map fun r => (cs!"Sample", r) with
          | .ok (c, pos, kw) => if c = cs!"Sample" then makeSample pos kw else .error .nameError
          | .error e => .error e) ≠ .ok s := by
        intro q
        have ec : (s.cell.pos.map fun v => ((none : Option Name), v)).map (fun a => (a.1, Except.ok (ε := PyErr) a.2)) =
            [(none, .ok (.num s.cell.a)), (none, .ok (.num s.cell.b)), (none, .ok (.num s.cell.c)), (none, .ok (.num s.cell.alpha)),
              (none, .ok (.num s.cell.beta)), (none, .ok (.num s.cell.gamma))] := rfl
        rw [ec]
        rcases hr with ⟨e, rfl⟩ | ⟨z, rfl⟩
        · simp [arrange, bind, Except.bind, Except.map]
        · cases hq : arrange q with
          | error e => simp [arrange, hq, bind, Except.bind, Except.map]
          | ok p =>
            obtain ⟨p, k⟩ := p
            cases p with
            | cons => simp [arrange, hq, bind, Except.bind, Except.map, throw, throwThe, MonadExceptOf.throw]
            | nil =>
              simp only [List.cons_append, List.nil_append, arrange, hq, bind, Except.bind, Except.map, pure, Except.pure, if_true]
              intro hm'
              unfold makeSample at hm'
              simp only [bind, Except.bind, pure, Except.pure] at hm'
              unfold bindExact at hm'
              split at hm'
              · cases hm'
              · next g hg =>
                split_ifs at hg
                have hg := Except.ok.inj hg
                have gu : g cs!"u" = some (.list [z]) := by
                  rw [← hg]
                  rfl
                rw [gu] at hm'
                simp only [vectorOf, given] at hm'
                repeat' split at hm'
                all_goals first | (cases hm'; done) | skip
                all_goals
                  have := Except.ok.inj hm'
                  rw [← this] at hu
                  simp at hu
      revert hs
      obtain ⟨t, rfl | rfl | rfl⟩ := hrest
      · simp only
        cases args (m + 1) t with
        | none => simp
        | some p =>
          obtain ⟨p, t'⟩ := p
          cases t' with
          | nil => exact key p
          | cons => simp
      · simp only [Option.map_some]
        cases t with
        | nil => exact key []
        | cons => simp
      · simp

/-! ## Monochromators and analyzers -/

theorem common_plain (m : CrystalObj) : ∀ e ∈ m.common, Plain e.2 := by
  intro e he
  simp only [CrystalObj.common, List.mem_append, List.mem_cons] at he
  rcases he with rfl | h | h | h | h | h | h
  · trivial
  all_goals exact plain_ifAny e h

/-- C185 (partial) for a `Monochromator` whose crystal is given by a number.  Missing: crystals given by name (`C185_name_false`). -/
theorem C185_mono_partial {m : CrystalObj} {t : ℚ} (ht : m.tau = .num t) (h1 : m.horifoc = none) (h2 : m.thickness = none) (h3 : m.Q = none) :
    remade cs!"Monochromator" makeMono m.reprMono = .ok m := by
  unfold CrystalObj.reprMono
  rw [remade_printed _ _ (by simp [ht, Plain]) (common_plain m)]
  obtain ⟨tau, mosaic, dir, vmosaic, height, width, depth, rh, rv, horifoc, thickness, Q⟩ := m
  simp only at ht h1 h2 h3
  subst ht h1 h2 h3
  cases vmosaic <;> cases height <;> cases width <;> cases depth <;> cases rh <;> cases rv <;> rfl

/-- The names of crystals are like calls: a symbol and a number in parentheses. -/
def crystalName (f : Name) (index : Tok) : Val := .text [.name f, .lpar, index, .rpar]

theorem args_name (f : Name) (q : Tok) (hq : q = .other ∨ ∃ x, q = .num x) (n : ℕ) (ts : List Tok) :
    args n ([.name f, .lpar, q, .rpar] ++ .comma :: ts) = none ∨
    ∃ r r', args n ([.name f, .lpar, q, .rpar] ++ .comma :: ts) = some ((none, .error .nameError) :: r, r') := by
  rcases n with _ | _ | _ | _ | n
  · exact .inl rfl
  · exact .inl rfl
  · exact .inl rfl
  · rcases hq with rfl | ⟨x, rfl⟩ <;> exact .inl rfl
  · rcases hq with rfl | ⟨x, rfl⟩
    · exact .inl rfl
    · have e : args (n + 4) ([.name f, .lpar, .num x, .rpar] ++ .comma :: ts) =
          (args (n + 3) ts).map fun r => ((none, .error .nameError) :: r.1, r.2) := rfl
      rw [e]
      cases args (n + 3) ts with
      | none => exact .inl rfl
      | some p => exact .inr ⟨p.1, p.2, rfl⟩

/-- C185 fails.  The text of a monochromator or analyzer whose crystal is given by name raises when it is evaluated: the name has no quotes. -/
theorem C185_name_false {m : CrystalObj} {f : Name} {q : Tok} (ht : m.tau = crystalName f q) (hq : q = .other ∨ ∃ x, q = .num x) :
    (∃ e, remade cs!"Monochromator" makeMono m.reprMono = .error e) ∧ ∃ e, remade cs!"Analyzer" makeAna m.reprAna = .error e := by
  have key {α : Type} (cls : Name) (make : List Val → List (Name × Val) → Except PyErr α) (kw : List (Name × Val)) :
      ∃ e, remade cls make (printed cls [m.tau, .num m.mosaic] kw) = .error e := by
    obtain ⟨ts, hts⟩ : ∃ ts, commas ([m.tau, .num m.mosaic].map Val.str ++ kw.map keyword) ++ [.rpar] = [.name f, .lpar, q, .rpar] ++ .comma :: ts := by
      rw [ht]
      simp only [List.map_cons, List.map_nil, List.cons_append, List.nil_append, commas, crystalName, Val.str]
      exact ⟨_, rfl⟩
    unfold remade evaluated printed
    rw [hts]
    simp only
    rcases args_name f q hq ((([.name f, .lpar, q, .rpar] ++ .comma :: ts) : List Tok).length + 1) ts with h | ⟨r, r', h⟩
    · rw [h]
      exact ⟨_, rfl⟩
    · rw [h]
      cases r' with
      | nil => exact ⟨.nameError, rfl⟩
      | cons => exact ⟨_, rfl⟩
  exact ⟨key _ _ _, key _ _ _⟩

/-- What the text of an `Analyzer` whose crystal is given by a number makes: everything that the constructor does not pass on is lost. -/
theorem C185_ana {m : CrystalObj} {t : ℚ} (ht : m.tau = .num t) : remade cs!"Analyzer" makeAna m.reprAna =
    .ok ⟨m.tau, m.mosaic, -1, none, none, none, none, none, none, some (m.horifoc.getD (-1)), m.thickness, m.Q⟩ := by
  unfold CrystalObj.reprAna
  rw [remade_printed _ _ (by simp [ht, Plain])]
  · obtain ⟨tau, mosaic, dir, vmosaic, height, width, depth, rh, rv, horifoc, thickness, Q⟩ := m
    simp only at ht
    subst ht
    set kw := CrystalObj.common ⟨.num t, mosaic, dir, vmosaic, height, width, depth, rh, rv, horifoc, thickness, Q⟩ ++
      (ifAny cs!"horifoc" (horifoc.map .num) ++ (ifAny cs!"thickness" (thickness.map .num) ++ ifAny cs!"Q" (Q.map .num))) with hkw
    have hkeys : ∀ e ∈ kw, e.1 ∈ anaNames.drop 2 := by
      have one (k : Name) (o : Option Val) (hk : k ∈ anaNames.drop 2) : ∀ e ∈ ifAny k o, e.1 ∈ anaNames.drop 2 := by
        cases o with
        | none => simp [ifAny]
        | some v => simpa [ifAny] using hk
      intro e he
      simp only [hkw, CrystalObj.common, List.mem_append, List.mem_cons] at he
      rcases he with (rfl | h | h | h | h | h | h) | h | h | h
      · exact (by decide : cs!"direct" ∈ anaNames.drop 2)
      all_goals exact one _ _ (by decide) e h
    have none_of (k : Name) (hk : k ∉ anaNames.drop 2) : kw.lookup k = none := by
      rw [List.lookup_eq_none_iff]
      intro e he
      have := hkeys e he
      simp only [beq_eq_false_iff_ne, ne_eq, bne_iff_ne]
      rintro rfl
      exact hk this
    have hb : bindExact anaNames 2 [.num t, .num mosaic] kw = .ok fun s => ((anaNames.zip [.num t, .num mosaic]).lookup s).or (kw.lookup s) := by
      unfold bindExact
      have c1 : (anaNames.take [Val.num t, .num mosaic].length) = [cs!"tau", cs!"mosaic"] := rfl
      rw [if_neg (by simp [anaNames, monoNames]), c1, if_neg (by simp [none_of cs!"tau" (by decide), none_of cs!"mosaic" (by decide)]), if_neg, if_neg (by simp [anaNames, monoNames])]
      intro h
      obtain ⟨e, he, h⟩ := List.any_eq_true.1 h
      have := hkeys e he
      simp only [decide_not, Bool.not_eq_true', decide_eq_false_iff_not] at h
      exact h (List.mem_of_mem_drop this)
    have look (k : Name) (hk : (anaNames.zip [Val.num t, .num mosaic]).lookup k = none) :
        ((anaNames.zip [Val.num t, .num mosaic]).lookup k).or (kw.lookup k) = kw.lookup k := by rw [hk]; rfl
    have comm (k : Name) (h1 : (k == cs!"direct") = false) (h2 : (k == cs!"vmosaic") = false) (h3 : (k == cs!"height") = false)
        (h4 : (k == cs!"width") = false) (h5 : (k == cs!"depth") = false) (h6 : (k == cs!"rh") = false) (h7 : (k == cs!"rv") = false) :
        kw.lookup k = (ifAny cs!"horifoc" (horifoc.map .num) ++ (ifAny cs!"thickness" (thickness.map .num) ++ ifAny cs!"Q" (Q.map .num))).lookup k := by
      simp only [hkw, CrystalObj.common, List.cons_append, List.append_assoc, List.lookup_cons, h1]
      rw [lookup_ifAny_ne h2, lookup_ifAny_ne h3, lookup_ifAny_ne h4, lookup_ifAny_ne h5, lookup_ifAny_ne h6, lookup_ifAny_ne h7]
    have l1 : kw.lookup cs!"horifoc" = horifoc.map .num := by
      rw [comm _ rfl rfl rfl rfl rfl rfl rfl, lookup_ifAny_self, lookup_ifAny_ne rfl]
      cases horifoc <;> cases Q <;> rfl
    have l2 : kw.lookup cs!"thickness" = thickness.map .num := by
      rw [comm _ rfl rfl rfl rfl rfl rfl rfl, lookup_ifAny_ne rfl, lookup_ifAny_self]
      cases thickness <;> cases Q <;> rfl
    have l3 : kw.lookup cs!"Q" = Q.map .num := by
      rw [comm _ rfl rfl rfl rfl rfl rfl rfl, lookup_ifAny_ne rfl, lookup_ifAny_ne rfl]
      cases Q <;> rfl
    unfold makeAna
    rw [hb]
    simp only [bind, Except.bind]
    rw [look cs!"horifoc" rfl, look cs!"thickness" rfl, look cs!"Q" rfl, l1, l2, l3]
    cases horifoc <;> cases thickness <;> cases Q <;> rfl
  · intro e he
    simp only [List.mem_append] at he
    rcases he with h | h | h | h
    · exact common_plain m e h
    all_goals exact plain_ifAny e h

/-- C185 (partial) for an `Analyzer`: one with a number for its crystal and nothing else but what the constructor keeps. -/
theorem C185_ana_partial {m : CrystalObj} {t hf : ℚ} (ht : m.tau = .num t) (hd : m.dir = -1)
    (hn : m.vmosaic = none ∧ m.height = none ∧ m.width = none ∧ m.depth = none ∧ m.rh = none ∧ m.rv = none) (hh : m.horifoc = some hf) :
    remade cs!"Analyzer" makeAna m.reprAna = .ok m := by
  rw [C185_ana ht]
  obtain ⟨tau, mosaic, dir, vmosaic, height, width, depth, rh, rv, horifoc, thickness, Q⟩ := m
  simp only at hd hn hh
  obtain ⟨rfl, rfl, rfl, rfl, rfl, rfl⟩ := hn
  subst hd hh
  rfl

/-- C185 fails.  An analyzer with another sense, a vertical mosaic, a size or a curvature prints a text that makes one without them. -/
theorem C185_analyzer_false {m : CrystalObj} {t : ℚ} (ht : m.tau = .num t)
    (h : m.dir ≠ -1 ∨ m.vmosaic ≠ none ∨ m.height ≠ none ∨ m.width ≠ none ∨ m.depth ≠ none ∨ m.rh ≠ none ∨ m.rv ≠ none) :
    remade cs!"Analyzer" makeAna m.reprAna ≠ .ok m := by
  rw [C185_ana ht]
  intro e
  have e := Except.ok.inj e
  rcases h with h | h | h | h | h | h | h
  · exact h (congrArg CrystalObj.dir e).symm
  · exact h (congrArg CrystalObj.vmosaic e).symm
  · exact h (congrArg CrystalObj.height e).symm
  · exact h (congrArg CrystalObj.width e).symm
  · exact h (congrArg CrystalObj.depth e).symm
  · exact h (congrArg CrystalObj.rh e).symm
  · exact h (congrArg CrystalObj.rv e).symm

/-! ## Other classes -/

/-- C185 fails for every `Detector`: the text raises, whatever the shape, since the shape has no quotes; even if it had, `resolution` is not
an argument. -/
theorem C185_detector_false (shape : Name) (hs : shape ≠ cs!"None") {width height radius : Val} {orientation deadAngles : Option Val} :
    (∃ e, remade cs!"Detector" makeDetector (detectorRepr (.text [.name shape]) width height radius orientation deadAngles) = .error e) ∧
    ∀ pos v kw, ∃ e, makeDetector pos ((cs!"resolution", v) :: kw) = .error e := by
  constructor
  · obtain ⟨ts, hts⟩ : ∃ ts, detectorRepr (.text [.name shape]) width height radius orientation deadAngles =
        .name cs!"Detector" :: .lpar :: .name shape :: .comma :: ts := by
      unfold detectorRepr printed
      simp only [List.map_cons, List.cons_append, commas, Val.str, List.nil_append]
      exact ⟨_, rfl⟩
    rw [hts]
    unfold remade evaluated
    simp only
    have e (n : ℕ) : args (n + 3) (.name shape :: .comma :: ts) = (args (n + 2) ts).map fun r => ((none, lookupName shape) :: r.1, r.2) := rfl
    rw [List.length_cons, List.length_cons, e]
    cases args (ts.length + 2) ts with
    | none => exact ⟨_, rfl⟩
    | some p =>
      obtain ⟨p, r⟩ := p
      cases r with
      | nil =>
        refine ⟨.nameError, ?_⟩
        simp only [Option.map_some, arrange, lookupName, if_neg hs]
        rfl
      | cons => exact ⟨_, rfl⟩
  · intro pos v kw
    unfold makeDetector bindExact
    split_ifs with h1 h2 h3
    · exact ⟨_, rfl⟩
    · exact ⟨_, rfl⟩
    · exact ⟨_, rfl⟩
    · exact ⟨_, rfl⟩
    · exact absurd (by simp [detectorNames]) h3

/-- C185 fails for every `Chopper`: there is no text. -/
theorem C185_chopper_false (c : Verif.Instrument.Chopper) : ∃ e, c.repr = .error e := by
  unfold Verif.Instrument.Chopper.repr
  split_ifs
  · exact ⟨_, rfl⟩
  · split <;> exact ⟨_, rfl⟩

/-- C185 fails for every `Atom` and `MagneticAtom`: the position is missing in the text. -/
theorem C185_atom_false (ion : Name) : remade cs!"Atom" (bindExact atomNames 2) (atomRepr ion) = .error .typeError ∧
    remade cs!"MagneticAtom" (bindExact magneticAtomNames 4) (magneticAtomRepr ion) = .error .typeError := ⟨rfl, rfl⟩

/-- C185 fails for every triple axis instrument: its text gives the fixed energy twice. -/
theorem C185_tas_false {L : Verif.Instrument.Create.Lib Val} (hL : ∀ s, L.text s = .text [.name s]) (efixed : ℚ) :
    ∃ pos kw, evaluated (tasRepr (.num efixed)) = .ok (cs!"Instrument", pos, kw) ∧ Verif.Instrument.Create.create L pos kw = .error .typeError := by
  refine ⟨[.text [.name cs!"tas"]], [(cs!"engine", .text [.name cs!"neutronpy"]), (cs!"efixed", .num efixed)], ?_, ?_⟩
  · unfold tasRepr
    by_cases h : efixed < 0
    · simp only [Val.str, showNum, if_pos h]
      have : (-(-efixed)) = efixed := by ring
      show Except.ok (cs!"Instrument", [Val.text [.name cs!"tas"]], [(cs!"engine", Val.text [.name cs!"neutronpy"]), (cs!"efixed", .num (- -efixed))]) = _
      rw [this]
    · simp only [Val.str, showNum, if_neg h]
      rfl
  · unfold Verif.Instrument.Create.create
    simp only [Verif.Instrument.Create.setDefault, hL]
    rfl

/-- C185 fails for every time-of-flight instrument: in its text the energy is a table, which is not Python. -/
theorem C185_tof_false (energy : ℚ) (more : List Tok) : evaluated (tofRepr (valuesText energy more)) = .error .syntaxError := rfl

/-! ## Cases -/

/-- A sample with a mosaic. -/
example : remade cs!"Sample" makeSample (SampleObj.repr ⟨⟨6, 7, 8, 90, 90, 120⟩, none, none, some 30, none, 1, some 2, none, none,
    .text [.name cs!"rectangular"], none⟩) = .ok ⟨⟨6, 7, 8, 90, 90, 120⟩, none, none, some 30, none, 1, some 2, none, none,
    .text [.name cs!"rectangular"], none⟩ := C185_sample_partial rfl rfl rfl rfl

/-- A sample in the plane of (1, 0, 0) and (0, 1, 0) prints a text that is not Python. -/
example : remade cs!"Sample" makeSample (SampleObj.repr ⟨⟨6, 7, 8, 90, 90, 120⟩, some [1, 0, 0], some [0, 1, 0], none, none, 1, none, none, none,
    .text [.name cs!"rectangular"], none⟩) = .error .syntaxError := by decide +kernel

/-- One with (1, -1, -1) and (-1, -1) makes a sample with the vectors (-1) and (-2). -/
example : remade cs!"Sample" makeSample (SampleObj.repr ⟨⟨6, 7, 8, 90, 90, 120⟩, some [1, -1, -1], some [-1, -1], none, none, 1, none, none, none,
    .text [.name cs!"rectangular"], none⟩) = .ok ⟨⟨6, 7, 8, 90, 90, 120⟩, some [-1], some [-2], none, none, 1, none, none, none,
    .text [.name cs!"rectangular"], none⟩ := by decide +kernel

/-- A crystal given by a number, one by a name, and a bent analyzer. -/
example : (∃ m : CrystalObj, m.tau = .num 2 ∧ m.horifoc = none ∧ m.thickness = none ∧ m.Q = none ∧ m.rh = some 100) ∧
    (∃ m : CrystalObj, m.tau = crystalName cs!"Cu" (.num 111)) ∧ ∃ m : CrystalObj, m.tau = .num 2 ∧ m.rv ≠ none :=
  ⟨⟨⟨.num 2, 25, 1, none, none, none, none, some 100, none, none, none, none⟩, rfl, rfl, rfl, rfl, rfl⟩,
    ⟨⟨crystalName cs!"Cu" (.num 111), 25, 1, none, none, none, none, none, none, none, none, none⟩, rfl⟩,
    ⟨⟨.num 2, 25, 1, none, none, none, none, none, some 3, some (-1), none, none⟩, rfl, by simp⟩⟩

/-- Goniometers with lists. -/
example : ∀ v ∈ [Val.list [1, 0, 0], .num 10, .list [0, 1, 0], .num 20, .num 1, .num (-2), .num 0], Plain v := by simp [Plain]

end Verif.Instrument.Printed
