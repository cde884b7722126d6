import Verif.Data.RebinProps

set_option linter.unusedSectionVars false

/-!
# Property C212: rebinning in other units
-/

namespace Verif.Data

variable {α : Type} [Field α] [LinearOrder α] [IsStrictOrderedRing α]

/-! ## Specification -/

/-- The value `x` of the column `k` in another unit and counted from another origin. -/
def inUnit (a b : String → α) (k : String) (x : α) : α := a k * x + b k

/-- The data set with every column in another unit and counted from another origin. -/
def inUnits (a b : String → α) (d : DataObj α) : DataObj α :=
  { d with cols := d.cols.map fun c => (c.1, c.2.map (inUnit a b c.1)) }

/-- The same grid in the other units. -/
def specInUnits (a b : String → α) (toBin : List (String × BinAxis α)) : List (String × BinAxis α) :=
  toBin.map fun s => (s.1, ⟨inUnit a b s.1 s.2.lo, inUnit a b s.1 s.2.hi, s.2.n⟩)

/-! ## Lemmas -/

theorem lookup_map_values {β γ : Type} (f : String → β → γ) (t : List (String × β)) (k : String) :
    (t.map fun c => (c.1, f c.1 c.2)).lookup k = (t.lookup k).map (f k) := by
  induction t with
  | nil => rfl
  | cons c t ih =>
    obtain ⟨c1, c2⟩ := c
    by_cases h : k = c1
    · subst h
      simp only [List.map_cons, List.lookup_cons, beq_self_eq_true, Option.map_some]
    · have : (k == c1) = false := by simpa using h
      simp only [List.map_cons, List.lookup_cons, this]
      exact ih

theorem inUnits_lookup (a b : String → α) (d : DataObj α) (k : String) :
    (inUnits a b d).cols.lookup k = (d.cols.lookup k).map (List.map (inUnit a b k)) :=
  lookup_map_values (fun k (c : List α) => c.map (inUnit a b k)) d.cols k

theorem specInUnits_lookup (a b : String → α) (toBin : List (String × BinAxis α)) (k : String) :
    (specInUnits a b toBin).lookup k = (toBin.lookup k).map fun s => ⟨inUnit a b k s.lo, inUnit a b k s.hi, s.n⟩ :=
  lookup_map_values (fun k (s : BinAxis α) => (⟨inUnit a b k s.lo, inUnit a b k s.hi, s.n⟩ : BinAxis α)) toBin k

theorem binKeys_inUnits (a b : String → α) (toBin : List (String × BinAxis α)) (qk : QKeys) (hkl : Bool) :
    binKeys (specInUnits a b toBin) qk hkl = binKeys toBin qk hkl := by
  unfold binKeys specInUnits
  rw [List.map_map]
  rfl

theorem inUnit_id {a b : String → α} {k : String} (h : a k = 1 ∧ b k = 0) (c : List α) : c.map (inUnit a b k) = c := by
  conv_rhs => rw [← List.map_id c]
  apply List.map_congr_left
  intro x _
  simp [inUnit, h.1, h.2]

theorem minOf_inUnit {a b : String → α} {k : String} (ha : 0 < a k) {xs : List α} (hx : xs ≠ []) :
    minOf (xs.map (inUnit a b k)) = inUnit a b k (minOf xs) ∧ maxOf (xs.map (inUnit a b k)) = inUnit a b k (maxOf xs) := by
  have hm : Monotone (inUnit a b k) := by
    intro x y h
    unfold inUnit
    nlinarith
  cases xs with
  | nil => exact absurd rfl hx
  | cons x xs =>
    simp only [minOf, maxOf, List.map_cons, List.tail_cons, List.headD_cons]
    clear hx
    constructor
    · induction xs generalizing x with
      | nil => rfl
      | cons y ys ih => simp only [List.map_cons, List.foldl_cons, ← hm.map_min, ih]
    · induction xs generalizing x with
      | nil => rfl
      | cons y ys ih => simp only [List.map_cons, List.foldl_cons, ← hm.map_max, ih]

theorem axis_inUnits (a b : String → α) {d : DataObj α} {n : Nat} {keys : List String} (h : Binnable d n keys)
    (toBin : List (String × BinAxis α)) {k : String} (hk : k ∈ keys) (ha : 0 < a k) :
    axisOf (inUnits a b d) (specInUnits a b toBin) k =
      ⟨inUnit a b k (axisOf d toBin k).lo, inUnit a b k (axisOf d toBin k).hi, (axisOf d toBin k).n⟩ := by
  unfold axisOf
  rw [specInUnits_lookup, inUnits_lookup]
  obtain ⟨c, hc, hl⟩ := h.lookup (h.present k hk)
  have hne : c ≠ [] := by rintro rfl; have := h.pos; simp at hl; omega
  cases toBin.lookup k with
  | some s => rfl
  | none =>
    simp only [hc, Option.map_some, Option.map_none, Option.getD_none, Option.getD_some]
    rw [(minOf_inUnit ha hne).1, (minOf_inUnit ha hne).2]

theorem width_inUnit {a b : String → α} {k : String} (s : BinAxis α) :
    width ⟨inUnit a b k s.lo, inUnit a b k s.hi, s.n⟩ = a k * width s := by
  unfold width inUnit
  split_ifs
  · ring
  · rw [← mul_div_assoc]; ring

theorem centre_inUnit {a b : String → α} {k : String} (s : BinAxis α) (i : Nat) :
    centre ⟨inUnit a b k s.lo, inUnit a b k s.hi, s.n⟩ i = inUnit a b k (centre s i) := by
  unfold centre
  rw [width_inUnit]
  unfold inUnit
  split_ifs
  · ring
  · ring

theorem lex_inUnits {a b : String → α} : ∀ (ks : List String) (_ : ∀ k ∈ ks, 0 < a k) {l m : List α},
    l.length = ks.length → m.length = ks.length → List.Lex (· < ·) l m →
    List.Lex (· < ·) (List.zipWith (inUnit a b) ks l) (List.zipWith (inUnit a b) ks m)
  | [], _, l, m, hl, hm, h => by
    rw [List.length_nil, List.length_eq_zero_iff] at hl hm
    subst hl hm
    simpa using h
  | k :: ks, ha, l, m, hl, hm, h => by
    cases h with
    | nil => simp at hl
    | rel h0 =>
      apply List.Lex.rel
      unfold inUnit
      nlinarith [ha k (by simp)]
    | cons h0 =>
      apply List.Lex.cons
      exact lex_inUnits ks (fun k hk => ha k (by simp [hk])) (by simpa using hl) (by simpa using hm) h0

theorem secondFirst_zipWith (f : String → α → α) : ∀ (ks : List String) (c : List α), c.length = ks.length →
    ∃ ks', (∀ k, k ∈ ks' ↔ k ∈ ks) ∧ ks'.length = ks.length ∧ (∀ c' : List α, c'.length = ks.length →
      secondFirst (List.zipWith f ks c') = List.zipWith f ks' (secondFirst c')) := by
  intro ks c _
  match ks with
  | [] => exact ⟨[], by simp, rfl, fun c' hc => by
      rw [List.length_nil, List.length_eq_zero_iff] at hc; subst hc; rfl⟩
  | [k] => exact ⟨[k], by simp, rfl, fun c' hc => by
      match c', hc with
      | [x], _ => rfl⟩
  | k :: k' :: ks => exact ⟨k' :: k :: ks, by intro k0; simp only [List.mem_cons]; tauto, rfl, fun c' hc => by
      match c', hc with
      | x :: y :: c, _ => rfl⟩

theorem length_secondFirst (c : List α) : (secondFirst c).length = c.length := by
  match c with
  | [] => rfl
  | [_] => rfl
  | _ :: _ :: _ => rfl

theorem sorted_inUnits {a b : String → α} {keys : List String} (ha : ∀ k ∈ keys, 0 < a k) {Q : List (List α)}
    (hl : ∀ c ∈ Q, c.length = keys.length) (h : (Q.map secondFirst).Pairwise (List.Lex (· < ·))) :
    ((Q.map (List.zipWith (inUnit a b) keys)).map secondFirst).Pairwise (List.Lex (· < ·)) := by
  obtain ⟨ks, h1, h2, h3⟩ := secondFirst_zipWith (inUnit a b) keys (List.replicate keys.length 0) (by simp)
  rw [List.pairwise_map, List.pairwise_map]
  rw [List.pairwise_map] at h
  refine List.Pairwise.imp_of_mem ?_ h
  intro c c' hc hc' hlt
  rw [h3 c (hl c hc), h3 c' (hl c' hc')]
  apply lex_inUnits ks (fun k hk => ha k ((h1 k).1 hk)) _ _ hlt
  · rw [length_secondFirst, h2, hl c hc]
  · rw [length_secondFirst, h2, hl c' hc']

theorem error_inUnits {sqrt : α → α} (a b : String → α) {d : DataObj α}
    (hc : ∀ k, k = d.dk.detector ∨ k = d.dk.monitor ∨ k = d.dk.time → a k = 1 ∧ b k = 0)
    {e : List α} {d' : DataObj α} (he : error sqrt d = .ok (e, d')) :
    ∃ d'', error sqrt (inUnits a b d) = .ok (e, d'') := by
  have hk : ∀ k, k = d.dk.detector ∨ k = d.dk.monitor ∨ k = d.dk.time → (inUnits a b d).cols.get k = d.cols.get k := by
    intro k h
    unfold Table.get
    rw [inUnits_lookup]
    cases d.cols.lookup k with
    | none => rfl
    | some c => rw [Option.map_some, inUnit_id (hc k h)]
  have hraw : rawError sqrt (inUnits a b d) = rawError sqrt d := by
    unfold rawError DataObj.detector
    show (match d.err with
      | some e => Except.ok e
      | none => do return (← (inUnits a b d).cols.get d.dk.detector).map sqrt) = _
    rw [hk _ (Or.inl rfl)]
    rfl
  unfold error at he ⊢
  rw [hraw]
  obtain ⟨e0, h1, he⟩ := bind_eq_ok.1 he
  obtain ⟨⟨d1, m, m0⟩, h2, he⟩ := bind_eq_ok.1 he
  obtain ⟨q, h3, he⟩ := bind_eq_ok.1 he
  have hn : ∃ d2, normalise (inUnits a b d) = .ok (d2, m, m0) := by
    unfold normalise DataObj.time DataObj.monitor at h2 ⊢
    have e1 : (inUnits a b d).timeNorm = d.timeNorm := rfl
    have e2 : (inUnits a b d).dk = d.dk := rfl
    have e3 : (inUnits a b d).m0 = d.m0 := rfl
    have e4 : (inUnits a b d).t0 = d.t0 := rfl
    rw [e1, e2, e3, e4, hk _ (Or.inr (Or.inl rfl)), hk _ (Or.inr (Or.inr rfl))]
    by_cases hb : d.timeNorm = true
    · simp only [hb, if_true] at h2 ⊢
      obtain ⟨c, g1, h2⟩ := bind_eq_ok.1 h2
      rw [g1, ok_bind]
      by_cases h0 : d.t0 = 0
      · simp only [h0, if_true] at h2 ⊢
        obtain ⟨v, g2, h2⟩ := bind_eq_ok.1 h2
        rw [g2, ok_bind]
        have h5 := Prod.mk.inj (Prod.mk.inj (Except.ok.inj h2)).2
        rw [← h5.1, ← h5.2]
        exact ⟨_, rfl⟩
      · simp only [h0, if_false, ok_bind] at h2 ⊢
        have h5 := Prod.mk.inj (Prod.mk.inj (Except.ok.inj h2)).2
        rw [← h5.1, ← h5.2]
        exact ⟨_, rfl⟩
    · simp only [hb, if_false] at h2 ⊢
      obtain ⟨c, g1, h2⟩ := bind_eq_ok.1 h2
      rw [g1, ok_bind]
      by_cases h0 : d.m0 = 0
      · simp only [h0, if_true] at h2 ⊢
        obtain ⟨v, g2, h2⟩ := bind_eq_ok.1 h2
        rw [g2, ok_bind]
        have h5 := Prod.mk.inj (Prod.mk.inj (Except.ok.inj h2)).2
        rw [← h5.1, ← h5.2]
        exact ⟨_, rfl⟩
      · simp only [h0, if_false, ok_bind] at h2 ⊢
        have h5 := Prod.mk.inj (Prod.mk.inj (Except.ok.inj h2)).2
        rw [← h5.1, ← h5.2]
        exact ⟨_, rfl⟩
  obtain ⟨d2, h4⟩ := hn
  rw [h1, ok_bind, h4, ok_bind]
  simp only [h3, ok_bind]
  have := (Prod.mk.inj (Except.ok.inj he)).1
  rw [← this]
  exact ⟨_, rfl⟩

theorem mean_inUnit (a b : String → α) (k : String) {xs : List α} (h : xs ≠ []) :
    mean (xs.map (inUnit a b k)) = inUnit a b k (mean xs) := by
  have hl : (xs.length : α) ≠ 0 := by
    rw [Nat.cast_ne_zero]
    exact fun h0 => h (List.eq_nil_of_length_eq_zero h0)
  have hs : (xs.map (inUnit a b k)).sum = a k * xs.sum + xs.length * b k := by
    clear h hl
    induction xs with
    | nil => simp
    | cons x xs ih =>
      simp only [List.map_cons, List.sum_cons, ih, List.length_cons, inUnit]
      push_cast
      ring
  unfold mean
  rw [hs, List.length_map, inUnit]
  field_simp

/-! ## The theorem -/

/-- **C212** rebinning in other units, counted from other origins, gives the rows of
the original in those units, with the same counts and errors. -/
theorem C212_units {sqrt : α → α} {p q : Nat} (hp : 0 < p) (hq : 0 < q) {d : DataObj α} {n : Nat}
    {toBin : List (String × BinAxis α)} {hkl : Bool} {keys : List String}
    (hkeys : keys = binKeys toBin d.qk hkl) (hnd : keys.Nodup) (h : Binnable d n keys)
    {e : List α} {d' : DataObj α} (he : error sqrt d = .ok (e, d')) (hle : e.length = n)
    (hax : ∀ s ∈ keys.map (axisOf d toBin), s.n = 1 ∨ s.lo < s.hi)
    (a b : String → α) (ha : ∀ k ∈ keys, 0 < a k)
    (hc : ∀ k, k = d.dk.detector ∨ k = d.dk.monitor ∨ k = d.dk.time → a k = 1 ∧ b k = 0) :
    ∃ r r', bin sqrt p d toBin hkl = .ok r ∧ bin sqrt q (inUnits a b d) (specInUnits a b toBin) hkl = .ok r' ∧
      r' = inUnits a b r := by
  obtain ⟨r, Q, cells, h1, h2, _, h4, h5, h6, h7, h8, h9, h10, h11, h12, h13, h14⟩ :=
    C09_bin_averages hp hkeys hnd h he hle
  obtain ⟨d'', he'⟩ := error_inUnits a b hc he
  have hfst : (inUnits a b d).cols.map Prod.fst = d.cols.map Prod.fst := by
    simp [inUnits, List.map_map, Function.comp_def]
  have hbin : Binnable (inUnits a b d) n keys := by
    refine ⟨h.pos, ?_, hfst ▸ h.names, fun k hk => hfst ▸ h.present k hk, h.nonempty⟩
    intro c hc'
    obtain ⟨c0, hc0, rfl⟩ := List.mem_map.1 hc'
    rw [List.length_map]
    exact h.rect c0 hc0
  obtain ⟨r', Q', cells', g1, g2, _, g4, g5, g6, g7, g8, g9, g10, g11, g12, g13, g14⟩ :=
    C09_bin_averages hq (d := inUnits a b d) (toBin := specInUnits a b toBin) (b := hkl)
      (hkeys.trans (binKeys_inUnits a b toBin d.qk hkl).symm) hnd hbin he' hle
  refine ⟨r, r', h1, g1, ?_⟩
  have haxis : ∀ k ∈ keys, axisOf (inUnits a b d) (specInUnits a b toBin) k =
      ⟨inUnit a b k (axisOf d toBin k).lo, inUnit a b k (axisOf d toBin k).hi, (axisOf d toBin k).n⟩ :=
    fun k hk => axis_inUnits a b h toBin hk (ha k hk)
  have hax' : ∀ s ∈ keys.map (axisOf (inUnits a b d) (specInUnits a b toBin)), s.n = 1 ∨ s.lo < s.hi := by
    intro s hs
    obtain ⟨k, hk, rfl⟩ := List.mem_map.1 hs
    rw [haxis k hk]
    rcases hax _ (List.mem_map_of_mem hk) with h0 | h0
    · exact Or.inl h0
    · right
      show inUnit a b k _ < inUnit a b k _
      unfold inUnit
      nlinarith [ha k hk]
  have hcl : ∀ c ∈ Q, c.length = keys.length := by
    intro c hc
    rw [((h2 c).1 hc).length_eq, List.length_map]
  set Z : List α → List α := List.zipWith (inUnit a b) keys with hZ
  -- the grid
  have hcell : ∀ c, IsCell (keys.map (axisOf (inUnits a b d) (specInUnits a b toBin))) c ↔
      ∃ c0, IsCell (keys.map (axisOf d toBin)) c0 ∧ Z c0 = c := by
    intro c
    unfold IsCell
    rw [List.forall₂_map_right_iff]
    simp only [List.forall₂_map_right_iff]
    have gen : ∀ ks : List String, (∀ k ∈ ks, k ∈ keys) → ∀ c, (List.Forall₂ (fun x k => ∃ i < (axisOf (inUnits a b d) (specInUnits a b toBin) k).n,
        x = centre (axisOf (inUnits a b d) (specInUnits a b toBin) k) i) c ks ↔
        ∃ c0, List.Forall₂ (fun x k => ∃ i < (axisOf d toBin k).n, x = centre (axisOf d toBin k) i) c0 ks ∧
          List.zipWith (inUnit a b) ks c0 = c) := by
      intro ks
      induction ks with
      | nil =>
        intro _ c
        constructor
        · intro h0
          cases h0
          exact ⟨[], List.Forall₂.nil, rfl⟩
        · rintro ⟨c0, h0, rfl⟩
          cases h0
          exact List.Forall₂.nil
      | cons k ks ih =>
        intro hks c
        have hk := hks k (by simp)
        have ih' := ih (fun k hk => hks k (by simp [hk]))
        constructor
        · intro h0
          cases h0 with
          | cons hx hr =>
            obtain ⟨i, hi, rfl⟩ := hx
            obtain ⟨c0, h00, rfl⟩ := (ih' _).1 hr
            rw [haxis k hk] at hi ⊢
            rw [centre_inUnit]
            exact ⟨_ :: c0, List.Forall₂.cons ⟨i, hi, rfl⟩ h00, rfl⟩
        · rintro ⟨c0, h0, rfl⟩
          cases h0 with
          | cons hx hr =>
            obtain ⟨i, hi, rfl⟩ := hx
            refine List.Forall₂.cons ⟨i, ?_, ?_⟩ ((ih' _).2 ⟨_, hr, rfl⟩)
            · rw [haxis k hk]; exact hi
            · rw [haxis k hk, centre_inUnit]
    exact gen keys (fun _ hk => hk) c
  have hQ : Q' = Q.map Z := by
    apply gridOrder_unique (g4 hax') (sorted_inUnits ha hcl (h4 hax))
    intro c
    rw [g2, hcell, List.mem_map]
    simp only [h2]
    rfl
  -- the points
  have hval : ∀ i < n, keys.map (valueAt (inUnits a b d) i) = Z (keys.map (valueAt d i)) := by
    intro i hi
    apply List.ext_getElem (by simp [hZ])
    intro j hj1 hj2
    rw [List.length_map] at hj1
    simp only [hZ, List.getElem_map, List.getElem_zipWith]
    obtain ⟨c, hc', hl⟩ := h.lookup (h.present _ (List.getElem_mem hj1))
    unfold valueAt
    rw [inUnits_lookup, hc']
    simp only [Option.map_some, Option.getD_some]
    rw [List.getD_eq_getElem _ _ (by simpa [hl] using hi), List.getD_eq_getElem _ _ (by simpa [hl] using hi), List.getElem_map]
  have hin : ∀ c x : List α, c.length = keys.length → x.length = keys.length →
      (InCell (keys.map (axisOf (inUnits a b d) (specInUnits a b toBin))) (Z c) (Z x) ↔ InCell (keys.map (axisOf d toBin)) c x) := by
    intro c x lc lx
    unfold InCell
    simp only [List.length_map]
    apply forall_congr'; intro j
    apply forall_congr'; intro hj
    have hk := List.getElem_mem hj
    rw [List.getD_eq_getElem (Z x) _ (by simp [hZ, lx, hj]), List.getD_eq_getElem (Z c) _ (by simp [hZ, lc, hj]),
      List.getD_eq_getElem x _ (by omega), List.getD_eq_getElem c _ (by omega),
      List.getD_eq_getElem _ _ (by simpa using hj), List.getD_eq_getElem _ _ (by simpa using hj), List.getElem_map, List.getElem_map]
    simp only [hZ, List.getElem_zipWith]
    rw [haxis _ hk, width_inUnit]
    have e1 : inUnit a b keys[j] (x[j]'(by omega)) - inUnit a b keys[j] (c[j]'(by omega)) = a keys[j] * (x[j]'(by omega) - c[j]'(by omega)) := by
      unfold inUnit; ring
    rw [e1, abs_mul, abs_of_pos (ha _ hk), mul_div_assoc]
    exact mul_le_mul_iff_right₀ (ha _ hk)
  have hpts : ∀ c ∈ Q, pointsIn (inUnits a b d) n keys (keys.map (axisOf (inUnits a b d) (specInUnits a b toBin))) (Z c) =
      pointsIn d n keys (keys.map (axisOf d toBin)) c := by
    intro c hc
    unfold pointsIn
    apply List.filter_congr
    intro i hi
    rw [decide_eq_decide, hval i (List.mem_range.1 hi), hin _ _ (hcl c hc) (by simp)]
  have hcells : cells' = cells.map Z := by
    rw [g5, hQ, h5, List.filter_map]
    congr 1
    apply List.filter_congr
    intro c hc
    rw [Function.comp_apply, hpts c hc]
  have hsub : ∀ c ∈ cells, c ∈ Q := by
    intro c hc
    rw [h5] at hc
    exact (List.mem_filter.1 hc).1
  have hne : ∀ c ∈ cells, pointsIn d n keys (keys.map (axisOf d toBin)) c ≠ [] := by
    intro c hc
    rw [h5] at hc
    simpa using (List.mem_filter.1 hc).2
  -- the result
  have hcols : r'.cols = (inUnits a b r).cols := by
    have hf : (inUnits a b r).cols.map Prod.fst = r.cols.map Prod.fst := by
      simp [inUnits, List.map_map, Function.comp_def]
    have hk' : r'.cols.map Prod.fst = (inUnits a b r).cols.map Prod.fst := by rw [g6, hfst, hf, h6]
    apply lookup_ext hk' (by rw [g6, hfst]; exact h.names)
    intro k
    rw [inUnits_lookup]
    by_cases hk : k ∈ keys
    · obtain ⟨j, hj⟩ := List.mem_iff_getElem?.1 hk
      have hjl : j < keys.length := by
        by_contra hcon
        rw [List.getElem?_eq_none (by omega)] at hj
        cases hj
      have hkk : keys[j] = k := by
        rw [List.getElem?_eq_getElem hjl] at hj; simpa using hj
      rw [g7 j k hj, h7 j k hj, hcells, Option.map_some, List.map_map, List.map_map]
      congr 1
      apply List.map_congr_left
      intro c hc
      have lc := hcl c (hsub c hc)
      simp only [Function.comp_apply, hZ]
      rw [List.getD_eq_getElem _ _ (by simp [lc, hjl]), List.getD_eq_getElem _ _ (by omega), List.getElem_zipWith, hkk]
    · by_cases hkd : k ∈ d.cols.map Prod.fst
      · obtain ⟨col, hcol, hlen⟩ := h.lookup hkd
        have hcol' : (inUnits a b d).cols.lookup k = some (col.map (inUnit a b k)) := by rw [inUnits_lookup, hcol]; rfl
        rw [g8 k hk _ hcol', h8 k hk col hcol, hcells, Option.map_some, List.map_map, List.map_map]
        congr 1
        apply List.map_congr_left
        intro c hc
        simp only [Function.comp_apply]
        rw [hpts c (hsub c hc), ← mean_inUnit a b k (by simpa using hne c hc), List.map_map]
        congr 1
        apply List.map_congr_left
        intro i hi
        have hi' : i < n := List.mem_range.1 (List.mem_filter.1 hi).1
        rw [Function.comp_apply, List.getD_eq_getElem _ _ (by simpa [hlen] using hi'),
          List.getD_eq_getElem _ _ (by simpa [hlen] using hi'), List.getElem_map]
      · have none_of : ∀ t : Table α, k ∉ t.map Prod.fst → t.lookup k = none := by
          intro t ht
          rw [List.lookup_eq_none_iff]
          intro p hp
          have hne' : k ≠ p.1 := by rintro rfl; exact ht (List.mem_map_of_mem hp)
          simpa using hne'
        rw [none_of r'.cols (by rw [g6, hfst]; exact hkd), none_of r.cols (by rw [h6]; exact hkd)]
        rfl
  have herr : r'.err = r.err := by
    rw [g9, h9, hcells, List.map_map]
    congr 1
    apply List.map_congr_left
    intro c hc
    rw [Function.comp_apply, hpts c (hsub c hc)]
  have e10 : r'.dk = r.dk := g10.trans h10.symm
  have e11 : r'.qk = r.qk := g11.trans h11.symm
  have e12 : r'.m0 = r.m0 := g12.trans h12.symm
  have e13 : r'.t0 = r.t0 := g13.trans h13.symm
  have e14 : r'.timeNorm = r.timeNorm := g14.trans h14.symm
  clear g1 g6 g7 g8 g9 g10 g11 g12 g13 g14
  cases r'
  simp only at hcols herr e10 e11 e12 e13 e14
  subst hcols herr e10 e11 e12 e13 e14
  rfl

/-- Twice the numbers for `h`, and the temperature counted from another zero. -/
def exScale (k : String) : ℚ := if k = "h" then 2 else 1

def exOrigin (k : String) : ℚ := if k = "temp" then -273 else 0

example : (∀ k ∈ binKeys [("h", (⟨0, 1, 2⟩ : BinAxis ℚ))] exBin.qk true, 0 < exScale k) ∧
    (∀ k, k = exBin.dk.detector ∨ k = exBin.dk.monitor ∨ k = exBin.dk.time → exScale k = 1 ∧ exOrigin k = 0) ∧
    specInUnits exScale exOrigin [("h", ⟨0, 1, 2⟩)] = [("h", ⟨0, 2, 2⟩)] ∧
    (bin id 2 (inUnits exScale exOrigin exBin) [("h", ⟨0, 2, 2⟩)] true).map (fun r => (r.cols, r.err)) =
      .ok ([("h", [0, 2]), ("k", [0, 0]), ("l", [2, 2]), ("e", [5, 5]), ("temp", [27, 27]),
        ("detector", [10, 25]), ("monitor", [1, 1]), ("time", [1, 1])], some [100, 650]) := by
  refine ⟨by decide +kernel, ?_, by decide +kernel, by decide +kernel⟩
  rintro k (rfl | rfl | rfl) <;> decide +kernel

end Verif.Data
