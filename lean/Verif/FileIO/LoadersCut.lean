import Verif.FileIO.LoadersSpe

/-!
# Theorems about SPE files that end early (C203)
-/

namespace Verif.FileIO

variable {α : Type}

/-- An SPE file that ends after one of its blocks `bs` though more were announced: the two counts, the lines `ps` and `es` of
the axes, and fewer than `nx * 2` whole blocks. -/
structure IsCutSpe (r : Reader α) (ls : List Text) (nx ny : Nat) (ps es : List (List Text)) (bs : List (List (List Text))) : Prop where
  lines : ∃ t1 t2, ls.map speLine = .toks [t1, t2] :: .mark :: (ps.map .toks ++ .mark ::
    (es.map .toks ++ .mark :: withMarks bs)) ∧ r.int t1 = some nx ∧ r.int t2 = some ny
  some : bs ≠ []
  missing : bs.length < nx * 2
  height : 2 ≤ ny
  first : nx < ps.flatten.length
  second : ny < es.flatten.length
  values : ∀ b ∈ bs, b.flatten.length = ny
  numbers : ∀ t ∈ ps.flatten ++ es.flatten ++ bs.flatten.flatten, (r.float t).isSome

/-- Block `n` of the result: the last one that is there, if there is no such block in the file. -/
def orLast (bs : List (List (List Text))) (n : Nat) : Nat := min n (bs.length - 1)

/-! ### Lemmas -/

theorem blocks_mark (r : Reader α) (ny m : Nat) (b : List (List Text)) {bs : List (List (List Text))} (hne : bs ≠ []) :
    blocks r ny (m + 1) (withMarks (b :: bs)) =
      (axisOf r ny b.flatten).bind fun v => (blocks r ny m (withMarks bs)).bind fun vs => .ok (v :: vs) := by
  rw [blocks, withMarks.eq_3 _ _ (fun e => hne e)]
  simp only [block, blockGo_block, Option.getD_some]
  rfl

theorem blocks_last (r : Reader α) (ny m : Nat) (b : List (List Text)) :
    blocks r ny (m + 1) (withMarks [b]) =
      (axisOf r ny b.flatten).bind fun v => (blocks r ny m (withMarks [b])).bind fun vs => .ok (v :: vs) := by
  rw [blocks]
  simp only [withMarks, block, blockGo_last, Option.getD_none]
  rfl

/-- The last block of a file is read again and again. -/
theorem blocks_again (r : Reader α) {ny : Nat} {bs : List (List (List Text))} (hne : bs ≠ []) (n : Nat) :
    ∀ m, blocks r ny m (withMarks bs) = blocks r ny m (withMarks (bs ++ List.replicate n (bs.getLast hne))) := by
  have last : ∀ (b : List (List Text)) (n m : Nat),
      blocks r ny m (withMarks [b]) = blocks r ny m (withMarks (b :: List.replicate n b)) := by
    intro b n
    induction n with
    | zero => intro m; rfl
    | succ n ih =>
      intro m
      cases m with
      | zero => rfl
      | succ m => rw [blocks_last, blocks_mark r ny m b (by simp), List.replicate_succ, ← ih m]
  induction bs with
  | nil => exact absurd rfl hne
  | cons b bs ih =>
    cases bs with
    | nil => intro m; exact last b n m
    | cons b' bs =>
      intro m
      cases m with
      | zero => rfl
      | succ m =>
        rw [List.cons_append, blocks_mark r ny m b (by simp), blocks_mark r ny m b (by simp), ih (by simp) m]
        rfl

theorem at_padded (r : Reader α) {bs : List (List (List Text))} (hne : bs ≠ []) {n b : Nat} (hb : b < bs.length + n) (j : Nat) :
    at' r (bs ++ List.replicate n (bs.getLast hne)) b j = at' r bs (orLast bs b) j := by
  have hp : 0 < bs.length := List.length_pos_iff.2 hne
  unfold at' orLast
  congr 3
  by_cases h : b < bs.length
  · rw [Nat.min_eq_left (by omega)]
    simp [List.getElem?_append_left h, h]
  · rw [Nat.min_eq_right (by omega), List.getD_eq_getElem?_getD, List.getElem?_append_right (by omega),
      List.getElem?_replicate, if_pos (by omega), List.getLast_eq_getElem]
    simp [hp]

theorem collect_end {full : Nat → Bool} {acc : List Text} {ps : List (List Text)}
    (h : ∀ k, k ≤ acc.length + ps.flatten.length → full k = false) : collect full acc (ps.map .toks) = none := by
  induction ps generalizing acc with
  | nil => rfl
  | cons p ps ih =>
    rw [List.map_cons, collect, h _ (by omega)]
    simp only [Bool.false_eq_true, if_false]
    rw [ih, Option.map_none]
    intro k hk
    refine h k (hk.trans ?_)
    simp [Nat.add_assoc]

/-! ### C203 -/

/-- C203 is false: from a file that ends after one of its blocks a grid of the announced size is loaded, without an error.
Where blocks are missing, the last block of the file is filled in, be it one of intensities or one of errors. -/
theorem C203_cut_false (r : Reader α) (one : α) {ls : List Text} {nx ny : Nat} {ps es : List (List Text)}
    {bs : List (List (List Text))} (h : IsCutSpe r ls nx ny ps es bs) (hr : Regular nx ny ps) :
    ∃ g, loadSpe r one ls = .ok g ∧
      g.intensity = ((List.range ny).flatMap fun j => (List.range nx).map fun i => at' r bs (orLast bs (2 * i)) j) ∧
      g.error = ((List.range ny).flatMap fun j => (List.range nx).map fun i => at' r bs (orLast bs (2 * i + 1)) j) := by
  obtain ⟨t1, t2, hl, hi1, hi2⟩ := h.lines
  have hshape : speShape r (ls.map speLine) = .ok (nx, ny) := by
    rw [hl]
    simp [speShape, List.mapM_cons, Reader.intE, hi1, hi2, ok_bind, pure_ok]
  have hy1 := h.height
  have hmiss := h.missing
  have hf := h.first
  have hs := h.second
  have hd2 : (ls.map speLine).drop 2 = ps.map .toks ++ .mark ::
      (es.map .toks ++ .mark :: withMarks bs) := by rw [hl]; rfl
  have hc1 : collect (fun k => decide (nx ≤ k)) [] ((ls.map speLine).drop 2) = some (ps.flatten, ps.length) := by
    rw [hd2, collect_all, List.nil_append]
    intro qs hq hne
    have h1 := flatten_prefix (prefix_dropLast hq hne)
    have h2 := hr.lines
    simp only [List.length_nil, Nat.zero_add, decide_eq_false_iff_not]
    omega
  have hd3 : (ls.map speLine).drop (3 + ps.length) = es.map .toks ++ .mark :: withMarks bs := by
    have : (3 + ps.length) = 2 + (ps.length + 1) := by omega
    rw [this, ← List.drop_drop, hd2]
    have e : ps.map SpeLine.toks ++ SpeLine.mark :: (es.map .toks ++ .mark :: withMarks bs) =
      (ps.map SpeLine.toks ++ [SpeLine.mark]) ++ (es.map .toks ++ .mark :: withMarks bs) := by simp
    rw [e, List.drop_left' (by simp)]
  have hc2 : collect (fun _ => decide (ny ≤ ps.flatten.length)) []
      ((ls.map speLine).drop (3 + ps.length)) = some (es.flatten, es.length) := by
    rw [hd3, collect_all, List.nil_append]
    intro qs hq hne
    have := hr.shorter
    simp only [decide_eq_false_iff_not]
    omega
  have hd4 : (ls.map speLine).drop (3 + ps.length + (es.length + 1)) = withMarks bs := by
    rw [← List.drop_drop, hd3]
    have e : es.map SpeLine.toks ++ SpeLine.mark :: withMarks bs =
      (es.map SpeLine.toks ++ [SpeLine.mark]) ++ withMarks bs := by simp
    rw [e, List.drop_left' (by simp)]
  have hax : axisOf r nx ps.flatten = .ok ((ps.flatten.map r.num).take nx) :=
    axisOf_ok r (fun t ht => h.numbers t (by simp only [List.mem_append]; exact .inl (.inl ht))) (by omega)
  have hay : axisOf r ny es.flatten = .ok ((es.flatten.map r.num).take ny) :=
    axisOf_ok r (fun t ht => h.numbers t (by simp only [List.mem_append]; exact .inl (.inr ht))) (by omega)
  have hbn : ∀ b ∈ bs, ∀ t ∈ b.flatten, (r.float t).isSome := by
    intro b hb t ht
    apply h.numbers
    simp only [List.mem_append]
    right
    obtain ⟨l, hl, ht⟩ := List.mem_flatten.1 ht
    exact List.mem_flatten.2 ⟨l, List.mem_flatten.2 ⟨b, hb, hl⟩, ht⟩
  -- the file with its last block written out as often as it is read
  set n := nx * 2 - bs.length with hn
  set bs' := bs ++ List.replicate n (bs.getLast h.some) with hbs'
  have hmem : ∀ b ∈ bs', b ∈ bs := by
    intro b hb
    rcases List.mem_append.1 hb with hb | hb
    · exact hb
    · rw [(List.mem_replicate.1 hb).2]
      exact List.getLast_mem _
  have hlen : bs'.length = nx * 2 := by rw [hbs', List.length_append, List.length_replicate]; omega
  obtain ⟨vs, i, e, hbl, hte, hto, hil, hi, he⟩ := spe_rows r (nx := nx) (by omega) hy1
    (bs := bs') (fun b hb => (h.values b (hmem b hb)).ge) (fun b hb => hbn b (hmem b hb)) hlen.ge
  rw [← blocks_again r h.some] at hbl
  rw [loadSpe]
  simp only [hshape, ok_bind, hc1, bound, hc2, hd4, hax, hay, hbl, hte, hto]
  refine ⟨_, rfl, ?_, ?_⟩
  · show i.flatten = _
    rw [hi]
    simp only [List.flatMap]
    congr 1
    refine List.map_congr_left fun j _ => List.map_congr_left fun k hk => ?_
    rw [List.mem_range] at hk
    exact at_padded r h.some (by omega) j
  · show e.flatten = _
    rw [he]
    simp only [List.flatMap]
    congr 1
    refine List.map_congr_left fun j _ => List.map_congr_left fun k hk => ?_
    rw [List.mem_range] at hk
    exact at_padded r h.some (by omega) j

/-- C203 (partial): a file that ends within its first axis, before the announced number of values, is not loaded.  Missing:
files that end later (`C203_cut_false`). -/
theorem C203_axis_partial (r : Reader α) (one : α) {ls : List Text} {t1 t2 : Text} {nx ny : Nat} {ps : List (List Text)}
    (h : ls.map speLine = .toks [t1, t2] :: .mark :: ps.map .toks) (h1 : r.int t1 = some nx) (h2 : r.int t2 = some ny)
    (hs : ps.flatten.length < nx) : loadSpe r one ls = .error .nameError := by
  have hshape : speShape r (ls.map speLine) = .ok (nx, ny) := by
    rw [h]
    simp [speShape, List.mapM_cons, Reader.intE, h1, h2, ok_bind, pure_ok]
  have hd2 : (ls.map speLine).drop 2 = ps.map .toks := by rw [h]; rfl
  have hc : collect (fun k => decide (nx ≤ k)) [] ((ls.map speLine).drop 2) = none := by
    rw [hd2]
    refine collect_end fun k hk => ?_
    simp only [List.length_nil, Nat.zero_add] at hk
    simp only [decide_eq_false_iff_not]
    omega
  rw [loadSpe]
  simp only [hshape, ok_bind, hc, bound]
  rfl

/-! ### The hypotheses are met -/

/-- A file of two intensities and two errors that ends after the second intensities. -/
example : ∃ g, loadSpe digits 1 (speSmall.take 13) = .ok g ∧ g.intensity = [11, 21, 12, 22, 13, 23, 14, 24] ∧
    g.error = [1, 21, 2, 22, 3, 23, 4, 24] := by
  have h : IsCutSpe digits (speSmall.take 13) 2 4 [[cs!"10", cs!"20", cs!"30"]] [[cs!"1", cs!"2", cs!"3", cs!"4"], [cs!"5"]]
      [[[cs!"11", cs!"12", cs!"13", cs!"14"]], [[cs!"1", cs!"2", cs!"3", cs!"4"]], [[cs!"21", cs!"22", cs!"23"], [cs!"24"]]] :=
    { lines := ⟨cs!"2", cs!"4", by decide⟩, some := by decide, missing := by decide, height := by decide,
      first := by decide, second := by decide, values := by decide, numbers := by decide }
  obtain ⟨g, hg, hi, he⟩ := C203_cut_false digits 1 h speSmall_ok.2
  exact ⟨g, hg, hi.trans (by decide), he.trans (by decide)⟩

example : loadSpe digits 1 [cs!"   4   4", cs!"### Phi", cs!" 10 20 30"] = .error .nameError :=
  C203_axis_partial digits 1 (t1 := cs!"4") (t2 := cs!"4") (nx := 4) (ny := 4) (ps := [[cs!"10", cs!"20", cs!"30"]])
    (by decide) (by decide) (by decide) (by decide)

end Verif.FileIO
