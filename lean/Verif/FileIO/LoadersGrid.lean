import Verif.FileIO.LoadersProps
import Mathlib.Algebra.Order.Field.Rat
import Mathlib.Tactic.Ring
import Mathlib.Tactic.NormNum

/-!
# Theorems about the loader of DCS_MSLICE files
-/

namespace Verif.FileIO

variable {α : Type}

/-! ### The format of a file -/

/-- **C113**: four columns are recognised whatever the name of the file. -/
theorem C113_iexy (name first : Text) (rest : List Text) (h : (words first).length = 4) :
    dcsSubtype name (first :: rest) = .ok .iexy := by
  simp [dcsSubtype, h]

/-- The name says nothing about the format. -/
def Plain (name : Text) : Prop :=
  endOf 4 name ≠ cs!"iexy" ∧ endOf 4 name ≠ cs!"xyie" ∧ endOf 3 name ≠ cs!"spe" ∧
    endOf 3 name ≠ cs!"xye"

instance (name : Text) : Decidable (Plain name) := inferInstanceAs (Decidable (_ ∧ _))

/-- **C113**: three columns are recognised by the contents. -/
theorem C113_xye (name first : Text) (rest : List Text) (hp : Plain name)
    (h : (words first).length = 3) : dcsSubtype name (first :: rest) = .ok .xye := by
  obtain ⟨h1, h2, h3, h4⟩ := hp
  simp [dcsSubtype, h, h1, h2, h3]

/-- **C113**: an SPE file is recognised by the contents. -/
theorem C113_spe (name first second : Text) (rest : List Text) (hp : Plain name)
    (h : (words first).length = 2) (hs : has cs!"###" second = true) :
    dcsSubtype name (first :: second :: rest) = .ok .spe := by
  obtain ⟨h1, h2, h3, h4⟩ := hp
  simp [dcsSubtype, h, h1, h2, h3, hs]

/-- **C113**: an XYIE file is never recognised by the contents: two numbers and a
blank line are an error. -/
theorem C113_xyie_never (name first second : Text) (rest : List Text) (hp : Plain name)
    (h : (words first).length = 2) (hs : words second = []) :
    dcsSubtype name (first :: second :: rest) = .error .ioError := by
  obtain ⟨h1, h2, h3, h4⟩ := hp
  have : has cs!"###" second = false := by
    apply has_false_of_notMem (c := '#') (by simp)
    intro hm
    have hsp : ∀ l : Text, words l = [] → '#' ∉ l := by
      intro l
      induction l with
      | nil => simp
      | cons c cs ih =>
        intro h
        rw [words.eq_def] at h
        simp only at h
        split at h
        · rename_i hc
          simp only [List.mem_cons, not_or]
          refine ⟨?_, ih h⟩
          rintro rfl
          exact absurd hc (by decide)
        · exfalso
          split at h
          · simp at h
          · split at h
            · simp at h
            · split at h <;> simp at h
    exact hsp second hs hm
  simp [dcsSubtype, h, h1, h2, h3, h4, this]

/-- **C113**: with one of the four endings the name decides, except that a first
line of four words is always IEXY. -/
theorem C113_by_name (name first : Text) (rest : List Text) (h : (words first).length ≠ 4) :
    (endOf 4 name = cs!"xyie" → dcsSubtype name (first :: rest) = .ok .xyie) ∧
    (endOf 3 name = cs!"spe" → ¬ ((words first).length = 2 ∧ rest = []) →
      dcsSubtype name (first :: rest) = .ok .spe) := by
  constructor
  · intro hn
    have : cs!"xyie" ≠ cs!"iexy" := by decide
    simp [dcsSubtype, h, hn]
  · intro hn h2
    have h3 : ∀ w : Text, w.length = 4 → w.drop 1 ≠ cs!"spe" → endOf 4 name ≠ w := by
      rintro w hw hne rfl
      apply hne
      rw [endOf] at hw ⊢
      rw [List.length_drop] at hw
      rw [List.drop_drop, ← hn, endOf]
      congr 1
      omega
    have h4 := h3 cs!"iexy" rfl (by decide)
    have h5 := h3 cs!"xyie" rfl (by decide)
    have h6 : ¬ ((words first).length = 2 ∧ rest.head? = none) := by
      rintro ⟨a, b⟩
      exact h2 ⟨a, List.head?_eq_none_iff.1 b⟩
    cases rest with
    | nil => simp_all [dcsSubtype]
    | cons x xs => simp [dcsSubtype, h, hn, h4, h5]

example : Plain cs!"cut.txt" ∧ (words cs!"   35   66").length = 2 ∧ words cs!" " = [] := by decide

/-- **C113** does not hold for all four formats. -/
theorem C113_false : ¬ ∀ (name first second : Text) (rest : List Text), Plain name →
    (words first).length = 2 → words second = [] →
    dcsSubtype name (first :: second :: rest) = .ok .xyie := by
  intro h
  have h1 := h cs!"cut.txt" cs!" 35 66" cs!" " [] (by decide) (by decide) (by decide)
  rw [C113_xyie_never _ _ _ _ (by decide) (by decide) (by decide)] at h1
  cases h1

/-! ### IEXY and XYE -/

/-- Lines of `k` numbers. -/
structure IsTable' (r : Reader α) (k : Nat) (ls : List Text) : Prop where
  data : ∀ l ∈ ls, DataLine l
  width : ∀ l ∈ ls, (words l).length = k
  numbers : ∀ l ∈ ls, ∀ t ∈ words l, (r.float t).isSome

theorem IsTable'.loadtxt {r : Reader α} {k : Nat} {ls : List Text} (h : IsTable' r k ls) :
    loadtxt r 0 ls = genfromtxt ((ls.map words).map (·.map r.num)) := by
  rw [FileIO.loadtxt, List.drop_zero, tableTokens_data h.data, mapM_rows]
  · rfl
  · intro row hrow
    obtain ⟨l, hl, rfl⟩ := List.mem_map.1 hrow
    exact h.numbers l hl

/-- The `j`-th number of every line. -/
def nth (r : Reader α) (ls : List Text) (j : Nat) : List α :=
  ls.map fun l => r.num ((words l).getD j [])

/-- **C114**, the part that holds: from two or more lines of four numbers,
intensity, error, x and y are the first to fourth number of each line, monitor
and time are one at every point, and the error is stored. -/
theorem C114_iexy_partial (r : Reader α) (one : α) {ls : List Text} (h : IsTable' r 4 ls)
    (hn : 2 ≤ ls.length) :
    loadIexy r one ls = .ok
      { cols := [(cs!"intensity", .arr (nth r ls 0)), (cs!"error", .arr (nth r ls 1)),
          (cs!"x", .arr (nth r ls 2)), (cs!"y", .arr (nth r ls 3)),
          (cs!"monitor", .arr (List.replicate ls.length one)),
          (cs!"time", .arr (List.replicate ls.length one))],
        dataKeys := [(cs!"detector", cs!"intensity"), (cs!"monitor", cs!"monitor"),
          (cs!"time", cs!"time")],
        qKeys := defaultQKeys, header := none, err := .vals (nth r ls 1) } := by
  have ht : genfromtxt ((ls.map words).map (·.map r.num)) =
      .ok ((List.range 4).map fun j => .arr (colVals r.num (ls.map words) j)) := by
    apply genfromtxt_rows _ (by simpa using hn) (by omega)
    intro x hx
    obtain ⟨l, hl, rfl⟩ := List.mem_map.1 hx
    exact h.width l hl
  rw [loadIexy, h.loadtxt, ht]
  simp [ok_bind, List.range_succ, Col.len, Col.vals, colVals, nth, dcsDataKeys, Function.comp_def,
    pure_ok]

/-- **C114**, the part that holds, for three numbers on each line: x, intensity
and error. -/
theorem C114_xye_partial (r : Reader α) (one : α) {ls : List Text} (h : IsTable' r 3 ls)
    (hn : 2 ≤ ls.length) :
    loadXye r one ls = .ok
      { cols := [(cs!"intensity", .arr (nth r ls 1)), (cs!"error", .arr (nth r ls 2)),
          (cs!"x", .arr (nth r ls 0)), (cs!"monitor", .arr (List.replicate ls.length one)),
          (cs!"time", .arr (List.replicate ls.length one))],
        dataKeys := [(cs!"detector", cs!"intensity"), (cs!"monitor", cs!"monitor"),
          (cs!"time", cs!"time")],
        qKeys := defaultQKeys, header := none, err := .vals (nth r ls 2) } := by
  have ht : genfromtxt ((ls.map words).map (·.map r.num)) =
      .ok ((List.range 3).map fun j => .arr (colVals r.num (ls.map words) j)) := by
    apply genfromtxt_rows _ (by simpa using hn) (by omega)
    intro x hx
    obtain ⟨l, hl, rfl⟩ := List.mem_map.1 hx
    exact h.width l hl
  rw [loadXye, h.loadtxt, ht]
  simp [ok_bind, List.range_succ, Col.len, Col.vals, colVals, nth, dcsDataKeys, Function.comp_def,
    pure_ok]

example : IsTable' digits 4 [cs!" 2  1  10  20", cs!" 3  2  11  20"] where
  data := by decide
  width := by decide
  numbers := by decide

example : IsTable' digits 3 [cs!" 2  1  10", cs!" 3  2  11"] where
  data := by decide
  width := by decide
  numbers := by decide

/-- **C114**: a file with a single point is not loaded. -/
theorem C114_single (r : Reader α) (one : α) {l : Text} :
    (IsTable' r 4 [l] → loadIexy r one [l] = .error .typeError) ∧
    (IsTable' r 3 [l] → loadXye r one [l] = .error .typeError) := by
  constructor
  · intro h
    have hw := h.width l (by simp)
    rw [loadIexy, h.loadtxt, List.map_singleton, genfromtxt_single r.num (by omega)]
    match words l, hw with
    | [a, b, c, d], _ => rfl
  · intro h
    have hw := h.width l (by simp)
    rw [loadXye, h.loadtxt, List.map_singleton, genfromtxt_single r.num (by omega)]
    match words l, hw with
    | [a, b, c], _ => rfl

/-- **C114** does not hold in full: a file with one point is not loaded. -/
theorem C114_false : ¬ ∀ ls : List Text, IsTable' digits 4 ls → ls ≠ [] →
    ∃ d, loadIexy digits 1 ls = .ok d := by
  intro h
  have ht : IsTable' digits 4 [cs!" 2  1  10  20"] :=
    { data := by decide, width := by decide, numbers := by decide }
  obtain ⟨d, hd⟩ := h [cs!" 2  1  10  20"] ht (by simp)
  rw [(C114_single digits 1).1 ht] at hd
  cases hd

/-! ### XYIE -/

theorem floats2d_rect {r : Reader α} {rows : List (List Text)} {vs : List (List α)}
    (h : floats2d r rows = .ok vs) : ∀ v ∈ vs, v.length = (vs.headD []).length := by
  rw [floats2d] at h
  simp only [bind_eq_ok] at h
  obtain ⟨ws, -, h⟩ := h
  split at h
  · rename_i ha
    obtain rfl := Except.ok.inj h
    simpa using ha
  · cases h

theorem flatten_length_rect {vs : List (List α)} {n : Nat} (h : ∀ v ∈ vs, v.length = n) :
    vs.flatten.length = vs.length * n := by
  induction vs with
  | nil => simp
  | cons v vs ih =>
    rw [List.flatten_cons, List.length_append, ih fun x hx => h x (by simp [hx]), h v (by simp),
      List.length_cons]
    ring

theorem bcast_error {β γ : Type} (f : α → β → γ) {xs : List α} {ys : List β}
    (h : xs.length ≠ ys.length) (h1 : xs.length ≠ 1) (h2 : ys.length ≠ 1) :
    Verif.Data.bcast f xs ys = .error .valueError := by
  rw [Verif.Data.bcast.eq_def, if_neg h]
  match xs, ys, h1, h2 with
  | [], [], _, _ => exact absurd rfl h
  | [], _ :: _ :: _, _, _ => rfl
  | _ :: _ :: _, [], _, _ => rfl
  | _ :: _ :: _, _ :: _ :: _, _, _ => rfl

theorem intensity_grid [Field α] [LinearOrder α] {g : Grid α}
    (h : g.intensity.length ≠ g.monitor.length) (h1 : g.intensity.length ≠ 1)
    (h2 : 2 ≤ g.monitor.length) : Verif.Data.intensity g.obj = .error .valueError := by
  have hm : g.obj.monitor = .ok g.monitor := by
    simp [Grid.obj, Verif.Data.DataObj.monitor, Verif.Data.Table.get, List.lookup]
  have hd : ∀ m, ({ g.obj with m0 := m } : Verif.Data.DataObj α).detector = .ok g.intensity := by
    intro m
    simp [Grid.obj, Verif.Data.DataObj.detector, Verif.Data.Table.get]
  obtain ⟨m, ms, hms⟩ := List.exists_cons_of_ne_nil (l := g.monitor) (by intro e; simp [e] at h2)
  have hn : ∃ m0, Verif.Data.normalise g.obj =
      .ok ({ g.obj with m0 := m0 }, g.monitor, m0) := by
    rw [Verif.Data.normalise, if_neg (by simp [Grid.obj]), hm]
    refine ⟨ms.foldl max m, ?_⟩
    rw [ok_bind, if_pos (by simp [Grid.obj])]
    rw [hms, Verif.Data.nanmax]
    rfl
  obtain ⟨m0, hn⟩ := hn
  rw [Verif.Data.intensity, hn]
  simp only [ok_bind, hd]
  rw [bcast_error _ h h1 (by omega)]
  rfl

/-- **C115**: whatever XYIE file is loaded, the column `y` is a copy of the column
`x`, and the intensity of the result cannot be read: it is a `ValueError`. -/
theorem C115_never_usable [Field α] [LinearOrder α] (r : Reader α) {ls : List Text} {g : Grid α}
    (h : loadXyie r 1 ls = .ok g) :
    g.y = g.x ∧ Verif.Data.intensity g.obj = .error .valueError := by
  rw [loadXyie] at h
  simp only [bind_eq_ok] at h
  obtain ⟨shape, -, h⟩ := h
  match shape with
  | [] => cases h
  | [_] => cases h
  | nx :: ny :: more =>
    simp only [bind_eq_ok] at h
    obtain ⟨x, hx, y, hy, i, hi, e, he, lx, hlx, h⟩ := h
    split at h
    · cases h
    rename_i hnx
    simp only [bind_eq_ok] at h
    obtain ⟨ly, hly, h⟩ := h
    split at h
    · cases h
    rename_i hny
    split at h
    · rename_i hc
      simp only [Bool.and_eq_true, decide_eq_true_eq, isShape, List.all_eq_true] at hc
      obtain ⟨⟨⟨⟨h1, h2⟩, h3⟩, -⟩, -⟩ := hc
      obtain rfl := Except.ok.inj h
      refine ⟨rfl, ?_⟩
      -- neither axis has one point
      have one : ∀ (ax : List (List α)) (data : List (List Text)) (n l : Nat),
          floats2d r data = .ok ax → data.length ≤ n → squeezedLen ax = .ok l → l = n → n ≠ 1 := by
        rintro ax data n l hf hd hs rfl rfl
        have hlen : ax.length = data.length := by
          rw [floats2d] at hf
          simp only [bind_eq_ok] at hf
          obtain ⟨ws, hw, hf⟩ := hf
          have : ws.length = data.length := by
            have : ∀ (d : List (List Text)) (ws : List (List α)),
                (d.mapM fun row => row.mapM r.floatE) = .ok ws → ws.length = d.length := by
              intro d
              induction d with
              | nil => intro ws h; obtain rfl := Except.ok.inj h; rfl
              | cons a d ih =>
                intro ws h
                rw [List.mapM_cons] at h
                simp only [bind_eq_ok] at h
                obtain ⟨b, -, bs, hbs, h⟩ := h
                obtain rfl := Except.ok.inj h
                simp [ih bs hbs]
            exact this _ _ hw
          split at hf
          · obtain rfl := Except.ok.inj hf; exact this
          · cases hf
        match ax, hlen, hs with
        | [], _, hs => cases hs
        | [[]], _, hs => cases hs
        | [[_]], _, hs => cases hs
        | [_ :: _ :: _], _, hs => cases hs
        | _ :: _ :: _, hlen, _ => simp at hlen; omega
      have hnx' := one x _ nx lx hx (by simp [slice]; omega) hlx (by simpa using hnx)
      have hny' := one y _ ny ly hy (by simp [slice]; omega) hly (by simpa using hny)
      have hi0 : i.length ≠ 0 := by simpa using h3
      have hfl : i.flatten.length = i.length * nx := flatten_length_rect h2
      apply intensity_grid
      · show i.flatten.length ≠ (List.replicate i.length 1).length
        rw [hfl, List.length_replicate]
        intro hc
        exact hnx' (Nat.eq_of_mul_eq_mul_left (by omega : 0 < i.length) (by omega))
      · show i.flatten.length ≠ 1
        rw [hfl]
        intro hc
        exact hnx' (Nat.eq_one_of_mul_eq_one_left hc)
      · show 2 ≤ (List.replicate i.length 1).length
        rw [List.length_replicate]
        omega
    · cases h

/-- An XYIE file: the two counts, and four blocks of lines of numbers with a blank
line before each. -/
structure IsXyie (r : Reader α) (ls xl yl il el : List Text) : Prop where
  lines : ∃ f b1 b2 b3 b4 t1 t2, ls = f :: b1 :: xl ++ b2 :: yl ++ b3 :: il ++ b4 :: el ∧
    words f = [t1, t2] ∧ r.int t1 = some xl.length ∧ r.int t2 = some yl.length
  counts : 2 ≤ xl.length ∧ 2 ≤ yl.length ∧ il.length = yl.length ∧ el.length = yl.length
  axes : ∀ l ∈ xl ++ yl, (words l).length = 1
  rows : ∀ l ∈ il ++ el, (words l).length = xl.length
  numbers : ∀ l ∈ xl ++ yl ++ il ++ el, ∀ t ∈ words l, (r.float t).isSome

theorem floats2d_ok (r : Reader α) {ls : List Text} {k : Nat} (h : ∀ l ∈ ls, (words l).length = k)
    (hn : ∀ l ∈ ls, ∀ t ∈ words l, (r.float t).isSome) :
    floats2d r (ls.map words) = .ok ((ls.map words).map (·.map r.num)) := by
  rw [floats2d, mapM_rows]
  · rw [ok_bind, if_pos]
    · rfl
    · cases ls with
      | nil => rfl
      | cons a ls =>
        simp only [List.map_cons, List.headD_cons, List.length_map, h a (by simp), List.all_cons,
          decide_true, Bool.true_and, List.map_map, List.all_map, List.all_eq_true,
          Function.comp_apply, decide_eq_true_eq]
        intro l hl
        exact h l (by simp [hl])
  · intro row hrow
    obtain ⟨l, hl, rfl⟩ := List.mem_map.1 hrow
    exact hn l hl

theorem slice_append {β : Type} (a b c : List β) :
    slice a.length (a.length + b.length) (a ++ (b ++ c)) = b := by
  rw [slice, ← List.append_assoc, List.take_left' (by simp), List.drop_left' rfl]

theorem slice_mid {β : Type} {a b c l : List β} {n m : Nat} (hl : l = a ++ (b ++ c))
    (hn : n = a.length) (hm : m = a.length + b.length) : slice n m l = b := by
  subst hl hn hm; exact slice_append a b c

theorem squeezedLen_two {rows : List (List α)} (h : 2 ≤ rows.length) :
    squeezedLen rows = .ok rows.length := by
  match rows, h with
  | _ :: _ :: _, _ => simp [squeezedLen]

theorem column_flatten (r : Reader α) {ls : List Text} (h : ∀ l ∈ ls, (words l).length = 1) :
    ((ls.map words).map (·.map r.num)).flatten = nth r ls 0 := by
  induction ls with
  | nil => rfl
  | cons l ls ih =>
    have hl := h l (by simp)
    have := ih fun x hx => h x (by simp [hx])
    simp only [List.map_cons, List.flatten_cons, this, nth]
    match hw : words l, hl with
    | [t], _ => simp

/-- **C115**, the part that holds: from a well-formed XYIE file, intensity and
error are the numbers of their blocks, row by row, and `x` repeats the first axis
for every row. -/
theorem C115_values_partial (r : Reader α) (one : α) {ls xl yl il el : List Text}
    (h : IsXyie r ls xl yl il el) :
    ∃ g, loadXyie r one ls = .ok g ∧
      g.intensity = il.flatMap (fun l => (words l).map r.num) ∧
      g.error = el.flatMap (fun l => (words l).map r.num) ∧
      g.x = yl.flatMap (fun _ => nth r xl 0) := by
  obtain ⟨f, b1, b2, b3, b4, t1, t2, hls, hw, hi1, hi2⟩ := h.lines
  obtain ⟨c1, c2, c3, c4⟩ := h.counts
  have hd : ls.map words = [words f, words b1] ++ (xl.map words ++ ([words b2] ++ (yl.map words ++
      ([words b3] ++ (il.map words ++ ([words b4] ++ el.map words)))))) := by
    rw [hls]; simp
  have s1 : slice 2 (2 + xl.length) (ls.map words) = xl.map words :=
    slice_mid hd (by simp) (by simp)
  have s2 : slice (3 + xl.length) (3 + xl.length + yl.length) (ls.map words) = yl.map words :=
    slice_mid (a := [words f, words b1] ++ xl.map words ++ [words b2]) (c := [words b3] ++
      (il.map words ++ ([words b4] ++ el.map words))) (by rw [hd]; simp)
      (by simp; omega) (by simp; omega)
  have s3 : slice (4 + (xl.length + yl.length + ([] : List Nat).sum))
      (4 + (xl.length + yl.length + ([] : List Nat).sum) + yl.length) (ls.map words) =
      il.map words :=
    slice_mid (a := [words f, words b1] ++ xl.map words ++ [words b2] ++ yl.map words ++
      [words b3]) (c := [words b4] ++ el.map words) (by rw [hd]; simp)
      (by simp; omega) (by simp; omega)
  have s4 : slice (5 + (xl.length + yl.length + ([] : List Nat).sum) + yl.length)
      (5 + (xl.length + yl.length + ([] : List Nat).sum) + 2 * yl.length) (ls.map words) =
      el.map words :=
    slice_mid (a := [words f, words b1] ++ xl.map words ++ [words b2] ++ yl.map words ++
      [words b3] ++ il.map words ++ [words b4]) (c := []) (by rw [hd]; simp)
      (by simp; omega) (by simp; omega)
  have f1 := floats2d_ok r (ls := xl) (fun l hl => h.axes l (by simp [hl]))
    (fun l hl => h.numbers l (by simp [hl]))
  have f2 := floats2d_ok r (ls := yl) (fun l hl => h.axes l (by simp [hl]))
    (fun l hl => h.numbers l (by simp [hl]))
  have f3 := floats2d_ok r (ls := il) (fun l hl => h.rows l (by simp [hl]))
    (fun l hl => h.numbers l (by simp [hl]))
  have f4 := floats2d_ok r (ls := el) (fun l hl => h.rows l (by simp [hl]))
    (fun l hl => h.numbers l (by simp [hl]))
  have hshape : ∀ zl : List Text, (∀ l ∈ zl, (words l).length = xl.length) →
      zl.length = yl.length →
      isShape ((zl.map words).map (·.map r.num)) xl.length yl.length = true := by
    intro zl h1 h2
    simp only [isShape, List.length_map, h2, decide_true, List.map_map, List.all_map,
      Function.comp_def, Bool.true_and, ne_eq, List.map_eq_nil_iff, decide_not, Bool.and_eq_true,
      List.all_eq_true, decide_eq_true_eq, Bool.not_eq_eq_eq_not, Bool.not_true,
      decide_eq_false_iff_not]
    refine ⟨h1, ?_⟩
    rintro rfl
    simp at h2
    omega
  have hhead : firstShape r (ls.map words) = .ok [xl.length, yl.length] := by
    rw [hd]
    simp [firstShape, hw, List.mapM_cons, Reader.intE, hi1, hi2, ok_bind, pure_ok]
  refine ⟨mkGrid one (nth r xl 0) (nth r yl 0) ((il.map words).map (·.map r.num))
    ((el.map words).map (·.map r.num)), ?_, ?_, ?_, ?_⟩
  · rw [loadXyie]
    simp only [hhead, ok_bind, s1, s2, s3, s4, f1, f2, f3, f4]
    rw [squeezedLen_two (by simpa using c1), squeezedLen_two (by simpa using c2)]
    simp only [ok_bind, List.length_map, ne_eq, not_true_eq_false, if_false]
    rw [if_pos, column_flatten r fun l hl => h.axes l (by simp [hl]),
      column_flatten r fun l hl => h.axes l (by simp [hl])]
    · rfl
    · simp only [hshape il (fun l hl => h.rows l (by simp [hl])) c3,
        hshape el (fun l hl => h.rows l (by simp [hl])) c4, decide_true, Bool.and_self]
  · simp [mkGrid, List.flatMap, Function.comp_def]
  · simp [mkGrid, List.flatMap, Function.comp_def]
  · simp [mkGrid, meshX, nth, List.flatMap, Function.comp_def]

/-- An XYIE file of two by two points. -/
def xyieTwo : List Text :=
  [cs!"  2  2", cs!" ", cs!" 10", cs!" 11", cs!" ", cs!" 20", cs!" 21", cs!" ", cs!" 1 2", cs!" 3 4",
    cs!" ", cs!" 5 6", cs!" 7 8"]

theorem xyieTwo_ok : IsXyie digits xyieTwo [cs!" 10", cs!" 11"] [cs!" 20", cs!" 21"]
    [cs!" 1 2", cs!" 3 4"] [cs!" 5 6", cs!" 7 8"] where
  lines := ⟨cs!"  2  2", cs!" ", cs!" ", cs!" ", cs!" ", cs!"2", cs!"2", by decide⟩
  counts := by decide
  axes := by decide
  rows := by decide
  numbers := by decide

/-- **C115** does not hold in full: the column `y` is not the second axis. -/
theorem C115_false : ¬ ∀ (ls xl yl il el : List Text), IsXyie digits ls xl yl il el →
    ∃ g, loadXyie digits 1 ls = .ok g ∧ g.y = (nth digits yl 0).flatMap (fun v => xl.map fun _ => v) := by
  intro h
  obtain ⟨g, h1, h2⟩ := h _ _ _ _ _ xyieTwo_ok
  have h3 : loadXyie digits 1 xyieTwo = .ok ⟨[1, 2, 3, 4], [5, 6, 7, 8], [10, 11, 10, 11],
    [10, 11, 10, 11], [1, 1], [1, 1], [[5, 6], [7, 8]]⟩ := by decide
  rw [h3] at h1
  obtain rfl := Except.ok.inj h1
  revert h2
  decide

/-- A reader of rational numbers, for the example. -/
def ratDigits : Reader ℚ where
  float t := (digits.float t).map fun (n : ℕ) => (n : ℚ)
  int := digits.int
  nan := 0

example : ∃ g, loadXyie ratDigits 1 xyieTwo = .ok g := by
  obtain ⟨g, h, -⟩ := C115_values_partial ratDigits 1 (ls := xyieTwo) (xl := [cs!" 10", cs!" 11"])
    (yl := [cs!" 20", cs!" 21"]) (il := [cs!" 1 2", cs!" 3 4"]) (el := [cs!" 5 6", cs!" 7 8"])
    { lines := ⟨cs!"  2  2", cs!" ", cs!" ", cs!" ", cs!" ", cs!"2", cs!"2", by decide⟩
      counts := by decide
      axes := by decide
      rows := by decide
      numbers := by
        have := xyieTwo_ok.numbers
        intro l hl t ht
        show ((digits.float t).map fun (n : ℕ) => (n : ℚ)).isSome = true
        rw [Option.isSome_map]
        exact this l hl t ht }
  exact ⟨g, h⟩

end Verif.FileIO
