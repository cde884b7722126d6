import Verif.FileIO.Save

/-!
# Lemmas about saving and loading data files
-/

namespace Verif.FileIO

variable {α : Type}

theorem words_single {w : Text} (hw : w ≠ []) (hs : ∀ x ∈ w, isSpace x = false) : words w = [w] := by
  induction w with
  | nil => exact absurd rfl hw
  | cons x xs ih =>
    have hx := hs x (by simp)
    cases xs with
    | nil => simp [words, hx]
    | cons y ys =>
      have hy := hs y (by simp)
      have := ih (by simp) (fun z hz => hs z (by simp [hz]))
      rw [words, if_neg (by simp [hx])]
      simp only [hy, Bool.false_eq_true, if_false, this]

theorem words_append {w : Text} {c : Char} (hw : w ≠ []) (hs : ∀ x ∈ w, isSpace x = false)
    (hc : isSpace c = true) (s : Text) : words (w ++ c :: s) = w :: words s := by
  induction w with
  | nil => exact absurd rfl hw
  | cons x xs ih =>
    have hx := hs x (by simp)
    cases xs with
    | nil => simp [words, hx, hc]
    | cons y ys =>
      have hy := hs y (by simp)
      have := ih (by simp) (fun z hz => hs z (by simp [hz]))
      simp only [List.cons_append] at this ⊢
      rw [words, if_neg (by simp [hx])]
      simp only [hy, Bool.false_eq_true, if_false, this]

/-- A name that `split()` keeps in one piece. -/
def OneWord (w : Text) : Prop := w ≠ [] ∧ ∀ x ∈ w, isSpace x = false

instance (w : Text) : Decidable (OneWord w) := inferInstanceAs (Decidable (_ ∧ _))

theorem words_join {ws : List Text} (h : ∀ w ∈ ws, OneWord w) : words (join '\t' ws) = ws := by
  induction ws with
  | nil => rfl
  | cons w ws ih =>
    have hw := h w (by simp)
    have := ih fun x hx => h x (by simp [hx])
    cases ws with
    | nil => exact words_single hw.1 hw.2
    | cons y ys => rw [join.eq_3 _ _ _ (by simp), words_append hw.1 hw.2 rfl, this]

theorem eraseFrom_subset (pat : Text) (k : Nat) (s : Text) : ∀ x ∈ eraseFrom pat k s, x ∈ s := by
  induction s generalizing k with
  | nil => simp [eraseFrom]
  | cons y ys ih =>
    intro x hx
    cases k with
    | succ k => exact List.mem_cons_of_mem _ (ih k x hx)
    | zero =>
      rw [eraseFrom] at hx
      split at hx
      · exact List.mem_cons_of_mem _ (ih _ x hx)
      · rcases List.mem_cons.1 hx with rfl | hx
        · simp
        · exact List.mem_cons_of_mem _ (ih _ x hx)

theorem has_false_iff {pat s : Text} : has pat s = false ↔ ¬ pat <:+: s := by
  rw [← has_iff, Bool.not_eq_true]

theorem has_false_of_notMem {pat s : Text} {c : Char} (hc : c ∈ pat) (hs : c ∉ s) :
    has pat s = false :=
  has_false_iff.2 fun h => hs (h.subset hc)

theorem infix_of_head {c : Char} {pat a b : Text} (hc : c ∉ a) (h : c :: pat <:+: a ++ b) :
    c :: pat <:+: b := by
  obtain ⟨u, v, h⟩ := h
  rw [List.append_assoc] at h
  rcases List.append_eq_append_iff.1 h with ⟨x, hx, h'⟩ | ⟨x, rfl, h'⟩
  · cases x with
    | nil => exact ⟨[], v, by simpa using h'⟩
    | cons y ys =>
      simp only [List.cons_append, List.cons.injEq] at h'
      exact absurd (by rw [hx, h'.1]; simp) hc
  · exact ⟨x, v, by rw [List.append_assoc]; exact h'.symm⟩

/-! ### Scanning the header -/

theorem scan_rows (rows : List (List α)) :
    scan (rows.map Line.row) = .ok ([], none) := by
  induction rows with
  | nil => rfl
  | cons r rs ih => simpa [scan] using ih

theorem scan_comment {h : Text} (hq : has cs!"npy_col_headers" h = false) (rest : List (Line α)) :
    scan (Line.comment h :: rest) = (do
      let (h', names) ← scan rest
      return (erase cs!"# " (cs!"# " ++ h) :: h', names)) := by
  conv_lhs => unfold scan
  rw [if_neg (by rw [hq]; simp)]

theorem scan_comments {hs : List Text} (hq : ∀ h ∈ hs, has cs!"npy_col_headers" h = false)
    {rest : List (Line α)} {h' : List Text} {names : Option (List Text)}
    (hr : scan rest = .ok (h', names)) :
    scan (hs.map Line.comment ++ rest) = .ok (hs.map (erase cs!"# ") ++ h', names) := by
  induction hs with
  | nil => simpa using hr
  | cons h hs ih =>
    have := ih fun x hx => hq x (by simp [hx])
    rw [List.map_cons, List.cons_append, scan_comment (hq h (by simp)), this,
      erase_append (by simp)]
    rfl

theorem scan_end (c : Text) (rows : List (List α)) :
    scan (Line.comment cs!"npy_col_headers =" :: Line.comment c :: rows.map Line.row) =
      .ok ([], some (words c)) := by
  rw [scan, if_pos (by decide)]
  simp only [scan_rows]
  rfl

theorem rows_filter (hs : List Text) (rows : List (List α)) :
    (hs.map Line.comment ++ rows.map Line.row).filterMap Line.row? = rows := by
  rw [List.filterMap_append]
  have h1 : (hs.map (Line.comment (α := α))).filterMap Line.row? = [] := by
    induction hs with
    | nil => rfl
    | cons h hs ih => simp [Line.row?]
  have h2 : (rows.map Line.row).filterMap Line.row? = rows := by
    induction rows with
    | nil => rfl
    | cons r rs ih => simp [Line.row?, Function.comp_def]
  rw [h1, h2, List.nil_append]

theorem startOf_none {ls : List Text} (h : ∀ l ∈ ls, has cs!"original_header" l = false) :
    startOf ls = none := by
  induction ls with
  | nil => rfl
  | cons l ls ih => simp [startOf, ih fun x hx => h x (by simp [hx]), h l (by simp)]

theorem startOf_append (a : List Text) {l : Text} {b : List Text}
    (hl : has cs!"original_header" l = true)
    (hb : ∀ l ∈ b, has cs!"original_header" l = false) :
    startOf (a ++ l :: b) = some (a.length + 1) := by
  induction a with
  | nil => simp [startOf, startOf_none hb, hl]
  | cons x xs ih => simp [startOf, ih]

theorem keysOf_none (dt : DictText) {word cut : Text} {ls : List Text}
    (h : ∀ l ∈ ls, has word l = false) : keysOf dt word cut ls = .ok none := by
  induction ls with
  | nil => rfl
  | cons l ls ih =>
    rw [keysOf, if_neg (by simp [h l (by simp)]), ih fun x hx => h x (by simp [hx])]

theorem keysOf_append (dt : DictText) {word cut : Text} {a : List Text} {l : Text} {b : List Text}
    {k : Dict} (ha : ∀ l ∈ a, has word l = false) (hl : has word l = true)
    (he : dt.eval (erase cut l) = some k) (hb : ∀ l ∈ b, has word l = false) :
    keysOf dt word cut (a ++ l :: b) = .ok (some k) := by
  induction a with
  | nil =>
    rw [List.nil_append, keysOf, if_pos hl]
    simp only [he, keysOf_none dt hb]
    rfl
  | cons x xs ih =>
    rw [List.cons_append, keysOf, if_neg (by simp [ha x (by simp)]),
      ih fun y hy => ha y (by simp [hy])]

/-! ### Filling the columns -/

theorem fill_aux (names : List Text) (cols : List (Col α)) (acc : List (Text × Col α))
    (hn : names.Nodup) (hd : ∀ n ∈ names, n ∉ acc.map Prod.fst) :
    (List.zip names cols).foldl (fun acc c => putCol acc c.1 c.2) acc = acc ++ List.zip names cols := by
  induction names generalizing cols acc with
  | nil => simp
  | cons n ns ih =>
    cases cols with
    | nil => simp
    | cons c cs =>
      simp only [List.zip_cons_cons, List.foldl_cons]
      rw [putCol, if_neg (hd n (by simp)), ih cs _ (List.nodup_cons.1 hn).2]
      · simp
      · intro m hm
        simp only [List.map_append, List.map_cons, List.map_nil, List.mem_append, List.mem_singleton,
          not_or]
        exact ⟨hd m (by simp [hm]), fun e => (List.nodup_cons.1 hn).1 (e ▸ hm)⟩

theorem fill_eq {names : List Text} (hn : names.Nodup) (cols : List (Col α)) :
    fill names cols = List.zip names cols := by
  rw [fill, fill_aux _ _ _ hn (by simp), List.nil_append]

/-! ### The table -/

/-- The `i`-th row of a table given by columns. -/
def rowAt (cols : List (List α)) (i : Nat) : List α := cols.filterMap fun x => x[i]?

theorem rowAt_getElem? {cols : List (List α)} {i : Nat} (h : ∀ c ∈ cols, i < c.length) (j : Nat) :
    (rowAt cols i)[j]? = cols[j]?.bind fun c => c[i]? := by
  induction cols generalizing j with
  | nil => simp [rowAt]
  | cons c cs ih =>
    have hc := h c (by simp)
    have hr : rowAt (c :: cs) i = c[i] :: rowAt cs i := by
      simp [rowAt, hc]
    rw [hr]
    cases j with
    | zero => simp [hc]
    | succ j => simpa using ih (fun x hx => h x (by simp [hx])) j

theorem rowAt_length {cols : List (List α)} {i : Nat} (h : ∀ c ∈ cols, i < c.length) :
    (rowAt cols i).length = cols.length := by
  induction cols with
  | nil => rfl
  | cons c cs ih =>
    have hc := h c (by simp)
    have hr : rowAt (c :: cs) i = c[i] :: rowAt cs i := by
      simp [rowAt, hc]
    rw [hr, List.length_cons, List.length_cons, ih fun x hx => h x (by simp [hx])]

theorem range_filterMap (xs : List α) : (List.range xs.length).filterMap (fun i => xs[i]?) = xs := by
  induction xs with
  | nil => rfl
  | cons x xs ih =>
    rw [List.length_cons, List.range_succ_eq_map, List.filterMap_cons]
    simp only [List.getElem?_cons_zero, List.filterMap_map, Function.comp_def,
      List.getElem?_cons_succ, ih]

/-- The rows `np.vstack(...).T` gives. -/
def rowsOf (n : Nat) (cols : List (List α)) : List (List α) := (List.range n).map (rowAt cols)

theorem stack_eq {cols : List (List α)} {n : Nat} (hne : cols ≠ []) (h : ∀ c ∈ cols, c.length = n) :
    stack cols = .ok (rowsOf n cols) := by
  cases cols with
  | nil => exact absurd rfl hne
  | cons c cs =>
    have hc := h c (by simp)
    rw [stack, if_pos]
    · simp only [rowsOf, hc]; rfl
    · simp only [List.all_eq_true, decide_eq_true_eq]
      intro x hx
      rw [h x (by simp [hx]), hc]

theorem column_of_rows {cols : List (List α)} {n : Nat} (h : ∀ c ∈ cols, c.length = n) {j : Nat}
    (hj : j < cols.length) : (rowsOf n cols).filterMap (fun r => r[j]?) = cols[j] := by
  rw [rowsOf, List.filterMap_map]
  have hl := h cols[j] (List.getElem_mem _)
  conv_rhs => rw [← range_filterMap cols[j], hl]
  apply List.filterMap_congr
  intro i hi
  rw [Function.comp, rowAt_getElem? (fun c hc => by rw [h c hc]; exact List.mem_range.1 hi)]
  simp [List.getElem?_eq_getElem hj]

theorem rowsOf_length {cols : List (List α)} {n : Nat} (h : ∀ c ∈ cols, c.length = n) :
    ∀ r ∈ rowsOf n cols, r.length = cols.length := by
  intro r hr
  obtain ⟨i, hi, rfl⟩ := List.mem_map.1 hr
  exact rowAt_length fun c hc => by rw [h c hc]; exact List.mem_range.1 hi

theorem genfromtxt_cols (r : List α) (rs : List (List α)) (hall : ∀ x ∈ rs, x.length = r.length)
    (h1 : rs ≠ []) (h2 : 2 ≤ r.length) :
    genfromtxt (r :: rs) =
      .ok ((List.range r.length).map fun j => .arr ((r :: rs).filterMap fun x => x[j]?)) := by
  have : (rs.all fun x => decide (x.length = r.length)) = true := by simpa using hall
  match rs, r, h1, h2, this with
  | _ :: _, _ :: _ :: _, _, _, this =>
    rw [genfromtxt, if_pos this]
    · simp
    · simp
    · simp

theorem genfromtxt_table {cols : List (List α)} {n : Nat} (h : ∀ c ∈ cols, c.length = n)
    (hn : 2 ≤ n) (hk : 2 ≤ cols.length) : genfromtxt (rowsOf n cols) = .ok (cols.map .arr) := by
  have hlen := rowsOf_length h
  obtain ⟨m, rfl⟩ : ∃ m, n = m + 2 := ⟨n - 2, by omega⟩
  have hl : (rowsOf (m + 2) cols).length = m + 2 := by simp [rowsOf]
  have hcol := fun (j : Nat) (hj : j < cols.length) => column_of_rows h hj
  revert hl hlen hcol
  generalize rowsOf (m + 2) cols = rows
  intro hlen hl hcol
  match rows, hl with
  | r :: r' :: rs, _ =>
    have hr := hlen r (by simp)
    rw [genfromtxt_cols r (r' :: rs) (fun x hx => by rw [hlen x (by simp [List.mem_cons.1 hx]), hr])
      (by simp) (by omega), hr]
    congr 1
    apply List.ext_getElem
    · simp
    · intro j h1 h2
      simp only [List.length_map, List.length_range] at h1
      simp only [List.getElem_map, List.getElem_range, hcol j h1]

theorem genfromtxt_row {cols : List (List α)} (h : ∀ c ∈ cols, c.length = 1)
    (hk : 2 ≤ cols.length) : genfromtxt (rowsOf 1 cols) = .ok ((rowAt cols 0).map .scalar) := by
  have hl : (rowAt cols 0).length = cols.length := rowAt_length fun c hc => by rw [h c hc]; omega
  have : rowsOf 1 cols = [rowAt cols 0] := rfl
  rw [this]
  rw [← hl] at hk
  revert hk
  generalize rowAt cols 0 = r
  intro hk
  match r, hk with
  | _ :: _ :: _, _ => rfl

end Verif.FileIO
