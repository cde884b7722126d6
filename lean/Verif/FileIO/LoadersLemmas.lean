import Verif.FileIO.Loaders
import Verif.FileIO.SaveLemmas

/-!
# Lemmas about the loaders for the files of other programs
-/

namespace Verif.FileIO

variable {α : Type}

theorem tableTokens_append (a b : List Text) :
    tableTokens (a ++ b) = tableTokens a ++ tableTokens b := by
  simp [tableTokens]

theorem tableTokens_comments {ls : List Text} (h : ∀ l ∈ ls, l.head? = some '#') :
    tableTokens ls = [] := by
  rw [tableTokens, List.filter_eq_nil_iff]
  intro x hx
  obtain ⟨l, hl, rfl⟩ := List.mem_map.1 hx
  have := h l hl
  cases l with
  | nil => simp at this
  | cons c cs =>
    simp only [List.head?_cons, Option.some.injEq] at this
    subst this
    simp [words]

/-- A line of numbers: no comment, not blank. -/
def DataLine (l : Text) : Prop := '#' ∉ l ∧ words l ≠ []

instance (l : Text) : Decidable (DataLine l) := inferInstanceAs (Decidable (_ ∧ _))

theorem takeWhile_hash {l : Text} (h : '#' ∉ l) : l.takeWhile (· ≠ '#') = l := by
  induction l with
  | nil => rfl
  | cons c cs ih =>
    simp only [List.mem_cons, not_or] at h
    rw [List.takeWhile_cons_of_pos (by simpa using Ne.symm h.1), ih h.2]

theorem tableTokens_data {ls : List Text} (h : ∀ l ∈ ls, DataLine l) :
    tableTokens ls = ls.map words := by
  have : ls.map (fun l => words (l.takeWhile (· ≠ '#'))) = ls.map words :=
    List.map_congr_left fun l hl => by rw [takeWhile_hash (h l hl).1]
  rw [tableTokens, this, List.filter_eq_self]
  intro x hx
  obtain ⟨l, hl, rfl⟩ := List.mem_map.1 hx
  simpa using (h l hl).2

/-- Column `j` of a table of texts, read as numbers. -/
def colVals (num : Text → α) (rows : List (List Text)) (j : Nat) : List α :=
  rows.map fun r => num (r.getD j [])

theorem filterMap_colVals (num : Text → α) {rows : List (List Text)} {j : Nat}
    (h : ∀ r ∈ rows, j < r.length) :
    (rows.map (·.map num)).filterMap (fun x => x[j]?) = colVals num rows j := by
  induction rows with
  | nil => rfl
  | cons r rs ih =>
    have hr := h r (by simp)
    have := ih fun x hx => h x (by simp [hx])
    simp only [List.map_cons, colVals] at this ⊢
    rw [List.filterMap_cons_some (b := num r[j]) (by simp [hr]), this]
    simp [hr]

theorem genfromtxt_rows (num : Text → α) {rows : List (List Text)} {k : Nat} (hn : 2 ≤ rows.length)
    (hk : 2 ≤ k) (h : ∀ r ∈ rows, r.length = k) :
    genfromtxt (rows.map (·.map num)) =
      .ok ((List.range k).map fun j => .arr (colVals num rows j)) := by
  match rows, hn with
  | r :: r' :: rs, _ =>
    have hr := h r (by simp)
    rw [List.map_cons, genfromtxt_cols _ _ _ (by simp) (by simpa [hr] using hk)]
    · simp only [List.length_map, hr]
      congr 1
      apply List.map_congr_left
      intro j hj
      rw [← List.map_cons, filterMap_colVals]
      intro x hx
      rw [h x hx]
      exact List.mem_range.1 hj
    · intro x hx
      obtain ⟨y, hy, rfl⟩ := List.mem_map.1 hx
      simp [hr, h y (by simp [List.mem_cons.1 hy])]

theorem genfromtxt_single (num : Text → α) {r : List Text} (hk : 2 ≤ r.length) :
    genfromtxt ([r].map (·.map num)) = .ok (r.map fun t => .scalar (num t)) := by
  match r, hk with
  | a :: b :: r, _ => simp [genfromtxt]

theorem lookup_zip {names : List Text} (hn : names.Nodup) {cols : List (Col α)} {j : Nat}
    (hj : j < names.length) (hc : j < cols.length) :
    (List.zip names cols).lookup names[j] = some cols[j] := by
  induction names generalizing cols j with
  | nil => simp at hj
  | cons n ns ih =>
    cases cols with
    | nil => simp at hc
    | cons c cs =>
      rw [List.zip_cons_cons, List.lookup_cons]
      cases j with
      | zero => simp
      | succ j =>
        have hj' : j < ns.length := by simpa using hj
        have hne : ((n :: ns)[j + 1] == n) = false := by
          rw [beq_eq_false_iff_ne]
          intro e
          have e' : ns[j] = n := by simpa using e
          exact (List.nodup_cons.1 hn).1 (e' ▸ List.getElem_mem hj')
        rw [hne]
        simpa using ih (List.nodup_cons.1 hn).2 hj' (by simpa using hc)

theorem lookup_fill {names : List Text} (hn : names.Nodup) {cols : List (Col α)} {j : Nat}
    (hj : j < names.length) (hc : j < cols.length) :
    (fill names cols).lookup names[j] = some cols[j] := by
  rw [fill_eq hn, lookup_zip hn hj hc]

theorem lookup_filter {key name : Text} (h : name ≠ key) (cols : List (Text × Col α)) :
    (cols.filter fun c => c.1 ≠ key).lookup name = cols.lookup name := by
  induction cols with
  | nil => rfl
  | cons c cs ih =>
    by_cases hc : c.1 = key
    · have : (name == c.1) = false := by rw [beq_eq_false_iff_ne, hc]; exact h
      rw [List.filter_cons_of_neg (by simpa using hc), ih]
      conv_rhs => rw [List.lookup_cons, this]
    · rw [List.filter_cons_of_pos (by simpa using hc), List.lookup_cons, List.lookup_cons, ih]

theorem map_fst_zip {names : List Text} {cols : List (Col α)} (h : names.length = cols.length) :
    (List.zip names cols).map Prod.fst = names :=
  List.map_fst_zip h.le

theorem lookup_putCol_self (cols : List (Text × Col α)) (key : Text) (v : Col α) :
    (putCol cols key v).lookup key = some v := by
  rw [putCol]
  split
  · rename_i h
    induction cols with
    | nil => simp at h
    | cons c cs ih =>
      rw [List.map_cons, List.lookup_cons]
      by_cases hc : c.1 = key
      · simp [hc]
      · have : (key == c.1) = false := by rw [beq_eq_false_iff_ne]; exact Ne.symm hc
        simp only [hc, if_false, this]
        apply ih
        simp only [List.map_cons, List.mem_cons] at h
        exact h.resolve_left (Ne.symm hc)
  · rename_i h
    induction cols with
    | nil => simp
    | cons c cs ih =>
      simp only [List.map_cons, List.mem_cons, not_or] at h
      have : (key == c.1) = false := by rw [beq_eq_false_iff_ne]; exact h.1
      rw [List.cons_append, List.lookup_cons, this]
      exact ih h.2

theorem lookup_append_ne {key name : Text} (h : name ≠ key) (cols : List (Text × Col α)) (v : Col α) :
    (cols ++ [(key, v)]).lookup name = cols.lookup name := by
  have : (name == key) = false := by rw [beq_eq_false_iff_ne]; exact h
  induction cols with
  | nil => simp [List.lookup_cons, this]
  | cons c cs ih => rw [List.cons_append, List.lookup_cons, List.lookup_cons, ih]

theorem lookup_putCol_ne {key name : Text} (h : name ≠ key) (cols : List (Text × Col α)) (v : Col α) :
    (putCol cols key v).lookup name = cols.lookup name := by
  rw [putCol]
  split
  · clear * - h
    induction cols with
    | nil => rfl
    | cons c cs ih =>
      rw [List.map_cons, List.lookup_cons, List.lookup_cons]
      by_cases hc : c.1 = key
      · have : (name == c.1) = false := by rw [beq_eq_false_iff_ne, hc]; exact h
        simp only [hc, if_true] at this ⊢
        rw [this, ih]
      · simp only [hc, if_false, ih]
  · exact lookup_append_ne h cols v

theorem lookup_putCol_old {key : Text} {names : List Text} (h : key ∉ names) {j : Nat}
    (hj : j < names.length) (cols : List (Text × Col α)) (v : Col α) :
    (putCol cols key v).lookup names[j] = cols.lookup names[j] :=
  lookup_putCol_ne (fun (e : names[j] = key) => h (by rw [← e]; exact List.getElem_mem hj)) cols v

/-! ### Scanning SPICE files -/

theorem spiceScan_comments {hs : List Text} (h1 : ∀ l ∈ hs, '#' ∈ l)
    (h2 : ∀ l ∈ hs, has cs!"col_headers" l = false) {rest h' : List Text}
    {names : Option (List Text)} (hr : spiceScan rest = .ok (h', names)) :
    spiceScan (hs ++ rest) = .ok (hs.map (erase cs!"# ") ++ h', names) := by
  induction hs with
  | nil => simpa using hr
  | cons l ls ih =>
    have := ih (fun x hx => h1 x (by simp [hx])) fun x hx => h2 x (by simp [hx])
    rw [List.cons_append]
    conv_lhs => unfold spiceScan
    rw [if_neg (by rw [h2 l (by simp)]; simp), if_pos (h1 l (by simp)), this]
    rfl

theorem spiceScan_data {ds : List Text} (h1 : ∀ l ∈ ds, '#' ∉ l)
    (h2 : ∀ l ∈ ds, has cs!"col_headers" l = false) (rest : List Text) :
    spiceScan (ds ++ rest) = spiceScan rest := by
  induction ds with
  | nil => rfl
  | cons l ls ih =>
    have := ih (fun x hx => h1 x (by simp [hx])) fun x hx => h2 x (by simp [hx])
    rw [List.cons_append]
    conv_lhs => unfold spiceScan
    rw [if_neg (by rw [h2 l (by simp)]; simp), if_neg (h1 l (by simp)), this]

theorem spiceScan_names {cl nl : Text} (h : has cs!"col_headers" cl = true) {rest h' : List Text}
    (hr : spiceScan rest = .ok (h', none)) :
    spiceScan (cl :: nl :: rest) = .ok (h', some (words nl).tail) := by
  unfold spiceScan
  rw [if_pos h]
  simp only [hr]
  rfl

end Verif.FileIO
