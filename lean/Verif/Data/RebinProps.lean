import Verif.Data.BinProps
import Mathlib.Data.List.Sort
import Mathlib.Data.List.Lex
import Mathlib.Data.List.GetD
import Mathlib.Data.Rat.Sqrt
import Mathlib.Algebra.Order.BigOperators.Group.List

set_option linter.unusedSectionVars false

/-!
# Property C211: rebinning what has been rebinned
-/

namespace Verif.Data

variable {α : Type} [Field α] [LinearOrder α] [IsStrictOrderedRing α]

theorem secondFirst_secondFirst (c : List α) : secondFirst (secondFirst c) = c := by
  match c with
  | [] => rfl
  | [_] => rfl
  | _ :: _ :: _ => rfl

/-- Two enumerations of the same cells in grid order are the same. -/
theorem gridOrder_unique {Q Q' : List (List α)} (h : (Q.map secondFirst).Pairwise (List.Lex (· < ·)))
    (h' : (Q'.map secondFirst).Pairwise (List.Lex (· < ·))) (hm : ∀ c, c ∈ Q ↔ c ∈ Q') : Q = Q' := by
  have key : Q.map secondFirst = Q'.map secondFirst := by
    have a : (Q.map secondFirst).SortedLT := by
      rw [List.sortedLT_iff_pairwise]; exact h
    have b : (Q'.map secondFirst).SortedLT := by
      rw [List.sortedLT_iff_pairwise]; exact h'
    apply a.eq_of_mem_iff b
    intro c
    simp only [List.mem_map, hm]
  have := congrArg (List.map secondFirst) key
  simpa [List.map_map, Function.comp_def, secondFirst_secondFirst] using this

theorem gridOrder_nodup {Q : List (List α)} (h : (Q.map secondFirst).Pairwise (List.Lex (· < ·))) : Q.Nodup := by
  apply List.Nodup.of_map secondFirst
  have a : (Q.map secondFirst).SortedLT := by
    rw [List.sortedLT_iff_pairwise]; exact h
  exact a.nodup

theorem filter_range_one {m i : Nat} (hi : i < m) {P : Nat → Bool} (h : ∀ j < m, P j = true ↔ j = i) :
    (List.range m).filter P = [i] := by
  have : (List.range m).filter P = (List.range m).filter (fun j => j == i) := by
    apply List.filter_congr
    intro j hj
    rw [Bool.eq_iff_iff, h j (List.mem_range.1 hj), beq_iff_eq]
  rw [this, List.filter_beq, List.count_eq_one_of_mem List.nodup_range (List.mem_range.2 hi)]
  rfl

theorem lookup_ext {t u : Table α} (hk : t.map Prod.fst = u.map Prod.fst) (hn : (t.map Prod.fst).Nodup)
    (hl : ∀ k, t.lookup k = u.lookup k) : t = u := by
  induction t generalizing u with
  | nil =>
    cases u with
    | nil => rfl
    | cons _ _ => simp at hk
  | cons a t ih =>
    cases u with
    | nil => simp at hk
    | cons b u =>
      simp only [List.map_cons, List.cons.injEq] at hk
      simp only [List.map_cons, List.nodup_cons] at hn
      obtain ⟨a1, a2⟩ := a
      obtain ⟨b1, b2⟩ := b
      simp only at hk hn
      obtain ⟨rfl, hk⟩ := hk
      have h0 := hl a1
      simp only [List.lookup_cons, beq_self_eq_true] at h0
      obtain rfl := Option.some.inj h0
      congr 1
      apply ih hk hn.2
      intro k
      by_cases e : k = a1
      · subst e
        rw [List.lookup_eq_none_iff.2, List.lookup_eq_none_iff.2]
        · intro p hp
          have : p.1 ∈ u.map Prod.fst := List.mem_map_of_mem hp
          rw [← hk] at this
          have hne : k ≠ p.1 := by rintro rfl; exact hn.1 this
          simpa using hne
        · intro p hp
          have : p.1 ∈ t.map Prod.fst := List.mem_map_of_mem hp
          have hne : k ≠ p.1 := by rintro rfl; exact hn.1 this
          simpa using hne
      · have := hl k
        have e' : (k == a1) = false := by simpa using e
        simpa only [List.lookup_cons, e'] using this

/-- Whatever errors the data set could report, the rebinned data set can. -/
theorem error_rebinned {sqrt : α → α} {d r : DataObj α} {m : Nat} (hm : 0 < m) {E e : List α} {d' : DataObj α}
    (he : error sqrt d = .ok (e, d')) (hE : r.err = some E) (hl : E.length = m) (hdk : r.dk = d.dk) (ht : r.timeNorm = d.timeNorm)
    (hm0 : r.m0 = d.m0) (ht0 : r.t0 = d.t0)
    (hc : ∀ k c, d.cols.lookup k = some c → ∃ c', r.cols.lookup k = some c' ∧ c'.length = m) :
    ∃ e' r', error sqrt r = .ok (e', r') ∧ e'.length = m := by
  unfold error at he
  obtain ⟨_, _, he⟩ := bind_eq_ok.1 he
  obtain ⟨⟨_, _, _⟩, hn, _⟩ := bind_eq_ok.1 he
  have hr : ∃ r' c' v, normalise r = .ok (r', c', v) ∧ c'.length = m := by
    unfold normalise at hn ⊢
    unfold DataObj.time DataObj.monitor at hn ⊢
    rw [ht, hm0, ht0, hdk]
    by_cases hb : d.timeNorm = true
    · simp only [hb, if_true] at hn ⊢
      obtain ⟨c, h1, _⟩ := bind_eq_ok.1 hn
      obtain ⟨c', h2, h3⟩ := hc _ c (get_eq_ok.1 h1)
      simp only [get_eq_ok.2 h2, ok_bind, nanmax_ok (h3 ▸ hm)]
      by_cases h0 : d.t0 = 0
      · simp only [h0, if_true, ok_bind]
        exact ⟨_, _, _, rfl, h3⟩
      · simp only [h0, if_false, ok_bind]
        exact ⟨_, _, _, rfl, h3⟩
    · simp only [hb, if_false] at hn ⊢
      obtain ⟨c, h1, _⟩ := bind_eq_ok.1 hn
      obtain ⟨c', h2, h3⟩ := hc _ c (get_eq_ok.1 h1)
      simp only [get_eq_ok.2 h2, ok_bind, nanmax_ok (h3 ▸ hm)]
      by_cases h0 : d.m0 = 0
      · simp only [h0, if_true, ok_bind]
        exact ⟨_, _, _, rfl, h3⟩
      · simp only [h0, if_false, ok_bind]
        exact ⟨_, _, _, rfl, h3⟩
  obtain ⟨r', c', v, h1, h2⟩ := hr
  unfold error rawError
  simp only [hE, ok_bind, h1]
  unfold bcast
  rw [if_pos (by rw [hl, h2]), ok_bind]
  exact ⟨_, _, rfl, by simp [hl, h2]⟩

theorem minOf_const {xs : List α} {x : α} (h : xs ≠ []) (hx : ∀ y ∈ xs, y = x) : minOf xs = x ∧ maxOf xs = x := by
  cases xs with
  | nil => exact absurd rfl h
  | cons y ys =>
    have hy := hx y (by simp)
    subst hy
    have hys : ∀ z ∈ ys, z = y := fun z hz => hx z (by simp [hz])
    clear hx h
    simp only [minOf, maxOf, List.tail_cons, List.headD_cons]
    induction ys with
    | nil => exact ⟨rfl, rfl⟩
    | cons z zs ih =>
      have := hys z (by simp)
      subst this
      simpa using ih (fun w hw => hys w (by simp [hw]))

/-- A cell of an axis contains only its own centre among the centres, whether it
has its full width or none. -/
theorem centre_only {a : BinAxis α} (ha : a.n = 1 ∨ a.lo < a.hi) {i j : Nat} {w : α} (hw : w ≤ width a)
    (h : |centre a i - centre a j| ≤ w / 2) : centre a i = centre a j := by
  by_contra hne
  have h0 : 0 ≤ w := by linarith [abs_nonneg (centre a i - centre a j)]
  have h1 : |centre a i - centre a j| ≤ width a / 2 := by linarith
  by_cases h : a.n = 1
  · exact hne (by simp [centre, h])
  · have hij : i ≠ j := by rintro rfl; exact hne rfl
    have hd : centre a i - centre a j = ((i : α) - j) * width a := by
      simp only [centre, h, if_false]; ring
    rw [hd, abs_mul, abs_of_nonneg (by linarith : 0 ≤ width a)] at h1
    have h2 : 0 < width a := by
      rcases (show 0 ≤ width a by linarith).lt_or_eq with h2 | h2
      · exact h2
      · exact absurd (sub_eq_zero.1 (by rw [hd, ← h2, mul_zero])) hne
    have h3 : (1 : α) ≤ |(i : α) - j| := by
      rcases lt_or_gt_of_ne hij with h3 | h3
      · have : (i : α) + 1 ≤ j := by exact_mod_cast h3
        rw [abs_sub_comm]
        exact le_trans (by linarith) (le_abs_self _)
      · have : (j : α) + 1 ≤ i := by exact_mod_cast h3
        exact le_trans (by linarith) (le_abs_self _)
    nlinarith

/-- **C211** rebinning what has been rebinned, with the same specification, changes
no column: the same rows come back, with the same coordinates, counts and other
columns, however many processes are used each time.  The stored error becomes the
error the rebinned data set reports.
Missing: the errors are not left alone (`C211_errors_false`) and a data set without
rows cannot be rebinned (`C211_empty_false`). -/
theorem C211_again_partial {sqrt : α → α} {p q : Nat} (hp : 0 < p) (hq : 0 < q) {d : DataObj α} {n : Nat}
    {toBin : List (String × BinAxis α)} {b : Bool} {keys : List String}
    (hkeys : keys = binKeys toBin d.qk b) (hnd : keys.Nodup) (h : Binnable d n keys)
    {e : List α} {d' : DataObj α} (he : error sqrt d = .ok (e, d')) (hle : e.length = n)
    (hax : ∀ a ∈ keys.map (axisOf d toBin), a.n = 1 ∨ a.lo < a.hi)
    {r : DataObj α} (hr : bin sqrt p d toBin b = .ok r) (hrow : r.err ≠ some []) :
    ∃ r' e' r'', bin sqrt q r toBin b = .ok r' ∧ r'.cols = r.cols ∧
      error sqrt r = .ok (e', r'') ∧ r'.err = some (e'.map fun x => sqrt (x ^ 2)) := by
  obtain ⟨r0, Q, cells, h1, h2, _, h4, h5, h6, h7, h8, h9, h10, h11, h12, h13, h14⟩ :=
    C09_bin_averages hp hkeys hnd h he hle
  rw [hr] at h1
  obtain rfl := Except.ok.inj h1
  have hcells : cells ≠ [] := by
    rintro e0
    rw [e0] at h9
    exact hrow h9
  have hm : 0 < cells.length := List.length_pos_iff.2 hcells
  have hQnd : Q.Nodup := gridOrder_nodup (h4 hax)
  have hcnd : cells.Nodup := by rw [h5]; exact hQnd.filter _
  have hcell : ∀ c ∈ cells, IsCell (keys.map (axisOf d toBin)) c := by
    intro c hc
    rw [h5, List.mem_filter] at hc
    exact (h2 c).1 hc.1
  have hcl : ∀ c ∈ cells, c.length = keys.length := by
    intro c hc
    rw [(hcell c hc).length_eq, List.length_map]
  -- the columns of the rebinned data set
  have hcol : ∀ k c, d.cols.lookup k = some c → ∃ c', r.cols.lookup k = some c' ∧ c'.length = cells.length := by
    intro k c hc
    by_cases hk : k ∈ keys
    · obtain ⟨j, hj⟩ := List.mem_iff_getElem?.1 hk
      exact ⟨_, h7 j k hj, by simp⟩
    · exact ⟨_, h8 k hk c hc, by simp⟩
  have hcolr : ∀ k c, r.cols.lookup k = some c → c.length = cells.length := by
    intro k c hc
    have hk : k ∈ d.cols.map Prod.fst := by
      rw [← h6]
      by_contra hcon
      rw [List.lookup_eq_none_iff.2] at hc
      · cases hc
      · intro p hp
        have hne : k ≠ p.1 := by rintro rfl; exact hcon (List.mem_map_of_mem hp)
        simpa using hne
    obtain ⟨c0, h0, _⟩ := h.lookup hk
    obtain ⟨c', h3, h3'⟩ := hcol k c0 h0
    rw [hc] at h3
    obtain rfl := Option.some.inj h3
    exact h3'
  have hbin : Binnable r cells.length keys := by
    refine ⟨hm, ?_, h6 ▸ h.names, h6 ▸ h.present, h.nonempty⟩
    intro c hc
    apply hcolr c.1
    exact lookup_eq_of_mem (h6 ▸ h.names) hc
  obtain ⟨e', r1, he', hle'⟩ := error_rebinned hm he h9 (by simp) h10 h14 h12 h13 hcol
  obtain ⟨r', Q', cells', g1, g2, _, g4, g5, g6, g7, g8, g9, g10, g11, g12, g13, g14⟩ :=
    C09_bin_averages hq (d := r) (hkeys.trans (by rw [h11])) hnd hbin he' hle'
  -- the axes used the second time
  have hval : ∀ i (hi : i < cells.length), keys.map (valueAt r i) = cells[i] := by
    intro i hi
    apply List.ext_getElem
    · rw [List.length_map, hcl _ (List.getElem_mem hi)]
    · intro j hj1 hj2
      rw [List.length_map] at hj1
      rw [List.getElem_map, valueAt, h7 j _ (List.getElem?_eq_getElem hj1), Option.getD_some,
        List.getD_eq_getElem _ _ (by simpa using hi), List.getElem_map, List.getD_eq_getElem _ _ hj2]
  have hw : ∀ a ∈ keys.map (axisOf d toBin), 0 ≤ width a := by
    intro a ha
    obtain ⟨c, cs, hcs⟩ := List.exists_cons_of_ne_nil hcells
    have hc : c ∈ cells := by rw [hcs]; simp
    rw [h5, List.mem_filter] at hc
    have hne : pointsIn d n keys (keys.map (axisOf d toBin)) c ≠ [] := by simpa using hc.2
    obtain ⟨i, is, his⟩ := List.exists_cons_of_ne_nil hne
    have hi : i ∈ pointsIn d n keys (keys.map (axisOf d toBin)) c := by rw [his]; simp
    have hin : InCell (keys.map (axisOf d toBin)) c (keys.map (valueAt d i)) := by
      simpa using (List.mem_filter.1 hi).2
    obtain ⟨j, hj, rfl⟩ := List.mem_iff_getElem.1 ha
    have := hin j hj
    rw [List.getD_eq_getElem _ _ hj] at this
    linarith [abs_nonneg ((keys.map (valueAt d i)).getD j 0 - c.getD j 0)]
  have hsame : ∀ k ∈ keys, (axisOf r toBin k).n = (axisOf d toBin k).n ∧
      (∀ i, centre (axisOf r toBin k) i = centre (axisOf d toBin k) i) ∧
      0 ≤ width (axisOf r toBin k) ∧ width (axisOf r toBin k) ≤ width (axisOf d toBin k) ∧
      ((axisOf r toBin k).n = 1 ∨ (axisOf r toBin k).lo < (axisOf r toBin k).hi) := by
    intro k hk
    have hwk := hw _ (List.mem_map_of_mem hk)
    have hak := hax _ (List.mem_map_of_mem hk)
    cases hl : toBin.lookup k with
    | some a =>
      have e1 : axisOf r toBin k = axisOf d toBin k := by simp [axisOf, hl]
      rw [e1]
      exact ⟨rfl, fun _ => rfl, hwk, le_refl _, hak⟩
    | none =>
      obtain ⟨j, hj⟩ := List.mem_iff_getElem?.1 hk
      have hn1 : (axisOf d toBin k).n = 1 := by simp [axisOf, hl]
      have hc0 : ∀ y ∈ cells.map (fun c => c.getD j 0), y = centre (axisOf d toBin k) 0 := by
        intro y hy
        obtain ⟨c, hc, rfl⟩ := List.mem_map.1 hy
        have hjl : j < keys.length := by
          by_contra hcon
          rw [List.getElem?_eq_none (by omega)] at hj
          cases hj
        have hkk : keys[j] = k := by
          rw [List.getElem?_eq_getElem hjl] at hj; simpa using hj
        have := (List.forall₂_iff_get.1 (hcell c hc)).2 j (by rw [hcl c hc]; exact hjl) (by simpa using hjl)
        obtain ⟨i, hi, hx⟩ := this
        simp only [List.get_eq_getElem, List.getElem_map, hkk] at hi hx
        rw [List.getD_eq_getElem _ _ (by rw [hcl c hc]; exact hjl), hx]
        simp [centre, hn1]
      obtain ⟨m1, m2⟩ := minOf_const (by simpa using hcells) hc0
      have e1 : axisOf r toBin k =
          ⟨centre (axisOf d toBin k) 0, centre (axisOf d toBin k) 0, 1⟩ := by
        rw [axisOf, hl, h7 j k hj, Option.getD_none, Option.getD_some, m1, m2]
      rw [e1]
      refine ⟨hn1.symm, ?_, ?_, ?_, Or.inl rfl⟩
      · intro i
        simp only [centre, hn1, if_true]
        ring
      · simp [width]
      · simpa [width] using hwk
  have hisc : ∀ c, IsCell (keys.map (axisOf r toBin)) c ↔ IsCell (keys.map (axisOf d toBin)) c := by
    intro c
    unfold IsCell
    rw [List.forall₂_map_right_iff, List.forall₂_map_right_iff, List.forall₂_iff_get, List.forall₂_iff_get]
    apply and_congr_right
    intro _
    apply forall_congr'; intro i
    apply forall_congr'; intro _
    apply forall_congr'; intro hi
    obtain ⟨a1, a2, _⟩ := hsame (keys.get ⟨i, hi⟩) (List.get_mem _ _)
    rw [a1]
    simp only [a2]
  have hax' : ∀ a ∈ keys.map (axisOf r toBin), a.n = 1 ∨ a.lo < a.hi := by
    intro a ha
    obtain ⟨k, hk, rfl⟩ := List.mem_map.1 ha
    exact (hsame k hk).2.2.2.2
  have hQQ : Q' = Q := gridOrder_unique (g4 hax') (h4 hax) (fun c => by rw [g2, h2, hisc])
  have honly : ∀ c c', IsCell (keys.map (axisOf d toBin)) c → IsCell (keys.map (axisOf d toBin)) c' →
      (InCell (keys.map (axisOf r toBin)) c c' ↔ c' = c) := by
    intro c c' hc hc'
    have l1 := hc.length_eq
    have l2 := hc'.length_eq
    rw [List.length_map] at l1 l2
    constructor
    · intro hin
      apply List.ext_getElem (by rw [l1, l2])
      intro j hj1 hj2
      have hjk : j < keys.length := by omega
      obtain ⟨i, _, hx⟩ := (List.forall₂_iff_get.1 hc).2 j hj2 (by simpa using hjk)
      obtain ⟨i', _, hx'⟩ := (List.forall₂_iff_get.1 hc').2 j hj1 (by simpa using hjk)
      have := hin j (by simpa using hjk)
      rw [List.getD_eq_getElem _ _ hj1, List.getD_eq_getElem _ _ hj2,
        List.getD_eq_getElem _ _ (by simpa using hjk), List.getElem_map] at this
      simp only [List.get_eq_getElem, List.getElem_map] at hx hx'
      rw [hx, hx'] at this ⊢
      exact centre_only (hax _ (List.mem_map_of_mem (List.getElem_mem hjk)))
        (hsame _ (List.getElem_mem hjk)).2.2.2.1 this
    · rintro rfl j hj
      rw [sub_self, abs_zero, List.getD_eq_getElem _ _ hj, List.getElem_map]
      rw [List.length_map] at hj
      have := (hsame _ (List.getElem_mem hj)).2.2.1
      linarith
  have hpts : ∀ i (hi : i < cells.length), pointsIn r cells.length keys (keys.map (axisOf r toBin)) cells[i] = [i] := by
    intro i hi
    unfold pointsIn
    apply filter_range_one hi
    intro j hj
    rw [decide_eq_true_eq, hval j hj, honly _ _ (hcell _ (List.getElem_mem hi)) (hcell _ (List.getElem_mem hj)),
      hcnd.getElem_inj_iff]
  have hcc : cells' = cells := by
    rw [g5, hQQ]
    conv_rhs => rw [h5]
    apply List.filter_congr
    intro c hc
    rw [decide_eq_decide]
    constructor
    · intro hne
      obtain ⟨i, is, his⟩ := List.exists_cons_of_ne_nil hne
      have hi : i ∈ pointsIn r cells.length keys (keys.map (axisOf r toBin)) c := by rw [his]; simp
      obtain ⟨hi1, hi2⟩ := List.mem_filter.1 hi
      rw [List.mem_range] at hi1
      rw [decide_eq_true_eq, hval i hi1, honly _ _ ((h2 c).1 hc) (hcell _ (List.getElem_mem hi1))] at hi2
      have hm' : c ∈ cells := hi2 ▸ List.getElem_mem hi1
      rw [h5, List.mem_filter] at hm'
      simpa using hm'.2
    · intro hne
      have hm' : c ∈ cells := by
        rw [h5, List.mem_filter]
        exact ⟨hc, by simpa using hne⟩
      obtain ⟨i, hi, rfl⟩ := List.mem_iff_getElem.1 hm'
      rw [hpts i hi]
      simp
  have hback : ∀ (f : α → α) (col : List α), col.length = cells.length →
      (cells.map fun c => mean ((pointsIn r cells.length keys (keys.map (axisOf r toBin)) c).map fun i => f (col.getD i 0))) =
      col.map f := by
    intro f col hl
    apply List.ext_getElem (by simp [hl])
    intro i hi1 hi2
    have hi : i < cells.length := by simpa using hi1
    rw [List.getElem_map, hpts i hi, List.getElem_map]
    simp only [List.map_cons, List.map_nil, mean, List.sum_cons, List.sum_nil, add_zero, List.length_cons, List.length_nil, zero_add,
      Nat.cast_one, div_one]
    rw [List.getD_eq_getElem _ _ (by rw [hl]; exact hi)]
  subst hcc
  refine ⟨r', e', r1, g1, ?_, he', ?_⟩
  · apply lookup_ext g6 (by rw [g6]; exact hbin.names)
    intro k
    by_cases hk : k ∈ keys
    · obtain ⟨j, hj⟩ := List.mem_iff_getElem?.1 hk
      rw [g7 j k hj, h7 j k hj]
    · by_cases hkr : k ∈ r.cols.map Prod.fst
      · obtain ⟨col, hcol', hlen⟩ := hbin.lookup hkr
        rw [g8 k hk col hcol', hcol']
        have := hback id col hlen
        simp only [id] at this
        rw [this, List.map_id]
      · rw [List.lookup_eq_none_iff.2, List.lookup_eq_none_iff.2]
        · intro p hp
          have hne : k ≠ p.1 := by rintro rfl; exact hkr (List.mem_map_of_mem hp)
          simpa using hne
        · intro p hp
          have hne : k ≠ p.1 := by rintro rfl; exact hkr (g6 ▸ List.mem_map_of_mem hp)
          simpa using hne
  · rw [g9]
    congr 1
    have := hback (· ^ 2) e' hle'
    have h3 := congrArg (List.map sqrt) this
    rw [List.map_map, List.map_map] at h3
    exact h3

/-- **C211** when the monitor counts of the rebinned data set are the normaliser (as
for data with equal monitor counts after construction) the errors come back
unchanged as well. -/
theorem C211_errors {sqrt : α → α} (hs : ∀ x, 0 ≤ x → sqrt (sqrt x ^ 2) = sqrt x) {p q : Nat} (hp : 0 < p) (hq : 0 < q) {d : DataObj α}
    {n : Nat} {toBin : List (String × BinAxis α)} {b : Bool} {keys : List String}
    (hkeys : keys = binKeys toBin d.qk b) (hnd : keys.Nodup) (h : Binnable d n keys)
    {e : List α} {d' : DataObj α} (he : error sqrt d = .ok (e, d')) (hle : e.length = n)
    (hax : ∀ a ∈ keys.map (axisOf d toBin), a.n = 1 ∨ a.lo < a.hi)
    {r : DataObj α} (hr : bin sqrt p d toBin b = .ok r) (hrow : r.err ≠ some [])
    (htn : r.timeNorm = false) (h0 : r.m0 ≠ 0) {mon : List α} (hmon : r.cols.lookup r.dk.monitor = some mon)
    (hmon0 : ∀ x ∈ mon, x = r.m0) :
    ∃ r', bin sqrt q r toBin b = .ok r' ∧ r'.cols = r.cols ∧ r'.err = r.err := by
  obtain ⟨r', e', r1, g1, g2, g3, g4⟩ := C211_again_partial hp hq hkeys hnd h he hle hax hr hrow
  refine ⟨r', g1, g2, ?_⟩
  obtain ⟨r0, Q, cells, h1, _, _, _, _, h6, h7, h8, h9, h10, h11, _⟩ := C09_bin_averages hp hkeys hnd h he hle
  rw [hr] at h1
  obtain rfl := Except.ok.inj h1
  have hlen : mon.length = cells.length := by
    by_cases hk : r.dk.monitor ∈ keys
    · obtain ⟨j, hj⟩ := List.mem_iff_getElem?.1 hk
      rw [h7 j _ hj] at hmon
      rw [← Option.some.inj hmon, List.length_map]
    · have hk' : r.dk.monitor ∈ d.cols.map Prod.fst := by
        rw [← h6]
        by_contra hcon
        rw [List.lookup_eq_none_iff.2] at hmon
        · cases hmon
        · intro p hp
          have hne : r.dk.monitor ≠ p.1 := fun e0 => hcon (e0 ▸ List.mem_map_of_mem hp)
          simpa using hne
      obtain ⟨c0, h0', _⟩ := h.lookup hk'
      rw [h8 _ hk c0 h0'] at hmon
      rw [← Option.some.inj hmon, List.length_map]
  set E := cells.map fun c => sqrt (mean
    ((pointsIn d n keys (keys.map (axisOf d toBin)) c).map fun i => e.getD i 0 ^ 2)) with hE
  have hnorm : normalise r = .ok (r, mon, r.m0) := by
    unfold normalise DataObj.monitor
    simp only [htn, Bool.false_eq_true, if_false, get_eq_ok.2 hmon, ok_bind, h0, pure_ok]
    rw [← htn]
  have hEl : E.length = mon.length := by rw [hE, List.length_map, hlen]
  have herr : error sqrt r = .ok (E, r) := by
    unfold error rawError
    simp only [h9, ok_bind, hnorm]
    unfold bcast
    rw [if_pos hEl, ok_bind, pure_ok]
    congr 2
    rw [List.map_zipWith]
    apply List.ext_getElem (by simp [hEl])
    intro i hi1 hi2
    rw [List.getElem_zipWith, hmon0 _ (List.getElem_mem _), div_mul_cancel₀ _ h0]
  rw [g3] at herr
  have : e' = E := (Prod.mk.inj (Except.ok.inj herr)).1
  rw [g4, h9, this]
  congr 1
  rw [hE, List.map_map]
  apply List.map_congr_left
  intro c _
  apply hs
  unfold mean
  apply div_nonneg _ (Nat.cast_nonneg _)
  apply List.sum_nonneg
  intro x hx
  obtain ⟨i, _, rfl⟩ := List.mem_map.1 hx
  positivity

/-- The hypotheses are met: the three points of `exBin` on the grid `h = 0, 1`. -/
example : ∃ r, bin (α := ℚ) id 2 exBin [("h", ⟨0, 1, 2⟩)] true = .ok r ∧ r.err ≠ some [] ∧
    (∀ a ∈ (binKeys [("h", (⟨0, 1, 2⟩ : BinAxis ℚ))] exBin.qk true).map (axisOf exBin [("h", ⟨0, 1, 2⟩)]), a.n = 1 ∨ a.lo < a.hi) ∧
    (bin id 3 r [("h", ⟨0, 1, 2⟩)] true).map (fun r => r.cols) = .ok r.cols := by
  refine ⟨{ exBin with
    cols := [("h", [0, 1]), ("k", [0, 0]), ("l", [2, 2]), ("e", [5, 5]), ("temp", [300, 300]),
      ("detector", [10, 25]), ("monitor", [1, 1]), ("time", [1, 1])]
    err := some [100, 650] }, ?_⟩
  decide +kernel

/-- Square roots with the law required exist, and the monitor condition is met. -/
example : ∃ r, bin (α := ℚ) Rat.sqrt 2 { exBin with m0 := 1, err := some [3, 4, 4] } [("h", ⟨0, 1, 2⟩)] true = .ok r ∧
    (∀ x, 0 ≤ x → Rat.sqrt (Rat.sqrt x ^ 2) = Rat.sqrt x) ∧ r.err = some [3, 4] ∧ r.m0 = 1 ∧ r.timeNorm = false ∧
    r.cols.lookup r.dk.monitor = some [1, 1] := by
  refine ⟨{ exBin with
    m0 := 1
    cols := [("h", [0, 1]), ("k", [0, 0]), ("l", [2, 2]), ("e", [5, 5]), ("temp", [300, 300]),
      ("detector", [10, 25]), ("monitor", [1, 1]), ("time", [1, 1])]
    err := some [3, 4] }, ?_, ?_, ?_⟩
  · decide +kernel
  · intro x _
    rw [pow_two, Rat.sqrt_eq, abs_of_nonneg (Rat.sqrt_nonneg x)]
  · decide +kernel

/-- **C211 is false** for the errors: two points with stored error 2, monitor 2 and
normaliser 1 are rebinned to one row with error 1; rebinning that row again leaves
the columns alone and halves the error.  (The square roots taken are those of 1 and
1/4.) -/
theorem C211_errors_false :
    ∃ (d r r' : DataObj ℚ) (sqrt : ℚ → ℚ), sqrt 1 = 1 ∧ sqrt (1 / 4) = 1 / 2 ∧
      d.err = some [2, 2] ∧ bin sqrt 1 d [("h", ⟨0, 2, 1⟩)] false = .ok r ∧
      bin sqrt 1 r [("h", ⟨0, 2, 1⟩)] false = .ok r' ∧ r'.cols = r.cols ∧
      r.err = some [1] ∧ r'.err = some [1 / 2] := by
  refine ⟨{ emptyData with
      cols := [("h", [0, 1]), ("detector", [4, 4]), ("monitor", [2, 2]), ("time", [1, 1])]
      m0 := 1
      err := some [2, 2] },
    { emptyData with
      cols := [("h", [1]), ("detector", [4]), ("monitor", [2]), ("time", [1])]
      m0 := 1
      err := some [1] },
    { emptyData with
      cols := [("h", [1]), ("detector", [4]), ("monitor", [2]), ("time", [1])]
      m0 := 1
      err := some [1 / 2] }, fun x => if x = 1 / 4 then 1 / 2 else x, ?_⟩
  decide +kernel

/-- **C211 is false** when no point lies on the grid: the result has no rows, and
rebinning it again is an exception, because the axes that were not named have no
smallest value any more. -/
theorem C211_empty_false :
    ∃ r : DataObj ℚ, bin id 1 exBin [("h", ⟨5, 6, 2⟩)] true = .ok r ∧ r.err = some [] ∧
      bin id 1 r [("h", ⟨5, 6, 2⟩)] true = .error .valueError := by
  refine ⟨{ exBin with
    cols := [("h", []), ("k", []), ("l", []), ("e", []), ("temp", []),
      ("detector", []), ("monitor", []), ("time", [])]
    err := some [] }, ?_⟩
  decide +kernel

end Verif.Data
