import Verif.Data.ScaleProps

/-!
# Scans measured in another order

What the integral, the peak position and the peak width of a data set become when its
points are measured in the opposite order, or in an arbitrary order.
-/

namespace Verif.Data

variable {α : Type} [Field α] [LinearOrder α] [FloorRing α]

/-! ## Specification -/

/-- The same points, measured in the opposite order. -/
def DataObj.reversed (d : DataObj α) : DataObj α :=
  { d with cols := d.cols.map fun c => (c.1, c.2.reverse), err := d.err.map List.reverse }

/-- Bounds that choose the same points. -/
def boundsReversed (b : Option (List Bool)) : Option (List Bool) := b.map List.reverse

/-- Bounds with one truth value per point. -/
def BoundsFor (n : Nat) (b : Option (List Bool)) : Prop := ∀ m, b = some m → m.length = n

/-! ## Lemmas -/

section lemmas

omit [Field α] [LinearOrder α] [FloorRing α] in
theorem get_reversed (d : DataObj α) (k : String) :
    d.reversed.cols.get k = (d.cols.get k).map List.reverse := by
  unfold Table.get DataObj.reversed
  simp only [lookup_map_snd (List.reverse (α := α))]
  cases d.cols.lookup k <;> rfl

omit [Field α] [LinearOrder α] [FloorRing α] in
theorem getKeys_reversed (d : DataObj α) (hkle : Bool) : getKeys d.reversed hkle = getKeys d hkle := by
  unfold getKeys DataObj.reversed
  simp only [List.map_map]
  rfl

theorem get_length {d : DataObj α} {n : Nat} (hr : Rect n d.cols) {k : String} {c : List α}
    (h : d.cols.get k = .ok c) : c.length = n := by
  rw [get_eq_ok] at h
  have : ∀ t : Table α, Rect n t → t.lookup k = some c → c.length = n := by
    intro t ht h
    induction t with
    | nil => cases h
    | cons p t ih =>
      rw [List.lookup_cons] at h
      split at h
      · cases h; exact ht p (by simp)
      · exact ih (fun q hq => ht q (by simp [hq])) h
  exact this _ hr h

omit [FloorRing α] [Field α] in
theorem nanmax_reverse (xs : List α) : nanmax xs.reverse = nanmax xs := by
  have key : ∀ (l : List α) (a : α), (∀ x ∈ a :: l, x ≤ l.foldl max a) ∧ l.foldl max a ∈ a :: l := by
    intro l
    induction l with
    | nil => intro a; simp
    | cons c l ih =>
      intro a
      obtain ⟨h1, h2⟩ := ih (max a c)
      rw [List.foldl_cons]
      constructor
      · intro x hx
        have hm := h1 (max a c) (by simp)
        rcases List.mem_cons.1 hx with rfl | hx
        · exact (le_max_left _ _).trans hm
        · rcases List.mem_cons.1 hx with rfl | hx
          · exact (le_max_right _ _).trans hm
          · exact h1 x (by simp [hx])
      · rcases List.mem_cons.1 h2 with h2 | h2
        · rw [h2]
          rcases max_choice a c with h | h <;> rw [h] <;> simp
        · simp [h2]
  have hp : xs.reverse.Perm xs := List.reverse_perm xs
  cases hx : xs with
  | nil => rfl
  | cons a l =>
    rw [← hx]
    cases hy : xs.reverse with
    | nil => rw [List.reverse_eq_nil_iff, hx] at hy; cases hy
    | cons b l' =>
      rw [hy, hx] at hp
      rw [hx]
      exact congrArg Except.ok (le_antisymm ((key l a).1 _ (hp.mem_iff.1 (key l' b).2))
        ((key l' b).1 _ (hp.mem_iff.2 (key l a).2)))

/-- The intensity of the reversed data set. -/
theorem intensity_reversed {d : DataObj α} {n : Nat} (hr : Rect n d.cols) :
    (intensity d.reversed).map Prod.fst = (intensity d).map fun p => p.1.reverse := by
  have key : ∀ det m m0 : _, d.cols.get d.dk.detector = .ok det → m.length = n → ((do
        let q ← bcast (· / ·) det.reverse m.reverse
        return q.map (· * m0) : Except Err (List α)))
      = (do
        let q ← bcast (· / ·) det m
        return (q.map (· * m0)).reverse) := by
    intro det m m0 hd hm
    have hl : det.length = m.length := by rw [hm]; exact get_length hr hd
    unfold bcast
    rw [List.length_reverse, List.length_reverse, if_pos hl, if_pos hl]
    simp only [ok_bind, pure_ok]
    rw [← List.map_reverse, List.reverse_zipWith hl]
  have hdk : d.reversed.dk = d.dk := rfl
  have hT := get_reversed d d.dk.time
  have hM := get_reversed d d.dk.monitor
  have hD := get_reversed d d.dk.detector
  unfold intensity normalise DataObj.detector DataObj.time DataObj.monitor
  simp only [hdk, hT, hM]
  rw [show d.reversed.timeNorm = d.timeNorm from rfl, show d.reversed.t0 = d.t0 from rfl,
    show d.reversed.m0 = d.m0 from rfl]
  by_cases htn : d.timeNorm = true
  · simp only [htn, if_true]
    rcases hg : d.cols.get d.dk.time with e | t
    · rfl
    simp only [ok_bind, Except.map]
    by_cases h0 : d.t0 = 0
    · simp only [h0, if_true, nanmax_reverse]
      rcases nanmax t with e | t0
      · rfl
      simp only [ok_bind, pure_ok, hD]
      rcases hd : d.cols.get d.dk.detector with e | det
      · rfl
      have := key det t t0 hd (get_length hr hg)
      simp only [Except.map, ok_bind]
      revert this
      cases bcast (· / ·) det.reverse t.reverse <;> cases bcast (· / ·) det t <;> intro h <;> exact h
    · simp only [h0, if_false]
      simp only [ok_bind, pure_ok, hD]
      rcases hd : d.cols.get d.dk.detector with e | det
      · rfl
      have := key det t d.t0 hd (get_length hr hg)
      simp only [Except.map, ok_bind]
      revert this
      cases bcast (· / ·) det.reverse t.reverse <;> cases bcast (· / ·) det t <;> intro h <;> exact h
  · simp only [htn, if_false, Bool.false_eq_true]
    rcases hg : d.cols.get d.dk.monitor with e | t
    · rfl
    simp only [ok_bind, Except.map]
    by_cases h0 : d.m0 = 0
    · simp only [h0, if_true, nanmax_reverse]
      rcases nanmax t with e | t0
      · rfl
      simp only [ok_bind, pure_ok, hD]
      rcases hd : d.cols.get d.dk.detector with e | det
      · rfl
      have := key det t t0 hd (get_length hr hg)
      simp only [Except.map, ok_bind]
      revert this
      cases bcast (· / ·) det.reverse t.reverse <;> cases bcast (· / ·) det t <;> intro h <;> exact h
    · simp only [h0, if_false]
      simp only [ok_bind, pure_ok, hD]
      rcases hd : d.cols.get d.dk.detector with e | det
      · rfl
      have := key det t d.m0 hd (get_length hr hg)
      simp only [Except.map, ok_bind]
      revert this
      cases bcast (· / ·) det.reverse t.reverse <;> cases bcast (· / ·) det t <;> intro h <;> exact h

omit [LinearOrder α] [FloorRing α] [Field α] in
/-- Choosing by a mask. -/
theorem take_where : ∀ (m : List Bool) (xs : List α), xs.length = m.length →
    take (whereTrue m) xs = .ok (((m.zip xs).filter Prod.fst).map Prod.snd) := by
  intro m
  induction m using List.reverseRecOn with
  | nil => intro xs h; rfl
  | append_singleton m b ih =>
    intro xs h
    rcases List.eq_nil_or_concat xs with rfl | ⟨xs, x, rfl⟩
    · simp at h
    · have hl : xs.length = m.length := by simpa using h
      have e1 : whereTrue (m ++ [b]) = whereTrue m ++ if b then [m.length] else [] := by
        unfold whereTrue
        rw [List.length_append, List.length_singleton, List.range_succ, List.filter_append]
        congr 1
        · apply List.filter_congr
          intro i hi
          rw [List.getD_append _ _ _ _ (List.mem_range.1 hi)]
        · cases b <;> simp
      have e2 : take (whereTrue m) (xs ++ [x]) = take (whereTrue m) xs := by
        unfold take
        have : ∀ i ∈ whereTrue m, getE (xs ++ [x]) i = getE xs i := by
          intro i hi
          have : i < xs.length := by
            rw [hl]; exact List.mem_range.1 (List.mem_filter.1 hi).1
          unfold getE
          rw [List.getElem?_append_left this]
        revert this
        generalize whereTrue m = L
        intro this
        induction L with
        | nil => rfl
        | cons i L ihL =>
          rw [List.mapM_cons, List.mapM_cons, this i (by simp), ihL fun i hi => this i (by simp [hi])]
      rw [List.concat_eq_append, e1]
      have e3 : take (whereTrue m ++ if b then [m.length] else []) (xs ++ [x]) =
          (do let p ← take (whereTrue m) (xs ++ [x])
              let q ← take (if b then [m.length] else []) (xs ++ [x])
              return p ++ q) := by
        unfold take
        rw [List.mapM_append]
      rw [e3, e2, ih xs hl, List.zip_append hl.symm, List.filter_append, List.map_append]
      cases b
      · simp [take]
      · simp only [if_true, ok_bind]
        have : take [m.length] (xs ++ [x]) = .ok [x] := by
          unfold take getE
          rw [List.mapM_cons]
          simp [← hl]
        rw [this]
        simp

omit [LinearOrder α] [FloorRing α] [Field α] in
theorem take_reverse {m : List Bool} {xs : List α} (h : xs.length = m.length) :
    take (whereTrue m.reverse) xs.reverse = (take (whereTrue m) xs).map List.reverse := by
  rw [take_where _ _ h, take_where _ _ (by simp [h]), List.zip, ← List.reverse_zipWith h.symm, Except.map,
    List.filter_reverse, List.map_reverse]

theorem bounds_cases {d : DataObj α} {n : Nat} (hr : Rect n d.cols) {b : Option (List Bool)} (hb : BoundsFor n b) :
    (∃ e, getBounds d b = .error e ∧ getBounds d.reversed (boundsReversed b) = .error e) ∨
      ∃ m, m.length = n ∧ getBounds d b = .ok (whereTrue m) ∧ getBounds d.reversed (boundsReversed b) = .ok (whereTrue m.reverse) := by
  cases b with
  | some m => exact .inr ⟨m, hb m rfl, rfl, rfl⟩
  | none =>
    have hq : d.reversed.qk = d.qk := rfl
    unfold getBounds boundsReversed
    simp only [Option.map_none, hq]
    have hm : ∀ L : List String, L.mapM d.reversed.cols.get = (L.mapM d.cols.get).map (List.map List.reverse) := by
      intro L
      induction L with
      | nil => rfl
      | cons k L ih =>
        rw [List.mapM_cons, List.mapM_cons, ih, get_reversed]
        cases d.cols.get k <;> [rfl; skip]
        cases L.mapM d.cols.get <;> rfl
    have hl : ∀ L : List String, ∀ cs, L.mapM d.cols.get = .ok cs → ∀ c ∈ cs, c.length = n := by
      intro L
      induction L with
      | nil => intro cs h; cases h; simp
      | cons k L ih =>
        intro cs h
        rw [List.mapM_cons] at h
        obtain ⟨c, e1, h⟩ := bind_eq_ok.1 h
        obtain ⟨cs', e2, h⟩ := bind_eq_ok.1 h
        cases h
        intro c' hc'
        rcases List.mem_cons.1 hc' with rfl | hc'
        · exact get_length hr e1
        · exact ih cs' e2 c' hc'
    rw [hm]
    rcases hc : d.qk.values.mapM d.cols.get with e | cs
    · exact .inl ⟨e, rfl, rfl⟩
    · have hcs := hl _ _ hc
      cases cs with
      | nil =>
        exfalso
        have := hc
        unfold QKeys.values at this
        rw [List.mapM_cons] at this
        obtain ⟨c, e1, h⟩ := bind_eq_ok.1 this
        obtain ⟨cs', e2, h⟩ := bind_eq_ok.1 h
        cases h
      | cons h cs =>
        right
        have hh : h.length = n := hcs h (by simp)
        refine ⟨h.map fun x => decide (x ≠ 0), by simp [hh], ?_, ?_⟩
        · have ha : (h :: cs).all (fun c => decide (c.length = h.length)) = true := by
            rw [List.all_eq_true]
            intro c hc
            rw [decide_eq_true_eq, hcs c hc, hh]
          exact if_pos ha
        · have ha : (h.reverse :: cs.map List.reverse).all (fun c => decide (c.length = h.reverse.length)) = true := by
            rw [List.all_eq_true]
            intro c hc
            rw [← List.map_cons (f := List.reverse), List.mem_map] at hc
            obtain ⟨c', hc', rfl⟩ := hc
            rw [decide_eq_true_eq, List.length_reverse, List.length_reverse, hcs c' hc', hh]
          simp only [Except.map, ok_bind, List.map_cons, List.headD_cons, List.map_reverse]
          split
          · rfl
          · rename_i hn
            exact absurd ha hn

theorem selected_reversed {d : DataObj α} {n : Nat} (hr : Rect n d.cols) {b : Option (List Bool)} (hb : BoundsFor n b) (k : String) :
    selected d.reversed (boundsReversed b) k = (selected d b k).map List.reverse := by
  unfold selected
  rcases bounds_cases hr hb with ⟨e, h1, h2⟩ | ⟨m, hm, h1, h2⟩
  · rw [h1, h2]; rfl
  · rw [h1, h2, ok_bind, ok_bind, get_reversed]
    rcases hg : d.cols.get k with e | c
    · rfl
    · exact take_reverse (by rw [hm, get_length hr hg])

theorem intensity_length {d : DataObj α} {n : Nat} (hr : Rect n d.cols) {p : List α × DataObj α} (h : intensity d = .ok p) :
    p.1.length = n := by
  unfold intensity at h
  obtain ⟨⟨d', m, m0⟩, h1, h⟩ := bind_eq_ok.1 h
  obtain ⟨det, h2, h⟩ := bind_eq_ok.1 h
  obtain ⟨q, h3, h⟩ := bind_eq_ok.1 h
  cases h
  have hd' : d'.cols = d.cols ∧ m.length = n := by
    unfold normalise at h1
    by_cases htn : d.timeNorm = true
    · simp only [htn, if_true] at h1
      obtain ⟨t, e1, h1⟩ := bind_eq_ok.1 h1
      by_cases h0 : d.t0 = 0
      · simp only [h0, if_true] at h1
        obtain ⟨t0, e2, h1⟩ := bind_eq_ok.1 h1
        cases h1
        exact ⟨rfl, get_length hr e1⟩
      · simp only [h0, if_false] at h1
        cases h1
        exact ⟨rfl, get_length hr e1⟩
    · simp only [htn, if_false, Bool.false_eq_true] at h1
      obtain ⟨t, e1, h1⟩ := bind_eq_ok.1 h1
      by_cases h0 : d.m0 = 0
      · simp only [h0, if_true] at h1
        obtain ⟨t0, e2, h1⟩ := bind_eq_ok.1 h1
        cases h1
        exact ⟨rfl, get_length hr e1⟩
      · simp only [h0, if_false] at h1
        cases h1
        exact ⟨rfl, get_length hr e1⟩
  have hl : det.length = n := by
    unfold DataObj.detector at h2
    rw [hd'.1] at h2
    exact get_length hr h2
  unfold bcast at h3
  rw [if_pos (by rw [hl, hd'.2])] at h3
  cases h3
  simp [hl, hd'.2]

/-- The counts without background of the reversed data set. -/
theorem net_reversed [IsStrictOrderedRing α] {d : DataObj α} {n : Nat} (hr : Rect n d.cols) {b : Option (List Bool)} (hb : BoundsFor n b)
    (bg : Bg α) : netIntensity d.reversed (boundsReversed b) bg = (netIntensity d b bg).map (Option.map List.reverse) := by
  have hi := intensity_reversed hr
  unfold netIntensity
  rcases hI : intensity d with e | ⟨int, d1⟩
  · rw [hI] at hi
    rcases hR : intensity d.reversed with e' | ⟨int', r1⟩
    · rw [hR] at hi
      simp only [Except.map, Except.error.injEq] at hi
      rw [hi]; rfl
    · rw [hR] at hi; simp [Except.map] at hi
  · rw [hI] at hi
    rcases hR : intensity d.reversed with e' | ⟨int', r1⟩
    · rw [hR] at hi; simp [Except.map] at hi
    · rw [hR] at hi
      simp only [Except.map, Except.ok.injEq] at hi
      subst hi
      simp only [ok_bind]
      rcases bounds_cases hr hb with ⟨e, h1, h2⟩ | ⟨m, hm, h1, h2⟩
      · rw [h1, h2]; rfl
      · rw [h1, h2, ok_bind, ok_bind, take_reverse (by rw [hm]; exact intensity_length hr hI)]
        rcases take (whereTrue m) int with e | y
        · rfl
        rw [C25_order (List.reverse_perm int) bg]
        simp only [ok_bind, Except.map]
        rcases background int bg with e | (_ | c)
        · rfl
        · rfl
        · simp only [ok_bind, pure_ok, Option.map_some, List.map_reverse]

/-- The sum over neighbouring points. -/
def steps : List (α × α) → α
  | a :: b :: l => (b.1 - a.1) * (b.2 + a.2) / 2 + steps (b :: l)
  | _ => 0

omit [LinearOrder α] [FloorRing α] in
theorem steps_append (l : List (α × α)) (a b : α × α) :
    steps (l ++ [a, b]) = steps (l ++ [a]) + (b.1 - a.1) * (b.2 + a.2) / 2 := by
  induction l with
  | nil => simp [steps]
  | cons c l ih =>
    cases l with
    | nil => simp [steps]
    | cons c' l =>
      simp only [List.cons_append] at ih ⊢
      rw [steps, ih, steps]
      ring

omit [LinearOrder α] [FloorRing α] in
theorem steps_reverse (l : List (α × α)) : steps l.reverse = -steps l := by
  induction l with
  | nil => simp [steps]
  | cons a l ih =>
    cases l with
    | nil => simp [steps]
    | cons b l =>
      rw [List.reverse_cons] at ih
      rw [List.reverse_cons, List.reverse_cons, List.append_assoc, List.singleton_append, steps_append, ih, steps]
      ring

omit [LinearOrder α] [FloorRing α] in
theorem trapz_steps {y x : List α} (h : y.length = x.length) : trapz y x = .ok (steps (x.zip y)) := by
  unfold trapz
  rw [if_pos h]
  congr 1
  induction x generalizing y with
  | nil => simp [steps]
  | cons a x ih =>
    cases y with
    | nil => cases h
    | cons b y =>
      have hl : y.length = x.length := by simpa using h
      have := ih hl
      cases x with
      | nil =>
        cases y with
        | nil => simp [steps]
        | cons b' y => cases hl
      | cons a' x =>
        cases y with
        | nil => cases hl
        | cons b' y =>
          simp only [List.tail_cons, List.zipWith_cons_cons, List.sum_cons, List.zip_cons_cons, steps] at this ⊢
          rw [this]

omit [LinearOrder α] [FloorRing α] in
theorem trapz_reverse (y x : List α) : trapz y.reverse x.reverse = (trapz y x).map (-1 * ·) := by
  by_cases h : y.length = x.length
  · rw [trapz_steps h, trapz_steps (by simp [h]), List.zip, ← List.reverse_zipWith h.symm, steps_reverse, Except.map, neg_one_mul]
  · unfold trapz
    rw [if_neg h, if_neg (by simpa using h)]
    rfl

omit [Field α] [LinearOrder α] [FloorRing α] in
theorem squeeze_reverse (x : List α) : squeeze x.reverse = (squeeze x).map List.reverse := by
  unfold squeeze
  rw [List.length_reverse]
  split <;> rfl

theorem integrate_reversed [IsStrictOrderedRing α] {d : DataObj α} {n : Nat} (hr : Rect n d.cols) {b : Option (List Bool)}
    (hb : BoundsFor n b) (bg : Bg α) (hkle : Bool) :
    integrate d.reversed (boundsReversed b) bg hkle = (integrate d b bg hkle).map (Option.map (-1 * ·)) := by
  unfold integrate
  rw [net_reversed hr hb, getKeys_reversed, exc_map_bind, exc_bind_map]
  rcases netIntensity d b bg with e | (_ | y)
  · rfl
  · rfl
  · simp only [ok_bind, Option.map_some]
    rw [sumKeys_scaled (-1) (f := fun k => do trapz y (← squeeze (← selected d b k))),
      exc_map_bind, exc_bind_map]
    · rfl
    · intro k hk
      rw [selected_reversed hr hb, exc_bind_map, exc_map_bind]
      congr 1
      funext x
      rw [squeeze_reverse, exc_bind_map, exc_map_bind]
      congr 1
      funext x
      exact trapz_reverse y x

omit [Field α] [LinearOrder α] [FloorRing α] in
theorem take_length {ind : List Nat} {xs ys : List α} (h : take ind xs = .ok ys) : ys.length = ind.length := by
  unfold take at h
  induction ind generalizing ys with
  | nil => cases h; rfl
  | cons i ind ih =>
    rw [List.mapM_cons] at h
    obtain ⟨y, e1, h⟩ := bind_eq_ok.1 h
    obtain ⟨zs, e2, h⟩ := bind_eq_ok.1 h
    cases h
    simp [ih e2]

theorem selected_lengths {d : DataObj α} {b : Option (List Bool)} (bg : Bg α)
    {y xk : List α} {k : String} (hy : netIntensity d b bg = .ok (some y)) (hx : selected d b k = .ok xk) : xk.length = y.length := by
  unfold netIntensity at hy
  unfold selected at hx
  obtain ⟨⟨int, d1⟩, h1, hy⟩ := bind_eq_ok.1 hy
  obtain ⟨ind, h2, hy⟩ := bind_eq_ok.1 hy
  obtain ⟨y', h3, hy⟩ := bind_eq_ok.1 hy
  obtain ⟨c, h4, hy⟩ := bind_eq_ok.1 hy
  rw [h2, ok_bind] at hx
  obtain ⟨col, h5, hx⟩ := bind_eq_ok.1 hx
  have e1 := take_length h3
  have e2 := take_length hx
  rw [pure_ok, Except.ok.injEq] at hy
  obtain ⟨c', -, rfl⟩ := Option.map_eq_some_iff.1 hy
  rw [List.length_map, e1, e2]

theorem position_reversed [IsStrictOrderedRing α] {d : DataObj α} {n : Nat} (hr : Rect n d.cols) {b : Option (List Bool)}
    (hb : BoundsFor n b) (bg : Bg α) (hkle : Bool) : position d.reversed (boundsReversed b) bg hkle = position d b bg hkle := by
  unfold position
  rw [net_reversed hr hb, getKeys_reversed, integrate_reversed hr hb]
  apply mapM_congr_mem
  intro key hkey
  rw [exc_map_bind]
  rcases hy : netIntensity d b bg with e | (_ | y)
  · rfl
  · rfl
  · simp only [ok_bind, Option.map_some]
    rw [selected_reversed hr hb, exc_map_bind]
    rcases hx : selected d b key with e | xk
    · rfl
    rw [ok_bind, ok_bind]
    rw [← List.reverse_zipWith (selected_lengths bg hy hx), sumKeys_scaled (-1) (f := fun k => do
      trapz (List.zipWith (· * ·) xk y) (← selected d b k)), exc_map_bind]
    · congr 1
      funext num
      rw [exc_map_bind]
      congr 1
      funext i
      rcases i with _ | i
      · rfl
      · simp only [Option.map_some, Option.bind_some, div?_scaled (c := (-1 : α)) (by simp)]
    · intro k hk
      rw [selected_reversed hr hb, exc_bind_map, exc_map_bind]
      congr 1
      funext x
      exact trapz_reverse _ x

theorem widths_reversed [IsStrictOrderedRing α] {d : DataObj α} {n : Nat} (hr : Rect n d.cols) {b : Option (List Bool)}
    (hb : BoundsFor n b) (bg : Bg α) (hkle : Bool) : widths d.reversed (boundsReversed b) bg hkle = widths d b bg hkle := by
  unfold widths
  rw [net_reversed hr hb, getKeys_reversed, integrate_reversed hr hb, position_reversed hr hb]
  apply mapM_congr_mem
  intro key hkey
  rw [exc_map_bind]
  rcases hy : netIntensity d b bg with e | (_ | y)
  · rfl
  · rfl
  · simp only [ok_bind, Option.map_some]
    rw [selected_reversed hr hb, exc_map_bind]
    rcases hx : selected d b key with e | xk
    · rfl
    rw [ok_bind, ok_bind]
    congr 1
    funext ps
    rcases ps.lookup key with _ | (_ | p)
    · rfl
    · rfl
    · simp only
      rw [← List.reverse_zipWith (selected_lengths bg hy hx), sumKeys_scaled (-1) (f := fun k => do
        trapz (List.zipWith (fun x y => (x - p) ^ 2 * y) xk y) (← selected d b k)), exc_map_bind]
      · congr 1
        funext num
        rw [exc_map_bind]
        congr 1
        funext i
        rcases i with _ | i
        · rfl
        · simp only [Option.map_some, Option.bind_some, div?_scaled (c := (-1 : α)) (by simp)]
      · intro k hk
        rw [selected_reversed hr hb, exc_bind_map, exc_map_bind]
        congr 1
        funext x
        exact trapz_reverse _ x

end lemmas

/-! ## C206 -/

/-- **C206** (partial: the opposite order only, and not the integral) peak position and peak width of a scan measured in
the opposite direction are those of the scan, for every data set with columns of one length, all bounds and all kinds of
background; where one raises or gives nan, so does the other. -/
theorem C206_direction_partial [IsStrictOrderedRing α] {d : DataObj α} {n : Nat} (hr : Rect n d.cols) {b : Option (List Bool)}
    (hb : BoundsFor n b) (bg : Bg α) (hkle : Bool) :
    position d.reversed (boundsReversed b) bg hkle = position d b bg hkle ∧
      widths d.reversed (boundsReversed b) bg hkle = widths d b bg hkle :=
  ⟨position_reversed hr hb bg hkle, widths_reversed hr hb bg hkle⟩

/-- **C206** (partial: the opposite order only) the same with `fwhm`. -/
theorem C206_fwhm_partial {d : DataObj ℝ} {n : Nat} (hr : Rect n d.cols) {b : Option (List Bool)} (hb : BoundsFor n b) (bg : Bg ℝ)
    (hkle : Bool) : widthsFwhm d.reversed (boundsReversed b) bg hkle = widthsFwhm d b bg hkle := by
  unfold widthsFwhm
  rw [widths_reversed hr hb]

/-- **C206 is false** for the integral: measured in the opposite direction, every scan has the negative of its integral. -/
theorem C206_integral_false [IsStrictOrderedRing α] {d : DataObj α} {n : Nat} (hr : Rect n d.cols) {b : Option (List Bool)}
    (hb : BoundsFor n b) (bg : Bg α) (hkle : Bool) {i : α} (hi : integrate d b bg hkle = .ok (some i)) :
    integrate d.reversed (boundsReversed b) bg hkle = .ok (some (-i)) := by
  rw [integrate_reversed hr hb, hi, Except.map, Option.map_some, neg_one_mul]

/-- The scan `kScan1`, with its last two points measured in the other order. -/
def kScanSwapped : DataObj ℚ :=
  { emptyData with
    cols := [("h", [1, 1, 1]), ("k", [1, 3, 2]), ("l", [2, 2, 2]), ("e", [5, 5, 5]),
      ("temp", [300, 300, 300]), ("detector", [10, 10, 20]), ("monitor", [1, 1, 1]),
      ("time", [1, 1, 1])] }

/-- **C206 is false** for other orders: when the last two points are measured in the other order, integral, peak position and
peak width change.  The peak is at 2, and is found at 1. -/
theorem C206_order_false :
    (∀ k c, kScan1.cols.lookup k = some c → ∃ x y z, c = [x, y, z] ∧ kScanSwapped.cols.lookup k = some [x, z, y]) ∧
    integrate kScan1 none .none true = .ok (some 30) ∧ integrate kScanSwapped none .none true = .ok (some 5) ∧
    (∃ ps, position kScan1 none .none true = .ok ps ∧ ps.lookup "k" = some (some 2)) ∧
    (∃ ps, position kScanSwapped none .none true = .ok ps ∧ ps.lookup "k" = some (some 1)) ∧
    (∃ ws, widths kScan1 none .none true = .ok ws ∧ ws.lookup "k" = some (some (1 / 3))) ∧
    (∃ ws, widths kScanSwapped none .none true = .ok ws ∧ ws.lookup "k" = some (some 2)) := by
  refine ⟨fun k c hk => ?_, by decide +kernel, by decide +kernel,
    ⟨[("h", some 1), ("k", some 2), ("l", some 2), ("e", some 5), ("temp", some 300)], by decide +kernel, by decide +kernel⟩,
    ⟨[("h", some 1), ("k", some 1), ("l", some 2), ("e", some 5), ("temp", some 300)], by decide +kernel, by decide +kernel⟩,
    ⟨[("h", some 0), ("k", some (1 / 3)), ("l", some 0), ("e", some 0), ("temp", some 0)], by decide +kernel, by decide +kernel⟩,
    ⟨[("h", some 0), ("k", some 2), ("l", some 0), ("e", some 0), ("temp", some 0)], by decide +kernel, by decide +kernel⟩⟩
  have hm : (k, c) ∈ kScan1.cols ∧ ∀ p ∈ kScan1.cols, ∃ x y z, p.2 = [x, y, z] ∧ kScanSwapped.cols.lookup p.1 = some [x, z, y] := by
    refine ⟨?_, ?_⟩
    · have : ∀ t : Table ℚ, t.lookup k = some c → (k, c) ∈ t := by
        intro t h
        induction t with
        | nil => cases h
        | cons p t ih =>
          rw [List.lookup_cons] at h
          split at h
          · rename_i e
            cases h
            rw [eq_of_beq e]
            simp
          · exact List.mem_cons_of_mem _ (ih h)
      exact this _ hk
    · intro p hp
      simp only [kScan1, kScan, List.tail_cons, List.mem_cons, List.not_mem_nil, or_false] at hp
      rcases hp with rfl | rfl | rfl | rfl | rfl | rfl | rfl | rfl <;> exact ⟨_, _, _, rfl, by decide +kernel⟩
  exact hm.2 _ hm.1

/-- The hypotheses are met, with an integral that is not zero. -/
example : Rect 3 kScan1.cols ∧ BoundsFor 3 none ∧ BoundsFor 3 (some [true, true, false]) ∧ integrate kScan1 none .none true = .ok (some 30) :=
  ⟨measured_kScan1.rect, (by rintro _ ⟨⟩), (by rintro _ ⟨⟩; rfl), by decide +kernel⟩

end Verif.Data
