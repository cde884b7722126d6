import Verif.Data.Arith
import Verif.Data.Spec
import Verif.Data.CombineLemmas
import Verif.Common.Exc
import Mathlib.Tactic.FieldSimp
import Mathlib.Tactic.Ring

set_option linter.unusedSectionVars false

/-! Lemmas about normalisation, subtraction and scaling. -/

namespace Verif.Data

variable {α : Type} [Field α] [LinearOrder α]

/-- A data set of `n > 0` points whose three count columns are `det`, `mon`,
`time`; a stored error has one entry per point. -/
structure Counted (d : DataObj α) (n : Nat) (det mon time : List α) : Prop where
  pos : 0 < n
  names : d.dk.values.Nodup
  hdet : d.cols.lookup d.dk.detector = some det
  hmon : d.cols.lookup d.dk.monitor = some mon
  htime : d.cols.lookup d.dk.time = some time
  ldet : det.length = n
  lmon : mon.length = n
  ltime : time.length = n
  lerr : ∀ e, d.err = some e → e.length = n

/-- The column the data set is normalised by. -/
def normCol (d : DataObj α) (mon time : List α) : List α := if d.timeNorm then time else mon

/-- Largest element of a non-empty list. -/
def maxOf (xs : List α) : α := xs.tail.foldl max (xs.headD 0)

/-- The normaliser in use: the stored one unless it is zero. -/
def normVal (d : DataObj α) (mon time : List α) : α :=
  if d.timeNorm then (if d.t0 = 0 then maxOf time else d.t0)
  else (if d.m0 = 0 then maxOf mon else d.m0)

theorem lookup_map_replace (t : Table α) (k k' : String) (v : List α) :
    (t.map (fun c => if c.1 = k then (c.1, v) else c)).lookup k' =
      if k' = k ∧ (t.lookup k).isSome then some v else t.lookup k' := by
  induction t with
  | nil => simp
  | cons c cs ih =>
    obtain ⟨x, y⟩ := c
    by_cases hx : x = k
    · subst hx
      by_cases hk : k' = x
      · subst hk; simp
      · have : (k' == x) = false := by simpa using hk
        simp only [List.map_cons, if_true, List.lookup_cons, this, ih, hk, false_and, if_false]
    · have hkx : (k == x) = false := by simpa using fun h => hx h.symm
      by_cases hk : k' = x
      · subst hk
        simp [hx]
      · have : (k' == x) = false := by simpa using hk
        simp only [List.map_cons, if_neg hx, List.lookup_cons, this, hkx, ih]

theorem lookup_append_single (t : Table α) (k k' : String) (v : List α)
    (h : t.lookup k = none) :
    (t ++ [(k, v)]).lookup k' = if k' = k then some v else t.lookup k' := by
  induction t with
  | nil =>
    by_cases hk : k' = k
    · subst hk; simp
    · have : (k' == k) = false := by simpa using hk
      simp [List.lookup_cons, this, hk]
  | cons c cs ih =>
    obtain ⟨x, y⟩ := c
    rw [List.lookup_cons] at h
    cases hkx : (k == x) with
    | true => rw [hkx] at h; cases h
    | false =>
      rw [hkx] at h
      simp only [List.cons_append, List.lookup_cons]
      cases hk : (k' == x) with
      | true =>
        have hk' : k' = x := by simpa using hk
        have hne : ¬ k' = k := by
          rw [hk']; intro e; simp [e] at hkx
        simp [hne]
      | false => exact ih h

theorem lookup_put (t : Table α) (k k' : String) (v : List α) :
    (t.put k v).lookup k' = if k' = k then some v else t.lookup k' := by
  unfold Table.put
  split
  · next h =>
    rw [lookup_map_replace]; simp [h]
  · next h =>
    rw [lookup_append_single _ _ _ _ (by rwa [Option.not_isSome_iff_eq_none] at h)]

theorem get_eq_ok {t : Table α} {k : String} {v : List α} :
    t.get k = .ok v ↔ t.lookup k = some v := by
  unfold Table.get
  cases t.lookup k with
  | none => simp
  | some x => simp

theorem nanmax_ok {xs : List α} (h : 0 < xs.length) : nanmax xs = .ok (maxOf xs) := by
  cases xs with
  | nil => simp at h
  | cons x xs => rfl

theorem Counted.normalise {d : DataObj α} {n : Nat} {det mon time : List α}
    (h : Counted d n det mon time) : ∃ d', normalise d =
      .ok (d', normCol d mon time, normVal d mon time) ∧ d'.cols = d.cols ∧ d'.dk = d.dk ∧
      d'.err = d.err ∧ d'.timeNorm = d.timeNorm ∧ d'.qk = d.qk ∧
      normVal d' mon time = normVal d mon time := by
  have hm : d.monitor = .ok mon := get_eq_ok.2 h.hmon
  have ht : d.time = .ok time := get_eq_ok.2 h.htime
  unfold Verif.Data.normalise normCol normVal
  by_cases hn : d.timeNorm = true
  · by_cases h0 : d.t0 = 0
    · refine ⟨{ d with t0 := maxOf time }, ?_, rfl, rfl, rfl, rfl, rfl, ?_⟩
      · rw [if_pos hn, if_pos hn, if_pos hn, if_pos h0, ht, ok_bind, if_pos h0,
          nanmax_ok (by rw [h.ltime]; exact h.pos)]; rfl
      · simp [hn, h0]
    · refine ⟨d, ?_, rfl, rfl, rfl, rfl, rfl, rfl⟩
      rw [if_pos hn, if_pos hn, if_pos hn, if_neg h0, ht, ok_bind, if_neg h0]; rfl
  · by_cases h0 : d.m0 = 0
    · refine ⟨{ d with m0 := maxOf mon }, ?_, rfl, rfl, rfl, rfl, rfl, ?_⟩
      · rw [if_neg hn, if_neg hn, if_neg hn, if_pos h0, hm, ok_bind, if_pos h0,
          nanmax_ok (by rw [h.lmon]; exact h.pos)]; rfl
      · simp [hn, h0]
    · refine ⟨d, ?_, rfl, rfl, rfl, rfl, rfl, rfl⟩
      rw [if_neg hn, if_neg hn, if_neg hn, if_neg h0, hm, ok_bind, if_neg h0]; rfl

theorem normCol_length {d : DataObj α} {n : Nat} {det mon time : List α}
    (h : Counted d n det mon time) : (normCol d mon time).length = n := by
  unfold normCol
  split
  · exact h.ltime
  · exact h.lmon

theorem zipWith_div_map (xs ys : List α) (c : α) :
    (List.zipWith (· / ·) xs ys).map (· * c) = List.zipWith (fun x y => x / y * c) xs ys := by
  rw [List.map_zipWith]

/-- Reading the intensity: the value, and an object that differs at most in the
stored normaliser. -/
theorem Counted.intensity {d : DataObj α} {n : Nat} {det mon time : List α}
    (h : Counted d n det mon time) : ∃ d', Verif.Data.intensity d = .ok
      (List.zipWith (fun x y => x / y * normVal d mon time) det (normCol d mon time), d') ∧
      d'.cols = d.cols ∧ d'.dk = d.dk ∧ d'.err = d.err ∧ d'.timeNorm = d.timeNorm ∧ d'.qk = d.qk ∧
      normVal d' mon time = normVal d mon time := by
  obtain ⟨d', h1, h2, h3, h4, h5, h6, h7⟩ := h.normalise
  refine ⟨d', ?_, h2, h3, h4, h5, h6, h7⟩
  have hd : d'.detector = .ok det := by
    unfold DataObj.detector; rw [h2, h3]; exact get_eq_ok.2 h.hdet
  unfold Verif.Data.intensity
  rw [h1]
  show Except.bind (d'.detector) _ = _
  rw [hd]
  show Except.bind (bcast _ det (normCol d mon time)) _ = _
  rw [bcast_ok (by rw [h.ldet, normCol_length h])]
  show Except.ok _ = _
  rw [zipWith_div_map]

/-- Counted is about columns, names and error only. -/
theorem Counted.congr {d d' : DataObj α} {n : Nat} {det mon time : List α}
    (h : Counted d n det mon time) (h2 : d'.cols = d.cols) (h3 : d'.dk = d.dk)
    (h4 : d'.err = d.err) : Counted d' n det mon time :=
  ⟨h.pos, h3 ▸ h.names, by rw [h2, h3]; exact h.hdet, by rw [h2, h3]; exact h.hmon,
    by rw [h2, h3]; exact h.htime, h.ldet, h.lmon, h.ltime, by rw [h4]; exact h.lerr⟩

/-- The error before normalisation. -/
def errCol (sqrt : α → α) (d : DataObj α) (det : List α) : List α :=
  match d.err with
  | some e => e
  | none => det.map sqrt

theorem errCol_length {sqrt : α → α} {d : DataObj α} {n : Nat} {det mon time : List α}
    (h : Counted d n det mon time) : (errCol sqrt d det).length = n := by
  unfold errCol
  cases he : d.err with
  | none => simp [h.ldet]
  | some e => exact h.lerr e he

theorem Counted.error {d : DataObj α} {n : Nat} {det mon time : List α} (sqrt : α → α)
    (h : Counted d n det mon time) : ∃ d', Verif.Data.error sqrt d = .ok
      (List.zipWith (fun x y => x / y * normVal d mon time) (errCol sqrt d det)
        (normCol d mon time), d') ∧
      d'.cols = d.cols ∧ d'.dk = d.dk ∧ d'.err = d.err ∧ d'.timeNorm = d.timeNorm ∧ d'.qk = d.qk ∧
      normVal d' mon time = normVal d mon time := by
  obtain ⟨d', h1, h2, h3, h4, h5, h6, h7⟩ := h.normalise
  refine ⟨d', ?_, h2, h3, h4, h5, h6, h7⟩
  have hr : rawError sqrt d = .ok (errCol sqrt d det) := by
    unfold rawError errCol
    cases he : d.err with
    | some e => rfl
    | none =>
      have hd : d.detector = .ok det := get_eq_ok.2 h.hdet
      simp only
      rw [hd]; rfl
  unfold Verif.Data.error
  rw [hr]
  show Except.bind (Verif.Data.normalise d) _ = _
  rw [h1]
  show Except.bind (bcast _ (errCol sqrt d det) (normCol d mon time)) _ = _
  rw [bcast_ok (by rw [errCol_length h, normCol_length h])]
  show Except.ok _ = _
  rw [zipWith_div_map]

theorem Counted.names' {d : DataObj α} {n : Nat} {det mon time : List α}
    (h : Counted d n det mon time) : d.dk.monitor ≠ d.dk.detector ∧ d.dk.monitor ≠ d.dk.time ∧
      d.dk.detector ≠ d.dk.time := by
  have := h.names
  simp only [DataKeys.values, List.nodup_cons, List.mem_cons, List.not_mem_nil, or_false, not_or,
    List.nodup_nil, and_true, not_false_eq_true] at this
  exact ⟨this.1.1, this.1.2, this.2⟩

theorem withSubtracted_counted {d : DataObj α} {n : Nat} {det mon time int err : List α}
    (h : Counted d n det mon time) (hi : int.length = n) (he : err.length = n) :
    Counted (withSubtracted d int err) n int (List.replicate n 1) (List.replicate n 1) := by
  obtain ⟨n1, n2, n3⟩ := h.names'
  refine ⟨h.pos, h.names, ?_, ?_, ?_, hi, by simp, by simp, ?_⟩
  · simp [withSubtracted, lookup_put, n3, Ne.symm n1]
  · simp [withSubtracted, lookup_put, n2, hi]
  · simp [withSubtracted, lookup_put, hi]
  · intro e h'
    simp only [withSubtracted, Option.some.injEq] at h'
    rw [← h', he]

theorem withSubtracted_norm {d : DataObj α} {n : Nat} {int err : List α}  :
    normCol (withSubtracted d int err) (List.replicate n 1) (List.replicate n (1 : α)) =
        List.replicate n 1 ∧
      normVal (withSubtracted d int err) (List.replicate n 1) (List.replicate n 1) = 1 := by
  unfold normCol normVal withSubtracted
  constructor
  · split <;> rfl
  · simp

theorem zipWith_one (xs : List α) (n : Nat) (h : xs.length = n) :
    List.zipWith (fun x y => x / y * 1) xs (List.replicate n 1) = xs := by
  subst h
  induction xs with
  | nil => rfl
  | cons x xs ih =>
    simp only [mul_one] at ih
    simp [List.replicate_succ, ih]

/-- Background subtraction of data sets of equal length. -/
theorem subtract_ok {sqrt : α → α} {a b : DataObj α} {n : Nat} {da ma ta db mb tb : List α}
    (ha : Counted a n da ma ta) (hb : Counted b n db mb tb) :
    ∃ r a' b' ia ib ea eb a₁ b₁ a₂ b₂, subtract sqrt a b = .ok (r, a', b') ∧
      Verif.Data.intensity a = .ok (ia, a₁) ∧ Verif.Data.intensity b = .ok (ib, b₁) ∧
      Verif.Data.error sqrt a = .ok (ea, a₂) ∧ Verif.Data.error sqrt b = .ok (eb, b₂) ∧
      a'.cols = a.cols ∧ b'.cols = b.cols ∧ a'.dk = a.dk ∧ b'.dk = b.dk ∧
      ia.length = n ∧ ib.length = n ∧ ea.length = n ∧ eb.length = n ∧
      r = withSubtracted a' (List.zipWith (· - ·) ia ib)
        (List.zipWith (fun a b => sqrt (max (a ^ 2) (b ^ 2))) ea eb) ∧
      Counted a' n da ma ta := by
  obtain ⟨a1, i1, c1, k1, e1, t1, _, v1⟩ := ha.intensity
  obtain ⟨b1, i2, c2, k2, e2, t2, _, v2⟩ := hb.intensity
  have ha1 := ha.congr c1 k1 e1
  have hb1 := hb.congr c2 k2 e2
  obtain ⟨a2, j1, c3, k3, e3, t3, _, v3⟩ := ha1.error sqrt
  obtain ⟨b2, j2, c4, k4, e4, t4, _, v4⟩ := hb1.error sqrt
  obtain ⟨a3, j1', _⟩ := ha.error sqrt
  obtain ⟨b3, j2', _⟩ := hb.error sqrt
  have ee1 : errCol sqrt a1 da = errCol sqrt a da := by unfold errCol; rw [e1]
  have ee2 : errCol sqrt b1 db = errCol sqrt b db := by unfold errCol; rw [e2]
  have nc1 : normCol a1 ma ta = normCol a ma ta := by unfold normCol; rw [t1]
  have nc2 : normCol b1 mb tb = normCol b mb tb := by unfold normCol; rw [t2]
  rw [ee1, nc1, v1] at j1
  rw [ee2, nc2, v2] at j2
  have l1 := normCol_length ha
  have l2 := normCol_length hb
  have l3 := errCol_length (sqrt := sqrt) ha
  have l4 := errCol_length (sqrt := sqrt) hb
  refine ⟨_, a2, b2, _, _, _, _, a1, b1, a3, b3, ?_, i1, i2, j1', j2', c3.trans c1, c4.trans c2,
    k3.trans k1, k4.trans k2, ?_, ?_, ?_, ?_, rfl, ha1.congr c3 k3 e3⟩
  · unfold subtract
    rw [i1]
    show Except.bind (Verif.Data.intensity b) _ = _
    rw [i2]
    show Except.bind (bcast _ _ _) _ = _
    rw [bcast_ok (by simp [ha.ldet, hb.ldet, l1, l2])]
    show Except.bind (Verif.Data.error sqrt a1) _ = _
    rw [j1]
    show Except.bind (Verif.Data.error sqrt b1) _ = _
    rw [j2]
    rfl
  · simp [ha.ldet, l1]
  · simp [hb.ldet, l2]
  · simp [l3, l1]
  · simp [l4, l2]

theorem mul_ok {a : DataObj α} {n : Nat} {da ma ta : List α} (ha : Counted a n da ma ta) (c : α) :
    ∃ r, mul a c = .ok r ∧ Counted r n (da.map (· * c)) ma ta ∧ r.m0 = a.m0 ∧ r.t0 = a.t0 ∧
      r.timeNorm = a.timeNorm ∧ r.err = a.err ∧ r.dk = a.dk ∧
      ∀ k, k ≠ a.dk.detector → r.cols.lookup k = a.cols.lookup k := by
  obtain ⟨n1, n2, n3⟩ := ha.names'
  have hd : a.detector = .ok da := get_eq_ok.2 ha.hdet
  refine ⟨{ a with cols := a.cols.put a.dk.detector (da.map (· * c)) }, ?_, ?_, rfl, rfl, rfl,
    rfl, rfl, ?_⟩
  · unfold mul; rw [hd]; rfl
  · refine ⟨ha.pos, ha.names, ?_, ?_, ?_, by simp [ha.ldet], ha.lmon, ha.ltime, ha.lerr⟩
    · simp [lookup_put]
    · simp [lookup_put, n1, ha.hmon]
    · simp [lookup_put, Ne.symm n3, ha.htime]
  · intro k hk; simp [lookup_put, hk]

theorem div_eq_mul (a : DataObj α) (c : α) : div a c = mul a c⁻¹ := by
  unfold div mul; simp only [div_eq_mul_inv]

theorem finishCtor_ok {cols : Table α} {n : Nat} {det mon time : Arg α} {d : DataObj α}
    (h : finishCtor cols n det mon time = .ok d) :
    d.cols.lookup "detector" = some (det.spread n) ∧ d.cols.lookup "monitor" = some (mon.spread n) ∧
    d.cols.lookup "time" = some (time.spread n) ∧ d.dk = .default ∧ d.timeNorm = false ∧
    d.err = none ∧ nanmax (mon.spread n) = .ok d.m0 ∧ nanmax (time.spread n) = .ok d.t0 ∧
    d.qk = .default ∧
    ∀ k, k ≠ "detector" → k ≠ "monitor" → k ≠ "time" → d.cols.lookup k = cols.lookup k := by
  unfold finishCtor at h
  obtain ⟨m, hm, h⟩ := bind_eq_ok.1 h
  obtain ⟨t, ht, h⟩ := bind_eq_ok.1 h
  cases h
  refine ⟨?_, ?_, ?_, rfl, rfl, rfl, hm, ht, rfl, ?_⟩
  · simp [lookup_put]
  · simp [lookup_put]
  · simp [lookup_put]
  · intro k h1 h2 h3; simp [lookup_put, h1, h2, h3]

theorem nanmax_eq {xs : List α} {m : α} (h : nanmax xs = .ok m) : m = maxOf xs ∧ 0 < xs.length := by
  cases xs with
  | nil => cases h
  | cons x xs => cases h; exact ⟨rfl, by simp⟩

theorem maxOf_map_mul [IsStrictOrderedRing α] {c : α} (hc : 0 < c) (xs : List α) :
    maxOf (xs.map (c * ·)) = c * maxOf xs := by
  cases xs with
  | nil => simp [maxOf]
  | cons x xs =>
    simp only [maxOf, List.map_cons, List.tail_cons, List.headD_cons]
    induction xs generalizing x with
    | nil => rfl
    | cons y ys ih =>
      simp only [List.map_cons, List.foldl_cons]
      rw [← mul_max_of_nonneg _ _ hc.le, ih]

theorem zipWith_map_right_mul {c : α} (hc : c ≠ 0) (xs ys : List α) (v : α) :
    List.zipWith (fun x y => x / y * (c * v)) xs (ys.map (c * ·)) =
      List.zipWith (fun x y => x / y * v) xs ys := by
  rw [List.zipWith_map_right]
  congr 1
  funext x y
  by_cases hy : y = 0
  · simp [hy]
  · field_simp

end Verif.Data
