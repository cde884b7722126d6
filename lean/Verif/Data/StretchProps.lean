import Verif.Data.Fwhm

/-! # Property theorems: another unit on an axis (C210) -/

namespace Verif.Data

variable {α : Type} [Field α] [LinearOrder α] [FloorRing α]

/-! ## Specification and lemmas -/

/-- The data set after `d.<axis> = d.<axis> * t`. -/
def stretchAxis (d : DataObj α) (key : String) (t : α) : DataObj α :=
  { d with cols := d.cols.put key (((d.cols.lookup key).getD []).map (· * t)) }

theorem column_stretch {d : DataObj α} {n : Nat} {bg : Bg α} {int : List α} {β : α}
    (h : Measured d n bg int β) {sel : List Nat} (hsel : ∀ i ∈ sel, i < n) {key : String}
    (hkey : key ∈ d.qk.values) (t : α) (k : String) :
    column (stretchAxis d key t) sel k =
      if k = key then (column d sel key).map (· * t) else column d sel k := by
  obtain ⟨c, hc, hl⟩ := h.lookup (h.coords key hkey)
  unfold column stretchAxis
  simp only [lookup_put, hc, Option.getD_some]
  by_cases hk : k = key
  · subst hk
    simp only [if_true, Option.getD_some, List.map_map]
    apply List.map_congr_left
    intro i hi
    have := hsel i hi
    rw [List.getD_eq_getElem _ _ (by simp; omega), Function.comp_apply,
      List.getD_eq_getElem _ _ (by omega), List.getElem_map]
  · simp only [hk, if_false]

theorem intensity_stretch {d : DataObj α} {key : String} (hk : key ∉ d.dk.values) (t : α) {int : List α}
    (h : ∃ d', intensity d = .ok (int, d')) :
    ∃ d', intensity (stretchAxis d key t) = .ok (int, d') := by
  have hne : ∀ k ∈ d.dk.values, (d.cols.put key (((d.cols.lookup key).getD []).map (· * t))).get k
      = d.cols.get k := by
    intro k hk'
    unfold Table.get
    rw [lookup_put, if_neg (by rintro rfl; exact hk hk')]
  have h1 := hne d.dk.detector (by simp [DataKeys.values])
  have h2 := hne d.dk.monitor (by simp [DataKeys.values])
  have h3 := hne d.dk.time (by simp [DataKeys.values])
  obtain ⟨d', h⟩ := h
  unfold intensity normalise at h ⊢
  simp only [DataObj.detector, DataObj.monitor, DataObj.time] at h ⊢
  simp only [stretchAxis] at h ⊢
  rw [h2, h3]
  generalize d.cols.get d.dk.time = T at h ⊢
  generalize d.cols.get d.dk.monitor = M at h ⊢
  by_cases htn : d.timeNorm = true
  · simp only [htn, if_true] at h ⊢
    obtain ⟨x, hx, h⟩ := bind_eq_ok.1 h
    obtain ⟨m, hm, hx⟩ := bind_eq_ok.1 hx
    obtain ⟨dd, hd, h⟩ := bind_eq_ok.1 h
    obtain ⟨q, hq, h⟩ := bind_eq_ok.1 h
    rw [pure_ok] at h
    by_cases ht0 : d.t0 = 0
    · simp only [ht0, if_true] at hx ⊢
      obtain ⟨m0, hm0, hx⟩ := bind_eq_ok.1 hx
      rw [pure_ok] at hx
      cases hx
      cases h
      rw [hm]
      simp only [ok_bind, hm0, pure_ok, h1, hd, hq]
      exact ⟨_, rfl⟩
    · simp only [ht0, if_false, ok_bind, pure_ok] at hx ⊢
      cases hx
      cases h
      rw [hm]
      simp only [ok_bind, h1, hd, hq]
      exact ⟨_, rfl⟩
  · simp only [htn, if_false, Bool.false_eq_true] at h ⊢
    obtain ⟨x, hx, h⟩ := bind_eq_ok.1 h
    obtain ⟨m, hm, hx⟩ := bind_eq_ok.1 hx
    obtain ⟨dd, hd, h⟩ := bind_eq_ok.1 h
    obtain ⟨q, hq, h⟩ := bind_eq_ok.1 h
    rw [pure_ok] at h
    by_cases ht0 : d.m0 = 0
    · simp only [ht0, if_true] at hx ⊢
      obtain ⟨m0, hm0, hx⟩ := bind_eq_ok.1 hx
      rw [pure_ok] at hx
      cases hx
      cases h
      rw [hm]
      simp only [ok_bind, hm0, pure_ok, h1, hd, hq]
      exact ⟨_, rfl⟩
    · simp only [ht0, if_false, ok_bind, pure_ok] at hx ⊢
      cases hx
      cases h
      rw [hm]
      simp only [ok_bind, h1, hd, hq]
      exact ⟨_, rfl⟩

theorem Measured.stretch {d : DataObj α} {n : Nat} {bg : Bg α} {int : List α} {β : α}
    (h : Measured d n bg int β) {key : String} (hkey : key ∈ d.qk.values) (t : α) :
    Measured (stretchAxis d key t) n bg int β where
  rect := by
    intro c hc
    obtain ⟨col, hcol, hl⟩ := h.lookup (h.coords key hkey)
    have hnd : (((stretchAxis d key t).cols).map Prod.fst).Nodup := by
      simp only [stretchAxis]
      rw [keys_put _ (h.coords key hkey)]
      exact h.names
    have hlk := lookup_eq_of_mem hnd hc
    simp only [stretchAxis, lookup_put, hcol, Option.getD_some] at hlk
    split at hlk
    · rw [← Option.some.inj hlk]; simpa using hl
    · obtain ⟨c', hc', hl'⟩ := h.lookup (k := c.1) (by
        have := List.mem_map_of_mem (f := Prod.fst) hc
        simp only [stretchAxis] at this
        rwa [keys_put _ (h.coords key hkey)] at this)
      rw [hc'] at hlk
      rw [← Option.some.inj hlk]; exact hl'
  names := by
    simp only [stretchAxis]
    rw [keys_put _ (h.coords key hkey)]
    exact h.names
  coords := by
    simp only [stretchAxis]
    rw [keys_put _ (h.coords key hkey)]
    exact h.coords
  distinct := h.distinct
  counted := intensity_stretch (h.distinct key hkey) t h.counted
  len := h.len
  back := h.back

theorem LineScan.stretch {d : DataObj α} {n : Nat} {bg : Bg α} {int : List α} {β : α}
    (h : Measured d n bg int β) {sel : List Nat} (hsel : ∀ i ∈ sel, i < n) {key : String}
    (hline : LineScan d sel key) (t : α) : LineScan (stretchAxis d key t) sel key where
  coord := hline.coord
  two := hline.two
  others := by
    intro k hk hn hne
    rw [column_stretch h hsel hline.coord, if_neg hne]
    refine hline.others k ?_ hn hne
    simp only [stretchAxis] at hk
    rwa [keys_put _ (h.coords key hline.coord)] at hk

theorem trapSum_stretch (x y : List α) (t : α) : trapSum (x.map (· * t)) y = t * trapSum x y := by
  unfold trapSum
  rw [List.length_map, Finset.mul_sum]
  apply Finset.sum_congr rfl
  intro i hi
  rw [Finset.mem_range] at hi
  rw [List.getD_eq_getElem (x.map (· * t)) _ (by simp; omega),
    List.getD_eq_getElem (x.map (· * t)) _ (by simp; omega),
    List.getD_eq_getElem x _ (by omega), List.getD_eq_getElem x _ (by omega)]
  simp only [List.getElem_map]
  ring

/-- Another unit selects the same points. -/
theorem Selects.stretch {d : DataObj α} {n : Nat} {bg : Bg α} {int : List α} {β : α} (h : Measured d n bg int β)
    {bounds : Option (List Bool)} {sel : List Nat} (hs : Selects d n bounds sel) {key : String} {t : α} (ht : t ≠ 0) :
    Selects (stretchAxis d key t) n bounds sel := by
  cases hs with
  | mask m hm => exact .mask m hm
  | all hcol hh =>
    by_cases hk : d.qk.h = key
    · have := Selects.all (d := stretchAxis d key t) (n := n) (hcol.map (· * t)) (by
        show (d.cols.put key (((d.cols.lookup key).getD []).map (· * t))).lookup d.qk.h = _
        rw [lookup_put, if_pos hk, ← hk, hh]; rfl)
      have e : (List.range n).filter (fun i => decide ((hcol.map (· * t)).getD i 0 ≠ 0)) =
          (List.range n).filter (fun i => decide (hcol.getD i 0 ≠ 0)) := by
        apply List.filter_congr
        intro i _
        simp only [List.getD_eq_getElem?_getD, List.getElem?_map]
        cases hcol[i]? <;> simp [ht]
      rwa [e] at this
    · exact Selects.all (d := stretchAxis d key t) (n := n) hcol (by
        show (d.cols.put key (((d.cols.lookup key).getD []).map (· * t))).lookup d.qk.h = _
        rw [lookup_put, if_neg hk, hh])

/-! ## Theorems -/

/-- **C210** when the scanned axis is given in another unit (its column multiplied by any number but zero), the integral of
the scan and the position of the peak on this axis are multiplied by the number, the mean squared width on this axis by its
square, and positions and widths on the other axes stay as they are; for all bounds and all kinds of background. -/
theorem C210_units {d : DataObj α} {n : Nat} {bg : Bg α} {int : List α} {β : α}
    (h : Measured d n bg int β) {bounds : Option (List Bool)} {sel : List Nat} {key : String} {t : α} (ht : t ≠ 0)
    (hs : Selects d n bounds sel) (hline : LineScan d sel key)
    (hpos : trapSum (column d sel key) (net int β sel) ≠ 0) :
    ∃ i ps ps' ws ws', integrate d bounds bg true = .ok (some i) ∧ integrate (stretchAxis d key t) bounds bg true = .ok (some (t * i)) ∧
      position d bounds bg true = .ok ps ∧ position (stretchAxis d key t) bounds bg true = .ok ps' ∧
      widths d bounds bg true = .ok ws ∧ widths (stretchAxis d key t) bounds bg true = .ok ws' ∧
      ∀ k ∈ d.qk.values, ∃ p w, ps.lookup k = some (some p) ∧ ps'.lookup k = some (some (if k = key then t * p else p)) ∧
        ws.lookup k = some (some w) ∧ ws'.lookup k = some (some (if k = key then t ^ 2 * w else w)) := by
  have hsel := sel_lt hs
  have hs' := hs.stretch (key := key) h ht
  have h' := h.stretch hline.coord t
  have hline' := hline.stretch h hsel t
  have hcol := column_stretch h hsel hline.coord t
  have hck : column (stretchAxis d key t) sel key = (column d sel key).map (· * t) := by
    rw [hcol, if_pos rfl]
  have hT : trapSum (column (stretchAxis d key t) sel key) (net int β sel) =
      t * trapSum (column d sel key) (net int β sel) := by rw [hck, trapSum_stretch]
  have hpos' : trapSum (column (stretchAxis d key t) sel key) (net int β sel) ≠ 0 := by
    rw [hT]
    exact mul_ne_zero ht hpos
  have hl : sel.length ≠ 1 := by have := hline.two; omega
  obtain ⟨ps, hps, hp⟩ := position_line h hs hline hpos true
  obtain ⟨ps', hps', hp'⟩ := position_line h' hs' hline' hpos' true
  obtain ⟨ws, hws, hw⟩ := widths_line h hs hline hpos
  obtain ⟨ws', hws', hw'⟩ := widths_line h' hs' hline' hpos'
  refine ⟨trapSum (column d sel key) (net int β sel), ps, ps', ws, ws', ?_, ?_, hps, hps', hws, hws', fun k hk => ?_⟩
  · rw [integrate_ok h hs hl, sum_line h hline]
  · rw [integrate_ok h' hs' hl, sum_line h' hline', hT]
  have e1 := hp k (mem_getKeys h hk true)
  have e1' := hp' k (mem_getKeys h' hk true)
  have e2 := hw k hk
  have e2' := hw' k hk
  have hpe : trapSum (column (stretchAxis d key t) sel key)
        (List.zipWith (· * ·) (column (stretchAxis d key t) sel k) (net int β sel)) /
        trapSum (column (stretchAxis d key t) sel key) (net int β sel) =
      if k = key then t * (trapSum (column d sel key)
        (List.zipWith (· * ·) (column d sel k) (net int β sel)) /
        trapSum (column d sel key) (net int β sel))
      else trapSum (column d sel key)
        (List.zipWith (· * ·) (column d sel k) (net int β sel)) /
        trapSum (column d sel key) (net int β sel) := by
    rw [hT, hck, trapSum_stretch, mul_div_mul_left _ _ ht, hcol]
    by_cases hk' : k = key
    · subst hk'
      simp only [if_true]
      rw [List.zipWith_map_left, show (fun a b : α => a * t * b) = fun a b => t * (a * b) from funext fun a => funext fun b => by ring,
        ← List.map_zipWith (f := fun x => t * x) (g := fun a b : α => a * b), trapSum_smul _ _ (by simp [net, column]), mul_div_assoc]
    · simp only [hk', if_false]
  rw [hpe] at e1' e2'
  refine ⟨_, _, e1, ?_, e2, ?_⟩
  · rw [e1']
  · rw [e2']
    congr 2
    unfold moment
    rw [hT, hck, trapSum_stretch, mul_div_mul_left _ _ ht, hcol]
    by_cases hk' : k = key
    · subst hk'
      simp only [if_true]
      generalize trapSum (column d sel k) (List.zipWith (· * ·) (column d sel k) (net int β sel)) / trapSum (column d sel k) (net int β sel) = p
      rw [List.zipWith_map_left, show (fun a b : α => (a * t - t * p) ^ 2 * b) = fun a b => t ^ 2 * ((a - p) ^ 2 * b) from funext fun a => funext fun b => by ring,
        ← List.map_zipWith (f := fun x => t ^ 2 * x) (g := fun a b : α => (a - p) ^ 2 * b), trapSum_smul _ _ (by simp [net, column]), mul_div_assoc]
    · simp only [hk', if_false]

/-- **C210** with `fwhm` the width on the scanned axis is multiplied by the absolute value of the number; where it is nan it
stays nan. -/
theorem C210_fwhm {d : DataObj ℝ} {n : Nat} {bg : Bg ℝ} {int : List ℝ} {β : ℝ}
    (h : Measured d n bg int β) {bounds : Option (List Bool)} {sel : List Nat} {key : String} {t : ℝ} (ht : t ≠ 0)
    (hs : Selects d n bounds sel) (hline : LineScan d sel key)
    (hpos : trapSum (column d sel key) (net int β sel) ≠ 0) :
    ∃ fs fs', widthsFwhm d bounds bg true = .ok fs ∧ widthsFwhm (stretchAxis d key t) bounds bg true = .ok fs' ∧
      ∀ k ∈ d.qk.values, ∃ f : Option ℝ, fs.lookup k = some f ∧
        fs'.lookup k = some (if k = key then f.map (|t| * ·) else f) := by
  obtain ⟨i, ps, ps', ws, ws', -, -, -, -, hw, hw', hk⟩ := C210_units h ht hs hline hpos
  refine ⟨ws.map fun p => (p.1, p.2.bind fwhmOf), ws'.map fun p => (p.1, p.2.bind fwhmOf), ?_, ?_, fun k hkv => ?_⟩
  · rw [widthsFwhm, hw]; rfl
  · rw [widthsFwhm, hw']; rfl
  obtain ⟨p, w, -, -, l1, l2⟩ := hk k hkv
  refine ⟨fwhmOf w, ?_, ?_⟩
  · rw [lookup_map_snd (fun o : Option ℝ => o.bind fwhmOf), l1]; rfl
  · rw [lookup_map_snd (fun o : Option ℝ => o.bind fwhmOf), l2]
    by_cases e : k = key
    · rw [if_pos e, if_pos e]
      have ht2 : 0 < t ^ 2 := by positivity
      show some (fwhmOf (t ^ 2 * w)) = _
      unfold fwhmOf
      by_cases h0 : w < 0
      · rw [if_pos h0, if_pos (mul_neg_of_pos_of_neg ht2 h0)]; rfl
      · rw [if_neg h0, if_neg (not_lt.2 (mul_nonneg ht2.le (not_lt.1 h0))), Real.sqrt_mul ht2.le, Real.sqrt_sq_eq_abs]
        simp only [Option.map_some, mul_assoc]
    · rw [if_neg e, if_neg e]; rfl

/-- The condition on the scan is needed: if two axes move together, the integral is the sum over both, and a new unit on one
of them does not multiply it. -/
theorem C210_two_axes : ∃ d : DataObj ℚ, integrate d none .none true = .ok (some 60) ∧
    integrate (stretchAxis d "k" 2) none .none true = .ok (some 90) :=
  ⟨{ kScan1 with cols := [("h", [1, 1, 1]), ("k", [1, 2, 3]), ("l", [1, 2, 3]), ("e", [5, 5, 5]),
      ("temp", [300, 300, 300]), ("detector", [10, 20, 10]), ("monitor", [1, 1, 1]), ("time", [1, 1, 1])] },
    by decide +kernel, by decide +kernel⟩

/-- Positions and widths of the k scan in half units. -/
example : Measured kScan1 3 .none [10, 20, 10] 0 ∧ Selects kScan1 3 none [0, 1, 2] ∧
    LineScan kScan1 [0, 1, 2] "k" ∧
    position (stretchAxis kScan1 "k" 2) none .none true =
      .ok [("h", some 1), ("k", some 4), ("l", some 2), ("e", some 5), ("temp", some 300)] :=
  ⟨measured_kScan1, Selects.all (d := kScan1) (n := 3) [1, 1, 1] rfl, line_kScan1, by decide +kernel⟩

end Verif.Data
