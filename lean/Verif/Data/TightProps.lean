import Verif.Data.ObjectProps

set_option linter.unusedSectionVars false

/-!
# Additions to C18 and C75, and property C107

Scaling over histories, floor division, subtraction along a role, assignment of the counts.
-/

namespace Verif.Data

variable {α : Type} [Field α] [LinearOrder α]

/-! ## C75 -/

/-- The names of the roles in the interface. -/
def QName.word : QName → String
  | .h => "h"
  | .k => "k"
  | .l => "l"
  | .e => "e"
  | .temp => "temp"

/-- **C75** naming a role (`x='e'`) means the column that plays the role in the first data set. -/
theorem C75_by_role {sqrt : α → α} {pick : List α → α → Nat} {a b : DataObj α} (q : QName)
    (ha : a.cols.lookup q.word = none) (hb : b.cols.lookup q.word = none)
    {xa xb : List α} (hxa : a.cols.lookup (a.qk.at q) = some xa)
    (hxb : b.cols.lookup (a.qk.at q) = some xb) :
    subtractAt sqrt pick a b q.word = subtractAt sqrt pick a b (a.qk.at q) := by
  have key : ∀ d : DataObj α, d.cols.lookup q.word = none → ∀ x, d.cols.lookup (a.qk.at q) = some x →
      axis d a.qk q.word = axis d a.qk (a.qk.at q) := by
    intro d hd x hx
    have h1 : d.cols.get q.word = .error .keyError := by unfold Table.get; rw [hd]
    have h2 : d.cols.get (a.qk.at q) = .ok x := get_eq_ok.2 hx
    have e2 : axis d a.qk (a.qk.at q) = .ok x := by unfold axis; rw [h2]
    rw [e2]
    unfold axis
    rw [h1]
    cases q <;> exact h2
  unfold subtractAt
  rw [key b hb xb hxb, key a ha xa hxa]

/-- A data set with renamed columns for `C75_by_role`. -/
example : ∃ a : DataObj ℚ, ∀ q : QName, a.cols.lookup q.word = none ∧ ∃ x, a.cols.lookup (a.qk.at q) = some x :=
  ⟨⟨[("QH", [0]), ("QK", [0]), ("QL", [1]), ("EN", [2]), ("T", [3]), ("detector", [1]), ("monitor", [1]), ("time", [1])],
    .default, ⟨"QH", "QK", "QL", "EN", "T"⟩, 1, 1, false, none⟩, fun q => by cases q <;> exact ⟨by decide, _, rfl⟩⟩

/-- **C75** the error of the difference is, at every point, the larger of the error there and the
error of the background at a nearest point. -/
theorem C75_subtract_nearest_error {pick : List ℝ → ℝ → Nat} {a b : DataObj ℝ}
    {x : String} {na nb : Nat} {da ma ta db mb tb xa xb : List ℝ} (ha : Counted a na da ma ta)
    (hb : Counted b nb db mb tb) (hxa : a.cols.lookup x = some xa) (hxb : b.cols.lookup x = some xb)
    (la : xa.length = na) (lb : xb.length = nb)
    (hpick : ∀ v, pick xb v < xb.length ∧
      ∀ j (hj : j < xb.length), |v - xb[pick xb v]?.getD 0| ≤ |v - xb[j]|) :
    ∃ r ea eb er a₁ b₁ r₁, subtractAt Real.sqrt pick a b x = .ok r ∧
      error Real.sqrt a = .ok (ea, a₁) ∧ error Real.sqrt b = .ok (eb, b₁) ∧
      error Real.sqrt r = .ok (er, r₁) ∧ er.length = na ∧
      ∀ i < na, ∃ j < nb, (∀ j' < nb, |xa.getD i 0 - xb.getD j 0| ≤ |xa.getD i 0 - xb.getD j' 0|) ∧
        er.getD i 0 = max |ea.getD i 0| |eb.getD j 0| := by
  obtain ⟨a1, i1, ca1, da1, ea1, ta1, qa1, va1⟩ := ha.intensity
  obtain ⟨b1, i2, cb1, db1, eb1, tb1, qb1, vb1⟩ := hb.intensity
  have hb1 : Counted b1 nb db mb tb := hb.congr cb1 db1 eb1
  have ha1 : Counted a1 na da ma ta := ha.congr ca1 da1 ea1
  obtain ⟨b2, i3, _⟩ := hb1.error Real.sqrt
  obtain ⟨a2, i4, ca2, da2, ea2, ta2, _⟩ := ha1.error Real.sqrt
  obtain ⟨b3, i5, _⟩ := hb.error Real.sqrt
  obtain ⟨a3, i6, _⟩ := ha.error Real.sqrt
  have nca : normCol a1 ma ta = normCol a ma ta := by unfold normCol; rw [ta1]
  have ncb : normCol b1 mb tb = normCol b mb tb := by unfold normCol; rw [tb1]
  have eca : errCol Real.sqrt a1 da = errCol Real.sqrt a da := by unfold errCol; rw [ea1]
  have ecb : errCol Real.sqrt b1 db = errCol Real.sqrt b db := by unfold errCol; rw [eb1]
  rw [va1, nca, eca] at i4
  rw [vb1, ncb, ecb] at i3
  set ia := List.zipWith (fun x y => x / y * normVal a ma ta) da (normCol a ma ta) with hia
  set ib := List.zipWith (fun x y => x / y * normVal b mb tb) db (normCol b mb tb) with hib
  set ea := List.zipWith (fun x y => x / y * normVal a ma ta) (errCol Real.sqrt a da) (normCol a ma ta)
    with hea
  set eb := List.zipWith (fun x y => x / y * normVal b mb tb) (errCol Real.sqrt b db) (normCol b mb tb)
    with heb
  have lia : ia.length = na := by simp [hia, ha.ldet, normCol_length ha]
  have lib : ib.length = nb := by simp [hib, hb.ldet, normCol_length hb]
  have lea : ea.length = na := by
    rw [hea, List.length_zipWith, errCol_length ha, normCol_length ha, min_self]
  have leb : eb.length = nb := by
    rw [heb, List.length_zipWith, errCol_length hb, normCol_length hb, min_self]
  have grid : ∀ v : List ℝ, v.length = nb →
      nearestGrid pick xb v xa = .ok (xa.map fun y => v.getD (pick xb y) 0) := by
    intro v hv
    apply mapM_ok
    intro y _
    have : pick xb y < v.length := by rw [hv, ← lb]; exact (hpick y).1
    rw [getE_ok this, List.getD_eq_getElem _ _ this]
  have hbc : bcast (· - ·) ia (xa.map fun y => ib.getD (pick xb y) 0) =
      .ok (List.zipWith (· - ·) ia (xa.map fun y => ib.getD (pick xb y) 0)) := by
    unfold bcast
    rw [if_pos (by simp [lia, la])]
  set int := List.zipWith (· - ·) ia (xa.map fun y => ib.getD (pick xb y) 0) with hint
  have lint : int.length = na := by simp [hint, lia, la]
  set err := List.zipWith (fun a b => Real.sqrt (max (a ^ 2) (b ^ 2))) ea
    ((xa.map fun y => (eb.map (· ^ 2)).getD (pick xb y) 0).map Real.sqrt) with herr
  have lerr : err.length = na := by simp [herr, lea, la]
  have ha2 : Counted a2 na da ma ta := ha1.congr ca2 da2 ea2
  have hr := withSubtracted_counted ha2 lint lerr
  obtain ⟨r1, ir1, _⟩ := hr.error Real.sqrt
  obtain ⟨wn, wv⟩ := withSubtracted_norm (d := a2) (n := na) (int := int) (err := err)
  have we : errCol Real.sqrt (withSubtracted a2 int err) int = err := rfl
  rw [wn, wv, we, zipWith_one err na lerr] at ir1
  refine ⟨withSubtracted a2 int err, ea, eb, err, a3, b3, r1, ?_, i6, i5, ir1, lerr, ?_⟩
  · unfold subtractAt axis
    rw [get_eq_ok.2 hxa, get_eq_ok.2 hxb]
    simp only [ok_bind, i2, i1, i3, i4, grid ib lib, grid (eb.map (· ^ 2)) (by simp [leb]), hbc]
    rfl
  · intro i hi
    have hxi : i < xa.length := by omega
    have hp : pick xb (xa.getD i 0) < eb.length := by rw [leb, ← lb]; exact (hpick _).1
    refine ⟨pick xb (xa.getD i 0), by rw [← lb]; exact (hpick _).1, ?_, ?_⟩
    · intro j' hj'
      have hj'' : j' < xb.length := by omega
      have := (hpick (xa.getD i 0)).2 j' hj''
      rw [List.getD_eq_getElem?_getD (l := xb), List.getD_eq_getElem _ _ hj'']
      exact this
    · have hp' : pick xb xa[i] < eb.length := by rw [leb, ← lb]; exact (hpick _).1
      rw [List.getD_eq_getElem ea _ (by omega), List.getD_eq_getElem eb _ hp, herr,
        List.getD_eq_getElem _ _ (by rw [← herr, lerr]; exact hi), List.getElem_zipWith, List.getElem_map,
        List.getElem_map, List.getD_eq_getElem (l := eb.map (· ^ 2)) _ (by simpa using hp'), List.getElem_map]
      simp only [List.getD_eq_getElem xa _ hxi]
      rw [Real.sqrt_sq_eq_abs, sq_abs]
      generalize ea[i] = u
      generalize eb[pick xb xa[i]] = v
      rcases le_total |u| |v| with h | h
      · rw [max_eq_right h, max_eq_right (sq_le_sq.2 h), Real.sqrt_sq_eq_abs]
      · rw [max_eq_left h, max_eq_left (sq_le_sq.2 h), Real.sqrt_sq_eq_abs]

/-! ## C18 -/

/-- A history of multiplications and divisions and the total factor. -/
inductive Scaling : List (HistOp α) → α → Prop
  | nil : Scaling [] 1
  | mul {ops f} (c : α) : Scaling ops f → Scaling (.mul c :: ops) (c * f)
  | div {ops f} (c : α) : Scaling ops f → Scaling (.div c :: ops) (f / c)
  | read {ops f} : Scaling ops f → Scaling (.readIntensity :: ops) f

/-- **C18** any sequence of multiplications, divisions and intensity reads multiplies the intensity by
the product of the factors. -/
theorem C18_history {sqrt : α → α} {ops : List (HistOp α)} {f : α} (h : Scaling ops f) {a : DataObj α}
    {n : Nat} {da ma ta : List α} (ha : Counted a n da ma ta) :
    ∃ r ia ir a₁ r₁, hist sqrt a ops = .ok r ∧ intensity a = .ok (ia, a₁) ∧ intensity r = .ok (ir, r₁) ∧
      ir = ia.map (· * f) := by
  induction h generalizing a da with
  | nil =>
    obtain ⟨a1, i1, _⟩ := ha.intensity
    exact ⟨a, _, _, a1, a1, rfl, i1, i1, by simp⟩
  | @mul ops f c _ ih =>
    obtain ⟨b, h1, h2, _⟩ := mul_ok ha c
    obtain ⟨b', ia, ib, a1, b1, h1', h3, h4, h5, _⟩ := C18_mul_scales ha c
    rw [h1] at h1'; cases h1'
    obtain ⟨r, ib', ir, b1', r1, k1, k2, k3, k4⟩ := ih h2
    rw [h4] at k2; cases k2
    refine ⟨r, ia, ir, a1, r1, ?_, h3, k3, ?_⟩
    · unfold hist
      rw [List.foldlM_cons, histStep, h1]
      exact k1
    · rw [k4, h5, List.map_map]
      exact List.map_congr_left fun x _ => by simp only [Function.comp]; ring
  | @div ops f c _ ih =>
    obtain ⟨b, h1, h2, _⟩ := mul_ok ha c⁻¹
    obtain ⟨b', ia, ib, a1, b1, h1', h3, h4, h5, _⟩ := C18_div_scales ha c
    have hdiv := h1'
    rw [div_eq_mul, h1] at h1'; cases h1'
    obtain ⟨r, ib', ir, b1', r1, k1, k2, k3, k4⟩ := ih h2
    rw [h4] at k2; cases k2
    refine ⟨r, ia, ir, a1, r1, ?_, h3, k3, ?_⟩
    · unfold hist
      rw [List.foldlM_cons, histStep, hdiv]
      exact k1
    · rw [k4, h5, List.map_map]
      exact List.map_congr_left fun x _ => by
        simp only [Function.comp]; rw [div_eq_mul_inv, div_eq_mul_inv]; ring
  | @read ops f _ ih =>
    obtain ⟨a1, i1, c1, d1, e1, t1, q1, v1⟩ := ha.intensity
    obtain ⟨r, ib, ir, b1', r1, k1, k2, k3, k4⟩ := ih (ha.congr c1 d1 e1)
    refine ⟨r, ib, ir, a1, r1, ?_, ?_, k3, k4⟩
    · unfold hist
      rw [List.foldlM_cons, histStep, i1]
      exact k1
    · obtain ⟨a2, i2, _⟩ := (ha.congr c1 d1 e1).intensity
      rw [i2] at k2
      cases k2
      have : normCol a1 ma ta = normCol a ma ta := by unfold normCol; rw [t1]
      rw [v1, this]
      exact i1

example : Scaling [HistOp.mul (3 : ℚ), .readIntensity, .div 2, .mul 4] (3 * ((4 * 1) / 2)) :=
  .mul _ (.read (.div _ (.mul _ .nil)))

/-- **C18** `d // c` rounds the counts down and leaves every other column alone, while `d //= c`
fails. -/
theorem C18_floor_division {sqrt fl : α → α} {a : DataObj α} {n : Nat} {da ma ta : List α}
    (ha : Counted a n da ma ta) (c : α) :
    (∃ r, binary sqrt fl a (.floordiv c) = .ok r ∧
      Counted r n (da.map fun x => fl (x / c)) ma ta ∧
      ∀ k, k ≠ a.dk.detector → r.cols.lookup k = a.cols.lookup k) ∧
    inplace sqrt a (.floordiv c) = .error .nameError := by
  obtain ⟨n1, n2, n3⟩ := ha.names'
  have hd : a.detector = .ok da := get_eq_ok.2 ha.hdet
  refine ⟨⟨{ a with cols := a.cols.put a.dk.detector (da.map fun x => fl (x / c)) }, ?_, ?_, ?_⟩, rfl⟩
  · unfold binary; rw [hd]; rfl
  · refine ⟨ha.pos, ha.names, ?_, ?_, ?_, by simp [ha.ldet], ha.lmon, ha.ltime, ha.lerr⟩
    · simp [lookup_put]
    · simp [lookup_put, n1, ha.hmon]
    · simp [lookup_put, Ne.symm n3, ha.htime]
  · intro k hk; simp [lookup_put, hk]

/-! ## C107 -/

/-- **C107** (partial: the length is not checked) an assigned count column reads back, and nothing else
changes. -/
theorem C107_assign_count_partial (d : DataObj α) (key : String) (v : List α) :
    (setCount d key v).cols.get key = .ok v ∧
    (∀ k, k ≠ key → (setCount d key v).cols.lookup k = d.cols.lookup k) ∧
    (setCount d key v).m0 = d.m0 ∧ (setCount d key v).t0 = d.t0 ∧ (setCount d key v).err = d.err ∧
    (setCount d key v).dk = d.dk ∧ (setCount d key v).qk = d.qk ∧
    (setCount d key v).timeNorm = d.timeNorm := by
  refine ⟨get_eq_ok.2 (by simp [setCount, lookup_put]), fun k hk => by simp [setCount, lookup_put, hk],
    rfl, rfl, rfl, rfl, rfl, rfl⟩

/-- **C107** assigning counts of the right length keeps the data set well formed, and the three columns
are those assigned. -/
theorem C107_right_length {d : DataObj α} {n : Nat} {det mon time : List α} (h : Counted d n det mon time)
    {v : List α} (hv : v.length = n) :
    Counted (setCount d d.dk.detector v) n v mon time ∧
    Counted (setCount d d.dk.monitor v) n det v time ∧
    Counted (setCount d d.dk.time v) n det mon v := by
  obtain ⟨n1, n2, n3⟩ := h.names'
  refine ⟨⟨h.pos, h.names, ?_, ?_, ?_, hv, h.lmon, h.ltime, h.lerr⟩,
    ⟨h.pos, h.names, ?_, ?_, ?_, h.ldet, hv, h.ltime, h.lerr⟩,
    ⟨h.pos, h.names, ?_, ?_, ?_, h.ldet, h.lmon, hv, h.lerr⟩⟩
  all_goals simp [setCount, lookup_put, h.hdet, h.hmon, h.htime, n1, n2, n3, Ne.symm n1, Ne.symm n2, Ne.symm n3]

/-- **C107** is false as stated: counts of a wrong length are accepted, and afterwards the intensity
cannot be read any more. -/
theorem C107_wrong_length_accepted {d : DataObj α} {n : Nat} {det mon time : List α}
    (h : Counted d n det mon time) {v : List α} (h1 : v.length ≠ n) (h2 : v.length ≠ 1) (h3 : n ≠ 1) :
    intensity (setCount d d.dk.detector v) = .error .valueError := by
  obtain ⟨n1, n2, n3⟩ := h.names'
  obtain ⟨d', k1, k2, k3, _⟩ := (C107_right_length h h.ldet).1.normalise
  set d₀ := setCount d d.dk.detector det with hd₀
  have hnorm : ∃ e, normalise (setCount d d.dk.detector v) =
      .ok (e, normCol d₀ mon time, normVal d₀ mon time) ∧ e.detector = .ok v := by
    have hm : (setCount d d.dk.detector v).monitor = .ok mon :=
      get_eq_ok.2 (by simp [setCount, lookup_put, n1, h.hmon])
    have ht : (setCount d d.dk.detector v).time = .ok time :=
      get_eq_ok.2 (by simp [setCount, lookup_put, n3.symm, h.htime])
    have hv : ∀ e : DataObj α, e.cols = (setCount d d.dk.detector v).cols → e.dk = d.dk → e.detector = .ok v := by
      intro e h1 h2
      unfold DataObj.detector
      rw [h1, h2]
      exact (C107_assign_count_partial d d.dk.detector v).1
    unfold normalise
    rw [hm, ht]
    have e1 : (setCount d d.dk.detector v).timeNorm = d.timeNorm := rfl
    have e2 : (setCount d d.dk.detector v).t0 = d.t0 := rfl
    have e3 : (setCount d d.dk.detector v).m0 = d.m0 := rfl
    have c1 : normCol d₀ mon time = if d.timeNorm then time else mon := rfl
    have c2 : normVal d₀ mon time = if d.timeNorm then (if d.t0 = 0 then maxOf time else d.t0)
      else (if d.m0 = 0 then maxOf mon else d.m0) := rfl
    rw [e1, e2, e3, c1, c2]
    by_cases hn : d.timeNorm = true
    · by_cases h0 : d.t0 = 0
      · simp only [hn, h0, if_true, ok_bind, nanmax_ok (show 0 < time.length by rw [h.ltime]; exact h.pos)]
        exact ⟨_, rfl, hv _ rfl rfl⟩
      · simp only [hn, h0, if_true, if_false, ok_bind]
        exact ⟨_, rfl, hv _ rfl rfl⟩
    · by_cases h0 : d.m0 = 0
      · simp only [hn, h0, if_true, if_false, ok_bind, nanmax_ok (show 0 < mon.length by rw [h.lmon]; exact h.pos)]
        exact ⟨_, rfl, hv _ rfl rfl⟩
      · simp only [hn, h0, if_false, ok_bind]
        exact ⟨_, rfl, hv _ rfl rfl⟩
  obtain ⟨e, he, hev⟩ := hnorm
  have hl : (normCol d₀ mon time).length = n := normCol_length (C107_right_length h h.ldet).1
  unfold intensity
  rw [he]
  simp only [ok_bind, hev]
  have : bcast (· / ·) v (normCol d₀ mon time) = .error .valueError := by
    unfold bcast
    rw [if_neg (by rw [hl]; exact h1)]
    generalize normCol d₀ mon time = m at hl
    match v, m with
    | [_], _ => exact absurd rfl h2
    | [], [_] => exact absurd hl.symm h3
    | _ :: _ :: _, [_] => exact absurd hl.symm h3
    | [], [] => rfl
    | [], _ :: _ :: _ => rfl
    | _ :: _ :: _, [] => rfl
    | _ :: _ :: _, _ :: _ :: _ => rfl
  rw [this]
  rfl

/-- The hypotheses are met by a scan of two points to which three counts are assigned. -/
example : intensity (setCount exN exN.dk.detector [1, 2, 3]) = .error .valueError :=
  C107_wrong_length_accepted exN_counted (by simp) (by simp) (by simp)

end Verif.Data
