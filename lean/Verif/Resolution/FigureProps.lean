import Verif.Resolution.Figure
import Verif.Resolution.PropsView
import Verif.Resolution.PropsSide

/-! # Property C164: `plot_projections` draws the curves of the positions asked for -/

namespace Verif.Resolution.Figure

open Real Matrix
open Verif.Crystal (Fail Vec Mat vecOf len)
open Verif.Tools (Arg ellipse ellipsePoint linspaceCircle)

/-! ## Specification -/

/-- One panel shows these closed curves and lines, between limits that are the smallest that contain all closed curves. -/
structure Contains (cs ls : List (List (ℝ × ℝ))) (a : Subplot) : Prop where
  fills : a.fills = cs
  lines : a.lines = ls
  inside : ∀ c ∈ cs, ∀ p ∈ c, (a.x.low ≤ p.1 ∧ p.1 ≤ a.x.high) ∧ a.y.low ≤ p.2 ∧ p.2 ≤ a.y.high
  tight : (∃ c ∈ cs, ∃ p ∈ c, p.1 = a.x.low) ∧ (∃ c ∈ cs, ∃ p ∈ c, p.1 = a.x.high) ∧
    (∃ c ∈ cs, ∃ p ∈ c, p.2 = a.y.low) ∧ ∃ c ∈ cs, ∃ p ∈ c, p.2 = a.y.high

/-- The figure shows the curves `vs`, one after the other, in the three panels. -/
structure Draws (vs : List View) (fig : Panel → Option Subplot) : Prop where
  qxqy : ∃ a, fig .QxQy = some a ∧ Contains (vs.map (·.qxqy.points)) (vs.map (·.qxqySlice.points)) a
  qxw : ∃ a, fig .QxW = some a ∧ Contains (vs.map (·.qxw.points)) (vs.map (·.qxwSlice.points)) a
  qyw : ∃ a, fig .QyW = some a ∧ Contains (vs.map (·.qyw.points)) (vs.map (·.qywSlice.points)) a

/-- A list of points in the scattering plane that the instrument can reach. -/
structure Good (s : Setup) (F : Mat) (n : ℕ) (q : Query) : Prop where
  len : q.Len n
  reach : ∀ p ∈ q.points, p.1 ≠ 0 ∧ InPlane s p.1 ∧ Reaches s.settings (Crystal.len (vecOf F p.1)) p.2

/-! ## Limits -/

theorem least_spec : ∀ {l : List ℝ}, l ≠ [] → least l ∈ l ∧ ∀ x ∈ l, least l ≤ x
  | [], h => absurd rfl h
  | [x], _ => by simp [least]
  | x :: y :: l, _ => by
    obtain ⟨h1, h2⟩ := least_spec (l := y :: l) (by simp)
    unfold least
    refine ⟨?_, ?_⟩
    · rcases min_choice x (least (y :: l)) with h | h <;> rw [h]
      · simp
      · exact List.mem_cons_of_mem _ h1
    · intro z hz
      rcases List.mem_cons.1 hz with rfl | hz
      · exact min_le_left _ _
      · exact (min_le_right _ _).trans (h2 z hz)

theorem greatest_spec : ∀ {l : List ℝ}, l ≠ [] → greatest l ∈ l ∧ ∀ x ∈ l, x ≤ greatest l
  | [], h => absurd rfl h
  | [x], _ => by simp [greatest]
  | x :: y :: l, _ => by
    obtain ⟨h1, h2⟩ := greatest_spec (l := y :: l) (by simp)
    unfold greatest
    refine ⟨?_, ?_⟩
    · rcases max_choice x (greatest (y :: l)) with h | h <;> rw [h]
      · simp
      · exact List.mem_cons_of_mem _ h1
    · intro z hz
      rcases List.mem_cons.1 hz with rfl | hz
      · exact le_max_left _ _
      · exact (h2 z hz).trans (le_max_right _ _)

/-- The axis has the limits of the coordinates `f` of the points of the curves. -/
structure Bounds (f : ℝ × ℝ → ℝ) (fills : List (List (ℝ × ℝ))) (a : Axis) : Prop where
  inside : ∀ c ∈ fills, ∀ p ∈ c, a.low ≤ f p ∧ f p ≤ a.high
  low : ∃ c ∈ fills, ∃ p ∈ c, f p = a.low
  high : ∃ c ∈ fills, ∃ p ∈ c, f p = a.high

theorem axisOf_ok (t : Title) (f : ℝ × ℝ → ℝ) {c : List (ℝ × ℝ)} (h : c ≠ []) :
    ∃ a, axisOf t (c.map f) = .ok a ∧ Bounds f [c] a ∧ a.title = t ∧ a.width = a.high - a.low := by
  have h0 : c.map f ≠ [] := by simpa using h
  obtain ⟨l1, l2⟩ := least_spec h0
  obtain ⟨g1, g2⟩ := greatest_spec h0
  refine ⟨_, by unfold axisOf; rw [if_neg h0], ⟨?_, ?_, ?_⟩, rfl, rfl⟩
  · intro c' hc p hp
    rw [List.mem_singleton.1 hc] at hp
    have : f p ∈ c.map f := List.mem_map_of_mem hp
    exact ⟨l2 _ this, g2 _ this⟩
  · obtain ⟨p, hp, e⟩ := List.mem_map.1 l1
    exact ⟨c, by simp, p, hp, e⟩
  · obtain ⟨p, hp, e⟩ := List.mem_map.1 g1
    exact ⟨c, by simp, p, hp, e⟩

theorem Bounds.widen {f : ℝ × ℝ → ℝ} {cs : List (List (ℝ × ℝ))} {c : List (ℝ × ℝ)} {a b : Axis} (ha : Bounds f cs a)
    (hb : Bounds f [c] b) : Bounds f (cs ++ [c]) (widen a b) := by
  have hl : (Figure.widen a b).low = min a.low b.low := by
    unfold Figure.widen
    dsimp only
    split_ifs with h
    · exact (min_eq_right h.le).symm
    · exact (min_eq_left (not_lt.1 h)).symm
  have hh : (Figure.widen a b).high = max a.high b.high := by
    unfold Figure.widen
    dsimp only
    split_ifs with h
    · exact (max_eq_right h.le).symm
    · exact (max_eq_left (not_lt.1 h)).symm
  refine ⟨?_, ?_, ?_⟩
  · intro d hd p hp
    rw [hl, hh]
    rcases List.mem_append.1 hd with h | h
    · obtain ⟨x, y⟩ := ha.inside d h p hp
      exact ⟨(min_le_left _ _).trans x, y.trans (le_max_left _ _)⟩
    · obtain ⟨x, y⟩ := hb.inside d h p hp
      exact ⟨(min_le_right _ _).trans x, y.trans (le_max_right _ _)⟩
  · rw [hl]
    rcases min_choice a.low b.low with h | h <;> rw [h]
    · obtain ⟨d, hd, r⟩ := ha.low
      exact ⟨d, List.mem_append_left _ hd, r⟩
    · obtain ⟨d, hd, r⟩ := hb.low
      exact ⟨d, List.mem_append_right _ hd, r⟩
  · rw [hh]
    rcases max_choice a.high b.high with h | h <;> rw [h]
    · obtain ⟨d, hd, r⟩ := ha.high
      exact ⟨d, List.mem_append_left _ hd, r⟩
    · obtain ⟨d, hd, r⟩ := hb.high
      exact ⟨d, List.mem_append_right _ hd, r⟩

/-! ## The loop over the positions -/

/-- What the axes of a panel are labelled with. -/
structure Labelled (k : Panel) (u v : Vec) (a : Subplot) : Prop where
  x : a.x.title = .Q1 u
  y : a.y.title = if k = .QxQy then .Q2 v else .energy

/-- The panel after some positions. -/
structure Sofar (k : Panel) (u v : Vec) (vs : List View) (a : Subplot) : Prop where
  fills : a.fills = vs.map fun x => (curvesOf x k).1.points
  lines : a.lines = vs.map fun x => (curvesOf x k).2.points
  bx : Bounds Prod.fst a.fills a.x
  by' : Bounds Prod.snd a.fills a.y
  lab : Labelled k u v a

theorem plotSlice_ok (k : Panel) {vs : List View} {x : View} {i : ℕ} (h : vs[i]? = some x) (u v : Vec)
    (hne : (curvesOf x k).1.points ≠ []) : ∃ d, plotSlice k vs u v i = .ok d ∧ d.fill = (curvesOf x k).1.points ∧
      d.line = (curvesOf x k).2.points ∧ Bounds Prod.fst [d.fill] d.x ∧ Bounds Prod.snd [d.fill] d.y ∧
      d.x.title = .Q1 u ∧ d.y.title = if k = .QxQy then .Q2 v else .energy := by
  obtain ⟨a, e1, b1, t1, -⟩ := axisOf_ok (.Q1 u) Prod.fst hne
  obtain ⟨b, e2, b2, t2, -⟩ := axisOf_ok (if k = Panel.QxQy then .Q2 v else .energy) Prod.snd hne
  refine ⟨⟨_, _, a, b⟩, ?_, rfl, rfl, b1, b2, t1, t2⟩
  unfold plotSlice
  rw [h]
  dsimp only
  rw [e1, ok_bind, e2, ok_bind]
  rfl

theorem panelLoop_ok (k : Panel) (u v : Vec) {vs : List View} (hne : ∀ x ∈ vs, (curvesOf x k).1.points ≠ []) :
    ∀ (todo done : ℕ) (a : Subplot), done + todo = vs.length → Sofar k u v (vs.take done) a →
      ∃ b, panelLoop k vs u v todo done (some a) = .ok (some b) ∧ Sofar k u v vs b
  | 0, done, a, h, s => ⟨a, rfl, by rw [show done = vs.length by omega, List.take_length] at s; exact s⟩
  | n + 1, done, a, h, s => by
    have hlt : done < vs.length := by omega
    have hx : vs[done]? = some vs[done] := List.getElem?_eq_getElem hlt
    obtain ⟨d, e, f1, f2, b1, b2, t1, t2⟩ := plotSlice_ok k hx u v (hne _ (List.getElem_mem hlt))
    have ht : vs.take (done + 1) = vs.take done ++ [vs[done]] := by rw [List.take_add_one, hx]; rfl
    obtain ⟨b, e', s'⟩ := panelLoop_ok k u v hne n (done + 1)
      ⟨a.fills ++ [d.fill], a.lines ++ [d.line], widen a.x d.x, widen a.y d.y⟩ (by omega)
      ⟨by rw [ht, List.map_append, ← s.fills, f1]; rfl, by rw [ht, List.map_append, ← s.lines, f2]; rfl,
        s.bx.widen b1, s.by'.widen b2, ⟨t1, t2⟩⟩
    refine ⟨b, ?_, s'⟩
    rw [panelLoop, e]
    exact e'

/-- A whole panel. -/
theorem drawPanel_ok (p : Plotter) {vs : List View} (k : Panel) (hr : (p.inst.result.getD []).length = vs.length) (h0 : vs ≠ [])
    (hne : ∀ x ∈ vs, (curvesOf x k).1.points ≠ []) :
    ∃ a, drawPanel p vs k = .ok (some a) ∧ Sofar k p.inst.setup.u p.inst.setup.v vs a := by
  cases vs with
  | nil => exact absurd rfl h0
  | cons x xs =>
    unfold drawPanel
    rw [hr, List.length_cons, panelLoop]
    obtain ⟨d, e, f1, f2, b1, b2, t1, t2⟩ := plotSlice_ok k (vs := x :: xs) (i := 0) rfl p.inst.setup.u p.inst.setup.v
      (hne x (by simp))
    rw [e]
    exact panelLoop_ok k _ _ hne xs.length 1 _ (by simp [Nat.add_comm]) ⟨by simp [f1], by simp [f2], b1, b2, ⟨t1, t2⟩⟩

theorem Sofar.contains {k : Panel} {u v : Vec} {vs : List View} {a : Subplot} (s : Sofar k u v vs a) :
    Contains (vs.map fun x => (curvesOf x k).1.points) (vs.map fun x => (curvesOf x k).2.points) a := by
  have h1 := s.bx
  have h2 := s.by'
  rw [s.fills] at h1 h2
  exact ⟨s.fills, s.lines, fun c hc p hp => ⟨h1.inside c hc p hp, h2.inside c hc p hp⟩, h1.low, h1.high, h2.low, h2.high⟩

/-- The three panels. -/
theorem drawAll_ok (p : Plotter) {vs : List View} (hr : (p.inst.result.getD []).length = vs.length) (h0 : vs ≠ [])
    (hne : ∀ x ∈ vs, ∀ k, (curvesOf x k).1.points ≠ []) :
    ∃ fig, drawAll p vs = .ok fig ∧ Draws vs fig ∧ ∀ k a, fig k = some a → Labelled k p.inst.setup.u p.inst.setup.v a := by
  obtain ⟨a, e1, s1⟩ := drawPanel_ok p .QxQy hr h0 (fun x h => hne x h _)
  obtain ⟨b, e2, s2⟩ := drawPanel_ok p .QxW hr h0 (fun x h => hne x h _)
  obtain ⟨c, e3, s3⟩ := drawPanel_ok p .QyW hr h0 (fun x h => hne x h _)
  refine ⟨_, by unfold drawAll; rw [e1, ok_bind, e2, ok_bind, e3, ok_bind]; rfl,
    ⟨⟨a, rfl, s1.contains⟩, ⟨b, rfl, s2.contains⟩, ⟨c, rfl, s3.contains⟩⟩, ?_⟩
  intro k x hx
  cases k
  · cases hx; exact s1.lab
  · cases hx; exact s2.lab
  · cases hx; exact s3.lab

/-! ## Objects -/

/-- An object on which `plot_projections` with the points `q` would use the stored curves `vs`. -/
structure Holds (s : Setup) (q : Query) (rs : List Res) (vs : List View) (p : Plotter) : Prop where
  setup : p.inst.setup = s
  keys : p.inst.keys = some (q.H, q.K, q.L, q.W)
  result : p.inst.result = some rs
  stored : p.stored = some vs

/-- The curves of `calc_projections` on a new object, and what they are (C131). -/
theorem curves_new {s : Setup} {E F : Mat} (h : s.Valid E F) {q : Query} {n : ℕ} (hq : Good s F n q) (hS : s.settings.Valid n)
    {npts : ℕ} (hn : 2 ≤ npts) : ∃ rs vs, compute (new s) q = (⟨s, some (q.H, q.K, q.L, q.W), some rs⟩, .ok rs) ∧
      views s.u s.v npts rs q.points = .ok vs ∧
      (Resolution.calcProjections (new s) (.list q.H) (.list q.K) (.list q.L) (.list q.W) npts).2 = .ok vs ∧ rs.length = n ∧ vs.length = n ∧
      ∀ (k : ℕ) (r : Res) (p : Vec × ℝ) (x : View), rs[k]? = some r → q.points[k]? = some p → vs[k]? = some x →
        Shows r.rms (coordinate p.1 s.u) (coordinate p.1 s.v) p.2 npts x := by
  obtain ⟨rs, vs, e1, e2, l1, l2, -, sh⟩ := C131_curves_partial h hq.len hS hq.reach hn
  obtain ⟨rs', e, -⟩ := compute_plane h hq.len hS hq.reach
  rw [fresh_eq s hq.len, e] at e1
  cases e1
  have eg : Resolution.getResolution (new s) (.list q.H) (.list q.K) (.list q.L) (.list q.W) = compute (new s) q := recompute_eq _ hq.len
  refine ⟨rs, vs, e, ?_, e2, l1, l2, sh⟩
  unfold Resolution.calcProjections at e2
  rw [eg, e] at e2
  exact e2

theorem shows_ne {A : M4} {qx qy w : ℝ} {npts : ℕ} (hn : 2 ≤ npts) {x : View} (h : Shows A qx qy w npts x) (k : Panel) :
    (curvesOf x k).1.points ≠ [] := by
  have t {f : ℝ → ℝ → ℝ} {c : ℝ × ℝ} {cv : Curve} (o : Outline f c npts cv) : cv.points ≠ [] := by
    intro e
    have := o.count
    rw [e] at this
    simp at this
    omega
  cases k
  · exact t h.qxqy
  · exact t h.qxw
  · exact t h.qyw

theorem compute_any {s : Setup} (hs : s.settings.sample.shape = none) {i : Inst} (hi : i.setup = s) {q : Query} {rs : List Res}
    (h : compute (new s) q = (⟨s, some (q.H, q.K, q.L, q.W), some rs⟩, .ok rs)) :
    compute i q = (⟨s, some (q.H, q.K, q.L, q.W), some rs⟩, .ok rs) := by
  have e : (compute i q).2 = .ok rs := by rw [compute_answer, hi, h]
  obtain ⟨k1, k2⟩ := compute_ok e
  have k3 := compute_setup i q (by rw [hi]; exact hs)
  generalize compute i q = x at e k1 k2 k3 ⊢
  obtain ⟨⟨a, b, c⟩, d⟩ := x
  dsimp only at k1 k2 k3 e
  rw [k1, k2, k3, e, hi]

/-- The stored results, if any, are those of the present settings at the stored points; or the points are others than
those asked for. -/
def Usable (s : Setup) (n : ℕ) (q : Query) (i : Inst) : Prop :=
  (i.keys = none ∨ i.result = none) ∨ ∃ k : Query, k.Len n ∧ i.keys = some (k.H, k.K, k.L, k.W) ∧
    (k = q → ∀ rs, i.result = some rs → compute (new s) q = (⟨s, some (q.H, q.K, q.L, q.W), some rs⟩, .ok rs))

theorem ask_usable {s : Setup} (hs : s.settings.sample.shape = none) {i : Inst} (hi : i.setup = s) {q : Query} {n : ℕ}
    (hq : q.Len n) (hu : Usable s n q i) {rs : List Res}
    (h : compute (new s) q = (⟨s, some (q.H, q.K, q.L, q.W), some rs⟩, .ok rs)) :
    Resolution.getResolution i (.list q.H) (.list q.K) (.list q.L) (.list q.W) = (⟨s, some (q.H, q.K, q.L, q.W), some rs⟩, .ok rs) := by
  change ask i q = _
  rcases hu with hu | ⟨k, hk, e, hc⟩
  · rw [ask_new hq hu, compute_any hs hi h]
  · cases hr : i.result with
    | none => rw [ask_new hq (Or.inr hr), compute_any hs hi h]
    | some r =>
      rw [ask_cached hq hk e hr]
      split_ifs with hkq
      · subst hkq
        have := hc rfl r hr
        rw [h] at this
        cases this
        cases i
        simp only at hi e hr
        rw [hi, e, hr]
      · exact compute_any hs hi h

theorem calc_usable {s : Setup} (hs : s.settings.sample.shape = none) {p : Plotter} (hi : p.inst.setup = s) {q : Query} {n : ℕ}
    (hq : q.Len n) (hu : Usable s n q p.inst) {rs : List Res} {vs : List View} {npts : ℕ}
    (h : compute (new s) q = (⟨s, some (q.H, q.K, q.L, q.W), some rs⟩, .ok rs)) (hv : views s.u s.v npts rs q.points = .ok vs) :
    p.calcProjections (.list q.H) (.list q.K) (.list q.L) (.list q.W) npts =
      (⟨⟨s, some (q.H, q.K, q.L, q.W), some rs⟩, some vs⟩, none) := by
  unfold Plotter.calcProjections Resolution.calcProjections
  rw [ask_usable hs hi hq hu h]
  dsimp only [Option.getD_some]
  rw [show keyPoints (q.H, q.K, q.L, q.W) = q.points from rfl, hv]

/-- The object after the curves for `q` have been calculated. -/
def after (s : Setup) (q : Query) (rs : List Res) (vs : List View) : Plotter := ⟨⟨s, some (q.H, q.K, q.L, q.W), some rs⟩, some vs⟩

theorem drawn {s : Setup} {q : Query} {n : ℕ} (h0 : 0 < n) {rs : List Res} {vs : List View} {npts : ℕ} (hn : 2 ≤ npts)
    (l1 : rs.length = n) (l2 : vs.length = n) (lp : q.points.length = n)
    (sh : ∀ (k : ℕ) (r : Res) (p : Vec × ℝ) (x : View), rs[k]? = some r → q.points[k]? = some p → vs[k]? = some x →
        Shows r.rms (coordinate p.1 s.u) (coordinate p.1 s.v) p.2 npts x) {i : Inst} {rs' : List Res} (hr : i.result = some rs')
    (hl : rs'.length = n) (o : Option (List View)) :
    ∃ fig, drawAll ⟨i, o⟩ vs = .ok fig ∧ Draws vs fig ∧ ∀ k a, fig k = some a → Labelled k i.setup.u i.setup.v a := by
  refine drawAll_ok ⟨i, o⟩ (by rw [hr, Option.getD_some, hl, l2]) (by intro e; rw [e] at l2; simp at l2; omega) ?_
  intro x hx k
  obtain ⟨j, hj, rfl⟩ := List.mem_iff_getElem.1 hx
  refine shows_ne hn (sh j rs[j] q.points[j] vs[j] ?_ ?_ ?_) k <;> exact List.getElem?_eq_getElem (by omega)

/-! ## Theorems -/

/-- The figure for the points `q` with `npts` points to a curve, as it has to be for these settings. -/
def Right (s : Setup) (npts : ℕ) (q : Query) (a : Except FigErr (Panel → Option Subplot)) : Prop :=
  ∃ vs fig, (Resolution.calcProjections (new s) (.list q.H) (.list q.K) (.list q.L) (.list q.W) npts).2 = .ok vs ∧ a = .ok fig ∧
    Draws vs fig

/-- C164 (partial).  Whatever has been calculated before and is stored in the object, `plot_projections` draws the curves
of `calc_projections` for the present settings at the points asked for, between limits that contain them, if the points of the
last calculation are not the same.  Missing: the same points (`C164_stale_false`, `C164_npts_false`, `C164_settings_false`), and the label of one axis
(`C164_label_false`). -/
theorem C164_other_partial {s : Setup} {E F : Mat} (h : s.Valid E F) {n : ℕ} (h0 : 0 < n) (hS : s.settings.Valid n) {q : Query}
    (hq : Good s F n q) {npts : ℕ} (hn : 2 ≤ npts) {p : Plotter} (hi : p.inst.setup = s) {k : Query} (hk : k.Len n)
    (hp : p.inst.keys = some (k.H, k.K, k.L, k.W)) (hne : k ≠ q) :
    Right s npts q (p.plotProjections (.list q.H) (.list q.K) (.list q.L) (.list q.W) npts).2 := by
  obtain ⟨rs, vs, e1, e2, e3, l1, l2, sh⟩ := curves_new h hq hS hn
  obtain ⟨fig, f1, f2, -⟩ := drawn (s := s) (q := q) h0 hn l1 l2 (Query.points_length hq.len) sh
    (i := ⟨s, some (q.H, q.K, q.L, q.W), some rs⟩) rfl l1 (some vs)
  refine ⟨vs, fig, e3, ?_, f2⟩
  have hr : p.renew (.list q.H) (.list q.K) (.list q.L) (.list q.W) npts = (after s q rs vs, .ok fig) := by
    unfold Plotter.renew
    rw [calc_usable h.noShape hi hq.len (Or.inr ⟨k, hk, hp, fun e => absurd e hne⟩) e1 e2]
    dsimp only [Option.getD_some]
    rw [f1]
    rfl
  unfold Plotter.plotProjections
  rw [hp]
  cases p.stored with
  | none => dsimp only; rw [hr]
  | some vs' =>
    dsimp only
    have : (eqAll (.list q.H) k.H && eqAll (.list q.K) k.K && eqAll (.list q.L) k.L && eqAll (.list q.W) k.W) = false := by
      rw [← Bool.not_eq_true, Bool.and_eq_true, Bool.and_eq_true, Bool.and_eq_true, eqAll_list _ _ (hq.len.H.trans hk.H.symm),
        eqAll_list _ _ (hq.len.K.trans hk.K.symm), eqAll_list _ _ (hq.len.L.trans hk.L.symm), eqAll_list _ _ (hq.len.W.trans hk.W.symm)]
      rintro ⟨⟨⟨a, b⟩, c⟩, d⟩
      apply hne
      cases q; cases k
      simp only at a b c d
      rw [a, b, c, d]
    rw [this]
    simp only [Bool.false_eq_true, if_false]
    rw [hr]

/-- Calls on one object. -/
inductive Op
  | project (q : Query)
  | plot (q : Query)

/-- The points of a call. -/
def Op.query : Op → Query
  | .project q => q
  | .plot q => q

/-- The figures of a sequence of calls. -/
noncomputable def figures (npts : ℕ) : Plotter → List Op → List (Query × Except FigErr (Panel → Option Subplot))
  | _, [] => []
  | p, .project q :: ops => figures npts (p.calcProjections (.list q.H) (.list q.K) (.list q.L) (.list q.W) npts).1 ops
  | p, .plot q :: ops =>
    let r := p.plotProjections (.list q.H) (.list q.K) (.list q.L) (.list q.W) npts
    (q, r.2) :: figures npts r.1 ops

/-- What holds between the calls. -/
def Inv (s : Setup) (F : Mat) (n npts : ℕ) (p : Plotter) : Prop :=
  p = Plotter.new s ∨ ∃ q rs vs, Good s F n q ∧ compute (new s) q = (⟨s, some (q.H, q.K, q.L, q.W), some rs⟩, .ok rs) ∧
    views s.u s.v npts rs q.points = .ok vs ∧ p = after s q rs vs

theorem Inv.usable {s : Setup} {F : Mat} {n npts : ℕ} {p : Plotter} (h : Inv s F n npts p) (q : Query) :
    p.inst.setup = s ∧ Usable s n q p.inst := by
  rcases h with rfl | ⟨k, rs, vs, g, e, -, rfl⟩
  · exact ⟨rfl, Or.inl (Or.inl rfl)⟩
  · refine ⟨rfl, Or.inr ⟨k, g.len, rfl, ?_⟩⟩
    rintro rfl rs' hr
    cases hr
    exact e

/-- C164 (partial).  On a new object, in any sequence of calls of `calc_projections` and `plot_projections` with one number of
points to a curve, every figure shows the curves for the points asked for. -/
theorem C164_session_partial {s : Setup} {E F : Mat} (h : s.Valid E F) {n : ℕ} (h0 : 0 < n) (hS : s.settings.Valid n) {npts : ℕ}
    (hn : 2 ≤ npts) (ops : List Op) (ho : ∀ o ∈ ops, Good s F n o.query) :
    ∀ x ∈ figures npts (Plotter.new s) ops, Right s npts x.1 x.2 := by
  suffices H : ∀ (ops : List Op) (p : Plotter), (∀ o ∈ ops, Good s F n o.query) → Inv s F n npts p →
      ∀ x ∈ figures npts p ops, Right s npts x.1 x.2 from H ops _ ho (Or.inl rfl)
  clear ho ops
  intro ops
  induction ops with
  | nil => intro p _ _ x hx; simp [figures] at hx
  | cons o ops ih =>
    intro p ho hp
    have hq := ho o (by simp)
    obtain ⟨rs, vs, e1, e2, e3, l1, l2, sh⟩ := curves_new h hq hS hn
    obtain ⟨i1, i2⟩ := hp.usable o.query
    have hc := calc_usable h.noShape i1 hq.len i2 e1 e2
    have next : Inv s F n npts (after s o.query rs vs) := Or.inr ⟨_, rs, vs, hq, e1, e2, rfl⟩
    cases o with
    | project q =>
      intro x hx
      simp only [figures] at hx
      rw [show p.calcProjections (.list q.H) (.list q.K) (.list q.L) (.list q.W) npts = (after s q rs vs, none) from hc] at hx
      exact ih _ (fun o h' => ho o (by simp [h'])) next x hx
    | plot q =>
      obtain ⟨fig, f1, f2, -⟩ := drawn (s := s) (q := q) h0 hn l1 l2 (Query.points_length hq.len) sh
        (i := ⟨s, some (q.H, q.K, q.L, q.W), some rs⟩) rfl l1 (some vs)
      have key : p.plotProjections (.list q.H) (.list q.K) (.list q.L) (.list q.W) npts = (after s q rs vs, .ok fig) := by
        have hr : p.renew (.list q.H) (.list q.K) (.list q.L) (.list q.W) npts = (after s q rs vs, .ok fig) := by
          unfold Plotter.renew
          rw [show p.calcProjections (.list q.H) (.list q.K) (.list q.L) (.list q.W) npts = (after s q rs vs, none) from hc]
          exact Prod.ext rfl f1
        unfold Plotter.plotProjections
        rcases hp with rfl | ⟨k, rs', vs', g, c1, c2, rfl⟩
        · exact hr
        · dsimp only [after]
          split_ifs with hb
          · have hq' : Good s F n q := hq
            have : q = k := by
              rw [Bool.and_eq_true, Bool.and_eq_true, Bool.and_eq_true, eqAll_list _ _ (hq'.len.H.trans g.len.H.symm),
                eqAll_list _ _ (hq'.len.K.trans g.len.K.symm), eqAll_list _ _ (hq'.len.L.trans g.len.L.symm),
                eqAll_list _ _ (hq'.len.W.trans g.len.W.symm)] at hb
              obtain ⟨⟨⟨a, b⟩, c⟩, d⟩ := hb
              cases q; cases k
              simp only at a b c d
              rw [a, b, c, d]
            subst this
            rw [show compute (new s) q = _ from e1] at c1
            cases c1
            rw [show views s.u s.v npts rs q.points = _ from e2] at c2
            cases c2
            exact Prod.ext rfl f1
          · exact hr
      intro x hx
      simp only [figures] at hx
      rw [key] at hx
      rcases List.mem_cons.1 hx with rfl | hx
      · exact ⟨vs, fig, e3, rfl, f2⟩
      · exact ih _ (fun o h' => ho o (by simp [h'])) next x hx

/-! ## Centres -/

/-- The closed curve is an ellipse around `c`. -/
def Around (c : ℝ × ℝ) (curve : List (ℝ × ℝ)) : Prop := ∃ a b t, curve = ellipse a b t c curve.length

theorem ellipse_length (a b t : ℝ) (o : ℝ × ℝ) (n : ℕ) : (ellipse a b t o n).length = n := by
  simp [ellipse, linspaceCircle]

theorem ellipse_get {a b t : ℝ} {o : ℝ × ℝ} {n : ℕ} (hn : 3 ≤ n) {i : ℕ} (hi : i < n) :
    (ellipse a b t o n)[i]? = some (ellipsePoint a b t o (i * (2 * π / (n - 1)))) := by
  unfold ellipse linspaceCircle
  rw [List.getElem?_map, List.getElem?_map, List.getElem?_range hi]
  simp only [Option.map_some, if_neg (show n ≠ 1 by omega)]
  congr 2
  ring

/-- Three points of an ellipse determine the centre. -/
theorem ellipse_centre {a b t a' b' t' : ℝ} {o o' : ℝ × ℝ} {n : ℕ} (hn : 3 ≤ n)
    (h : ellipse a b t o n = ellipse a' b' t' o' n) : o = o' := by
  have e (i : ℕ) (hi : i < n) : ellipsePoint a b t o (i * (2 * π / (n - 1))) = ellipsePoint a' b' t' o' (i * (2 * π / (n - 1))) := by
    have := congrArg (·[i]?) h
    simp only [ellipse_get hn hi, Option.some.injEq] at this
    exact this
  have e0 := e 0 (by omega)
  have e1 := e 1 (by omega)
  have e2 := e 2 (by omega)
  have h3 : (3 : ℝ) ≤ n := by exact_mod_cast hn
  obtain ⟨θ, hθ⟩ : ∃ θ, θ = 2 * π / ((n : ℝ) - 1) := ⟨_, rfl⟩
  have hc : cos θ ≠ 1 := by
    intro hc
    have h1 : 0 < θ := by rw [hθ]; apply div_pos <;> linarith [pi_pos]
    have h2 : θ ≤ π := by
      rw [hθ, div_le_iff₀ (by linarith)]
      nlinarith [pi_pos]
    have := cos_lt_cos_of_nonneg_of_le_pi le_rfl h2 h1
    rw [hc, cos_zero] at this
    exact lt_irrefl _ this
  rw [← hθ] at e0 e1 e2
  simp only [Nat.cast_zero, zero_mul, Nat.cast_one, one_mul, Nat.cast_ofNat, ellipsePoint, Prod.mk.injEq, cos_zero, sin_zero,
    cos_two_mul, sin_two_mul] at e0 e1 e2
  have hne : 2 - 2 * cos θ ≠ 0 := fun h => hc (by linarith)
  apply Prod.ext
  · apply mul_left_cancel₀ hne
    linear_combination e2.1 - 2 * cos θ * e1.1 + e0.1
  · apply mul_left_cancel₀ hne
    linear_combination e2.2 - 2 * cos θ * e1.2 + e0.2

theorem around_unique {c c' : ℝ × ℝ} {curve : List (ℝ × ℝ)} (hl : 3 ≤ curve.length) (h : Around c curve) (h' : Around c' curve) :
    c = c' := by
  obtain ⟨a, b, t, e⟩ := h
  obtain ⟨a', b', t', e'⟩ := h'
  exact ellipse_centre hl (e.symm.trans e')

theorem curveOf_around {M : Matrix (Fin 2) (Fin 2) ℝ} {o : ℝ × ℝ} {n : ℕ} {c : Curve} (h : curveOf M o n = .ok c) :
    Around o c.points ∧ c.points.length = n := by
  unfold curveOf at h
  cases hm : Verif.Tools.projectionHwhm M with
  | error e => rw [hm] at h; exact nomatch h
  | ok x =>
    obtain ⟨a, b, t⟩ := x
    rw [hm, ok_bind] at h
    cases h
    exact ⟨⟨a, b, t, by rw [ellipse_length]⟩, ellipse_length _ _ _ _ _⟩

/-- The centres of the closed curves at one point. -/
structure Centres (u v : Vec) (p : Vec × ℝ) (n : ℕ) (x : View) : Prop where
  qxqy : Around (coordinate p.1 u, coordinate p.1 v) x.qxqy.points ∧ x.qxqy.points.length = n
  qxw : Around (coordinate p.1 u, p.2) x.qxw.points ∧ x.qxw.points.length = n
  qyw : Around (coordinate p.1 v, p.2) x.qyw.points ∧ x.qyw.points.length = n

theorem bind_inv {ε α β : Type} {m : Except ε α} {f : α → Except ε β} {b : β} (h : (m >>= f) = .ok b) : ∃ a, m = .ok a ∧ f a = .ok b := by
  cases m with
  | error e => exact nomatch h
  | ok a => exact ⟨a, rfl, h⟩

theorem viewAt_centres {u v : Vec} {r : Res} {p : Vec × ℝ} {n : ℕ} {x : View} (h : viewAt u v r p.1 p.2 n = .ok x) :
    Centres u v p n x := by
  unfold viewAt at h
  obtain ⟨a1, -, h⟩ := bind_inv h
  obtain ⟨c1, e1, h⟩ := bind_inv h
  obtain ⟨c2, -, h⟩ := bind_inv h
  obtain ⟨a2, -, h⟩ := bind_inv h
  obtain ⟨c3, e3, h⟩ := bind_inv h
  obtain ⟨c4, -, h⟩ := bind_inv h
  obtain ⟨a3, -, h⟩ := bind_inv h
  obtain ⟨c5, e5, h⟩ := bind_inv h
  obtain ⟨c6, -, h⟩ := bind_inv h
  cases h
  exact ⟨curveOf_around e1, curveOf_around e3, curveOf_around e5⟩

theorem views_centres {u v : Vec} {n : ℕ} : ∀ {rs : List Res} {ps : List (Vec × ℝ)} {vs : List View}, views u v n rs ps = .ok vs →
    ∀ {k : ℕ} {x : View}, vs[k]? = some x → ∃ p, ps[k]? = some p ∧ Centres u v p n x
  | [], _, vs, h, k, x, hx => by
    rw [views] at h
    cases h
    simp at hx
  | _ :: _, [], vs, h, _, _, _ => by rw [views] at h; exact nomatch h
  | r :: rs, p :: ps, vs, h, k, x, hx => by
    rw [views] at h
    cases hv : viewAt u v r p.1 p.2 n with
    | error e => rw [hv] at h; exact nomatch h
    | ok y =>
      rw [hv] at h
      dsimp only at h
      cases hw : views u v n rs ps with
      | error e => rw [hw] at h; exact nomatch h
      | ok ys =>
        rw [hw] at h
        cases h
        cases k with
        | zero =>
          simp only [List.getElem?_cons_zero, Option.some.injEq] at hx
          rw [← hx]
          exact ⟨p, rfl, viewAt_centres hv⟩
        | succ k =>
          simp only [List.getElem?_cons_succ] at hx ⊢
          exact views_centres hw hx

theorem compute_uv (i : Inst) (q : Query) : (compute i q).1.setup.u = i.setup.u ∧ (compute i q).1.setup.v = i.setup.v := by
  unfold compute
  cases (hkls q.H q.K q.L).mapM (frame i.setup) with
  | error e => exact ⟨rfl, rfl⟩
  | ok fr =>
    dsimp only
    cases turnSample i.setup.settings.sample.shape fr with
    | error e => exact ⟨rfl, rfl⟩
    | ok sh =>
      dsimp only
      cases calcInQ { i.setup.settings with sample.shape := sh } ((fr.map Prod.fst).zip q.W) with
      | error e => exact ⟨rfl, rfl⟩
      | ok rs => exact ⟨rfl, rfl⟩

/-- The curves of `calc_projections` on a new object, for any settings. -/
theorem centres_new {s : Setup} {q : Query} {n : ℕ} (hq : q.Len n) {npts : ℕ} {vs : List View}
    (h : (Resolution.calcProjections (new s) (.list q.H) (.list q.K) (.list q.L) (.list q.W) npts).2 = .ok vs) {k : ℕ} {x : View}
    (hx : vs[k]? = some x) : ∃ p, q.points[k]? = some p ∧ Centres s.u s.v p npts x := by
  have eg : Resolution.getResolution (new s) (.list q.H) (.list q.K) (.list q.L) (.list q.W) = compute (new s) q := recompute_eq _ hq
  unfold Resolution.calcProjections at h
  rw [eg] at h
  obtain ⟨u1, u2⟩ := compute_uv (new s) q
  cases hc : (compute (new s) q).2 with
  | error e =>
    obtain ⟨i, r, hir⟩ : ∃ i r, compute (new s) q = (i, r) := ⟨_, _, rfl⟩
    rw [hir] at h hc
    dsimp only at hc
    rw [hc] at h
    exact nomatch h
  | ok rs =>
    obtain ⟨k1, -⟩ := compute_ok hc
    obtain ⟨i, r, hir⟩ : ∃ i r, compute (new s) q = (i, r) := ⟨_, _, rfl⟩
    rw [hir] at h hc k1 u1 u2
    dsimp only at hc k1 u1 u2
    rw [hc] at h
    dsimp only at h
    rw [k1, u1, u2] at h
    exact views_centres h hx

/-- Two sets of curves that fill a panel in the same way. -/
theorem same_centres {s s' : Setup} {q q' : Query} {n npts : ℕ} (hq : q.Len n) (hq' : q'.Len n) (hn : 3 ≤ npts) {vs vs' : List View}
    (h : (Resolution.calcProjections (new s) (.list q.H) (.list q.K) (.list q.L) (.list q.W) npts).2 = .ok vs)
    (h' : (Resolution.calcProjections (new s') (.list q'.H) (.list q'.K) (.list q'.L) (.list q'.W) npts).2 = .ok vs')
    (e : vs.map (·.qxw.points) = vs'.map (·.qxw.points)) {k : ℕ} {p p' : Vec × ℝ} (hk : k < vs.length) (hp : q.points[k]? = some p)
    (hp' : q'.points[k]? = some p') : coordinate p.1 s.u = coordinate p'.1 s'.u ∧ p.2 = p'.2 := by
  have hl : vs.length = vs'.length := by simpa using congrArg List.length e
  have e' := congrArg (·[k]?) e
  simp only [List.getElem?_map, List.getElem?_eq_getElem hk, List.getElem?_eq_getElem (hl ▸ hk), Option.map_some, Option.some.injEq] at e'
  obtain ⟨p1, g1, c1⟩ := centres_new hq h (List.getElem?_eq_getElem hk)
  obtain ⟨p2, g2, c2⟩ := centres_new hq' h' (List.getElem?_eq_getElem (hl ▸ hk))
  cases g1.symm.trans hp
  cases g2.symm.trans hp'
  have := around_unique (by rw [c1.qxw.2]; exact hn) c1.qxw.1 (e' ▸ c2.qxw.1)
  exact Prod.mk.inj this

/-- What is known after the first figure. -/
theorem first {s : Setup} {E F : Mat} (h : s.Valid E F) {n : ℕ} (h0 : 0 < n) (hS : s.settings.Valid n) {q : Query}
    (hq : Good s F n q) {npts : ℕ} (hn : 2 ≤ npts) : ∃ rs vs fig, compute (new s) q = (⟨s, some (q.H, q.K, q.L, q.W), some rs⟩, .ok rs) ∧
      (Plotter.new s).plotProjections (.list q.H) (.list q.K) (.list q.L) (.list q.W) npts = (after s q rs vs, .ok fig) ∧
      (Resolution.calcProjections (new s) (.list q.H) (.list q.K) (.list q.L) (.list q.W) npts).2 = .ok vs ∧ rs.length = n ∧ vs.length = n ∧
      Draws vs fig ∧ (∀ k a, fig k = some a → Labelled k s.u s.v a) ∧
      ∀ (i : Inst) (rs' : List Res), i.result = some rs' → rs'.length = n → ∃ fig', drawAll ⟨i, some vs⟩ vs = .ok fig' ∧ Draws vs fig' := by
  obtain ⟨rs, vs, e1, e2, e3, l1, l2, sh⟩ := curves_new h hq hS hn
  obtain ⟨fig, f1, f2, f3⟩ := drawn (s := s) (q := q) h0 hn l1 l2 (Query.points_length hq.len) sh
    (i := ⟨s, some (q.H, q.K, q.L, q.W), some rs⟩) rfl l1 (some vs)
  refine ⟨rs, vs, fig, e1, ?_, e3, l1, l2, f2, f3, fun i rs' hr hl => ?_⟩
  · change (Plotter.new s).renew _ _ _ _ _ = _
    unfold Plotter.renew
    rw [calc_usable h.noShape (p := Plotter.new s) rfl hq.len (Or.inl (Or.inl rfl)) e1 e2]
    exact Prod.ext rfl f1
  · obtain ⟨fig', g1, g2, -⟩ := drawn (s := s) (q := q) h0 hn l1 l2 (Query.points_length hq.len) sh (i := i) hr hl (some vs)
    exact ⟨fig', g1, g2⟩

theorem plot_stored {i : Inst} {vs : List View} {q : Query} (hk : i.keys = some (q.H, q.K, q.L, q.W)) (npts : ℕ) :
    (Plotter.mk i (some vs)).plotProjections (.list q.H) (.list q.K) (.list q.L) (.list q.W) npts =
      (⟨i, some vs⟩, drawAll ⟨i, some vs⟩ vs) := by
  unfold Plotter.plotProjections
  dsimp only
  rw [hk]
  dsimp only
  rw [(eqAll_list _ _ rfl).2 rfl, (eqAll_list _ _ rfl).2 rfl, (eqAll_list _ _ rfl).2 rfl, (eqAll_list _ _ rfl).2 rfl]
  rfl

/-- C164 fails.  A figure for some points, then `get_resolution` for other points, then the figure for these points: it
shows the curves of the first points.  (For every instrument and all lists of points, if an energy differs.) -/
theorem C164_stale_false {s : Setup} {E F : Mat} (h : s.Valid E F) {n : ℕ} (hS : s.settings.Valid n) {q q' : Query}
    (hq : Good s F n q) (hq' : Good s F n q') {npts : ℕ} (hn : 3 ≤ npts) {k : ℕ} {p p' : Vec × ℝ} (hp : q.points[k]? = some p)
    (hp' : q'.points[k]? = some p') (hw : p.2 ≠ p'.2) :
    let p1 := ((Plotter.new s).plotProjections (.list q.H) (.list q.K) (.list q.L) (.list q.W) npts).1
    let p2 := (p1.getResolution (.list q'.H) (.list q'.K) (.list q'.L) (.list q'.W)).1
    let a := (p2.plotProjections (.list q'.H) (.list q'.K) (.list q'.L) (.list q'.W) npts).2
    Right s npts q a ∧ ¬ Right s npts q' a := by
  have hkn : k < n := by
    rw [← Query.points_length hq.len]
    exact (List.getElem?_eq_some_iff.1 hp).1
  obtain ⟨rs, vs, fig, c, e1, e2, l1, l2, -, -, g⟩ := first h (by omega) hS hq (show 2 ≤ npts by omega)
  obtain ⟨rs', c', l', -⟩ := compute_plane h hq'.len hS hq'.reach
  have hne : q' ≠ q := by
    rintro rfl
    cases hp.symm.trans hp'
    exact hw rfl
  have e3 : Resolution.getResolution (after s q rs vs).inst (.list q'.H) (.list q'.K) (.list q'.L) (.list q'.W) =
      (⟨s, some (q'.H, q'.K, q'.L, q'.W), some rs'⟩, .ok rs') :=
    ask_usable h.noShape rfl hq'.len (Or.inr ⟨q, hq.len, rfl, fun e => absurd e.symm hne⟩) c'
  obtain ⟨fig', g1, g2⟩ := g ⟨s, some (q'.H, q'.K, q'.L, q'.W), some rs'⟩ rs' rfl l'
  rw [e1]
  simp only [Plotter.getResolution]
  rw [e3]
  dsimp only [after]
  rw [plot_stored rfl, g1]
  refine ⟨⟨vs, fig', e2, rfl, g2⟩, ?_⟩
  rintro ⟨vs', fig'', b1, b2, b3⟩
  cases b2
  obtain ⟨x, x1, x2⟩ := g2.qxw
  obtain ⟨y, y1, y2⟩ := b3.qxw
  cases x1.symm.trans y1
  exact hw (same_centres hq.len hq'.len hn e2 b1 (x2.fills.symm.trans y2.fills) (by omega) hp hp').2

/-- C164 fails.  The same points again, with another number of points to a curve: the first number is used. -/
theorem C164_npts_false {s : Setup} {E F : Mat} (h : s.Valid E F) {n : ℕ} (h0 : 0 < n) (hS : s.settings.Valid n) {q : Query}
    (hq : Good s F n q) {npts npts' : ℕ} (hn : 2 ≤ npts) (hne : npts ≠ npts') :
    let p1 := ((Plotter.new s).plotProjections (.list q.H) (.list q.K) (.list q.L) (.list q.W) npts).1
    let a := (p1.plotProjections (.list q.H) (.list q.K) (.list q.L) (.list q.W) npts').2
    Right s npts q a ∧ ¬ Right s npts' q a := by
  obtain ⟨rs, vs, fig, c, e1, e2, l1, l2, -, -, g⟩ := first h h0 hS hq hn
  obtain ⟨fig', g1, g2⟩ := g ⟨s, some (q.H, q.K, q.L, q.W), some rs⟩ rs rfl l1
  rw [e1]
  dsimp only [after]
  rw [plot_stored rfl, g1]
  refine ⟨⟨vs, fig', e2, rfl, g2⟩, ?_⟩
  rintro ⟨vs', fig'', b1, b2, b3⟩
  cases b2
  obtain ⟨x, x1, x2⟩ := g2.qxw
  obtain ⟨y, y1, y2⟩ := b3.qxw
  cases x1.symm.trans y1
  have e := x2.fills.symm.trans y2.fills
  have hl : vs.length = vs'.length := by simpa using congrArg List.length e
  have hv : 0 < vs.length := by omega
  have e' := congrArg (·[0]?) e
  simp only [List.getElem?_map, List.getElem?_eq_getElem hv, List.getElem?_eq_getElem (hl ▸ hv), Option.map_some, Option.some.injEq] at e'
  obtain ⟨p1, -, c1⟩ := centres_new hq.len e2 (List.getElem?_eq_getElem hv)
  obtain ⟨p2, -, c2⟩ := centres_new hq.len b1 (List.getElem?_eq_getElem (hl ▸ hv))
  apply hne
  rw [← c1.qxw.2, ← c2.qxw.2, e']

/-- C164 fails.  The same points again after settings have been changed: the curves for the settings before are drawn,
whatever the new settings are; if the first orientation vector has been changed they are even in the wrong place. -/
theorem C164_settings_false {s : Setup} {E F : Mat} (h : s.Valid E F) {n : ℕ} (hS : s.settings.Valid n) {q : Query}
    (hq : Good s F n q) {npts : ℕ} (hn : 3 ≤ npts) {k : ℕ} {p : Vec × ℝ} (hp : q.points[k]? = some p) (s' : Setup) :
    let p1 := ((Plotter.new s).plotProjections (.list q.H) (.list q.K) (.list q.L) (.list q.W) npts).1
    let a := ((Plotter.mk { p1.inst with setup := s' } p1.stored).plotProjections (.list q.H) (.list q.K) (.list q.L) (.list q.W) npts).2
    Right s npts q a ∧ (coordinate p.1 s.u ≠ coordinate p.1 s'.u → ¬ Right s' npts q a) := by
  have hkn : k < n := by
    rw [← Query.points_length hq.len]
    exact (List.getElem?_eq_some_iff.1 hp).1
  obtain ⟨rs, vs, fig, c, e1, e2, l1, l2, -, -, g⟩ := first h (by omega) hS hq (show 2 ≤ npts by omega)
  obtain ⟨fig', g1, g2⟩ := g ⟨s', some (q.H, q.K, q.L, q.W), some rs⟩ rs rfl l1
  rw [e1]
  dsimp only [after]
  rw [plot_stored rfl, g1]
  refine ⟨⟨vs, fig', e2, rfl, g2⟩, fun hu => ?_⟩
  rintro ⟨vs', fig'', b1, b2, b3⟩
  cases b2
  obtain ⟨x, x1, x2⟩ := g2.qxw
  obtain ⟨y, y1, y2⟩ := b3.qxw
  cases x1.symm.trans y1
  exact hu (same_centres hq.len hq.len hn e2 b1 (x2.fills.symm.trans y2.fills) (by omega) hp hp).1

/-- A calculation that fails leaves the points it was for and the results of the calculation before. -/
theorem compute_failed {i : Inst} {q : Query} {r : List Res} {e : Fail} (h2 : i.result = some r) (h : (compute i q).2 = .error e) :
    (compute i q).1.keys = some (q.H, q.K, q.L, q.W) ∧ (compute i q).1.result = some r := by
  unfold compute at *
  cases g1 : (hkls q.H q.K q.L).mapM (frame i.setup) with
  | error e => exact ⟨rfl, h2⟩
  | ok fr =>
    rw [g1] at h
    dsimp only at *
    cases g2 : turnSample i.setup.settings.sample.shape fr with
    | error e => exact ⟨rfl, h2⟩
    | ok sh =>
      rw [g2] at h
      dsimp only at *
      cases g3 : calcInQ { i.setup.settings with sample.shape := sh } ((fr.map Prod.fst).zip q.W) with
      | error e => exact ⟨rfl, h2⟩
      | ok rs => rw [g3] at h; exact nomatch h

/-- C164 fails.  A figure for some points, then the figure for points that cannot be reached, which raises an exception; asked for again,
the figure for the points that cannot be reached shows the curves of the first points. -/
theorem C164_error_false {s : Setup} {E F : Mat} (h : s.Valid E F) {n : ℕ} (h0 : 0 < n) (hS : s.settings.Valid n) {q b : Query}
    (hq : Good s F n q) (hb : b.Len n) {e : Fail} (he : fresh s b = .error e) (_ : Raised e) {npts : ℕ} (hn : 2 ≤ npts) :
    let p1 := ((Plotter.new s).plotProjections (.list q.H) (.list q.K) (.list q.L) (.list q.W) npts).1
    let bad := p1.plotProjections (.list b.H) (.list b.K) (.list b.L) (.list b.W) npts
    let a := (bad.1.plotProjections (.list b.H) (.list b.K) (.list b.L) (.list b.W) npts).2
    bad.2 = .error (.view (.fail e)) ∧ Right s npts q a ∧ ¬ Right s npts b a := by
  obtain ⟨rs, vs, fig, c, e1, e2, l1, l2, -, -, g⟩ := first h h0 hS hq hn
  have hne : b ≠ q := by
    rintro rfl
    rw [fresh_eq s hb, c] at he
    exact nomatch he
  have hc : (compute (after s q rs vs).inst b).2 = .error e := by
    rw [compute_answer, ← he, fresh_eq s hb]
    rfl
  obtain ⟨k1, k2⟩ := compute_failed (i := (after s q rs vs).inst) rfl hc
  have hask : Resolution.getResolution (after s q rs vs).inst (.list b.H) (.list b.K) (.list b.L) (.list b.W) =
      compute (after s q rs vs).inst b := by
    change ask _ b = _
    rw [ask_cached (i := (after s q rs vs).inst) hb hq.len rfl rfl, if_neg hne]
  have hbad : (after s q rs vs).plotProjections (.list b.H) (.list b.K) (.list b.L) (.list b.W) npts =
      (⟨(compute (after s q rs vs).inst b).1, some vs⟩, .error (.view (.fail e))) := by
    have hr : (after s q rs vs).renew (.list b.H) (.list b.K) (.list b.L) (.list b.W) npts =
        (⟨(compute (after s q rs vs).inst b).1, some vs⟩, .error (.view (.fail e))) := by
      unfold Plotter.renew Plotter.calcProjections Resolution.calcProjections
      rw [hask]
      generalize compute (after s q rs vs).inst b = x at hc
      obtain ⟨x1, x2⟩ := x
      dsimp only at hc
      subst hc
      rfl
    have : (eqAll (.list b.H) q.H && eqAll (.list b.K) q.K && eqAll (.list b.L) q.L && eqAll (.list b.W) q.W) = false := by
      rw [← Bool.not_eq_true, Bool.and_eq_true, Bool.and_eq_true, Bool.and_eq_true, eqAll_list _ _ (hb.H.trans hq.len.H.symm),
        eqAll_list _ _ (hb.K.trans hq.len.K.symm), eqAll_list _ _ (hb.L.trans hq.len.L.symm), eqAll_list _ _ (hb.W.trans hq.len.W.symm)]
      rintro ⟨⟨⟨a, b⟩, c⟩, d⟩
      apply hne
      cases ‹Query›; cases q
      simp only at a b c d
      rw [a, b, c, d]
    rw [← hr]
    change (if (eqAll (.list b.H) q.H && eqAll (.list b.K) q.K && eqAll (.list b.L) q.L && eqAll (.list b.W) q.W) = true then _ else _) = _
    rw [this]
    rfl
  obtain ⟨fig', g1, g2⟩ := g (compute (after s q rs vs).inst b).1 rs k2 l1
  rw [e1]
  dsimp only
  rw [hbad]
  dsimp only
  rw [plot_stored k1, g1]
  refine ⟨rfl, ⟨vs, fig', e2, rfl, g2⟩, ?_⟩
  rintro ⟨vs', -, b1, -⟩
  have : Resolution.getResolution (new s) (.list b.H) (.list b.K) (.list b.L) (.list b.W) = compute (new s) b := recompute_eq _ hb
  unfold Resolution.calcProjections at b1
  rw [this] at b1
  rw [fresh_eq s hb] at he
  generalize compute (new s) b = x at he b1
  obtain ⟨x1, x2⟩ := x
  dsimp only at he
  subst he
  exact nomatch b1

/-- C164 (partial), labels.  In the panels QxQy and QxW both axes are labelled with what they show: the curves are centred at
the coordinates of the points along the vectors named, or at the energy.  In the panel QyW the second axis is right. -/
theorem C164_labels_partial {s : Setup} {E F : Mat} (h : s.Valid E F) {n : ℕ} (h0 : 0 < n) (hS : s.settings.Valid n) {q : Query}
    (hq : Good s F n q) {npts : ℕ} (hn : 2 ≤ npts) :
    ∃ fig a b c, ((Plotter.new s).plotProjections (.list q.H) (.list q.K) (.list q.L) (.list q.W) npts).2 = .ok fig ∧
      fig .QxQy = some a ∧ fig .QxW = some b ∧ fig .QyW = some c ∧
      a.x.title = .Q1 s.u ∧ a.y.title = .Q2 s.v ∧ b.x.title = .Q1 s.u ∧ b.y.title = .energy ∧ c.y.title = .energy ∧
      ∀ (k : ℕ) (p : Vec × ℝ), q.points[k]? = some p → ∃ l1 l2 l3, a.fills[k]? = some l1 ∧ b.fills[k]? = some l2 ∧ c.fills[k]? = some l3 ∧
        Around (coordinate p.1 s.u, coordinate p.1 s.v) l1 ∧ Around (coordinate p.1 s.u, p.2) l2 ∧ ∃ x, Around (x, p.2) l3 := by
  obtain ⟨rs, vs, fig, c, e1, e2, l1, l2, d, lab, -⟩ := first h h0 hS hq hn
  obtain ⟨x, x1, x2⟩ := d.qxqy
  obtain ⟨y, y1, y2⟩ := d.qxw
  obtain ⟨z, z1, z2⟩ := d.qyw
  refine ⟨fig, x, y, z, by rw [e1], x1, y1, z1, (lab _ _ x1).x, (lab _ _ x1).y, (lab _ _ y1).x, (lab _ _ y1).y, (lab _ _ z1).y, ?_⟩
  intro k p hp
  have hk : k < vs.length := by
    rw [l2, ← Query.points_length hq.len]
    exact (List.getElem?_eq_some_iff.1 hp).1
  obtain ⟨p1, g1, c1⟩ := centres_new hq.len e2 (List.getElem?_eq_getElem hk)
  cases g1.symm.trans hp
  refine ⟨_, _, _, ?_, ?_, ?_, c1.qxqy.1, c1.qxw.1, _, c1.qyw.1⟩
  · rw [x2.fills, List.getElem?_map, List.getElem?_eq_getElem hk]; rfl
  · rw [y2.fills, List.getElem?_map, List.getElem?_eq_getElem hk]; rfl
  · rw [z2.fills, List.getElem?_map, List.getElem?_eq_getElem hk]; rfl

/-- C164 fails, labels.  In the panel QyW the first axis is labelled as Q along the first orientation vector, but the curve is
not there: it is drawn around the coordinate along the second one. -/
theorem C164_label_false {s : Setup} {E F : Mat} (h : s.Valid E F) {n : ℕ} (hS : s.settings.Valid n) {q : Query}
    (hq : Good s F n q) {npts : ℕ} (hn : 3 ≤ npts) {k : ℕ} {p : Vec × ℝ} (hp : q.points[k]? = some p)
    (hu : coordinate p.1 s.u ≠ coordinate p.1 s.v) :
    ∃ fig c l, ((Plotter.new s).plotProjections (.list q.H) (.list q.K) (.list q.L) (.list q.W) npts).2 = .ok fig ∧
      fig .QyW = some c ∧ c.x.title = .Q1 s.u ∧ c.fills[k]? = some l ∧ Around (coordinate p.1 s.v, p.2) l ∧
      ¬ ∃ y, Around (coordinate p.1 s.u, y) l := by
  have hkn : k < n := by
    rw [← Query.points_length hq.len]
    exact (List.getElem?_eq_some_iff.1 hp).1
  obtain ⟨rs, vs, fig, c, e1, e2, l1, l2, d, lab, -⟩ := first h (by omega) hS hq (show 2 ≤ npts by omega)
  obtain ⟨z, z1, z2⟩ := d.qyw
  have hk : k < vs.length := by omega
  obtain ⟨p1, g1, c1⟩ := centres_new hq.len e2 (List.getElem?_eq_getElem hk)
  cases g1.symm.trans hp
  refine ⟨fig, z, _, by rw [e1], z1, (lab _ _ z1).x, ?_, c1.qyw.1, ?_⟩
  · rw [z2.fills, List.getElem?_map, List.getElem?_eq_getElem hk]; rfl
  · rintro ⟨y, hy⟩
    exact hu (congrArg Prod.fst (around_unique (by rw [c1.qyw.2]; exact hn) hy c1.qyw.1))

/-! ## A concrete case -/

theorem demo_good {w : ℝ} (h0 : 0 ≤ w) (h1 : w ≤ 1) : Good demoSetup 1 1 (one 1 0 0 w) where
  len := one_len 1 0 0 w
  reach := by
    intro p hp
    simp only [Query.points, keyPoints, one, hkls, List.zip_cons_cons, List.zip_nil_right, List.mem_cons, List.not_mem_nil, or_false] at hp
    subst hp
    refine ⟨fun h => by simpa using congrFun h 0, ⟨1, 0, ?_⟩, ?_⟩
    · funext i
      fin_cases i <;> simp [demoSetup]
    · have e := demo_len 1 0 0
      norm_num at e
      rw [e]
      exact demo_reaches (by norm_num) (by norm_num) h0 h1

/-- Curves at (1, 0, 0), 0 meV, then figures there and at 1 meV, and there again. -/
example : ∀ x ∈ figures 36 (Plotter.new demoSetup) [.project (one 1 0 0 0), .plot (one 1 0 0 0), .plot (one 1 0 0 1), .plot (one 1 0 0 0)],
    Right demoSetup 36 x.1 x.2 := by
  refine C164_session_partial demoSetup_valid (n := 1) one_pos (demo_valid 1) (by norm_num) _ ?_
  intro o ho
  simp only [List.mem_cons, List.not_mem_nil, or_false] at ho
  rcases ho with rfl | rfl | rfl | rfl
  exacts [demo_good le_rfl zero_le_one, demo_good le_rfl zero_le_one, demo_good zero_le_one le_rfl, demo_good le_rfl zero_le_one]

/-- After a figure with 100 points to a curve at 0 meV, the one at 1 meV. -/
example : Right demoSetup 36 (one 1 0 0 1)
    ((((Plotter.new demoSetup).plotProjections (.list [1]) (.list [0]) (.list [0]) (.list [0]) 100).1.plotProjections
      (.list [1]) (.list [0]) (.list [0]) (.list [1]) 36).2) := by
  obtain ⟨rs, vs, fig, -, e1, -⟩ := first demoSetup_valid one_pos (demo_valid 1) (demo_good le_rfl zero_le_one) (npts := 100) (by norm_num)
  rw [show (Plotter.new demoSetup).plotProjections (.list [1]) (.list [0]) (.list [0]) (.list [0]) 100 = _ from e1]
  exact C164_other_partial demoSetup_valid one_pos (demo_valid 1) (demo_good zero_le_one le_rfl) (by norm_num) rfl
    (one_len 1 0 0 0) rfl (by simp [one])

/-- The figure at 1 meV shows the curves at 0 meV. -/
example : ¬ Right demoSetup 36 (one 1 0 0 1)
    (((((Plotter.new demoSetup).plotProjections (.list [1]) (.list [0]) (.list [0]) (.list [0]) 36).1.getResolution
      (.list [1]) (.list [0]) (.list [0]) (.list [1])).1.plotProjections (.list [1]) (.list [0]) (.list [0]) (.list [1]) 36).2) :=
  (C164_stale_false demoSetup_valid (demo_valid 1) (demo_good le_rfl zero_le_one) (demo_good zero_le_one le_rfl) (npts := 36) (by norm_num)
    (k := 0) (p := (![1, 0, 0], 0)) (p' := (![1, 0, 0], 1)) rfl rfl (by simp)).2

/-- The point (9, 0, 0) cannot be reached; asked for a second time, its figure is that of (1, 0, 0). -/
example : Right demoSetup 36 (one 1 0 0 0)
    (((((Plotter.new demoSetup).plotProjections (.list [1]) (.list [0]) (.list [0]) (.list [0]) 36).1.plotProjections
      (.list [9]) (.list [0]) (.list [0]) (.list [0]) 36).1.plotProjections (.list [9]) (.list [0]) (.list [0]) (.list [0]) 36).2) := by
  obtain ⟨-, -, -, -, -, -, he⟩ := C60_after_error_false
  exact (C164_error_false demoSetup_valid one_pos (demo_valid 1) (demo_good le_rfl zero_le_one) (one_len 9 0 0 0) he (Or.inr (Or.inr rfl))
    (npts := 36) (by norm_num)).2.1

/-- The default number of points is used although another is given. -/
example : ¬ Right demoSetup 100 (one 1 0 0 1)
    (((Plotter.new demoSetup).plotProjections (.list [1]) (.list [0]) (.list [0]) (.list [1]) 36).1.plotProjections
      (.list [1]) (.list [0]) (.list [0]) (.list [1]) 100).2 :=
  (C164_npts_false demoSetup_valid one_pos (demo_valid 1) (demo_good zero_le_one le_rfl) (npts := 36) (by norm_num) (by norm_num)).2

/-- The point (1, 0, 0) has the coordinates 1 and 0 along the orientation vectors. -/
theorem demo_coordinate : coordinate ![1, 0, 0] demoSetup.u = 1 ∧ coordinate ![1, 0, 0] demoSetup.v = 0 := by
  constructor <;> simp [coordinate, demoSetup]

/-- After the orientation has been turned by 90 degrees the figure is as before. -/
example : ¬ Right { demoSetup with u := ![0, 1, 0], v := ![-1, 0, 0] } 36 (one 1 0 0 0)
    ((Plotter.mk { ((Plotter.new demoSetup).plotProjections (.list [1]) (.list [0]) (.list [0]) (.list [0]) 36).1.inst with
      setup := { demoSetup with u := ![0, 1, 0], v := ![-1, 0, 0] } }
      ((Plotter.new demoSetup).plotProjections (.list [1]) (.list [0]) (.list [0]) (.list [0]) 36).1.stored).plotProjections
      (.list [1]) (.list [0]) (.list [0]) (.list [0]) 36).2 :=
  (C164_settings_false demoSetup_valid (demo_valid 1) (demo_good le_rfl zero_le_one) (npts := 36) (by norm_num)
    (k := 0) (p := (![1, 0, 0], 0)) rfl { demoSetup with u := ![0, 1, 0], v := ![-1, 0, 0] }).2 (by
      rw [demo_coordinate.1]
      simp [coordinate])

example : ∃ fig c l, ((Plotter.new demoSetup).plotProjections (.list [1]) (.list [0]) (.list [0]) (.list [0]) 36).2 = .ok fig ∧
    fig .QyW = some c ∧ c.x.title = .Q1 ![1, 0, 0] ∧ c.fills[0]? = some l ∧ Around (0, 0) l := by
  obtain ⟨fig, c, l, h1, h2, h3, h4, h5, -⟩ := C164_label_false demoSetup_valid (demo_valid 1) (demo_good le_rfl zero_le_one) (npts := 36)
    (by norm_num) (k := 0) (p := (![1, 0, 0], 0)) rfl (by rw [demo_coordinate.1, demo_coordinate.2]; exact one_ne_zero)
  rw [demo_coordinate.2] at h5
  exact ⟨fig, c, l, h1, h2, h3, h4, h5⟩

end Verif.Resolution.Figure
