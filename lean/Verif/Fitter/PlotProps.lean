import Verif.Fitter.Plot
import Verif.Fitter.TableProps

/-! # What the plot of a fit shows -/

namespace Verif.Fitter.Plot

open Verif.Fitter.Table (build Faithful)

/-- Specification: the residuals are the weighted deviations of a model from the data. -/
def Deviations (g : List ℝ → List ℝ → List ℝ) (x y err : List ℝ) (residuals : List ℝ → Except PlotErr (List ℝ)) : Prop :=
  ∀ ps, residuals ps = .ok (List.zipWith (fun p e => (p.1 - p.2) / e) (y.zip (g ps x)) err)

lemma plot_ok {a : Item} {x y err ps v : List ℝ} {rest : List Item} {fit : Fitted} {residuals : List ℝ → Except PlotErr (List ℝ)}
    {f : List ℝ → Item → Except PlotErr (List ℝ)} {title : Option String} {res : Bool} {r : List ℝ} {t : Verif.Fitter.Table.Shown}
    (hp : fit.params = ps) (hv : f ps (.column x) = .ok v) (lv : x.length = v.length) (ly : x.length = y.length) (le : x.length = err.length)
    (hr : residuals ps = .ok r) (lr : x.length = r.length) (ht : build title (ps.zip fit.xerror) fit.chi2 = .ok t) :
    plot (a :: .column x :: .column y :: .column err :: rest) (some fit) residuals f title res =
      .ok ⟨if res then some (x.zip r) else none, x.zip v, x.zip (y.zip err), t⟩ := by
  subst hp
  unfold plot
  cases res
  · simp only [item, Item.numbers, List.getElem?_cons_succ, List.getElem?_cons_zero, bind, Except.bind, pure, Except.pure, hv, drawLine,
      drawPoints, lv.symm, ly.symm, le.symm, ht, if_true, and_self, Bool.false_eq_true, if_false]
  · simp only [item, Item.numbers, List.getElem?_cons_succ, List.getElem?_cons_zero, bind, Except.bind, pure, Except.pure, hv, drawLine,
      drawPoints, lv.symm, ly.symm, le.symm, ht, if_true, and_self, hr, lr.symm]

/-- **C174** (partial).  Let the data be a tuple whose elements 1, 2 and 3 are the coordinates, the values and the errors, all of one
length, and let the function of the caller give a value for each coordinate.  After a fit in which every parameter has an error that is
not zero the plot shows every datum with its error, and the function with the fitted parameters at every coordinate; if asked for, the
residual of every datum with the fitted parameters; and a table with these parameters.  Missing: other tuples (`C174_documented_false`,
`C174_other_false`) and parameters without error (`C174_fixed_false`). -/
theorem C174_shown_partial {a : Item} {x y err v r : List ℝ} {rest : List Item} {fit : Fitted}
    {residuals : List ℝ → Except PlotErr (List ℝ)} {f : List ℝ → Item → Except PlotErr (List ℝ)}
    (hv : f fit.params (.column x) = .ok v) (lv : v.length = x.length) (ly : y.length = x.length) (le : err.length = x.length)
    (hr : residuals fit.params = .ok r) (lr : r.length = x.length)
    (he : ∀ q ∈ fit.params.zip fit.xerror, ∃ dp, q.2 = some dp ∧ dp ≠ 0) (title : Option String) (res : Bool) :
    ∃ fig, plot (a :: .column x :: .column y :: .column err :: rest) (some fit) residuals f title res = .ok fig ∧
      fig.points.length = x.length ∧ fig.curve.length = x.length ∧
      (∀ (i : ℕ) (h : i < x.length), fig.points[i]? = some (x[i], y[i], err[i]) ∧ fig.curve[i]? = some (x[i], v[i]) ∧
        (res = true → ∃ l, fig.residuals = some l ∧ l.length = x.length ∧ l[i]? = some (x[i], r[i]))) ∧
      (res = false → fig.residuals = none) ∧
      List.Forall₂ (fun q w => ∀ dp, q.2 = some dp → Faithful w.1 q.1 dp ∧ Faithful w.2 dp dp) (fit.params.zip fit.xerror) fig.table.rows := by
  obtain ⟨t, ht, -, hf, -⟩ := Verif.Fitter.Table.C169_table_partial title (fit.params.zip fit.xerror) fit.chi2 he
  refine ⟨_, plot_ok rfl hv lv.symm ly.symm le.symm hr lr.symm ht, ?_, ?_, ?_, ?_, hf⟩
  · simp [ly, le]
  · simp [lv]
  · intro i h
    refine ⟨?_, ?_, ?_⟩
    · rw [List.getElem?_eq_getElem (by simp [ly, le, h])]; simp
    · rw [List.getElem?_eq_getElem (by simp [lv, h])]; simp
    · intro e
      subst e
      refine ⟨x.zip r, rfl, by simp [lr], ?_⟩
      rw [List.getElem?_eq_getElem (by simp [lr, h])]; simp
  · intro e; subst e; rfl

/-- **C174** (partial): if the residuals are the weighted deviations of the function from the data, the residual that is drawn leads from
the curve to the datum. -/
theorem C174_residuals_partial {a : Item} {x y err : List ℝ} {rest : List Item} {fit : Fitted} {g : List ℝ → List ℝ → List ℝ}
    {residuals : List ℝ → Except PlotErr (List ℝ)} (lg : ∀ ps, (g ps x).length = x.length) (ly : y.length = x.length)
    (le : err.length = x.length) (hd : Deviations g x y err residuals) (pos : ∀ e ∈ err, e ≠ 0)
    (he : ∀ q ∈ fit.params.zip fit.xerror, ∃ dp, q.2 = some dp ∧ dp ≠ 0) (title : Option String) :
    ∃ fig l, plot (a :: .column x :: .column y :: .column err :: rest) (some fit) residuals
        (fun ps i => match i with | .column x => .ok (g ps x) | .other => .error .typeError) title true = .ok fig ∧ fig.residuals = some l ∧
      ∀ (i : ℕ) (q : ℝ × ℝ × ℝ) (c d : ℝ × ℝ), fig.points[i]? = some q → fig.curve[i]? = some c → l[i]? = some d →
        q.2.1 = c.2 + d.2 * q.2.2 := by
  obtain ⟨t, ht, -⟩ := Verif.Fitter.Table.C169_table_partial title (fit.params.zip fit.xerror) fit.chi2 he
  refine ⟨_, _, plot_ok rfl rfl (lg _).symm ly.symm le.symm (hd _) (by simp [lg, ly, le]) ht, rfl, ?_⟩
  intro i q c d hq hc hl
  obtain ⟨hi, rfl⟩ := List.getElem?_eq_some_iff.1 hq
  obtain ⟨hi', rfl⟩ := List.getElem?_eq_some_iff.1 hc
  obtain ⟨hi'', rfl⟩ := List.getElem?_eq_some_iff.1 hl
  simp only [List.getElem_zip, List.getElem_zipWith]
  have := pos _ (List.getElem_mem (l := err) (n := i) (by simp at hi; omega))
  field_simp
  ring

/-- **C174**: before a fit nothing is drawn. -/
theorem C174_before (data : List Item) (residuals : List ℝ → Except PlotErr (List ℝ)) (f : List ℝ → Item → Except PlotErr (List ℝ))
    (title : Option String) (res : Bool) : ∃ e, plot data none residuals f title res = .error e := by
  unfold plot
  cases item data 1 with
  | error e => exact ⟨e, rfl⟩
  | ok x => cases item data 2 with
    | error e => exact ⟨e, rfl⟩
    | ok y => cases item data 3 with
      | error e => exact ⟨e, rfl⟩
      | ok z => cases res <;> exact ⟨_, rfl⟩

/-- **C174 is false** in full: for the documented data `(x, y, err)`, whatever the fit, nothing is drawn but `IndexError` raised. -/
theorem C174_documented_false (x y err : List ℝ) (fitted : Option Fitted) (residuals : List ℝ → Except PlotErr (List ℝ))
    (f : List ℝ → Item → Except PlotErr (List ℝ)) (title : Option String) (res : Bool) :
    plot [.column x, .column y, .column err] fitted residuals f title res = .error .indexError := rfl

/-- **C174 is false** in full: with the data `(x, y, err, monitor)` the values are taken for the coordinates, the errors for the values and
the monitor for the errors. -/
theorem C174_other_false {x y err mon v : List ℝ} {fit : Fitted} {residuals : List ℝ → Except PlotErr (List ℝ)}
    {f : List ℝ → Item → Except PlotErr (List ℝ)} (hv : f fit.params (.column y) = .ok v) (lv : v.length = y.length)
    (le : err.length = y.length) (lm : mon.length = y.length)
    (he : ∀ q ∈ fit.params.zip fit.xerror, ∃ dp, q.2 = some dp ∧ dp ≠ 0) (title : Option String) :
    ∃ fig, plot [.column x, .column y, .column err, .column mon] (some fit) residuals f title false = .ok fig ∧
      fig.points = y.zip (err.zip mon) := by
  obtain ⟨t, ht, -⟩ := Verif.Fitter.Table.C169_table_partial title (fit.params.zip fit.xerror) fit.chi2 he
  refine ⟨⟨none, y.zip v, y.zip (err.zip mon), t⟩, ?_, rfl⟩
  unfold plot
  simp only [item, Item.numbers, List.getElem?_cons_succ, List.getElem?_cons_zero, bind, Except.bind, pure, Except.pure, hv, drawLine,
    drawPoints, lv, le, lm, ht, if_true, and_self, Bool.false_eq_true, if_false]

/-- **C174 is false** in full: if a parameter is fixed or has no error, nothing is shown. -/
theorem C174_fixed_false {data : List Item} {fit : Fitted} (h : ∃ q ∈ fit.params.zip fit.xerror, q.2 = some 0 ∨ q.2 = none)
    (residuals : List ℝ → Except PlotErr (List ℝ)) (f : List ℝ → Item → Except PlotErr (List ℝ)) (title : Option String) (res : Bool) :
    ∃ e, plot data (some fit) residuals f title res = .error e := by
  obtain ⟨e, he⟩ := Verif.Fitter.Table.C169_fixed_false title _ fit.chi2 h
  cases k : plot data (some fit) residuals f title res with
  | error e => exact ⟨e, rfl⟩
  | ok fig =>
    exfalso
    unfold plot at k
    simp only [bind, Except.bind, pure, Except.pure, he] at k
    repeat' split at k
    all_goals first | exact nomatch k | skip

/-- A fit of a constant to two data. -/
example : ∃ (fit : Fitted) (x y err : List ℝ) (g : List ℝ → List ℝ → List ℝ) (residuals : List ℝ → Except PlotErr (List ℝ)),
    Deviations g x y err residuals ∧ (∀ ps, (g ps x).length = x.length) ∧ (∀ e ∈ err, e ≠ 0) ∧
      (∀ q ∈ fit.params.zip fit.xerror, ∃ dp, q.2 = some dp ∧ dp ≠ 0) ∧ y ≠ [] :=
  ⟨⟨[3], [some (1 / 2)], 1⟩, [0, 1], [2, 4], [1, 1], fun ps x => x.map fun _ => ps.sum, _, fun _ => rfl, by simp, by simp, by simp, by simp⟩

end Verif.Fitter.Plot
