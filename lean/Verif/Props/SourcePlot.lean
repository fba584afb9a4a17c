import Verif.Lemmas.PyDraw
import Verif.Props.Plot
import Verif.Lemmas.PyArray

/-!
# C105 for the plots of `rockphypy/QI.py`
-/

namespace RockPhy.Props

open RockPhy.Py RockPhy.Py.Val

variable {α : Type} [PyNum α]

set_option maxRecDepth 8000

/-! ## Running a model and a list of commands -/

omit [PyNum α] in
theorem outcome_bind {β γ : Type} (p : QI.Plt α β) (f : β → QI.Plt α γ) (s : List (QI.Figure α)) :
    Spec.outcome (p >>= f) s = match Spec.outcome p s with
      | (.ok a, s') => Spec.outcome (f a) s'
      | (.error e, s') => (.error e, s') := by
  rcases h : Spec.outcome p s with ⟨_ | a, s'⟩
  · rw [outcome_bind_error h]
  · rw [outcome_bind_ok h]

theorem modify_new {β : Type} (s : List β) (f : β) (g : β → β) :
    (s ++ [f]).modify s.length g = s ++ [g f] := by
  induction s with
  | nil => rfl
  | cons a s ih =>
    rw [List.cons_append, List.length_cons, List.modify_succ_cons, ih, List.cons_append]

omit [PyNum α] in
theorem shown_length (s : List (QI.Figure α)) : (shown s).length = s.length := List.length_map _

omit [PyNum α] in
theorem shown_new (s : List (QI.Figure α)) (f : QI.Figure α) :
    shown (s ++ [f]) = shown s ++ [f.map shownMark] := List.map_append

omit [PyNum α] in
theorem onFigures_eq {β : Type} {p : Draws α β} {r : Nat → Res β} {m : Nat → Nat}
    {l : Nat → List (Cmd α)} (h : ∀ n, p (n, []) = (r n, m n, l n)) (s : Figs α) :
    p.onFigures s = (r s.length, replay (l s.length) s) := by
  unfold Draws.onFigures
  rw [h]

omit [PyNum α] in
theorem modify_shown (s : List (QI.Figure α)) (f : List (Mark α))
    (g : List (Mark α) → List (Mark α)) :
    (shown s ++ [f]).modify s.length g = shown s ++ [g f] := by
  rw [← shown_length s, modify_new]

/-- Runs the model and replays the commands of the source. -/
macro "plot_eq" "[" ls:Lean.Parser.Tactic.simpLemma,* "]" : tactic => `(tactic|
  (simp only [outcome_bind, outcome_subplots, outcome_drawOn, outcome_pltDraw, outcome_throw,
    outcome_pure, outcome_lift, replay, modify_shown, ends, shown_new, shown_length, $ls,*]
   kernel_rfl))

/-- Runs the source; the tactic decides the conditions on which the run depends. -/
macro "plot_run" "using" t:tactic : tactic => `(tactic|
  (refine (onFigures_eq (r := ?r) (m := ?m) (l := ?l) (fun n => ?h) _).trans ?_
   case h => (py_draw [] using $t); exact rfl))



/-- Runs a method statement by statement. -/
macro "plot_method" ts:tacticSeq : tactic => `(tactic|
  (refine (onFigures_eq (r := ?r) (m := ?m) (l := ?l) (fun n => ?h) _).trans ?_
   case h =>
     refine draw_method (g := ?g) (env := ?env) ?hg ?hk ?hb ?hx
     case hg => exact rfl
     case hk => exact rfl
     case hb => (py_draw [] using fail); exact rfl
     case hx => $ts))

/-! ## The density map -/

theorem fillRows_map {ι : Type} (x : α) (l : List ι) (f : ι → List α) (g : ι → List Bool)
    (h : ι → List α) (e : ∀ i, fill PyNum.store x (f i) (g i) = .ok (h i)) :
    fillRows x (l.map f) (l.map g) = .ok (l.map h) := by
  induction l with
  | nil => rfl
  | cons a l ih => rw [List.map_cons, List.map_cons, fillRows, e, ih]; rfl

omit [PyNum α] in
theorem transpose_ofFn {m n : Nat} (d : Fin m → Fin n → α) (hm : 0 < m) :
    transpose (List.ofFn fun i => List.ofFn (d i)) = List.ofFn fun j => List.ofFn fun i => d i j := by
  obtain ⟨m, rfl⟩ : ∃ m', m = m' + 1 := ⟨m - 1, by omega⟩
  have h : transpose (List.ofFn fun i => List.ofFn (d i)) =
      (List.range n).map fun j => (List.ofFn fun i => List.ofFn (d i)).filterMap fun row => row[j]? := by
    rw [List.ofFn_succ]
    unfold transpose
    simp only [List.length_ofFn]
  rw [h]
  apply List.ext_getElem
  · simp
  · intro j h1 h2
    simp only [List.length_map, List.length_range] at h1
    simp only [List.getElem_map, List.getElem_range, List.getElem_ofFn]
    have : ∀ i : Fin (m + 1), (List.ofFn (d i))[j]? = some (d i ⟨j, h1⟩) := by
      intro i
      simp [h1]
    rw [show (List.ofFn fun i => List.ofFn (d i)) = (List.finRange (m + 1)).map fun i => List.ofFn (d i) from
      List.ofFn_eq_map, List.filterMap_map]
    simp only [Function.comp_def, this]
    rw [List.ofFn_eq_map]
    exact congrFun (List.filterMap_eq_map (f := fun x => d x ⟨j, h1⟩)) _

/-- The density that is drawn, as the source computes it. -/
theorem density_run (hs : ∀ a b : α, PyNum.store (1 - (a - b) / a) (0 : α) = 0) (k : QI.Kde α) :
    let D := List.ofFn fun i => List.ofFn (k.density i)
    (largest D.flatten = .error (.py .ValueError) ∧ QI.kde_density k = .error .ValueError) ∨
    ∃ (M : α) (d : Fin k.m → Fin k.n → α), largest D.flatten = .ok M ∧ QI.kde_density k = .ok d ∧
      0 < k.m ∧
      let N := ((D.map (·.map (M - ·))).map (·.map (· / M))).map (·.map (Val.ofInt (.ofNat 1) - ·))
      fillRows (Val.ofInt (.ofNat 0)) N (N.map (·.map (cmpNum .lt · (PyNum.sci 1 true 4)))) =
        .ok (List.ofFn fun i => List.ofFn (d i)) := by
  intro D
  cases h : D.flatten with
  | nil =>
    left
    refine ⟨rfl, ?_⟩
    unfold QI.kde_density QI.normalize2
    rw [show QI.flat k.density = [] from h]
    rfl
  | cons a l =>
    right
    set M := l.foldl max2 a
    refine ⟨M, fun i j => if PyNum.lt (1 - (M - k.density i j) / M) 0.0001 then 0 else
      1 - (M - k.density i j) / M, rfl, ?_, ?_, ?_⟩
    · unfold QI.kde_density QI.normalize2
      rw [show QI.flat k.density = a :: l from h]
      rfl
    · rcases Nat.eq_zero_or_pos k.m with h0 | h0
      · exfalso
        have : D = [] := by
          apply List.eq_nil_of_length_eq_zero
          simp [D, h0]
        rw [this] at h
        cases h
      · exact h0
    · have hD : D = (List.finRange k.m).map fun i => (List.finRange k.n).map (k.density i) := by
        simp only [D, List.ofFn_eq_map]
      simp only [hD, List.map_map, Function.comp_def, List.ofFn_eq_map]
      apply fillRows_map
      intro i
      rw [fill_map]
      refine congrArg Except.ok (List.map_congr_left fun j _ => ?_)
      change cond (PyNum.lt (1 - (M - k.density i j) / M) 0.0001)
        (PyNum.store (1 - (M - k.density i j) / M) 0) (1 - (M - k.density i j) / M) = _
      rw [hs, Bool.cond_eq_ite]



set_option maxHeartbeats 1000000 in
theorem kde_plot_Vp {L : Lib α}
    {kde2d : List α → Option (List α) → Nat → Except PyErr (QI.Kde α)} (hL : Kde2d L kde2d)
    (hs : ∀ a b : α, PyNum.store (1 - (a - b) / a) (0 : α) = 0) (Vp Phi : List α)
    (Vsh Vs den eff tvd : Option (List α)) (phi v1 v2 v3 : List α) (cmap : String) (n k : Nat)
    (h3 : phi.length = v3.length) (h1 : phi.length = v1.length) (h2 : phi.length = v2.length)
    (s : List (QI.Figure α)) :
    (callMethod L (k + 2) n!"QI.kde_plot" (attributesOf ⟨Vp, Phi, Vsh, Vs, den, eff, tvd⟩)
      [vec phi, vec v1, vec v2, vec v3, str cmap, str "Vp", int (.ofNat n)]).onFigures (shown s) =
    ends (handle "figure") (Spec.outcome
      (QI.kde_plot kde2d ⟨Vp, Phi, Vsh, Vs, den, eff, tvd⟩ phi v1 v2 v3 cmap "Vp" n) s) := by
  unfold QI.kde_plot
  obtain ⟨w, hw⟩ := hL (callFn L Source.program (k + 1)) Phi (some Vp) n
  simp only [if_true, if_false, String.reduceEq]
  cases hk : kde2d Phi (some Vp) n with
  | error e =>
    rw [hk] at hw
    dsimp only [ofPy, Except.map] at hw
    plot_method
      iterate 7 py_stmt using first | exact h3 | exact h1 | exact h2
      py_raise
    plot_eq [outcome_axPlot s _ h3, outcome_axPlot s _ h1, outcome_axPlot s _ h2, QI.kde_map, hk]
  | ok K =>
    rw [hk] at hw
    dsimp only [ofPy, Except.map] at hw
    rcases density_run hs K with ⟨hl, hd⟩ | ⟨M, d, hl, hd, hm, hf⟩
    · plot_method
        iterate 7 py_stmt using first | exact h3 | exact h1 | exact h2
        py_raise
      plot_eq [outcome_axPlot s _ h3, outcome_axPlot s _ h1, outcome_axPlot s _ h2, QI.kde_map, hk,
        hd]
    · dsimp only at hf
      have ht := transpose_ofFn d hm
      plot_method
        iterate 7 py_stmt using first | exact h3 | exact h1 | exact h2
        py_ite true run
          iterate 8 py_stmt
          py_done
        py_stmt
        py_return
      plot_eq [outcome_axPlot s _ h3, outcome_axPlot s _ h1, outcome_axPlot s _ h2, QI.kde_map, hk,
        hd, ht]
set_option maxHeartbeats 1000000 in
theorem kde_plot_Vs {L : Lib α}
    {kde2d : List α → Option (List α) → Nat → Except PyErr (QI.Kde α)} (hL : Kde2d L kde2d)
    (hs : ∀ a b : α, PyNum.store (1 - (a - b) / a) (0 : α) = 0) (Vp Phi : List α)
    (Vsh Vs den eff tvd : Option (List α)) (phi v1 v2 v3 : List α) (cmap : String) (n k : Nat)
    (h3 : phi.length = v3.length) (h1 : phi.length = v1.length) (h2 : phi.length = v2.length)
    (s : List (QI.Figure α)) :
    (callMethod L (k + 2) n!"QI.kde_plot" (attributesOf ⟨Vp, Phi, Vsh, Vs, den, eff, tvd⟩)
      [vec phi, vec v1, vec v2, vec v3, str cmap, str "Vs", int (.ofNat n)]).onFigures (shown s) =
    ends (handle "figure") (Spec.outcome
      (QI.kde_plot kde2d ⟨Vp, Phi, Vsh, Vs, den, eff, tvd⟩ phi v1 v2 v3 cmap "Vs" n) s) := by
  unfold QI.kde_plot
  obtain ⟨w, hw⟩ := hL (callFn L Source.program (k + 1)) Phi Vs n
  simp only [if_true, if_false, String.reduceEq]
  cases hk : kde2d Phi Vs n with
  | error e =>
    rw [hk] at hw
    dsimp only [ofPy, Except.map] at hw
    plot_method
      iterate 7 py_stmt using first | exact h3 | exact h1 | exact h2
      py_raise
    plot_eq [outcome_axPlot s _ h3, outcome_axPlot s _ h1, outcome_axPlot s _ h2, QI.kde_map, hk]
  | ok K =>
    rw [hk] at hw
    dsimp only [ofPy, Except.map] at hw
    rcases density_run hs K with ⟨hl, hd⟩ | ⟨M, d, hl, hd, hm, hf⟩
    · plot_method
        iterate 7 py_stmt using first | exact h3 | exact h1 | exact h2
        py_raise
      plot_eq [outcome_axPlot s _ h3, outcome_axPlot s _ h1, outcome_axPlot s _ h2, QI.kde_map, hk,
        hd]
    · dsimp only at hf
      have ht := transpose_ofFn d hm
      plot_method
        iterate 7 py_stmt using first | exact h3 | exact h1 | exact h2
        py_ite false run
          py_ite true run
            iterate 8 py_stmt
            py_done
          py_done
        py_stmt
        py_return
      plot_eq [outcome_axPlot s _ h3, outcome_axPlot s _ h1, outcome_axPlot s _ h2, QI.kde_map, hk,
        hd, ht]

/-- `hs`: zero can be stored in an array of computed densities. -/
theorem C105_QI_kde_plot {L : Lib α}
    {kde2d : List α → Option (List α) → Nat → Except PyErr (QI.Kde α)} (hL : Kde2d L kde2d)
    (hs : ∀ a b : α, PyNum.store (1 - (a - b) / a) (0 : α) = 0) (q : QI.Obj α)
    (phi v1 v2 v3 : List α) (cmap vels : String) (n : Nat) :
    Plots L 2 n!"QI.kde_plot" (attributesOf q)
      [vec phi, vec v1, vec v2, vec v3, str cmap, str vels, int (.ofNat n)] (handle "figure")
      (QI.kde_plot kde2d q phi v1 v2 v3 cmap vels n) := by
  intro k s
  obtain ⟨Vp, Phi, Vsh, Vs, den, eff, tvd⟩ := q
  by_cases h3 : phi.length = v3.length
  swap
  · plot_method
      iterate 2 py_stmt
      py_raise using exact h3
    unfold QI.kde_plot
    plot_eq [outcome_axPlot_error _ _ h3]
  by_cases h1 : phi.length = v1.length
  swap
  · plot_method
      iterate 3 py_stmt using exact h3
      py_raise using exact h1
    unfold QI.kde_plot
    plot_eq [outcome_axPlot s _ h3, outcome_axPlot_error _ _ h1]
  by_cases h2 : phi.length = v2.length
  swap
  · plot_method
      iterate 4 py_stmt using first | exact h3 | exact h1
      py_raise using exact h2
    unfold QI.kde_plot
    plot_eq [outcome_axPlot s _ h3, outcome_axPlot s _ h1, outcome_axPlot_error _ _ h2]
  by_cases hp : vels = "Vp"
  · subst hp
    exact kde_plot_Vp hL hs Vp Phi Vsh Vs den eff tvd phi v1 v2 v3 cmap n k h3 h1 h2 s
  by_cases hv : vels = "Vs"
  · subst hv
    exact kde_plot_Vs hL hs Vp Phi Vsh Vs den eff tvd phi v1 v2 v3 cmap n k h3 h1 h2 s
  · plot_method
      iterate 7 py_stmt using first | exact h3 | exact h1 | exact h2
      py_ite false using exact hp run
        py_ite false using exact hv run
          py_done
        py_done
      py_stmt
      py_return
    unfold QI.kde_plot
    plot_eq [outcome_axPlot s _ h3, outcome_axPlot s _ h1, outcome_axPlot s _ h2, if_neg hp,
      if_neg hv]

theorem C105_QI_screening_plot (L : Lib α) (q : QI.Obj α) (phi vp1 vp2 vp3 : List α)
    (cmap : String) :
    Plots L 1 n!"QI.screening_plot" (attributesOf q)
      [vec phi, vec vp1, vec vp2, vec vp3, str cmap] (handle "figure")
      (QI.screening_plot q phi vp1 vp2 vp3 cmap) := by
  intro k s
  obtain ⟨Vp, Phi, Vsh, Vs, den, eff, tvd⟩ := q
  unfold QI.screening_plot
  by_cases h3 : phi.length = vp3.length
  swap
  · plot_run using exact h3
    plot_eq [outcome_axPlot_error _ _ h3]
  by_cases h1 : phi.length = vp1.length
  swap
  · plot_run using (first | exact h3 | exact h1)
    plot_eq [outcome_axPlot s _ h3, outcome_axPlot_error _ _ h1]
  by_cases h2 : phi.length = vp2.length
  swap
  · plot_run using (first | exact h3 | exact h1 | exact h2)
    plot_eq [outcome_axPlot s _ h3, outcome_axPlot s _ h1, outcome_axPlot_error _ _ h2]
  cases Vsh with
  | none =>
    plot_run using (first | exact h3 | exact h1 | exact h2)
    plot_eq [outcome_axPlot s _ h3, outcome_axPlot s _ h1, outcome_axPlot s _ h2]
  | some Vsh =>
    by_cases hp : Phi.length = Vp.length ∧ Phi.length = (Vsh.map fun v => 1 - v).length
    · plot_run using (first | exact h3 | exact h1 | exact h2 | exact hp)
      plot_eq [outcome_axPlot s _ h3, outcome_axPlot s _ h1, outcome_axPlot s _ h2,
        outcome_scatter s _ hp]
    · plot_run using (first | exact h3 | exact h1 | exact h2 | exact hp)
      plot_eq [outcome_axPlot s _ h3, outcome_axPlot s _ h1, outcome_axPlot s _ h2,
        outcome_scatter_error s _ hp]

/-- A library with a density, on a grid of two by two points, that satisfies the hypotheses. -/
example : Kde2d (α := Fl) (fun _ _ _ _ => .ok (tup [mat [[0, 1], [1, 2]], tup [vec [0, 1], vec [2, 3]],
      num 5])) (fun _ _ _ => .ok ⟨2, 2, ![![0, 1], ![1, 2]], ![0, 1], ![2, 3]⟩) ∧
    (∀ a b : Fl, PyNum.store (1 - (a - b) / a) 0 = 0) :=
  ⟨fun _ _ _ _ => ⟨num 5, by kernel_rfl⟩, fun _ _ => rfl⟩

end RockPhy.Props
