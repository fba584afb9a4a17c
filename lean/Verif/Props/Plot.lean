import Verif.Spec.Plot
import Verif.Props.Template

/-! # C101: the diagnostic plots -/

namespace RockPhy.Props

open Fl Spec QI

variable {α β γ : Type}

/-! ## Running a plotting computation -/

theorem outcome_pure (a : β) (s : List (Figure α)) :
    outcome (pure a : Plt α β) s = (.ok a, s) := rfl

theorem outcome_throw (e : PyErr) (s : List (Figure α)) :
    outcome (throw e : Plt α β) s = (.error e, s) := rfl

theorem outcome_lift (x : Except PyErr β) (s : List (Figure α)) :
    outcome (liftM x : Plt α β) s = (x, s) := by cases x <;> rfl

theorem outcome_bind_ok {p : Plt α β} {a : β} {s s' : List (Figure α)}
    (h : outcome p s = (.ok a, s')) (f : β → Plt α γ) :
    outcome (p >>= f) s = outcome (f a) s' := by
  have e : outcome (p >>= f) s = StateT.run (ExceptT.run (p >>= f)) s := rfl
  unfold outcome at *
  simp only [ExceptT.run_bind, StateT.run_bind, h]
  rfl

theorem outcome_bind_error {p : Plt α β} {e : PyErr} {s s' : List (Figure α)}
    (h : outcome p s = (.error e, s')) (f : β → Plt α γ) :
    outcome (p >>= f) s = (.error e, s') := by
  unfold outcome at *
  simp only [ExceptT.run_bind, StateT.run_bind, h]
  rfl

theorem outcome_subplots (s : List (Figure α)) :
    outcome (subplots : Plt α Nat) s = (.ok s.length, s ++ [[]]) := rfl

theorem modify_last (s : List (Figure α)) (f : Figure α) (d : Draw α) :
    (s ++ [f]).modify s.length (· ++ [d]) = s ++ [f ++ [d]] := by
  induction s with
  | nil => rfl
  | cons a s ih =>
    rw [List.cons_append, List.length_cons, List.modify_succ_cons, ih, List.cons_append]

theorem outcome_drawOn (s : List (Figure α)) (f : Figure α) (d : Draw α) :
    outcome (drawOn s.length d) (s ++ [f]) = (.ok (), s ++ [f ++ [d]]) := by
  have e : outcome (drawOn s.length d) (s ++ [f])
      = (.ok (), (s ++ [f]).modify s.length (· ++ [d])) := rfl
  rw [e, modify_last]

theorem outcome_gcf (s : List (Figure α)) (f : Figure α) :
    outcome (gcf : Plt α Nat) (s ++ [f]) = (.ok s.length, s ++ [f]) := by
  have e : outcome (gcf : Plt α Nat) (s ++ [f]) = outcome (if (s ++ [f]).length = 0 then subplots
    else pure ((s ++ [f]).length - 1) : Plt α Nat) (s ++ [f]) := rfl
  rw [e, if_neg (by simp)]
  simp [outcome_pure]

theorem outcome_pltDraw (s : List (Figure α)) (f : Figure α) (d : Draw α) :
    outcome (pltDraw d) (s ++ [f]) = (.ok (), s ++ [f ++ [d]]) := by
  unfold pltDraw
  rw [outcome_bind_ok (outcome_gcf s f), outcome_drawOn]

theorem outcome_axPlot (s : List (Figure α)) (f : Figure α) {x y : List α} (h : x.length = y.length)
    (fmt : String) :
    outcome (axPlot s.length x y fmt) (s ++ [f]) = (.ok (), s ++ [f ++ [.line x y fmt]]) := by
  unfold axPlot
  rw [if_pos h, outcome_drawOn]

theorem outcome_axPlot_error (s : List (Figure α)) (i : Nat) {x y : List α}
    (h : x.length ≠ y.length) (fmt : String) :
    outcome (axPlot i x y fmt) s = (.error .ValueError, s) := by
  unfold axPlot
  rw [if_neg h, outcome_throw]

theorem outcome_scatter (s : List (Figure α)) (f : Figure α) {x y c : List α}
    (h : x.length = y.length ∧ x.length = c.length) (lo hi : α) (m : String) :
    outcome (pltScatter x y c lo hi m) (s ++ [f])
      = (.ok (), s ++ [f ++ [.points x y c lo hi m]]) := by
  unfold pltScatter
  rw [outcome_bind_ok (outcome_gcf s f), if_pos h, outcome_drawOn]

theorem outcome_scatter_error (s : List (Figure α)) (f : Figure α) {x y c : List α}
    (h : ¬ (x.length = y.length ∧ x.length = c.length)) (lo hi : α) (m : String) :
    outcome (pltScatter x y c lo hi m) (s ++ [f]) = (.error .ValueError, s ++ [f]) := by
  unfold pltScatter
  rw [outcome_bind_ok (outcome_gcf s f), if_neg h, outcome_throw]

variable [PyNum α]

/-! ## The crossplot of data and bounds -/

/-- The three curves drawn first by `screening_plot` and `kde_plot`. -/
def bounds (phi v1 v2 v3 : List α) : Figure α :=
  [.line phi v3 "-k", .line phi v1 "--k", .line phi v2 "-k"]

omit [PyNum α] in
theorem outcome_bounds {phi v1 v2 v3 : List α} (h1 : v1.length = phi.length)
    (h2 : v2.length = phi.length) (h3 : v3.length = phi.length) (s : List (Figure α))
    (k : Nat → Plt α β) :
    outcome (do
      let ax ← subplots
      axPlot ax phi v3 "-k"
      axPlot ax phi v1 "--k"
      axPlot ax phi v2 "-k"
      k ax) s = outcome (k s.length) (s ++ [bounds phi v1 v2 v3]) := by
  rw [outcome_bind_ok (outcome_subplots s), outcome_bind_ok (outcome_axPlot s _ h3.symm _),
    outcome_bind_ok (outcome_axPlot s _ h1.symm _), outcome_bind_ok (outcome_axPlot s _ h2.symm _)]
  rfl

omit [PyNum α] in
theorem outcome_bounds_error {phi v1 v2 v3 : List α}
    (h : ¬ (v1.length = phi.length ∧ v2.length = phi.length ∧ v3.length = phi.length)) :
    ∃ f : Figure α, samples f = [] ∧ ∀ (s : List (Figure α)) (k : Nat → Plt α β),
    outcome (do
      let ax ← subplots
      axPlot ax phi v3 "-k"
      axPlot ax phi v1 "--k"
      axPlot ax phi v2 "-k"
      k ax) s = (.error .ValueError, s ++ [f]) := by
  by_cases h3 : v3.length = phi.length
  · by_cases h1 : v1.length = phi.length
    · have h2 : v2.length ≠ phi.length := fun h2 => h ⟨h1, h2, h3⟩
      refine ⟨[.line phi v3 "-k", .line phi v1 "--k"], rfl, fun s k => ?_⟩
      rw [outcome_bind_ok (outcome_subplots s), outcome_bind_ok (outcome_axPlot s _ h3.symm _),
        outcome_bind_ok (outcome_axPlot s _ h1.symm _),
        outcome_bind_error (outcome_axPlot_error _ _ h2.symm _)]
      rfl
    · refine ⟨[.line phi v3 "-k"], rfl, fun s k => ?_⟩
      rw [outcome_bind_ok (outcome_subplots s), outcome_bind_ok (outcome_axPlot s _ h3.symm _),
        outcome_bind_error (outcome_axPlot_error _ _ (Ne.symm h1) _)]
      rfl
  · refine ⟨[], rfl, fun s k => ?_⟩
    rw [outcome_bind_ok (outcome_subplots s),
      outcome_bind_error (outcome_axPlot_error _ _ (Ne.symm h3) _)]

/-- C101: `screening_plot` shows the three bounds over the porosities it is given and every sample
of the object at its porosity and velocity, coloured by one minus its shale content on a fixed
scale from zero to one; it returns a new figure and touches no other. -/
theorem C101_screening_plot (q : Obj α) {phi v1 v2 v3 Vsh : List α} (cmap : String)
    (h1 : v1.length = phi.length) (h2 : v2.length = phi.length) (h3 : v3.length = phi.length)
    (hV : q.Vsh = some Vsh) (hp : q.Vp.length = q.phi.length) (hc : Vsh.length = q.phi.length) :
    ∃ f, Shows (screening_plot q phi v1 v2 v3 cmap) f ∧
      curves f = [(phi, v3), (phi, v1), (phi, v2)] ∧
      samples f = [(q.phi, q.Vp, Vsh.map fun v => 1 - v, 0, 1, cmap)] ∧
      xtitle f = some "Porosity" ∧ ytitle f = some "Vp" := by
  refine ⟨bounds phi v1 v2 v3 ++ [.ylabel "Vp", .xlabel "Porosity", .grid,
    .points q.phi q.Vp (Vsh.map fun v => 1 - v) 0 1 cmap, .colorbar "$\\rm V_{Sand}$"],
    fun s => ?_, rfl, rfl, rfl, rfl⟩
  unfold screening_plot
  rw [outcome_bounds h1 h2 h3 s, outcome_bind_ok (outcome_drawOn s _ _),
    outcome_bind_ok (outcome_drawOn s _ _), outcome_bind_ok (outcome_drawOn s _ _), hV]
  dsimp only
  rw [outcome_bind_ok (outcome_scatter s _ ⟨hp.symm, by rw [List.length_map, hc]⟩ _ _ _),
    outcome_bind_ok (outcome_pltDraw s _ _), outcome_pure]
  rfl

/-- C101: curves or samples of different sizes raise `ValueError`, and an object created without
`Vsh` raises `TypeError`; in each case a figure without samples stays open. -/
theorem C101_screening_plot_error (q : Obj α) (phi v1 v2 v3 : List α) (cmap : String) :
    (¬ (v1.length = phi.length ∧ v2.length = phi.length ∧ v3.length = phi.length) →
      ∃ f, Abandons (screening_plot q phi v1 v2 v3 cmap) .ValueError f ∧ samples f = []) ∧
    (v1.length = phi.length → v2.length = phi.length → v3.length = phi.length → q.Vsh = none →
      ∃ f, Abandons (screening_plot q phi v1 v2 v3 cmap) .TypeError f ∧ samples f = []) ∧
    (v1.length = phi.length → v2.length = phi.length → v3.length = phi.length →
      ∀ Vsh, q.Vsh = some Vsh → ¬ (q.Vp.length = q.phi.length ∧ Vsh.length = q.phi.length) →
      ∃ f, Abandons (screening_plot q phi v1 v2 v3 cmap) .ValueError f ∧ samples f = []) := by
  refine ⟨fun h => ?_, fun h1 h2 h3 hV => ?_, fun h1 h2 h3 Vsh hV h => ?_⟩
  · obtain ⟨f, hf, e⟩ := outcome_bounds_error h
    exact ⟨f, fun s => e s _, hf⟩
  · refine ⟨bounds phi v1 v2 v3 ++ [.ylabel "Vp", .xlabel "Porosity", .grid], fun s => ?_, rfl⟩
    unfold screening_plot
    rw [outcome_bounds h1 h2 h3 s, outcome_bind_ok (outcome_drawOn s _ _),
      outcome_bind_ok (outcome_drawOn s _ _), outcome_bind_ok (outcome_drawOn s _ _), hV]
    dsimp only
    rw [outcome_bind_error (outcome_throw _ _)]
    rfl
  · refine ⟨bounds phi v1 v2 v3 ++ [.ylabel "Vp", .xlabel "Porosity", .grid], fun s => ?_, rfl⟩
    unfold screening_plot
    rw [outcome_bounds h1 h2 h3 s, outcome_bind_ok (outcome_drawOn s _ _),
      outcome_bind_ok (outcome_drawOn s _ _), outcome_bind_ok (outcome_drawOn s _ _), hV]
    dsimp only
    rw [outcome_bind_error (outcome_scatter_error s _ (fun h' => h ⟨h'.1.symm, by
      rw [h'.2, List.length_map]⟩) _ _ _)]
    rfl

/-! ## The density plot -/

/-- The density map that `kde_plot` draws from the result of `kde2d`. -/
def densityMap (k : Kde α) (d : Fin k.m → Fin k.n → α) (label : String) : Figure α :=
  [.mesh k.gridx k.gridy (fun j i => d i j) "cmap_kde", .colorbar "KDE Normalized",
    .contour k.gridx k.gridy (fun j i => d i j), .ylabel label]

theorem outcome_kde_map {kde2d : List α → Option (List α) → Nat → Except PyErr (Kde α)}
    {phi : List α} {V : Option (List α)} {n : Nat} {k : Kde α} {d : Fin k.m → Fin k.n → α}
    (hk : kde2d phi V n = .ok k) (hd : kde_density k = .ok d) (label : String)
    (s : List (Figure α)) (f : Figure α) :
    outcome (kde_map kde2d s.length phi V n label) (s ++ [f])
      = (.ok (), s ++ [f ++ densityMap k d label]) := by
  unfold kde_map
  rw [hk, outcome_bind_ok (outcome_lift _ _), hd, outcome_bind_ok (outcome_lift _ _),
    outcome_bind_ok (outcome_pltDraw s _ _), outcome_bind_ok (outcome_pltDraw s _ _),
    outcome_bind_ok (outcome_pltDraw s _ _), outcome_drawOn]
  simp [densityMap]

theorem outcome_kde_map_error {kde2d : List α → Option (List α) → Nat → Except PyErr (Kde α)}
    {phi : List α} {V : Option (List α)} {n : Nat} {e : PyErr}
    (h : (kde2d phi V n >>= fun k => (kde_density k).map fun _ => ()) = .error e) (i : Nat)
    (label : String) (s : List (Figure α)) :
    outcome (kde_map kde2d i phi V n label) s = (.error e, s) := by
  unfold kde_map
  cases hk : kde2d phi V n with
  | error e' =>
    rw [hk] at h
    cases h
    rw [outcome_bind_error (outcome_lift _ _)]
  | ok k =>
    rw [hk, except_ok_bind] at h
    rw [outcome_bind_ok (outcome_lift _ _)]
    cases hd : kde_density k with
    | ok d => rw [hd] at h; cases h
    | error e' =>
      rw [hd] at h
      cases h
      rw [outcome_bind_error (outcome_lift _ _)]

/-- The velocity that `kde_plot` uses for its argument `vels`. -/
def velocity (q : Obj α) (vels : String) : Option (List α) :=
  if vels = "Vp" then some q.Vp else q.Vs

/-- C101: `kde_plot` shows the three bounds and, for `vels` either `'Vp'` or `'Vs'`, one density
map: the estimate computed from the porosity and that velocity of the object, with porosity on the
horizontal and velocity on the vertical axis. -/
theorem C101_kde_plot {kde2d : List α → Option (List α) → Nat → Except PyErr (Kde α)} (q : Obj α)
    {phi v1 v2 v3 : List α} (cmap : String) {vels : String} {n : Nat} {k : Kde α}
    {d : Fin k.m → Fin k.n → α} (h1 : v1.length = phi.length) (h2 : v2.length = phi.length)
    (h3 : v3.length = phi.length) (hv : vels = "Vp" ∨ vels = "Vs")
    (hk : kde2d q.phi (velocity q vels) n = .ok k) (hd : kde_density k = .ok d) :
    ∃ f, Shows (kde_plot kde2d q phi v1 v2 v3 cmap vels n) f ∧
      curves f = [(phi, v3), (phi, v1), (phi, v2)] ∧
      maps f = [({ k with density := d }, "cmap_kde")] ∧ samples f = [] ∧
      xtitle f = some "Porosity" ∧ ytitle f = some vels := by
  refine ⟨bounds phi v1 v2 v3 ++ [.xlabel "Porosity", .xlim (-0.007) 0.407]
    ++ densityMap k d vels ++ [.grid], fun s => ?_, rfl, rfl, rfl, rfl, rfl⟩
  unfold kde_plot
  rw [outcome_bounds h1 h2 h3 s, outcome_bind_ok (outcome_drawOn s _ _),
    outcome_bind_ok (outcome_drawOn s _ _)]
  rcases hv with rfl | rfl
  · rw [velocity, if_pos rfl] at hk
    rw [if_pos rfl, outcome_bind_ok (outcome_kde_map hk hd "Vp" s _),
      outcome_bind_ok (outcome_drawOn s _ _), outcome_pure]
    rfl
  · rw [velocity, if_neg (by decide)] at hk
    rw [if_neg (by decide), if_pos rfl, outcome_bind_ok (outcome_kde_map hk hd "Vs" s _),
      outcome_bind_ok (outcome_drawOn s _ _), outcome_pure]
    rfl

/-- C101: the colour map passed to `kde_plot` has no effect, and for any other `vels` the call
succeeds with the three bounds alone, without a density and without a vertical label. -/
theorem C101_kde_ignored (kde2d : List α → Option (List α) → Nat → Except PyErr (Kde α)) (q : Obj α)
    {phi v1 v2 v3 : List α} (cmap cmap' : String) (vels : String) (n : Nat)
    (h1 : v1.length = phi.length) (h2 : v2.length = phi.length) (h3 : v3.length = phi.length) :
    kde_plot kde2d q phi v1 v2 v3 cmap vels n = kde_plot kde2d q phi v1 v2 v3 cmap' vels n ∧
    (vels ≠ "Vp" → vels ≠ "Vs" → ∃ f, Shows (kde_plot kde2d q phi v1 v2 v3 cmap vels n) f ∧
      curves f = [(phi, v3), (phi, v1), (phi, v2)] ∧ maps f = [] ∧ ytitle f = none) := by
  refine ⟨rfl, fun hp hs => ?_⟩
  refine ⟨bounds phi v1 v2 v3 ++ [.xlabel "Porosity", .xlim (-0.007) 0.407, .grid],
    fun s => ?_, rfl, rfl, rfl⟩
  unfold kde_plot
  rw [outcome_bounds h1 h2 h3 s, outcome_bind_ok (outcome_drawOn s _ _),
    outcome_bind_ok (outcome_drawOn s _ _), if_neg hp, if_neg hs]
  beta_reduce
  rw [outcome_bind_ok (outcome_drawOn s _ _), outcome_pure]
  rfl

/-- C101: an exception of the density estimate, or an empty estimate, leaves a figure with the
three bounds open. -/
theorem C101_kde_error {kde2d : List α → Option (List α) → Nat → Except PyErr (Kde α)} (q : Obj α)
    {phi v1 v2 v3 : List α} (cmap : String) {vels : String} {n : Nat} {e : PyErr}
    (h1 : v1.length = phi.length) (h2 : v2.length = phi.length) (h3 : v3.length = phi.length)
    (hv : vels = "Vp" ∨ vels = "Vs")
    (h : (kde2d q.phi (velocity q vels) n >>= fun k => (kde_density k).map fun _ => ()) = .error e) :
    ∃ f, Abandons (kde_plot kde2d q phi v1 v2 v3 cmap vels n) e f ∧
      curves f = [(phi, v3), (phi, v1), (phi, v2)] ∧ maps f = [] := by
  refine ⟨bounds phi v1 v2 v3 ++ [.xlabel "Porosity", .xlim (-0.007) 0.407], fun s => ?_, rfl, rfl⟩
  unfold kde_plot
  rw [outcome_bounds h1 h2 h3 s, outcome_bind_ok (outcome_drawOn s _ _),
    outcome_bind_ok (outcome_drawOn s _ _)]
  rcases hv with rfl | rfl
  · rw [velocity, if_pos rfl] at h
    rw [if_pos rfl, outcome_bind_error (outcome_kde_map_error h _ _ _)]
    rfl
  · rw [velocity, if_neg (by decide)] at h
    rw [if_neg (by decide), if_pos rfl, outcome_bind_error (outcome_kde_map_error h _ _ _)]
    rfl

theorem flat_fin {m n : Nat} (D : Fin m → Fin n → ℝ) :
    flat (fun i j => fin (D i j)) = (List.ofFn fun i => List.ofFn (D i)).flatten.map fin := by
  unfold flat
  rw [List.map_flatten, List.map_ofFn]
  refine congrArg List.flatten (congrArg List.ofFn (funext fun i => ?_))
  rw [Function.comp, List.map_ofFn]
  rfl

/-- C101: when the largest density is positive, every drawn value is zero or between 0.0001 and
one, it is one exactly where the density is largest, zero where the density is not positive, and a
larger density is never drawn below a smaller one. -/
theorem C101_kde_values {k : Kde Fl} {D : Fin k.m → Fin k.n → ℝ}
    (hD : k.density = fun i j => fin (D i j)) {a : Fin k.m} {b : Fin k.n} (hpos : 0 < D a b)
    (hmax : ∀ i j, D i j ≤ D a b) :
    ∃ z : Fin k.m → Fin k.n → ℝ, kde_density k = .ok (fun i j => fin (z i j)) ∧
      (∀ i j, z i j = 0 ∨ (1 / 10000 ≤ z i j ∧ z i j ≤ 1)) ∧
      (∀ i j, z i j = 1 ↔ D i j = D a b) ∧ (∀ i j, D i j ≤ 0 → z i j = 0) ∧
      ∀ i j i' j', D i j ≤ D i' j' → z i j ≤ z i' j' := by
  set M := D a b with hM
  refine ⟨fun i j => if D i j / M < 1 / 10000 then 0 else D i j / M, ?_, ?_, ?_, ?_, ?_⟩
  · have hmem : M ∈ (List.ofFn fun i => List.ofFn (D i)).flatten := by
      simp only [List.mem_flatten, List.mem_ofFn]
      exact ⟨_, ⟨a, rfl⟩, List.mem_ofFn.mpr ⟨b, rfl⟩⟩
    have hle : ∀ x ∈ (List.ofFn fun i => List.ofFn (D i)).flatten, x ≤ M := by
      intro x hx
      simp only [List.mem_flatten, List.mem_ofFn] at hx
      obtain ⟨_, ⟨i, rfl⟩, hx⟩ := hx
      obtain ⟨j, rfl⟩ := List.mem_ofFn.mp hx
      exact hmax i j
    have h0 := hpos.ne'
    unfold kde_density normalize2
    rw [hD, flat_fin, npmax_eq hmem hle, except_ok_bind, except_pure, except_ok_bind]
    refine congrArg Except.ok (funext fun i => funext fun j => ?_)
    have e : (1 : Fl) - (fin M - fin (D i j)) / fin M = fin (D i j / M) := by
      fl_eval []
      exact congrArg fin (by field)
    have e' : (0.0001 : Fl) = fin (1 / 10000) := by
      simp only [fl]; exact congrArg fin (by norm_num)
    beta_reduce
    rw [e, e', fl_zero]
    by_cases h : D i j / M < 1 / 10000
    · rw [if_pos h]; exact if_pos (by rw [fl_lt]; exact h)
    · rw [if_neg h]; exact if_neg (by rw [fl_lt]; exact h)
  · intro i j
    dsimp only
    split
    · exact Or.inl rfl
    · rename_i h
      exact Or.inr ⟨not_lt.mp h, (div_le_one hpos).mpr (hmax i j)⟩
  · intro i j
    dsimp only
    split
    · rename_i h
      constructor
      · intro h'; norm_num at h'
      · intro h'
        rw [h', div_self hpos.ne'] at h
        norm_num at h
    · rw [div_eq_one_iff_eq hpos.ne']
  · intro i j h
    have : D i j / M ≤ 0 := div_nonpos_of_nonpos_of_nonneg h hpos.le
    exact if_pos (by linarith)
  · intro i j i' j' h
    have h' : D i j / M ≤ D i' j' / M := div_le_div_of_nonneg_right h hpos.le
    dsimp only
    split <;> split <;> linarith

/-! ## The object -/

/-- C101: an object keeps the logs named Vsh, Vs, den, eff_stress and TVD and silently drops every
other keyword; created without a `Vsh` (for instance because the name was misspelt) it fails only
when the plot is made. -/
theorem C101_object (Vp phi : List α) {kw kw' : String → Option (List α)}
    (h : ∀ name ∈ ["Vsh", "Vs", "den", "eff_stress", "TVD"], kw name = kw' name) :
    init Vp phi kw = init Vp phi kw' ∧ (init Vp phi kw).Vp = Vp ∧ (init Vp phi kw).phi = phi ∧
    (init Vp phi kw).Vsh = kw "Vsh" ∧ (init Vp phi kw).Vs = kw "Vs" ∧
    (kw "Vsh" = none → ∀ (p v1 v2 v3 : List α) (cmap : String), v1.length = p.length →
      v2.length = p.length → v3.length = p.length →
      ∃ f, Abandons (screening_plot (init Vp phi kw) p v1 v2 v3 cmap) .TypeError f ∧
        samples f = []) := by
  refine ⟨?_, rfl, rfl, rfl, rfl, fun hn p v1 v2 v3 cmap h1 h2 h3 =>
    (C101_screening_plot_error _ p v1 v2 v3 cmap).2.1 h1 h2 h3 hn⟩
  unfold init
  rw [h "Vsh" (by simp), h "Vs" (by simp), h "den" (by simp), h "eff_stress" (by simp),
    h "TVD" (by simp)]

/-! ## Constant cement lines -/

omit [PyNum α] in
theorem outcome_forIn {γ : Type} {l : List γ} {body : γ → Plt α PUnit} {g : γ → List (Draw α)}
    {s : List (Figure α)}
    (h : ∀ x ∈ l, ∀ f, outcome (body x) (s ++ [f]) = (.ok PUnit.unit, s ++ [f ++ g x])) :
    ∀ f, outcome (forIn l PUnit.unit fun x _ => do
        body x
        pure (ForInStep.yield PUnit.unit)) (s ++ [f])
      = (.ok PUnit.unit, s ++ [f ++ (l.map g).flatten]) := by
  induction l with
  | nil => intro f; simp [outcome_pure]
  | cons x l ih =>
    intro f
    rw [List.forIn_cons, bind_assoc, outcome_bind_ok (h x List.mem_cons_self f), pure_bind]
    dsimp only
    rw [ih (fun y hy => h y (List.mem_cons_of_mem _ hy))]
    simp

theorem flatten_singletons {γ δ : Type} (l : List γ) (x : γ → δ) :
    (l.map fun b => [x b]).flatten = l.map x := by
  induction l with
  | nil => rfl
  | cons a l ih => rw [List.map_cons, List.flatten_cons, ih, List.map_cons]; rfl

/-- The constant cement model never raises. -/
theorem cst_vels_ok (b K0 D0 G0 p c Cn Kc Gc Db Kb : α) (scheme : Int) (vsh Dsh Dqz Dc : α) :
    ∃ v, cst_vels b K0 D0 G0 p c Cn Kc Gc Db Kb scheme vsh Dsh Dqz Dc = .ok v := ⟨_, rfl⟩

/-- The screening curves never raise. -/
theorem screening_ok (Dqz Kqz Gqz Dsh Ksh Gsh Dc Kc Gc Db Kb b c sigma vsh : α) (scheme : Int)
    (f Cn : α) :
    ∃ rows, screening Dqz Kqz Gqz Dsh Ksh Gsh Dc Kc Gc Db Kb b c sigma vsh scheme f Cn = .ok rows := by
  have mm : ∀ phi : α, ∃ m, matrix_modulus vsh c phi Ksh Kqz Kc = .ok m := by
    intro phi
    unfold matrix_modulus
    dsimp only
    split <;> exact ⟨_, rfl⟩
  have entry : ∀ phi : α, ∃ v, (do
      let v ← screening_entry Dqz Kqz Gqz Dsh Ksh Gsh Dc Kc Gc Db Kb b c sigma vsh scheme f Cn phi
      return (phi, v) : Except PyErr (α × α × α × α × α × α × α)) = .ok v := by
    intro phi
    obtain ⟨m, hm⟩ := mm phi
    unfold screening_entry
    rw [hm]
    exact ⟨_, rfl⟩
  choose v hv using entry
  exact ⟨_, mapM_ok fun x _ => hv x⟩

/-- What `cst_plot` draws. -/
theorem shows_cst_plot {Dqz Kqz Gqz Dsh Ksh Gsh Dc Kc Gc Db Kb phib : α} (phib_p : List α)
    {phi_c sigma vsh Cn : α} {scheme : Int} {f kv kr K0 gv gr G0 : α}
    {rows : List (α × α × α × α × α × α × α)} {v : α → α → α × α}
    (hK : EM.VRH [vsh, 1 - vsh] [Ksh, Kqz] = .ok (kv, kr, K0))
    (hG : EM.VRH [vsh, 1 - vsh] [Gsh, Gqz] = .ok (gv, gr, G0))
    (hr : screening Dqz Kqz Gqz Dsh Ksh Gsh Dc Kc Gc Db Kb phib phi_c sigma vsh scheme f Cn = .ok rows)
    (hv : ∀ b p, cst_vels b K0 (Dsh * vsh + Dqz * (1 - vsh)) G0 p phi_c Cn Kc Gc Db Kb scheme vsh Dsh
      Dqz Dc = .ok (v b p)) :
    Shows (cst_plot Dqz Kqz Gqz Dsh Ksh Gsh Dc Kc Gc Db Kb phib phib_p phi_c sigma vsh Cn scheme f)
      ([.line (rows.map (·.1)) (rows.map (·.2.2.2.1)) "-k",
        .line (rows.map (·.1)) (rows.map (·.2.1)) "-k"] ++
      (phib_p.map fun b => .line (rows.map (·.1)) ((rows.map (·.1)).map fun p => (v b p).1) "--k")
      ++ [.ylabel "Vp (m/s)", .xlabel "porosity", .grid]) := by
  intro s
  have hm : ∀ b, (rows.map (·.1)).mapM (fun p => cst_vels b K0 (Dsh * vsh + Dqz * (1 - vsh)) G0 p
      phi_c Cn Kc Gc Db Kb scheme vsh Dsh Dqz Dc) = .ok ((rows.map (·.1)).map (v b)) :=
    fun b => mapM_ok fun p _ => hv b p
  unfold cst_plot
  rw [hK, outcome_bind_ok (outcome_lift _ _), hG, outcome_bind_ok (outcome_lift _ _), hr,
    outcome_bind_ok (outcome_lift _ _)]
  dsimp only
  rw [outcome_bind_ok (outcome_subplots s), outcome_bind_ok (outcome_axPlot s _ (by simp) _),
    outcome_bind_ok (outcome_axPlot s _ (by simp) _)]
  have body : ∀ b ∈ phib_p, ∀ fg : Figure α, outcome (do
      let v ← liftM ((rows.map (·.1)).mapM (fun p => cst_vels b K0 (Dsh * vsh + Dqz * (1 - vsh)) G0 p
        phi_c Cn Kc Gc Db Kb scheme vsh Dsh Dqz Dc))
      axPlot s.length (rows.map (·.1)) (v.map Prod.fst) "--k" : Plt α PUnit) (s ++ [fg])
        = (.ok PUnit.unit, s ++ [fg ++ [.line (rows.map (·.1))
          ((rows.map (·.1)).map fun p => (v b p).1) "--k"]]) := by
    intro b _ fg
    rw [hm, outcome_bind_ok (outcome_lift _ _), outcome_axPlot s _ (by simp) _, List.map_map]
    rfl
  have loop := outcome_forIn body
  simp only [bind_assoc] at loop
  rw [outcome_bind_ok (loop _), outcome_bind_ok (outcome_drawOn s _ _),
    outcome_bind_ok (outcome_drawOn s _ _), outcome_bind_ok (outcome_drawOn s _ _), outcome_pure]
  simp [flatten_singletons]

/-- C101: `cst_plot` never raises.  It shows the contact cement and the friable sand curve of
`screening`, then one constant cement line for each requested porosity, all over the porosities of
`screening`; the increasing cement curve is not shown. -/
theorem C101_cst_plot (Dqz Kqz Gqz Dsh Ksh Gsh Dc Kc Gc Db Kb phib : α) (phib_p : List α)
    (phi_c sigma vsh Cn : α) (scheme : Int) (f : α) :
    ∃ (K0 G0 : α) (rows : List (α × α × α × α × α × α × α)) (line : α → α → α) (fig : Figure α),
      (∃ v r, EM.VRH [vsh, 1 - vsh] [Ksh, Kqz] = .ok (v, r, K0)) ∧
      (∃ v r, EM.VRH [vsh, 1 - vsh] [Gsh, Gqz] = .ok (v, r, G0)) ∧
      screening Dqz Kqz Gqz Dsh Ksh Gsh Dc Kc Gc Db Kb phib phi_c sigma vsh scheme f Cn = .ok rows ∧
      (∀ b p, ∃ vs, cst_vels b K0 (Dsh * vsh + Dqz * (1 - vsh)) G0 p phi_c Cn Kc Gc Db Kb scheme vsh
        Dsh Dqz Dc = .ok (line b p, vs)) ∧
      Shows (cst_plot Dqz Kqz Gqz Dsh Ksh Gsh Dc Kc Gc Db Kb phib phib_p phi_c sigma vsh Cn scheme f)
        fig ∧
      curves fig = (rows.map (·.1), rows.map (·.2.2.2.1)) :: (rows.map (·.1), rows.map (·.2.1))
        :: phib_p.map (fun b => (rows.map (·.1), (rows.map (·.1)).map (line b))) ∧
      samples fig = [] ∧ maps fig = [] ∧ xtitle fig = some "porosity" ∧
      ytitle fig = some "Vp (m/s)" := by
  obtain ⟨rows, hr⟩ := screening_ok Dqz Kqz Gqz Dsh Ksh Gsh Dc Kc Gc Db Kb phib phi_c sigma vsh
    scheme f Cn
  have v2 : ∀ a b x y : α, ∃ v r h, EM.VRH [a, b] [x, y] = .ok (v, r, h) :=
    fun _ _ _ _ => ⟨_, _, _, rfl⟩
  obtain ⟨kv, kr, K0, hK⟩ := v2 vsh (1 - vsh) Ksh Kqz
  obtain ⟨gv, gr, G0, hG⟩ := v2 vsh (1 - vsh) Gsh Gqz
  have hc := fun b p => cst_vels_ok b K0 (Dsh * vsh + Dqz * (1 - vsh)) G0 p phi_c Cn Kc Gc Db Kb
    scheme vsh Dsh Dqz Dc
  choose v hv using hc
  refine ⟨K0, G0, rows, fun b p => (v b p).1, [.line (rows.map (·.1)) (rows.map (·.2.2.2.1)) "-k",
    .line (rows.map (·.1)) (rows.map (·.2.1)) "-k"] ++
    (phib_p.map fun b => .line (rows.map (·.1)) ((rows.map (·.1)).map fun p => (v b p).1) "--k")
    ++ [.ylabel "Vp (m/s)", .xlabel "porosity", .grid], ⟨_, _, hK⟩, ⟨_, _, hG⟩, hr,
    fun b p => ⟨(v b p).2, hv b p⟩, shows_cst_plot phib_p hK hG hr hv, ?_, ?_, ?_, ?_, ?_⟩
  all_goals simp [curves, samples, maps, xtitle, ytitle, List.filterMap_append, List.filterMap_map,
    Function.comp_def]

/-- C101: the constant cement line for the porosity `b` has no value at porosities above `b`, and
every curve of the plot has 100 points, at evenly spaced porosities from 1e-7 to the critical
porosity. -/
theorem C101_cst_lines_end (Dqz Kqz Gqz Dsh Ksh Gsh Dc Kc Gc Db Kb : Fl) (phib : ℝ)
    (phib_p : List ℝ) (c : ℝ) (sigma vsh Cn : Fl) (scheme : Int) (f : Fl) :
    ∃ fig, Shows (cst_plot Dqz Kqz Gqz Dsh Ksh Gsh Dc Kc Gc Db Kb (fin phib) (phib_p.map fin) (fin c)
        sigma vsh Cn scheme f) fig ∧
      (curves fig).length = 2 + phib_p.length ∧
      (∀ xy ∈ curves fig, xy.1 = (List.range 100).map (fun i : ℕ => fin (1e-7 + i * ((c - 1e-7) / 99)))
        ∧ xy.2.length = 100) ∧
      ∀ (n : ℕ) (hn : n < phib_p.length), ∃ xy, (curves fig)[2 + n]? = some xy ∧
        ∀ i : ℕ, i < 100 → phib_p[n] < 1e-7 + i * ((c - 1e-7) / 99) → xy.2[i]? = some bad := by
  obtain ⟨K0, G0, rows, line, fig, -, -, hr, hl, hs, hc, -⟩ := C101_cst_plot Dqz Kqz Gqz Dsh Ksh Gsh
    Dc Kc Gc Db Kb (fin phib) (phib_p.map fin) (fin c) sigma vsh Cn scheme f
  obtain ⟨rows', hr', hg, -⟩ := C74_screening (Dqz := Dqz) (Kqz := Kqz) (Gqz := Gqz) (Dsh := Dsh)
    (Ksh := Ksh) (Gsh := Gsh) (Dc := Dc) (Kc := Kc) (Gc := Gc) (Db := Db) (Kb := Kb)
    (sigma := sigma) (vsh := vsh) (f := f) (Cn := Cn) (c := c) (b := phib) (scheme := scheme)
  obtain rfl : rows = rows' := by rw [hr] at hr'; exact Except.ok.inj hr'
  have hlen : rows.length = 100 := by
    have := congrArg List.length hg
    simpa using this
  refine ⟨fig, hs, by rw [hc]; simp; omega, ?_, ?_⟩
  · intro xy hxy
    rw [hc] at hxy
    simp only [List.mem_cons, List.mem_map] at hxy
    rcases hxy with rfl | rfl | ⟨b, -, rfl⟩
    · exact ⟨hg, by simp [hlen]⟩
    · exact ⟨hg, by simp [hlen]⟩
    · exact ⟨hg, by simp [hlen]⟩
  · intro n hn
    refine ⟨(rows.map (·.1), (rows.map (·.1)).map (line (fin phib_p[n]))), ?_, ?_⟩
    · rw [hc, add_comm 2 n, List.getElem?_cons_succ, List.getElem?_cons_succ, List.getElem?_map,
        List.getElem?_map, List.getElem?_eq_getElem hn]
      rfl
    · intro i hi hb
      have e : (rows.map (·.1))[i]? = some (fin (1e-7 + i * ((c - 1e-7) / 99))) := by
        have hg' : rows.map (·.1) = _ := hg
        rw [hg', List.getElem?_map, List.getElem?_range hi]
        rfl
      dsimp only
      rw [List.getElem?_map, e]
      obtain ⟨vs, hv⟩ := hl (fin phib_p[n]) (fin (1e-7 + i * ((c - 1e-7) / 99)))
      rw [C90_cst_vels_beyond hb] at hv
      exact congrArg some (Prod.mk.inj (Except.ok.inj hv)).1.symm

/-! ## Cement diagnostics -/

/-- C101: `cement_diag_plot` shows the curves of `cst_plot` and every sample at its porosity and
velocity, coloured by its cement estimate on the scale from 0 to 0.1; if the estimates do not match
the samples it raises `ValueError` and leaves the figure with the curves open. -/
theorem C101_cement_diag_plot (q : Obj α) (vcem : List α)
    (Dqz Kqz Gqz Dsh Ksh Gsh Dc Kc Gc Db Kb phib : α) (phib_p : List α)
    (phi_c sigma vsh Cn : α) (scheme : Int) (f : α) :
    ∃ base, Shows (cst_plot Dqz Kqz Gqz Dsh Ksh Gsh Dc Kc Gc Db Kb phib phib_p phi_c sigma vsh Cn
        scheme f) base ∧
      (q.Vp.length = q.phi.length → vcem.length = q.phi.length →
        ∃ fig, Shows (cement_diag_plot q vcem Dqz Kqz Gqz Dsh Ksh Gsh Dc Kc Gc Db Kb phib phib_p phi_c
            sigma vsh Cn scheme f) fig ∧
          curves fig = curves base ∧ samples fig = [(q.phi, q.Vp, vcem, 0, 0.1, "cmap_cem")] ∧
          xtitle fig = some "Porosity" ∧ ytitle fig = some "Vp (m/s)") ∧
      (¬ (q.Vp.length = q.phi.length ∧ vcem.length = q.phi.length) →
        Abandons (cement_diag_plot q vcem Dqz Kqz Gqz Dsh Ksh Gsh Dc Kc Gc Db Kb phib phib_p phi_c
          sigma vsh Cn scheme f) .ValueError base) := by
  obtain ⟨K0, G0, rows, line, base, -, -, -, -, hs, -, h1, -, h3, h4⟩ := C101_cst_plot Dqz Kqz Gqz Dsh
    Ksh Gsh Dc Kc Gc Db Kb phib phib_p phi_c sigma vsh Cn scheme f
  refine ⟨base, hs, fun hv hc => ?_, fun h s => ?_⟩
  · refine ⟨base ++ [.points q.phi q.Vp vcem 0 0.1 "cmap_cem", .colorbar "$\\rm V_{CEM}$",
      .xlabel "Porosity", .ylim 1500 6500, .xlim (-0.007) 0.507], fun s => ?_, ?_, ?_, ?_, ?_⟩
    · unfold cement_diag_plot
      rw [outcome_bind_ok (hs s), outcome_bind_ok (outcome_scatter s _ ⟨hv.symm, hc.symm⟩ _ _ _),
        outcome_bind_ok (outcome_pltDraw s _ _), outcome_bind_ok (outcome_pltDraw s _ _),
        outcome_bind_ok (outcome_pltDraw s _ _), outcome_bind_ok (outcome_pltDraw s _ _),
        outcome_pure]
      simp
    · simp [curves]
    · unfold samples at h1 ⊢
      rw [List.filterMap_append, h1]
      rfl
    · simp [xtitle]
    · unfold ytitle at h4 ⊢
      rw [List.filterMap_append]
      simpa using h4
  · unfold cement_diag_plot
    rw [outcome_bind_ok (hs s), outcome_bind_error (outcome_scatter_error s _ (fun h' =>
      h ⟨h'.1.symm, h'.2.symm⟩) _ _ _)]

theorem mapM_length {γ δ : Type} {g : γ → Except PyErr δ} {l : List γ} {w : List δ}
    (h : l.mapM g = .ok w) : w.length = l.length := by
  induction l generalizing w with
  | nil => rw [List.mapM_nil] at h; cases h; rfl
  | cons a l ih =>
    rw [List.mapM_cons] at h
    cases ha : g a with
    | error e => rw [ha] at h; cases h
    | ok y =>
      cases hl : l.mapM g with
      | error e => rw [ha, hl] at h; cases h
      | ok z => rw [ha, hl] at h; cases h; rw [List.length_cons, List.length_cons, ih hl]

/-- C101: the estimates of `estimate_cem` can be passed to `cement_diag_plot` of the same object:
the plot is made. -/
theorem C101_cement_workflow (q : Obj α) {vcem seeds : List α} {a : Bool}
    (hv : q.Vp.length = q.phi.length)
    (Dqz Kqz Gqz Dsh Ksh Gsh Dc Kc Gc Db Kb phib : α) (phib_p : List α)
    (phi_c sigma vsh Cn : α) (scheme : Int) (f : α)
    (he : estimate_cem q.Vp q.phi seeds a Kqz Gqz Ksh Gsh phi_c Cn Kc Gc Db Kb scheme vsh Dsh Dqz Dc
      = .ok vcem) :
    ∃ fig, Shows (cement_diag_plot q vcem Dqz Kqz Gqz Dsh Ksh Gsh Dc Kc Gc Db Kb phib phib_p phi_c
        sigma vsh Cn scheme f) fig ∧ samples fig = [(q.phi, q.Vp, vcem, 0, 0.1, "cmap_cem")] := by
  have hl : vcem.length = q.phi.length := by
    unfold estimate_cem at he
    rw [mapM_length he, List.length_zip, hv, min_self]
  obtain ⟨base, -, h, -⟩ := C101_cement_diag_plot q vcem Dqz Kqz Gqz Dsh Ksh Gsh Dc Kc Gc Db Kb phib
    phib_p phi_c sigma vsh Cn scheme f
  obtain ⟨fig, h1, -, h2, -⟩ := h hv hl
  exact ⟨fig, h1, h2⟩

omit [PyNum α] in
/-- A sample of porosity 0.2 and any velocity, compared with the template of quartz grains with ten
per cent of quartz cement. -/
theorem quartz_estimate (v : ℝ) : ∃ x : Fl, (x = fin 0 ∨ x = fin 0.1) ∧
    estimate_cem [fin v] [fin 0.2] [fin 0.1] true (fin 36.6) (fin 45) (fin 36.6) (fin 45) (fin 0.4)
      (fin 8.6) (fin 36.6) (fin 45) (fin 1) (fin 2.5) 2 (fin 0.25) (fin 2.65) (fin 2.65) (fin 2.65)
      = .ok [x] := by
  obtain ⟨Kb, Gb, e, k, g, l⟩ := quartz_template
  obtain ⟨-, -, vp, vs, -, hc, -⟩ := C90_cal_v_const (Kqz := 36.6) (Gqz := 45) (Ksh := 36.6) (Gsh := 45)
    (K0 := 36.6) (G0 := 45) (φ := 0.2) (φb := 0.3) (φc := 0.4) (Kc := 36.6) (Gc := 45) (Kf := 2.5)
    (Df := 1) (vsh := 0.25) (Dsh := 2.65) (Dqz := 2.65) (Dc := fin 2.65) (by norm_num) (by norm_num)
    (by norm_num) (by norm_num) (by norm_num) (by norm_num) (by norm_num) (by norm_num) e
    (by norm_num) (by norm_num) (by norm_num) k g l (by norm_num) (by norm_num) (by norm_num)
    (by norm_num)
  have hs : (fin 0.4 : Fl) - fin 0.1 = fin 0.3 := by fl_eval []; norm_num
  have ht : TemplateVelocities (fin 36.6) (fin 45) (fin 36.6) (fin 45) (fin 0.4) (fin 36.6) (fin 45)
      (fin 1) (fin 2.5) 2 (fin 0.25) (fin 2.65) (fin 2.65) (fin 2.65) (fin 0.2) [0.1] fun _ => vp := by
    intro s hs'
    rw [List.mem_singleton.mp hs', hs]
    exact ⟨_, hc⟩
  obtain ⟨e0, e1, -⟩ := C61_estimate (seeds := [0.1]) (by simp) ht (by simp) (fin 8.6) v
  obtain ⟨x, hx, he⟩ : ∃ x : Fl, (x = fin 0 ∨ x = fin 0.1) ∧ estimate_cem_entry (fin 0.2) (fin v)
      [fin 0.1] true (fin 36.6) (fin 45) (fin 36.6) (fin 45) (fin 0.4) (fin 8.6) (fin 36.6) (fin 45)
      (fin 1) (fin 2.5) 2 (fin 0.25) (fin 2.65) (fin 2.65) (fin 2.65) = .ok x := by
    rcases le_or_gt v vp with h | h
    · exact ⟨_, .inl rfl, e0 _ rfl h⟩
    · exact ⟨_, .inr rfl, e1 _ _ rfl rfl h h.le⟩
  exact ⟨x, hx, C61_log (samples := [(fin v, fin 0.2)]) (out := fun _ => x) (by
    intro p hp
    rw [List.mem_singleton.mp hp]
    exact he)⟩

omit [PyNum α] in
/-- For this sample the estimate is zero or 0.1 and the diagnostic plot is made. -/
example (v : ℝ) : ∃ vcem, (vcem = [fin 0] ∨ vcem = [fin 0.1]) ∧
    ∃ fig, Shows (cement_diag_plot (init [fin v] [fin 0.2] fun _ => none) vcem (fin 2.65) (fin 36.6)
      (fin 45) (fin 2.65) (fin 36.6) (fin 45) (fin 2.65) (fin 36.6) (fin 45) (fin 1) (fin 2.5)
      (fin 0.3) [fin 0.38, fin 0.36] (fin 0.4) (fin 20) (fin 0.25) (fin 8.6) 2 (fin 0.5)) fig ∧
    samples fig = [([fin 0.2], [fin v], vcem, 0, 0.1, "cmap_cem")] := by
  obtain ⟨x, hx, he⟩ := quartz_estimate v
  refine ⟨[x], by rcases hx with rfl | rfl <;> simp, ?_⟩
  exact C101_cement_workflow (init [fin v] [fin 0.2] fun _ => none) (vcem := [x]) rfl _ _ _ _ _ _ _ _ _
    _ _ _ _ _ _ _ _ _ _ he

/-! ## Rock physics template -/

/-- The figure of `plot_rpt`. -/
theorem shows_plot_rpt (rock : List (α × α × α)) (K0 D0 Kb Db Khc Dhc : α) (sw : List α) (s' : α) :
    Shows (plot_rpt rock K0 D0 Kb Db Khc Dhc (sw ++ [s'])) ((rock.map fun r =>
      .line ((sw ++ [s']).map fun s => (rpt_entry r.1 r.2.1 K0 D0 Kb Db Khc Dhc r.2.2 s).1)
        ((sw ++ [s']).map fun s => (rpt_entry r.1 r.2.1 K0 D0 Kb Db Khc Dhc r.2.2 s).2) "-ok")
      ++ [.line (rock.map fun r => (rpt_entry r.1 r.2.1 K0 D0 Kb Db Khc Dhc r.2.2 s').1)
        (rock.map fun r => (rpt_entry r.1 r.2.1 K0 D0 Kb Db Khc Dhc r.2.2 s').2) "-ok",
        .xlabel "Acoustic Impedance", .ylabel "Vp/Vs"]) := by
  intro s
  have body : ∀ (s : List (Figure α)) (table : List (List (α × α))), ∀ row ∈ table, ∀ fg : Figure α,
      outcome (pltDraw (.line (row.map Prod.fst) (row.map Prod.snd) "-ok") : Plt α PUnit) (s ++ [fg])
        = (.ok PUnit.unit, s ++ [fg ++ [.line (row.map Prod.fst) (row.map Prod.snd) "-ok"]]) :=
    fun s _ _ _ fg => outcome_pltDraw s fg _
  unfold plot_rpt
  dsimp only
  rw [outcome_bind_ok (outcome_subplots s), outcome_bind_ok (outcome_forIn (body s _) _),
    if_neg (by simp)]
  rw [outcome_bind_ok (outcome_pltDraw s _ _), outcome_bind_ok (outcome_pltDraw s _ _),
    outcome_bind_ok (outcome_pltDraw s _ _), outcome_pure]
  simp [flatten_singletons, List.filterMap_map, Function.comp_def]

/-- C101: `plot_rpt` shows one line for each porosity, running through the saturations, and one
more line through the points of the last saturation. -/
theorem C101_plot_rpt (rock : List (α × α × α)) (K0 D0 Kb Db Khc Dhc : α) (sw : List α) (s' : α) :
    (∃ fig, Shows (plot_rpt rock K0 D0 Kb Db Khc Dhc (sw ++ [s'])) fig ∧
      curves fig = (rock.map fun r =>
        ((sw ++ [s']).map fun s => (rpt_entry r.1 r.2.1 K0 D0 Kb Db Khc Dhc r.2.2 s).1,
          (sw ++ [s']).map fun s => (rpt_entry r.1 r.2.1 K0 D0 Kb Db Khc Dhc r.2.2 s).2))
        ++ [(rock.map fun r => (rpt_entry r.1 r.2.1 K0 D0 Kb Db Khc Dhc r.2.2 s').1,
          rock.map fun r => (rpt_entry r.1 r.2.1 K0 D0 Kb Db Khc Dhc r.2.2 s').2)] ∧
      xtitle fig = some "Acoustic Impedance" ∧ ytitle fig = some "Vp/Vs") ∧
    ∃ fig, Abandons (plot_rpt rock K0 D0 Kb Db Khc Dhc []) .IndexError fig := by
  constructor
  · refine ⟨_, shows_plot_rpt rock K0 D0 Kb Db Khc Dhc sw s', ?_, ?_, ?_⟩
    all_goals simp [curves, xtitle, ytitle, List.filterMap_append, List.filterMap_map]
  · refine ⟨rock.map fun _ => .line [] [] "-ok", fun s => ?_⟩
    have body : ∀ (s : List (Figure α)) (table : List (List (α × α))), ∀ row ∈ table,
        ∀ fg : Figure α,
        outcome (pltDraw (.line (row.map Prod.fst) (row.map Prod.snd) "-ok") : Plt α PUnit) (s ++ [fg])
          = (.ok PUnit.unit, s ++ [fg ++ [.line (row.map Prod.fst) (row.map Prod.snd) "-ok"]]) :=
      fun s _ _ _ fg => outcome_pltDraw s fg _
    unfold plot_rpt
    dsimp only
    rw [outcome_bind_ok (outcome_subplots s), outcome_bind_ok (outcome_forIn (body s _) _),
      if_pos (by simp)]
    simp
    rfl

/-- C101: when the last saturation is one, the last line is the brine saturated rock at each
porosity; for rocks and fluids in the usual range each other line runs to larger impedance and
larger Vp/Vs as the saturation increases. -/
theorem C101_brine_line {rock : List (ℝ × ℝ × ℝ)} {K0 D0 Kb Db Kh Dh : ℝ} {sw : List ℝ}
    (hh : 0 < Kh) (hhb : Kh < Kb) (hb : Kb < K0) (hD0 : 0 < D0) (hDh : 0 ≤ Dh) (hDb : Dh ≤ Db)
    (hr : ∀ r ∈ rock, 0 ≤ r.1 ∧ r.1 < K0 ∧ 0 < r.2.1 ∧ 0 < r.2.2 ∧ r.2.2 < 1)
    (hsw : (sw ++ [1]).Pairwise (· < ·)) (h0 : ∀ s ∈ sw, 0 ≤ s) :
    let brine := fun r : ℝ × ℝ × ℝ =>
      Fluid.vels (fin r.1) (fin r.2.1) (fin K0) (fin D0) (fin Kb) (fin Db) (fin r.2.2)
    ∃ fig lines, Shows (plot_rpt (rock.map fun r => (fin r.1, fin r.2.1, fin r.2.2)) (fin K0) (fin D0)
        (fin Kb) (fin Db) (fin Kh) (fin Dh) ((sw ++ [1]).map fin)) fig ∧
      curves fig = lines ++ [(rock.map fun r => (brine r).1 * (brine r).2.2,
        rock.map fun r => (brine r).1 / (brine r).2.1)] ∧
      lines.length = rock.length ∧
      ∀ l ∈ lines, l.1.length = sw.length + 1 ∧ l.2.length = sw.length + 1 ∧
        l.1.Pairwise (· < ·) ∧ l.2.Pairwise (· < ·) := by
  obtain ⟨⟨fig, h1, h2, -⟩, -⟩ := C101_plot_rpt (rock.map fun r => (fin r.1, fin r.2.1, fin r.2.2))
    (fin K0) (fin D0) (fin Kb) (fin Db) (fin Kh) (fin Dh) (sw.map fin) (fin 1)
  have hKb : Kb ≠ 0 := by linarith
  have o : (fin 1 : Fl) = 1 := by fl_eval []
  intro brine
  have e : ∀ r : ℝ × ℝ × ℝ, rpt_entry (fin r.1) (fin r.2.1) (fin K0) (fin D0) (fin Kb) (fin Db)
      (fin Kh) (fin Dh) (fin r.2.2) (fin 1)
        = ((brine r).1 * (brine r).2.2, (brine r).1 / (brine r).2.1) := fun r => by
    rw [o]
    exact (C75_endpoints (Kd := fin r.1) (G := fin r.2.1) (K0 := fin K0) (D0 := fin D0) (Db := fin Db)
      (Dh := fin Dh) (phi := fin r.2.2) hKb hh.ne' ⟨_, rfl⟩ ⟨_, rfl⟩).1
  have hs' : sw.map fin ++ [fin 1] = (sw ++ [1]).map fin := by simp
  rw [hs'] at h1 h2
  refine ⟨fig, rock.map fun r =>
    ((sw ++ [1]).map fun s => (rpt_entry (fin r.1) (fin r.2.1) (fin K0) (fin D0) (fin Kb) (fin Db)
      (fin Kh) (fin Dh) (fin r.2.2) (fin s)).1,
    (sw ++ [1]).map fun s => (rpt_entry (fin r.1) (fin r.2.1) (fin K0) (fin D0) (fin Kb) (fin Db)
      (fin Kh) (fin Dh) (fin r.2.2) (fin s)).2), h1, ?_, ?_, ?_⟩
  · rw [h2]
    simp only [List.map_map, Function.comp_def, e]
  · simp
  · intro l hl
    obtain ⟨r, hrm, rfl⟩ := List.mem_map.mp hl
    obtain ⟨a1, a2, a3, a4, a5⟩ := hr r hrm
    have mono : ∀ s ∈ sw ++ [1], ∀ s' ∈ sw ++ [1], s < s' → _ := fun s hs s' hs' hlt =>
      C75_monotone (Kd := r.1) (G := r.2.1) (K0 := K0) (D0 := D0) (Kb := Kb) (Kh := Kh) (Db := Db)
        (Dh := Dh) (φ := r.2.2) (s := s) (s' := s') a1 a2 a3 hh hhb hb a4 a5 hD0 hDh hDb
        (by
          rcases List.mem_append.mp hs with h | h
          · exact h0 s h
          · rw [List.mem_singleton.mp h]; norm_num)
        hlt (by
          rcases List.mem_append.mp hs' with h | h
          · exact ((List.pairwise_append.mp hsw).2.2 s' h 1 (by simp)).le
          · exact (List.mem_singleton.mp h).le)
    refine ⟨by simp, by simp, ?_, ?_⟩
    · rw [List.pairwise_map]
      exact hsw.imp_of_mem fun hs hs' h => (mono _ hs _ hs' h).1
    · rw [List.pairwise_map]
      exact hsw.imp_of_mem fun hs hs' h => (mono _ hs _ hs' h).2

/-! ## A session -/

/-- C101: no plotting call depends on the figures that are open or touches one of them; it adds
one figure, whether it succeeds or raises. -/
theorem C101_isolated (q : Obj α) :
    (∀ (phi v1 v2 v3 : List α) (cmap : String), Isolated (screening_plot q phi v1 v2 v3 cmap)) ∧
    (∀ (kde2d : List α → Option (List α) → Nat → Except PyErr (Kde α)) (phi v1 v2 v3 : List α)
      (cmap vels : String) (n : Nat), Isolated (kde_plot kde2d q phi v1 v2 v3 cmap vels n)) ∧
    (∀ (Dqz Kqz Gqz Dsh Ksh Gsh Dc Kc Gc Db Kb phib : α) (phib_p : List α) (phi_c sigma vsh Cn : α)
      (scheme : Int) (f : α),
      Isolated (cst_plot Dqz Kqz Gqz Dsh Ksh Gsh Dc Kc Gc Db Kb phib phib_p phi_c sigma vsh Cn scheme f)
      ∧ ∀ vcem, Isolated (cement_diag_plot q vcem Dqz Kqz Gqz Dsh Ksh Gsh Dc Kc Gc Db Kb phib phib_p
        phi_c sigma vsh Cn scheme f)) ∧
    (∀ (rock : List (α × α × α)) (K0 D0 Kb Db Khc Dhc : α) (sw : List α),
      Isolated (plot_rpt rock K0 D0 Kb Db Khc Dhc sw)) := by
  refine ⟨fun phi v1 v2 v3 cmap => ?_, fun kde2d phi v1 v2 v3 cmap vels n => ?_, ?_,
    fun rock K0 D0 Kb Db Khc Dhc sw => ?_⟩
  · obtain ⟨e1, e2, e3⟩ := C101_screening_plot_error q phi v1 v2 v3 cmap
    by_cases h : v1.length = phi.length ∧ v2.length = phi.length ∧ v3.length = phi.length
    · obtain ⟨h1, h2, h3⟩ := h
      cases hV : q.Vsh with
      | none =>
        obtain ⟨f, hf, -⟩ := e2 h1 h2 h3 hV
        exact .inr ⟨_, f, hf⟩
      | some Vsh =>
        by_cases h' : q.Vp.length = q.phi.length ∧ Vsh.length = q.phi.length
        · obtain ⟨f, hf, -⟩ := C101_screening_plot q cmap h1 h2 h3 hV h'.1 h'.2
          exact .inl ⟨f, hf⟩
        · obtain ⟨f, hf, -⟩ := e3 h1 h2 h3 Vsh hV h'
          exact .inr ⟨_, f, hf⟩
    · obtain ⟨f, hf, -⟩ := e1 h
      exact .inr ⟨_, f, hf⟩
  · by_cases h : v1.length = phi.length ∧ v2.length = phi.length ∧ v3.length = phi.length
    · obtain ⟨h1, h2, h3⟩ := h
      by_cases hv : vels = "Vp" ∨ vels = "Vs"
      · cases hk : kde2d q.phi (velocity q vels) n with
        | error e =>
          obtain ⟨f, hf, -⟩ := C101_kde_error (kde2d := kde2d) q cmap (e := e) h1 h2 h3 hv
            (by rw [hk]; rfl)
          exact .inr ⟨_, f, hf⟩
        | ok k =>
          cases hd : kde_density k with
          | error e =>
            obtain ⟨f, hf, -⟩ := C101_kde_error (kde2d := kde2d) q cmap (e := e) h1 h2 h3 hv
              (by rw [hk, except_ok_bind, hd]; rfl)
            exact .inr ⟨_, f, hf⟩
          | ok d =>
            obtain ⟨f, hf, -⟩ := C101_kde_plot q cmap h1 h2 h3 hv hk hd
            exact .inl ⟨f, hf⟩
      · obtain ⟨f, hf, -⟩ := (C101_kde_ignored kde2d q cmap cmap vels n h1 h2 h3).2
          (fun h => hv (.inl h)) (fun h => hv (.inr h))
        exact .inl ⟨f, hf⟩
    · obtain ⟨f, -, e⟩ := outcome_bounds_error (β := Nat) h
      exact .inr ⟨_, f, fun s => e s _⟩
  · intro Dqz Kqz Gqz Dsh Ksh Gsh Dc Kc Gc Db Kb phib phib_p phi_c sigma vsh Cn scheme f
    refine ⟨?_, fun vcem => ?_⟩
    · obtain ⟨_, _, _, _, fig, -, -, -, -, hs, -⟩ := C101_cst_plot Dqz Kqz Gqz Dsh Ksh Gsh Dc Kc Gc Db
        Kb phib phib_p phi_c sigma vsh Cn scheme f
      exact .inl ⟨fig, hs⟩
    · obtain ⟨base, -, ho, he⟩ := C101_cement_diag_plot q vcem Dqz Kqz Gqz Dsh Ksh Gsh Dc Kc Gc Db Kb
        phib phib_p phi_c sigma vsh Cn scheme f
      by_cases h : q.Vp.length = q.phi.length ∧ vcem.length = q.phi.length
      · obtain ⟨fig, hf, -⟩ := ho h.1 h.2
        exact .inl ⟨fig, hf⟩
      · exact .inr ⟨_, base, he h⟩
  · rcases List.eq_nil_or_concat' sw with rfl | ⟨l, a, rfl⟩
    · obtain ⟨-, fig, hf⟩ := C101_plot_rpt rock K0 D0 Kb Db Khc Dhc [] 0
      exact .inr ⟨_, fig, hf⟩
    · obtain ⟨⟨fig, hf, -⟩, -⟩ := C101_plot_rpt rock K0 D0 Kb Db Khc Dhc l a
      exact .inl ⟨fig, hf⟩

omit [PyNum α] in
/-- C101: after any series of plotting calls, some of which may have raised, the open figures are
those open before, unchanged, followed by the figure of each call as it would look had it been the
only one. -/
theorem C101_session {ps : List (Plt α Nat)} (h : ∀ p ∈ ps, Isolated p) (s : List (Figure α)) :
    ∃ figs, session ps s = s ++ figs ∧ figs.length = ps.length ∧
      ∀ i, ∀ hi : i < ps.length, ∀ hf : i < figs.length, (outcome ps[i] []).2 = [figs[i]] := by
  have one : ∀ p ∈ ps, ∃ f, ∀ s, (outcome p s).2 = s ++ [f] := by
    intro p hp
    rcases h p hp with ⟨f, hf⟩ | ⟨e, f, hf⟩
    · exact ⟨f, fun s => by rw [hf s]⟩
    · exact ⟨f, fun s => by rw [hf s]⟩
  clear h
  induction ps generalizing s with
  | nil => exact ⟨[], by simp [session], rfl, fun i hi => absurd hi (by simp)⟩
  | cons p ps ih =>
    obtain ⟨f, hf⟩ := one p List.mem_cons_self
    obtain ⟨figs, h1, h2, h3⟩ := ih (s ++ [f]) fun p hp => one p (List.mem_cons_of_mem _ hp)
    refine ⟨f :: figs, ?_, by simp [h2], ?_⟩
    · have : session (p :: ps) s = session ps (s ++ [f]) := by
        simp only [session, List.foldl_cons, hf s]
      rw [this, h1]; simp
    · intro i hi hfi
      cases i with
      | zero => exact hf []
      | succ i => exact h3 i (by simpa using hi) (by simpa using hfi)

/-! ## Concrete cases -/

/-- Two samples with shale content and three bounds at two porosities. -/
example : ∃ f : Figure Fl, Shows (screening_plot (init [fin 3000, fin 3500] [fin 0.3, fin 0.2]
      (fun n => if n = "Vsh" then some [fin 0.1, fin 0.4] else none))
      [fin 0.1, fin 0.4] [fin 4000, fin 2500] [fin 4100, fin 2600] [fin 4200, fin 2700] "jet") f ∧
    samples f = [([fin 0.3, fin 0.2], [fin 3000, fin 3500], [fin 0.1, fin 0.4].map fun v => 1 - v,
      0, 1, "jet")] := by
  obtain ⟨f, h1, -, h2, -⟩ := C101_screening_plot (init [fin 3000, fin 3500] [fin 0.3, fin 0.2]
      (fun n => if n = "Vsh" then some [fin 0.1, fin 0.4] else none))
    (phi := [fin 0.1, fin 0.4]) (v1 := [fin 4000, fin 2500]) (v2 := [fin 4100, fin 2600])
    (v3 := [fin 4200, fin 2700]) "jet" rfl rfl rfl rfl rfl rfl
  exact ⟨f, h1, h2⟩

/-- The shale content passed under the wrong name. -/
example : ∃ f : Figure Fl, Abandons (screening_plot (init [fin 3000] [fin 0.3]
      (fun n => if n = "vsh" then some [fin 0.1] else none))
      [fin 0.1] [fin 4000] [fin 4100] [fin 4200] "jet") .TypeError f ∧ samples f = [] :=
  (C101_object [fin 3000] [fin 0.3] (fun _ _ => rfl)).2.2.2.2.2 rfl _ _ _ _ _ rfl rfl rfl

/-- A density estimate on a grid of one by two points. -/
example : ∃ f : Figure Fl, ∃ d, Shows (kde_plot (fun _ _ _ => .ok ⟨1, 2, fun _ j => fin (j + 1 : ℝ),
      fun _ => fin 0.2, fun j => fin (1000 * j)⟩) (init [fin 3000] [fin 0.3] fun _ => none)
      [fin 0.1] [fin 4000] [fin 4100] [fin 4200] "jet" "Vp" 16) f ∧
    maps f = [(⟨1, 2, d, fun _ => fin 0.2, fun j => fin (1000 * j)⟩, "cmap_kde")] ∧
    ytitle f = some "Vp" := by
  obtain ⟨z, hz, -⟩ := C101_kde_values (k := ⟨1, 2, fun _ j => fin (j + 1 : ℝ),
      fun _ => fin 0.2, fun j => fin (1000 * j)⟩) (D := fun _ j => (j + 1 : ℝ)) rfl (a := 0) (b := 1)
    (by norm_num) (by intro i j; fin_cases j <;> norm_num)
  obtain ⟨f, h1, -, h2, -, -, h3⟩ := C101_kde_plot
    (kde2d := fun _ _ _ => .ok ⟨1, 2, fun _ j => fin (j + 1 : ℝ), fun _ => fin 0.2,
      fun j => fin (1000 * j)⟩) (init [fin 3000] [fin 0.3] fun _ => none) (phi := [fin 0.1])
    (v1 := [fin 4000]) (v2 := [fin 4100]) (v3 := [fin 4200]) "jet" (n := 16) rfl rfl rfl (.inl rfl)
    rfl hz
  exact ⟨f, _, h1, h2, h3⟩

/-- A template for two porosities and three saturations. -/
example : ∃ fig, Shows (plot_rpt ([((12 : ℝ), (10 : ℝ), (0.25 : ℝ)), (15, 12, 0.2)].map fun r =>
      (fin r.1, fin r.2.1, fin r.2.2)) (fin 37) (fin 2.65) (fin 2.5) (fin 1) (fin 0.1) (fin 0.2)
      (([(0 : ℝ), 0.5] ++ [1]).map fin)) fig ∧ (curves fig).length = 3 := by
  obtain ⟨fig, l, h1, h2, h3, -⟩ := C101_brine_line (rock := [(12, 10, 0.25), (15, 12, 0.2)])
    (K0 := 37) (D0 := 2.65) (Kb := 2.5) (Db := 1) (Kh := 0.1) (Dh := 0.2) (sw := [0, 0.5])
    (by norm_num) (by norm_num) (by norm_num) (by norm_num) (by norm_num) (by norm_num)
    (by
      intro r hr
      simp only [List.mem_cons, List.not_mem_nil, or_false] at hr
      rcases hr with rfl | rfl <;> norm_num)
    (by simp; norm_num) (by intro s hs; simp at hs; rcases hs with rfl | rfl <;> norm_num)
  exact ⟨fig, h1, by rw [h2, List.length_append, h3]; rfl⟩

/-- A session of two calls, the second of which raises. -/
example (s : List (Figure Fl)) : ∃ a b, session [plot_rpt [] (fin 37) (fin 2.65) (fin 2.5) (fin 1)
      (fin 0.1) (fin 0.2) [fin 1], plot_rpt [] (fin 37) (fin 2.65) (fin 2.5) (fin 1)
      (fin 0.1) (fin 0.2) []] s = s ++ [a, b] := by
  obtain ⟨figs, h1, h2, -⟩ := C101_session (ps := [plot_rpt [] (fin 37) (fin 2.65) (fin 2.5) (fin 1)
      (fin 0.1) (fin 0.2) [fin 1], plot_rpt [] (fin 37) (fin 2.65) (fin 2.5) (fin 1)
      (fin 0.1) (fin 0.2) []]) (by
    intro p hp
    have := (C101_isolated (α := Fl) (init [] [] fun _ => none)).2.2.2
    simp only [List.mem_cons, List.not_mem_nil, or_false] at hp
    rcases hp with rfl | rfl <;> exact this _ _ _ _ _ _ _ _) s
  match figs, h2 with
  | [a, b], _ => exact ⟨a, b, h1⟩

end RockPhy.Props
