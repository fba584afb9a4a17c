import Verif.Model.Plot

/-!
# Specification: what a plot shows

A plotting call starts from the figures that are already open, whatever they are, and ends with a
value or an exception and a list of open figures.
-/

namespace RockPhy.Spec

open QI

variable {α β : Type}

/-- Outcome of a drawing computation started with the open figures `s`: the value or exception, and
the figures open afterwards. -/
def outcome (p : Plt α β) (s : List (Figure α)) : Except PyErr β × List (Figure α) :=
  StateT.run (ExceptT.run p) s

/-- The curves of a figure, as pairs of coordinates lists. -/
def curves (f : Figure α) : List (List α × List α) :=
  f.filterMap fun | .line x y _ => some (x, y) | _ => none

/-- The data samples of a figure: coordinates, colour values, colour range and colour map. -/
def samples (f : Figure α) : List (List α × List α × List α × α × α × String) :=
  f.filterMap fun | .points x y c lo hi m => some (x, y, c, lo, hi, m) | _ => none

/-- The density maps of a figure: grid and value at each horizontal and vertical grid position, and
the colour map. -/
def maps (f : Figure α) : List (Kde α × String) :=
  f.filterMap fun | .mesh x y z c => some (⟨_, _, fun i j => z j i, x, y⟩, c) | _ => none

/-- The horizontal axis label that is in force at the end. -/
def xtitle (f : Figure α) : Option String :=
  (f.filterMap fun | .xlabel s => some s | _ => none).getLast?

/-- The vertical axis label that is in force at the end. -/
def ytitle (f : Figure α) : Option String :=
  (f.filterMap fun | .ylabel s => some s | _ => none).getLast?

/-- Whatever figures are open, the call opens one more, leaves the others alone, draws `f` on the
new one and returns it. -/
def Shows (p : Plt α Nat) (f : Figure α) : Prop := ∀ s, outcome p s = (.ok s.length, s ++ [f])

/-- Whatever figures are open, the call raises `e` and leaves a new, half drawn figure `f` open. -/
def Abandons (p : Plt α Nat) (e : PyErr) (f : Figure α) : Prop :=
  ∀ s, outcome p s = (.error e, s ++ [f])

/-- What a plotting call does to the open figures does not depend on them: it adds one figure,
finished or not, and never touches another. -/
def Isolated (p : Plt α Nat) : Prop := (∃ f, Shows p f) ∨ ∃ e f, Abandons p e f

/-- The figures open after a series of calls, each of which may fail. -/
def session (ps : List (Plt α Nat)) (s : List (Figure α)) : List (Figure α) :=
  ps.foldl (fun s p => (outcome p s).2) s

end RockPhy.Spec
