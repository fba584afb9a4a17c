import Verif.Py.Plot
import Verif.Source.Program
import Verif.Spec.Plot

/-!
# What it means that the source of a plot draws something

`Plots d f self vs p`: calling the method named `f` of an object with the attributes `self` on the
arguments `vs` ends as the model `p` of the plot does, with the same figures open, whatever figures
were open before and whatever the functions outside the package do.
-/

namespace RockPhy.Py

variable {α : Type} [PyNum α]

/-- A thing drawn by a model, as a thing drawn by the source. -/
def shownMark : QI.Draw α → Mark α
  | .line x y fmt => .line x y fmt
  | .points x y c lo hi cmap => .points x y c lo hi cmap
  | .mesh x y z cmap => .mesh (List.ofFn x) (List.ofFn y) (List.ofFn fun j => List.ofFn (z j)) cmap
  | .contour x y z => .contour (List.ofFn x) (List.ofFn y) (List.ofFn fun j => List.ofFn (z j))
  | .colorbar s => .colorbar s
  | .xlabel s => .xlabel s
  | .ylabel s => .ylabel s
  | .xlim a b => .xlim a b
  | .ylim a b => .ylim a b
  | .grid => .grid

/-- The figures of a model, as figures of the source. -/
def shown (s : List (QI.Figure α)) : Figs α := s.map (List.map shownMark)

/-- An array, or `None`. -/
def optVec : Option (List α) → Val α
  | some l => .vec l
  | .none => .none

/-- The attributes of a `QI` object. -/
def attributesOf (q : QI.Obj α) : List (Name × Val α) :=
  [(n!"self.Vp", .vec q.Vp), (n!"self.phi", .vec q.phi), (n!"self.Vsh", optVec q.Vsh),
    (n!"self.Vs", optVec q.Vs), (n!"self.den", optVec q.den),
    (n!"self.eff_stress", optVec q.eff_stress), (n!"self.TVD", optVec q.TVD)]

/-- How a call of a plot ends, in terms of the model: `ret` is the value for the figure at a
position. -/
def ends (ret : Nat → Val α) : Except PyErr Nat × List (QI.Figure α) → Res (Val α) × Figs α
  | (.ok i, s) => (.ok (ret i), shown s)
  | (.error e, s) => (.error (.py e), shown s)

/-- Calling the method `f` of the object with the attributes `self` on `vs`; calls may be nested `d`
deep. -/
def callMethod (L : Lib α) (d : Nat) (f : Name) (self : List (Name × Val α)) (vs : List (Val α)) :
    Draws α (Val α) :=
  match lookup f Source.methods with
  | some g => g.draw (callFn L Source.program d) (drawer L Source.program Source.methods d) self vs []
  | .none => Draws.lift (.error .stuck)

/-- The method `f` of the object `self` called on `vs` draws what `p` draws and returns a handle
on the same figure. -/
def Plots (L : Lib α) (d : Nat) (f : Name) (self : List (Name × Val α)) (vs : List (Val α))
    (ret : Nat → Val α) (p : QI.Plt α Nat) : Prop :=
  ∀ (k : Nat) (s : List (QI.Figure α)),
    (callMethod L (k + d) f self vs).onFigures (shown s) = ends ret (Spec.outcome p s)

/-- `L` answers `kde2d(x, y, n=n, limits=None)` as the given function does: the density, the two
axes of the grid, and a bandwidth, which is not used. -/
def Kde2d (L : Lib α) (kde2d : List α → Option (List α) → Nat → Except PyErr (QI.Kde α)) : Prop :=
  ∀ (F : Caller α) (x : List α) (y : Option (List α)) (n : Nat), ∃ bandwidth : Val α,
    L F n!"kde2d" [.vec x, optVec y] [(n!"n", .int (.ofNat n)), (n!"limits", .none)] =
      (ofPy (kde2d x y n)).map fun k => .tup [.mat (List.ofFn fun i => List.ofFn (k.density i)),
        .tup [.vec (List.ofFn k.gridx), .vec (List.ofFn k.gridy)], bandwidth]

/-- `L` answers `np.empty((m, n))` with a table of `m` rows of `n` floating point numbers, whatever
they are. -/
def Empties2 (L : Lib α) : Prop :=
  ∀ (F : Caller α) (m n : Nat), ∃ e : List (List α), e.length = m ∧
    (∀ r ∈ e, r.length = n ∧ ∀ a ∈ r, ∀ x, PyNum.store a x = x) ∧
    L F n!"np.empty" [.tup [.int (.ofNat m), .int (.ofNat n)]] [] = .ok (.mat e)

/-- `L` answers `str` of a number as the given function does. -/
def Strs (L : Lib α) (str : α → String) : Prop :=
  ∀ (F : Caller α) (a : α), L F n!"str" [.num a] [] = .ok (.str (str a))

/-- The method `f` of the object with the attributes `self` called on `vs`: what it returns; calls
may be nested `d` deep. -/
def callSelf (L : Lib α) (d : Nat) (f : Name) (self : List (Name × Val α)) (vs : List (Val α)) :
    Res (Val α) :=
  match lookup f Source.methods with
  | some g => (g.runSelf (callFn L Source.program d) self vs []).map fun r => r.2.getD Val.none
  | .none => .error .stuck

/-- The seeds, in an array or in a list. -/
def seedsVal (asArray : Bool) (seeds : List α) : Val α :=
  if asArray then .vec seeds else .tup (seeds.map .num)

/-- The printed forms tell the seeds apart, and so does the comparison of numbers. -/
def Distinct (name : α → String) (seeds : List α) : Prop :=
  ∀ a ∈ seeds, ∀ b ∈ seeds, (name a = name b → a = b) ∧ (PyNum.eq a b = true ↔ a = b)

/-- The dictionary of surplus keyword arguments. -/
def dict (kwargs : List (String × List α)) : Val α :=
  .tup (kwargs.map fun p => .tup [.str p.1, .vec p.2])

end RockPhy.Py
