import Verif.Py.Semantics

/-!
# The meaning of the source of the plots

Calls of pyplot, of methods of axes, figures and colour bars, and of functions of the package that
draw are statements of the source, or stand on the right of `=`; everything else in a plot is
evaluated by the interpreter of `Verif/Py/Semantics.lean`.

pyplot is a list of open figures, the last of which is the current one; a figure is the list of
things drawn on its axes.  Line widths, marker sizes, transparency and figure sizes have no effect
here.  A figure, its axes and its colour bar are known by the position of the figure.
-/

namespace RockPhy.Py

open RockPhy Val

/-- One thing drawn on a pair of axes. -/
inductive Mark (α : Type)
  | line (x y : List α) (fmt : String)
  | points (x y c : List α) (vmin vmax : α) (cmap : String)
  | mesh (x y : List α) (z : List (List α)) (cmap : String)
  | contour (x y : List α) (z : List (List α))
  | colorbar (label : String)
  | xlabel (s : String)
  | ylabel (s : String)
  | xlim (a b : α)
  | ylim (a b : α)
  | grid

/-- One command of a plot: a new figure, something drawn on the axes of a figure, a label for the
colour bar that was drawn last on a figure. -/
inductive Cmd (α : Type)
  | figure
  | draw (i : Nat) (m : Mark α)
  | label (i : Nat) (s : String)

/-- The open figures. -/
abbrev Figs (α : Type) := List (List (Mark α))

/-- A computation that draws: it may raise an exception, and issues commands to pyplot.  Its state
is the number of open figures and the list of commands, the latest first. -/
abbrev Draws (α β : Type) := Nat × List (Cmd α) → Res β × Nat × List (Cmd α)

namespace Draws

variable {α β γ : Type}

/-- A computation that draws nothing. -/
def lift (r : Res β) : Draws α β := fun s => (r, s)

/-- One computation after the other; an exception stops. -/
def bind (p : Draws α β) (f : β → Draws α γ) : Draws α γ := fun s =>
  match p s with
  | (.ok b, s') => f b s'
  | (.error e, s') => (.error e, s')

/-- A function of the result. -/
def map (f : β → γ) (p : Draws α β) : Draws α γ := bind p fun b => lift (.ok (f b))

end Draws

open Draws

variable {α : Type} [PyNum α]

/-- A handle on the figure at a position. -/
def handle (kind : String) (i : Nat) : Val α := tup [str kind, int (.ofNat i)]

/-- A new figure, which becomes the current one; its position. -/
def newFigure : Draws α Nat := fun s => (.ok s.1, s.1 + 1, .figure :: s.2)

/-- The position of the current figure; without any figure pyplot opens one. -/
def current : Draws α Nat := fun s => match s.1 with
  | 0 => newFigure s
  | n + 1 => (.ok n, s)

/-- Drawing on the axes of a figure. -/
def mark (i : Nat) (m : Mark α) : Draws α (Val α) :=
  fun s => (.ok none, s.1, .draw i m :: s.2)

/-- Drawing several things. -/
def marks (i : Nat) : List (Mark α) → Draws α (Val α)
  | [] => lift (.ok none)
  | m :: l => bind (mark i m) fun _ => marks i l

/-- Drawing on the current figure. -/
def markCurrent (m : Mark α) : Draws α (Val α) := bind current fun i => mark i m

/-- A number among the values. -/
def asNum : Val α → Res α
  | num a => .ok a
  | int n => .ok (ofInt n)
  | _ => .error .stuck

/-- A string among the values. -/
def asStr : Val α → Res String
  | str s => .ok s
  | _ => .error .stuck

/-- A keyword argument. -/
def kwArg (x : Name) (kw : List (Name × Val α)) : Res (Val α) :=
  match lookup x kw with
  | some v => .ok v
  | .none => .error .stuck

/-- The lines of `plot(x, y, fmt)`: one for two vectors; one for every column of two arrays of rank
two.  `ValueError` when the lengths differ. -/
def plotLines : List (Val α) → Res (List (Mark α))
  | [vec x, vec y, str fmt] =>
    if x.length = y.length then .ok [.line x y fmt] else .error (.py .ValueError)
  | [mat x, mat y, str fmt] => .ok (List.zipWith (.line · · fmt) (transpose x) (transpose y))
  | _ => .error .stuck

/-- The points of `scatter(x, y, c=c, vmin=vmin, vmax=vmax, cmap=cmap)`; `ValueError` when the sizes
differ. -/
def scatterPoints : List (Val α) → List (Name × Val α) → Res (Mark α)
  | [vec x, vec y], kw =>
    (kwArg n!"c" kw).bind fun c => (kwArg n!"vmin" kw).bind fun lo => (asNum lo).bind fun lo =>
    (kwArg n!"vmax" kw).bind fun hi => (asNum hi).bind fun hi =>
    (kwArg n!"cmap" kw).bind fun cmap => (asStr cmap).bind fun cmap => match c with
    | vec c => if x.length = y.length ∧ x.length = c.length then .ok (.points x y c lo hi cmap)
        else .error (.py .ValueError)
    | _ => .error .stuck
  | _, _ => .error .stuck

/-- A function of pyplot, or of the package, that draws. -/
abbrev Draw (α : Type) := List (Val α) → List (Name × Val α) → Draws α (Val α)

/-- The functions of pyplot the source calls. -/
def pyplot : List (Name × Draw α) :=
  [ (n!"plt.subplots", fun
      | [], [] => (newFigure).map fun i => tup [handle "figure" i, handle "axes" i]
      | _, _ => lift (.error .stuck)),
    (n!"plt.figure", fun
      | [], _ => (newFigure).map (handle "figure")
      | _, _ => lift (.error .stuck)),
    (n!"plt.plot", fun as _ => current.bind fun i => (lift (plotLines as)).bind (marks i)),
    (n!"plt.scatter", fun as kw =>
      current.bind fun i => (lift (scatterPoints as kw)).bind (mark i)),
    (n!"plt.pcolormesh", fun as kw => current.bind fun i => match as with
      | [vec x, vec y, mat z] => (lift ((kwArg n!"cmap" kw).bind asStr)).bind fun cmap =>
          mark i (.mesh x y z cmap)
      | _ => lift (.error .stuck)),
    (n!"plt.contour", fun as _ => current.bind fun i => match as with
      | [vec x, vec y, mat z] => mark i (.contour x y z)
      | _ => lift (.error .stuck)),
    (n!"plt.colorbar", fun
      | [], [] => current.bind fun i =>
          (mark i (.colorbar "")).map fun _ => handle "colorbar" i
      | _, _ => lift (.error .stuck)),
    (n!"plt.xlabel", fun
      | [str s], [] => markCurrent (.xlabel s)
      | _, _ => lift (.error .stuck)),
    (n!"plt.ylabel", fun
      | [str s], [] => markCurrent (.ylabel s)
      | _, _ => lift (.error .stuck)),
    (n!"plt.xlim", fun
      | [tup [a, b]], [] => (lift (asNum a)).bind fun a => (lift (asNum b)).bind fun b =>
          markCurrent (.xlim a b)
      | _, _ => lift (.error .stuck)),
    (n!"plt.ylim", fun
      | [tup [a, b]], [] => (lift (asNum a)).bind fun a => (lift (asNum b)).bind fun b =>
          markCurrent (.ylim a b)
      | _, _ => lift (.error .stuck)) ]

/-- The position of the figure of a handle of the given kind. -/
def position? (kind : String) : Val α → Res Nat
  | tup [str k, int (.ofNat i)] => if k = kind then .ok i else .error .stuck
  | _ => .error .stuck

/-- The methods of figures, axes and colour bars the source calls. -/
def drawMethods : List (Name × (Val α → Draw α)) :=
  let axes (g : Nat → Draw α) (v : Val α) : Draw α := fun as kw =>
    (lift (position? "axes" v)).bind fun i => g i as kw
  [ (n!"set_size_inches", fun v _ _ => (lift (position? "figure" v)).map fun _ => none),
    (n!"plot", axes fun i as _ => (lift (plotLines as)).bind (marks i)),
    (n!"set_xlabel", axes fun i as _ => match as with
      | [str s] => mark i (.xlabel s)
      | _ => lift (.error .stuck)),
    (n!"set_ylabel", axes fun i as _ => match as with
      | [str s] => mark i (.ylabel s)
      | _ => lift (.error .stuck)),
    (n!"set_xlim", axes fun i as _ => match as with
      | [tup [a, b]] => (lift (asNum a)).bind fun a => (lift (asNum b)).bind fun b =>
          mark i (.xlim a b)
      | _ => lift (.error .stuck)),
    (n!"grid", axes fun i as _ => match as with
      | [] => mark i .grid
      | _ => lift (.error .stuck)),
    (n!"set_label", fun v as _ => (lift (position? "colorbar" v)).bind fun i => match as with
      | [str s] => fun st => (.ok none, st.1, .label i s :: st.2)
      | _ => lift (.error .stuck)) ]

/-- Another label for the colour bar at the end of a list. -/
def relabel (label : String) : List (Mark α) → List (Mark α)
  | [] => []
  | [.colorbar _] => [.colorbar label]
  | m :: l => m :: relabel label l

/-- What commands, the latest first, do to the open figures. -/
def replay : List (Cmd α) → Figs α → Figs α
  | [], s => s
  | .figure :: l, s => replay l s ++ [[]]
  | .draw i m :: l, s => (replay l s).modify i (· ++ [m])
  | .label i t :: l, s => (replay l s).modify i (relabel t)

/-- How a computation that draws ends when some figures are open. -/
def Draws.onFigures {β : Type} (p : Draws α β) (s : Figs α) : Res β × Figs α :=
  match p (s.length, []) with
  | (r, _, l) => (r, replay l s)

/-- The functions that draw, by their names. -/
abbrev Drawer (α : Type) := Name → Option (Draw α)

mutual
/-- The value of an expression that may draw. -/
def effect (F : Caller α) (G : Drawer α) (env : Env α) : Expr → Draws α (Val α)
  | .call f as => match G f with
    | some g => (lift (evalArgs F env as)).bind fun p => g p.1 p.2
    | .none => lift (eval F env (.call f as))
  | .meth a m as => match lookup m drawMethods with
    | some g => (lift (eval F env a)).bind fun v => (lift (evalArgs F env as)).bind fun p =>
        g v p.1 p.2
    | .none => lift (eval F env (.meth a m as))
  | .tuple as => (effects F G env as).map tup
  | e => lift (eval F env e)
/-- The values of the components of a tuple. -/
def effects (F : Caller α) (G : Drawer α) (env : Env α) : Args → Draws α (List (Val α))
  | .nil => lift (.ok [])
  | .pos a as => (effect F G env a).bind fun v => (effects F G env as).map (v :: ·)
  | .kw _ _ _ => lift (.error .stuck)
end

/-- Running the body of a loop for one item after the other, until one returns. -/
def loopD (step : Env α → Val α → Draws α (Env α × Option (Val α))) :
    List (Val α) → Env α → Draws α (Env α × Option (Val α))
  | [], env => lift (.ok (env, .none))
  | v :: l, env => (step env v).bind fun r => match r.2 with
    | .none => loopD step l r.1
    | some w => lift (.ok (r.1, some w))

mutual
/-- Executing a statement: the variables afterwards, and the value if it returned one. -/
def execD (F : Caller α) (G : Drawer α) : Stmt → Env α → Draws α (Env α × Option (Val α))
  | .assign t (.call f as), env => (effect F G env (.call f as)).bind fun v =>
      lift ((assign F env t v).map fun e => (e, .none))
  | .assign t a, env => lift ((bindTo F env t a).map fun e => (e, .none))
  | .ret a, env => (effect F G env a).map fun v => (env, some v)
  | .ite c t e, env => (lift ((eval F env c).bind truth)).bind fun b =>
      cond b (execAllD F G t env) (execAllD F G e env)
  | .each t a b, env => (lift ((eval F env a).bind items)).bind fun l =>
      loopD (fun env v => (lift (assign F env t v)).bind fun env => execAllD F G b env) l env
  | .expr a, env => (effect F G env a).map fun _ => (env, .none)
/-- Executing statements one after the other, until one returns. -/
def execAllD (F : Caller α) (G : Drawer α) : Block → Env α → Draws α (Env α × Option (Val α))
  | .nil, env => lift (.ok (env, .none))
  | .cons s b, env => (execD F G s env).bind fun r => match r.2 with
    | .none => execAllD F G b r.1
    | some w => lift (.ok (r.1, some w))
end

/-- Running a function that draws, as a method of the object with the given attributes. -/
def Fun.draw (F : Caller α) (G : Drawer α) (f : Fun) (self : List (Name × Val α)) : Draw α :=
  fun vs kw => cond (knownKw f.params kw)
    ((lift (bindParams f.params vs kw)).bind fun env =>
      (execAllD F G f.body (bindSelf self env)).map fun r => match r.2 with
        | some v => v
        | .none => Val.none)
    (lift (.error (.py .TypeError)))

/-- pyplot and the functions `Q` of the package that draw; `P` are those that do not.  Calls may be
nested `d` deep. -/
def drawer (L : Lib α) (P Q : List (Name × Fun)) : Nat → Drawer α
  | 0 => fun f => lookup f pyplot
  | d + 1 => fun f => match lookup f pyplot with
    | some g => some g
    | .none => match lookup f Q with
      | some g => some (g.draw (callFn L P d) (drawer L P Q d) [])
      | .none => .none

end RockPhy.Py
