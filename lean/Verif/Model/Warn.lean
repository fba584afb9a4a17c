import Verif.Model.BW

/-!
# The warning of the water correlations

`BW.v_water` calls `warnings.warn` when a pressure exceeds 100 MPa (BW.py:239-242).  The model of the
values is `Verif/Model/BW.lean`; here the same functions run in a Python session with a warnings
filter, on one dimensional arrays of temperatures and pressures.  The filter follows the standard
library (`warnings.warn_explicit`): the location of the warning is the line in BW.py, so the whole
package has one entry in the registry of warnings already given.
-/

namespace RockPhy.Warn

variable {α : Type} [PyNum α]

/-- The action of the matching warnings filter (`warnings.simplefilter`). -/
inductive Action
  | default
  | always
  | ignore
  | once
  | error
  deriving DecidableEq

/-- What `warnings` remembers: the filter, whether the line in BW.py is in the registry of the module,
whether the text is in the registry of `once`, and how many messages have been shown. -/
structure Sess where
  action : Action
  registered : Bool
  onceRegistered : Bool
  shown : Nat

/-- How a call ends: a value, numpy's `ValueError` for shapes that do not broadcast, or the warning
raised as an exception. -/
inductive Out (β : Type)
  | value (b : β)
  | valueError
  | userWarning

/-- A computation in a session. -/
abbrev Run (β : Type) := Sess → Out β × Sess

/-- Sequencing: an exception ends the computation. -/
def Run.bind {β γ : Type} (m : Run β) (k : β → Run γ) : Run γ := fun s =>
  match m s with
  | (.value b, s) => k b s
  | (.valueError, s) => (.valueError, s)
  | (.userWarning, s) => (.userWarning, s)

/-- A value without effect. -/
def Run.pure {β : Type} (b : β) : Run β := fun s => (.value b, s)

/-- A broadcast that may fail. -/
def Run.lift {β : Type} : Except PyErr β → Run β
  | .ok b => Run.pure b
  | .error _ => fun s => (.valueError, s)

/-- `warnings.warn(...)`, BW.py:240-242: a registered line is silent, otherwise the filter decides. -/
def warn : Run Unit := fun s =>
  if s.registered then (.value (), s)
  else match s.action with
    | .error => (.userWarning, s)
    | .ignore => (.value (), s)
    | .always => (.value (), { s with shown := s.shown + 1 })
    | .default => (.value (), { s with registered := true, shown := s.shown + 1 })
    | .once =>
      if s.onceRegistered then (.value (), { s with registered := true })
      else (.value (), { s with registered := true, onceRegistered := true, shown := s.shown + 1 })

/-- `warnings.simplefilter(action)`: the new filter goes in front and the registries of the modules
are out of date. -/
def simplefilter (a : Action) (s : Sess) : Sess := { s with action := a, registered := false }

/-- `np.any(P > 100)`, BW.py:239. -/
def hot (P : List α) : Bool := P.any fun p => PyNum.lt 100 p

/-- `BW.v_water`, BW.py:222-250: the warning, then the double sum. -/
def v_water (T P : List α) : Run (List α) :=
  Run.bind (if hot P then warn else Run.pure ()) fun _ =>
  Run.lift (bzip (fun t p => BW.v_water t p) T P)

/-- `BW.rho_K_water`, BW.py:195-219: the density is computed first. -/
def rho_K_water (T P : List α) : Run (List α × List α) :=
  Run.bind (Run.lift (bzip (fun T P => 1 + 1e-6 * (-80 * T - 3.3 * T ** 2 + 0.00175 * T ** 3 + 489 * P
    - 2 * T * P + 0.016 * P * T ** 2 - 1.3e-5 * T ** 3 * P - 0.333 * P ** 2 - 0.002 * T * P ** 2))
    T P)) fun rho_w =>
  Run.bind (v_water T P) fun v_w =>
  Run.bind (Run.lift (bzip (fun r v => r * v ** 2 * 1e-6) rho_w v_w)) fun K_w =>
  Run.pure (rho_w, K_w)

/-- `BW.v_brine`, BW.py:280-303, one salinity. -/
def v_brine (T P : List α) (S : α) : Run (List α) :=
  Run.bind (v_water T P) fun v_w =>
  Run.bind (Run.lift (bzip (fun T P => 1170 - 9.6 * T + 0.055 * T ** 2 - 8.5e-5 * T ** 3 + 2.6 * P
    - 0.0029 * T * P - 0.0476 * P ** 2) T P)) fun s1 =>
  let s15 := P.map fun P => 780 - 10 * P + 0.16 * P ** 2
  let s2 : α := -820
  Run.bind (Run.lift (bzip (fun v s1 => v + s1 * S) v_w s1)) fun a =>
  Run.bind (Run.lift (bzip (fun a s15 => a + s15 * S **. 1.5) a s15)) fun b =>
  Run.pure (b.map fun b => b + s2 * S ** 2)

/-- `BW.rho_K_brine`, BW.py:253-277, one salinity. -/
def rho_K_brine (T P : List α) (S : α) : Run (List α × List α) :=
  Run.bind (rho_K_water T P) fun w =>
  Run.bind (Run.lift (bzip (fun T P => 300 * P - 2400 * P * S
    + T * (80 + 3 * T - 3300 * S - 13 * P + 47 * P * S)) T P)) fun x =>
  Run.bind (Run.lift (bzip (fun rho_w x => rho_w + S * (0.668 + 0.44 * S + 1e-6 * x)) w.1 x))
    fun rho_b =>
  Run.bind (v_brine T P S) fun v_b =>
  Run.bind (Run.lift (bzip (fun r v => r * v ** 2 * 1e-6) rho_b v_b)) fun K_b =>
  Run.pure (rho_b, K_b)

/-- A call of one of the four functions. -/
inductive Call (α : Type)
  | v_water (T P : List α)
  | rho_K_water (T P : List α)
  | v_brine (T P : List α) (S : α)
  | rho_K_brine (T P : List α) (S : α)

/-- The session after a call; the caller goes on after an exception. -/
def Call.run : Call α → Sess → Sess
  | .v_water T P, s => (Warn.v_water T P s).2
  | .rho_K_water T P, s => (Warn.rho_K_water T P s).2
  | .v_brine T P S, s => (Warn.v_brine T P S s).2
  | .rho_K_brine T P S, s => (Warn.rho_K_brine T P S s).2

/-- The session after a history of calls. -/
def history (cs : List (Call α)) (s : Sess) : Sess := cs.foldl (fun s c => c.run s) s

/-- The session after several stretches of calls, each started by `warnings.simplefilter(a)`. -/
def stretches (a : Action) (css : List (List (Call α))) (s : Sess) : Sess :=
  css.foldl (fun s cs => history cs (simplefilter a s)) s

end RockPhy.Warn
