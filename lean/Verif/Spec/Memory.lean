import Verif.Model.Memory

/-!
# Specification: arrays shared with the caller

A call starts from the arrays that exist, whatever they are and whichever variables hold them, and
ends with a value or an exception and the arrays that exist afterwards.
-/

namespace RockPhy.Spec

variable {β γ : Type}

/-- The value or exception of a call started in memory `m`, and memory afterwards. -/
def call (p : Run β γ) (m : Mem β) : Except PyErr γ × Mem β :=
  StateT.run (ExceptT.run p) m

/-- Every array of `m` still exists in `m'` and has the same contents; `m'` may have more. -/
def Untouched (m m' : Mem β) : Prop := ∀ (r : Ref) (l : List β), m[r]? = some l → m'[r]? = some l

/-- Every array of `m` except `a` still exists in `m'` and has the same contents. -/
def UntouchedBut (a : Ref) (m m' : Mem β) : Prop :=
  ∀ (r : Ref) (l : List β), r ≠ a → m[r]? = some l → m'[r]? = some l

/-- `r` is an array of `m'` with contents `l` that did not exist in `m`. -/
def IsNew (m m' : Mem β) (r : Ref) (l : List β) : Prop := m[r]? = none ∧ m'[r]? = some l

/-- Aspect ratios with 0.999 in place of one. -/
noncomputable def clipped (as : List Fl) : List Fl :=
  open Classical in as.map fun a => if a = Fl.fin 1 then Fl.fin 0.999 else a

/-- Let a solver work on residuals given by a function. -/
def solve {α : Type} (f : α × α → Except PyErr (α × α)) : EM.Solver α → Except PyErr (α × α)
  | .stop x => .ok x
  | .ask x next => match f x with
    | .ok r => solve f (next r)
    | .error e => .error e

/-- The residuals of Berryman's equations as a function of the entries of the arrays. -/
noncomputable def residuals (ki gi xi as : List Fl) (p : Fl × Fl) : Except PyErr (Fl × Fl) :=
  (EM.Berryman_func p.1 p.2 ki gi xi as).map fun r => (r.1, r.2.1)

/-- The argument, list or array, has the entries `l`. -/
def Gives (m : Mem β) : Arg β → List β → Prop
  | .list l', l => l' = l
  | .array r, l => m[r]? = some l

/-- The two arguments are not one and the same array. -/
def Apart : Arg β → Arg β → Prop
  | .array r, .array s => r ≠ s
  | _, _ => True

end RockPhy.Spec
