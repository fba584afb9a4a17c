import Verif.Py.Semantics

/-!
# How a Python function may be called

The rules of Python for binding arguments to parameters, for functions without `*args` and
`**kwargs`.
-/

namespace RockPhy.Spec

open RockPhy.Py

variable {α : Type}

/-- A call with `n` arguments by position and arguments for the names `kw` is accepted: there are
not more arguments than parameters, every keyword is a parameter, no parameter is given twice, and
every parameter without a default value is given. -/
structure Accepted (ps : List Param) (n : Nat) (kw : List Py.Name) : Prop where
  few : n ≤ ps.length
  known : ∀ x ∈ kw, x ∈ ps.map (·.name)
  once : ∀ x ∈ kw, x ∉ (ps.take n).map (·.name)
  all : ∀ p ∈ ps.drop n, p.dflt = none → p.name ∈ kw

/-- The value of a literal, or of a colour map defined at the head of `QI.py`, used as a default
value. -/
def literal : Option Expr → Val α
  | some (.int n) => .int n
  | some (.str s) => .str s
  | some (.bool b) => .bool b
  | some (.var x) => if x = n!"cmap_sand" then .str "cmap_sand"
    else if x = n!"cmap_kde" then .str "cmap_kde" else .none
  | _ => .none

/-- What the parameters are bound to: arguments by position go to the first parameters, every
other parameter gets its keyword argument or else its default value. -/
def values : List Param → List (Val α) → List (Py.Name × Val α) → List (Val α)
  | [], _, _ => []
  | _ :: ps, v :: vs, kw => v :: values ps vs kw
  | p :: ps, [], kw => (kw.lookup p.name).getD (literal p.dflt) :: values ps [] kw

end RockPhy.Spec
