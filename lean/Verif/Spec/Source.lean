import Verif.Py.Semantics
import Verif.Source.Program

/-!
# What it means that the source computes something

`Computes d f vs r`: calling the function named `f` of the package on the arguments `vs` gives the
result `r`, whatever the functions outside the package do; the call nests at most `d` deep.
-/

namespace RockPhy.Py

variable {α : Type} [PyNum α]

/-- Calling `f` by position on `vs` has the result `r`. -/
def Computes (d : Nat) (f : Name) (vs : List (Val α)) (r : Res (Val α)) : Prop :=
  ∀ (L : Lib α) (k : Nat), callFn L Source.program (k + d) f vs [] = r

/-- A 6x6 array. -/
def mat6 (M : Mat6 α) : Val α :=
  let row (i : Fin 6) : List α := [M i 0, M i 1, M i 2, M i 3, M i 4, M i 5]
  .mat [row 0, row 1, row 2, row 3, row 4, row 5]

/-- A value that may be `None`. -/
def opt : Option α → Val α
  | some a => .num a
  | .none => .none

/-- How a result of the model is written as a value of the interpreter. -/
class Ret (α : Type) (β : Type) where
  ret : β → Val α

/-- The components of a tuple. -/
class Rets (α : Type) (β : Type) where
  rets : β → List (Val α)

instance : Ret α α := ⟨.num⟩
instance : Ret α (List α) := ⟨.vec⟩
instance : Ret α (Cx α) := ⟨.cx⟩
instance : Ret α (Mat6 α) := ⟨mat6⟩
instance {β γ : Type} [Ret α β] [Rets α γ] : Rets α (β × γ) :=
  ⟨fun p => Ret.ret p.1 :: Rets.rets p.2⟩
instance (priority := low) {β : Type} [Ret α β] : Rets α β := ⟨fun b => [Ret.ret b]⟩
instance {β γ : Type} [Ret α β] [Rets α γ] : Ret α (β × γ) :=
  ⟨fun p => .tup (Ret.ret p.1 :: Rets.rets p.2)⟩

/-- The function returns the value `b`. -/
def returns {β : Type} [Ret α β] (b : β) : Res (Val α) := .ok (Ret.ret b)

/-- The function returns a value or raises an exception. -/
def outcome {β : Type} [Ret α β] (b : Except PyErr β) : Res (Val α) := (ofPy b).map Ret.ret

/-- The function returns two arrays, the components of the given pairs, or raises an exception. -/
def arrays2 (r : Except PyErr (List (α × α))) : Res (Val α) :=
  (ofPy r).map fun l => .tup [.vec (l.map (·.1)), .vec (l.map (·.2))]

/-- The function returns seven arrays, the components of the given rows, or raises an exception. -/
def arrays7 (r : Except PyErr (List (α × α × α × α × α × α × α))) : Res (Val α) :=
  (ofPy r).map fun l => .tup [.vec (l.map (·.1)), .vec (l.map (·.2.1)), .vec (l.map (·.2.2.1)),
    .vec (l.map (·.2.2.2.1)), .vec (l.map (·.2.2.2.2.1)), .vec (l.map (·.2.2.2.2.2.1)),
    .vec (l.map (·.2.2.2.2.2.2))]

/-! ## The functions outside the package, as the models see them -/

/-- `L` answers `fsolve(f, x, args=as)` as the given solver does: the solver is handed the function
`r` of two numbers that the package computes, and the starting point. -/
def Fsolve (L : Lib α) (fsolve : (α × α → α × α) → α × α → α × α) : Prop :=
  ∀ (F : Caller α) (f : Py.Name) (as : List (Val α)) (x : α × α) (r : α × α → α × α),
    (∀ p, F f (.tup [.num p.1, .num p.2] :: as) [] = returns (r p)) →
    L F n!"fsolve" [.fn f, .tup [.num x.1, .num x.2]] [(n!"args", .tup as)] =
      .ok (.vec [(fsolve r x).1, (fsolve r x).2])

/-- `L` answers `np.linalg.inv` as the given inversion does. -/
def Inverts (L : Lib α) (linv : Mat6 α → Except PyErr (Mat6 α)) : Prop :=
  ∀ (F : Caller α) (A : Mat6 α), L F n!"np.linalg.inv" [mat6 A] [] = outcome (linv A)

/-- `L` answers `np.empty(n)` with `n` floating point numbers, whatever they are. -/
def Empties (L : Lib α) : Prop :=
  ∀ (F : Caller α) (n : Nat), ∃ e : List α, e.length = n ∧ (∀ a ∈ e, ∀ x, PyNum.store a x = x) ∧
    L F n!"np.empty" [.int (.ofNat n)] [] = .ok (.vec e)

/-- `a` is below, equal to or above `b`, and only one of these. -/
def Ordered (a b : α) : Prop :=
  (PyNum.lt a b = true ∧ PyNum.eq a b = false ∧ PyNum.lt b a = false) ∨
  (PyNum.lt a b = false ∧ PyNum.eq a b = true ∧ PyNum.lt b a = false) ∨
  (PyNum.lt a b = false ∧ PyNum.eq a b = false ∧ PyNum.lt b a = true)

/-- `Fsolve` for a function that may raise an exception. -/
def FsolveErr (L : Lib α) (fsolve : (α × α → Except PyErr (α × α)) → α × α → α × α) : Prop :=
  ∀ (F : Caller α) (f : Py.Name) (as : List (Val α)) (x : α × α)
    (r : α × α → Except PyErr (α × α)),
    (∀ p, F f (.tup [.num p.1, .num p.2] :: as) [] = outcome (r p)) →
    L F n!"fsolve" [.fn f, .tup [.num x.1, .num x.2]] [(n!"args", .tup as)] =
      .ok (.vec [(fsolve r x).1, (fsolve r x).2])

/-- `L` answers `odeint(f, y, t, args=as)` as the given solver does: the solver is handed the
right-hand side `r` that the package computes, the initial value and the times, and gives one row
for each time. -/
def Odeint (L : Lib α) (odeint : (α × α → α → α × α) → α × α → List α → List (α × α)) : Prop :=
  ∀ (F : Caller α) (f : Py.Name) (as : List (Val α)) (y : α × α) (t : List α)
    (r : α × α → α → α × α),
    (∀ p s, F f (.tup [.num p.1, .num p.2] :: .num s :: as) [] = returns (r p s)) →
    L F n!"odeint" [.fn f, .tup [.num y.1, .num y.2], .vec t] [(n!"args", .tup as)] =
      .ok (.mat ((odeint r y t).map fun p => [p.1, p.2]))

/-- `L` answers `np.arange(0, stop, step)` with `ceil(stop / step)` multiples of the step. -/
def Arange (L : Lib α) (ceil : α → Nat) : Prop :=
  ∀ (F : Caller α) (stop step : α), L F n!"np.arange" [.int 0, .num stop, .num step] [] =
    .ok (.vec ((List.range (ceil ((stop - 0) / step))).map fun i => 0 + PyNum.nat i * step))

/-- `L` answers `np.roots` of a polynomial of degree three as the given function does. -/
def Roots (L : Lib α) (roots : α → α → α → α → List (α × α)) : Prop :=
  ∀ (F : Caller α) (a b c d : α), L F n!"np.roots" [.vec [a, b, c, d]] [] =
    .ok (.cvec ((roots a b c d).map fun z => ⟨z.1, z.2⟩))

/-- `L` answers `np.isnan` of an array as the given function does for each entry. -/
def Isnan (L : Lib α) (isnan : α → Bool) : Prop :=
  ∀ (F : Caller α) (l : List α), L F n!"np.isnan" [.vec l] [] = .ok (.mask (l.map isnan))

/-- `L` answers `scipy.special.jv(0, .)` and `jv(1, .)` of an array as the given functions do for
each entry. -/
def Bessel (L : Lib α) (jv0 jv1 : Cx α → Cx α) : Prop :=
  ∀ (F : Caller α) (l : List (Cx α)),
    L F n!"sp.jv" [.int 0, .cvec l] [] = .ok (.cvec (l.map jv0)) ∧
    L F n!"sp.jv" [.int 1, .cvec l] [] = .ok (.cvec (l.map jv1))

end RockPhy.Py
