import Lean

/-!
# The syntax of the Python source

The part of Python's syntax that the functions of `rockphypy` use.  The modules under
`Verif/Source` hold the functions of `/repo` in this syntax; they are produced from the text by
`tools/source.py`, one Lean line per Python line.

A name is a natural number: `n!"K_dry"` is the number whose base 256 digits are the bytes of the
name.  Comparing two names is then comparing two numerals.
-/

namespace RockPhy.Py

/-- An identifier, see `n!`. -/
abbrev Name := Nat

/-- `n!"abc"`: the bytes of the string, read as one number in base 256. -/
macro:max "n!" s:str : term =>
  return Lean.Syntax.mkNumLit
    (toString (s.getString.toUTF8.foldl (fun a b => a * 256 + b.toNat) 0))

/-- A decimal literal as it is written: the digits, whether the exponent is negative, and the
exponent. -/
structure Dec where
  m : Nat
  s : Bool
  e : Nat
  deriving DecidableEq, Repr

instance : OfScientific Dec := ⟨fun m s e => ⟨m, s, e⟩⟩

/-- The value of a decimal literal when it is a natural number written without fractional
digits other than zero (`2.`, `2.0`). -/
def Dec.toNat? (d : Dec) : Option Nat :=
  if d.s then (if d.m % 10 ^ d.e = 0 then some (d.m / 10 ^ d.e) else none)
  else some (d.m * 10 ^ d.e)

/-- Binary operators. -/
inductive Op
  | add | sub | mul | div | pow | matmul | bitand
  deriving DecidableEq, Repr

/-- Comparisons. -/
inductive Cmp
  | eq | lt | le | gt | ge | is
  deriving DecidableEq, Repr

mutual
/-- Expressions.  A dotted name such as `np.sqrt` or `EM.VRH` is one name.  `call` is the call of
a named function, `meth` the call of a method of a value.  A generator `a for x in s for y in t` is
`gen x s (gen y t (yield a))`. -/
inductive Expr
  | var (x : Name)
  | int (n : Nat)
  | flt (d : Dec)
  | imag (d : Dec)
  | str (s : String)
  | none
  | bool (b : Bool)
  | neg (a : Expr)
  | bin (o : Op) (a b : Expr)
  | cmp (o : Cmp) (a b : Expr)
  | call (f : Name) (as : Args)
  | meth (a : Expr) (m : Name) (as : Args)
  | attr (a : Expr) (x : Name)
  | tuple (as : Args)
  | list (as : Args)
  | idx (a : Expr) (i : Args)
  | slice (lo hi : Expr)
  | gen (x : Name) (it body : Expr)
  | yield (a : Expr)
/-- Arguments, by position or by keyword. -/
inductive Args
  | nil
  | pos (a : Expr) (as : Args)
  | kw (x : Name) (a : Expr) (as : Args)
end

/-- What can stand on the left of `=`; `cell x c i` is `x.c.values[i]`. -/
inductive Target
  | var (x : Name)
  | tuple (xs : List Name)
  | idx (x : Name) (i : Args)
  | cell (x : Name) (c : String) (i : Args)

mutual
/-- Statements. -/
inductive Stmt
  | assign (t : Target) (a : Expr)
  | ret (a : Expr)
  | ite (c : Expr) (t e : Block)
  | each (t : Target) (a : Expr) (b : Block)
  | expr (a : Expr)
/-- A list of statements. -/
inductive Block
  | nil
  | cons (s : Stmt) (b : Block)
end

/-- A parameter: its name and its default value, if it has one. -/
structure Param where
  name : Name
  dflt : Option Expr

/-- A function definition. -/
structure Fun where
  params : List Param
  body : Block

/-- A block, one statement after the other. -/
def Block.ofList : List Stmt → Block
  | [] => .nil
  | s :: l => .cons s (ofList l)

/-- Positional arguments. -/
def Args.ofList : List Expr → Args
  | [] => .nil
  | a :: l => .pos a (ofList l)

/-- Keyword arguments. -/
def Args.kws : List (Name × Expr) → Args
  | [] => .nil
  | (x, a) :: l => .kw x a (kws l)

/-- Positional arguments followed by keyword arguments. -/
def Args.ofKw : List Expr → List (Name × Expr) → Args
  | [], k => .kws k
  | a :: l, k => .pos a (ofKw l k)

/-! ## Notation: with these instances an arithmetic expression reads as in the source -/

instance : Add Expr := ⟨.bin .add⟩
instance : Sub Expr := ⟨.bin .sub⟩
instance : Mul Expr := ⟨.bin .mul⟩
instance : Div Expr := ⟨.bin .div⟩
instance : Neg Expr := ⟨.neg⟩
instance (n : Nat) : OfNat Expr n := ⟨.int n⟩
instance : OfScientific Expr := ⟨fun m s e => .flt ⟨m, s, e⟩⟩

/-- `a ** b` of the source. -/
scoped infixr:75 " ** " => Expr.bin Op.pow
/-- `a @ b` of the source. -/
scoped infixl:70 " @@ " => Expr.bin Op.matmul

/-- A variable. -/
macro:max "v!" s:str : term => `(Expr.var n!$s)
/-- A call with positional arguments. -/
macro:max "c!" s:str noWs "[" as:term,* "]" : term =>
  `(Expr.call n!$s (Args.ofList [$as,*]))
/-- A tuple. -/
macro:max "t![" as:term,* "]" : term => `(Expr.tuple (Args.ofList [$as,*]))
/-- A list. -/
macro:max "l![" as:term,* "]" : term => `(Expr.list (Args.ofList [$as,*]))
/-- `x = a`, or `x, y, ... = a`. -/
syntax "set! " str,+ " := " term : term
macro_rules
  | `(set! $s:str := $a) => `(Stmt.assign (Target.var n!$s) $a)
  | `(set! $s,* := $a) => do
    let l ← s.getElems.mapM fun x => `(n!$x)
    `(Stmt.assign (Target.tuple [$l,*]) $a)

end RockPhy.Py
