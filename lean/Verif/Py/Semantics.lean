import Verif.Py.Syntax
import Verif.Model.Complex

/-!
# The meaning of the Python source

An interpreter for the syntax of `Verif/Py/Syntax.lean`: expressions are evaluated from left to
right, statements are executed one after the other, arguments are bound to parameters as Python
does.  Numbers are an arbitrary `PyNum`.

A value is a number, a complex number, an integer, a Boolean, a string, `None`, a tuple (or list),
a numpy array of rank one or two, or a data frame of pandas (its named columns, in order).  A result that Python would give and that this fragment does
not describe is `stuck`; no theorem of `Verif/Props/Source` has a stuck result.

Python's and numpy's integers meet floating point numbers in every formula of the package; an
integer that takes part in arithmetic is the number `PyNum.nat` of it.
-/

namespace RockPhy.Py

open RockPhy

/-- Values. -/
inductive Val (α : Type)
  | num (a : α)
  | cx (z : Cx α)
  | int (n : Int)
  | bool (b : Bool)
  | str (s : String)
  | none
  | tup (l : List (Val α))
  | vec (l : List α)
  | cvec (l : List (Cx α))
  | mat (l : List (List α))
  | mask (l : List Bool)
  | fn (f : Name)
  | mmask (l : List (List Bool))
  | frame (cols : List (String × List α))

/-- Why there is no result: Python raises an exception, or the fragment does not say. -/
inductive Err
  | py (e : PyErr)
  | stuck
  deriving DecidableEq, Repr

/-- A result. -/
abbrev Res (β : Type) := Except Err β

/-- A result whose exceptions are those of Python. -/
def ofPy {β : Type} : Except PyErr β → Res β
  | .ok b => .ok b
  | .error e => .error (.py e)

/-- The local variables of a call, the latest binding first.  Each binding carries the identity of
the object it is bound to: `x = y` binds `x` to the object of `y`. -/
abbrev Env (α : Type) := List (Name × Nat × Val α)

/-- Arguments by position and by keyword. -/
abbrev Actual (α : Type) := List (Val α) × List (Name × Val α)

/-- Looking up a name in a table. -/
def lookup {β : Type} (x : Name) : List (Name × β) → Option β
  | [] => .none
  | (y, v) :: l => cond (Nat.beq x y) (some v) (lookup x l)

/-- A function applied to the entries of a list from left to right; the first failure stops. -/
def each {β γ : Type} (f : β → Res γ) : List β → Res (List γ)
  | [] => .ok []
  | a :: l => (f a).bind fun b => (each f l).map (b :: ·)

/-- Two arrays of rank two combined entry by entry, by numpy's broadcasting rule: rows are paired,
then the entries of paired rows; one row, or a row of one entry, meets every partner. -/
def matZip {β γ δ : Type} (f : β → γ → δ) (l : List (List β)) (m : List (List γ)) :
    Res (List (List δ)) :=
  (ofPy (bzip Prod.mk l m)).bind (each fun p => ofPy (bzip f p.1 p.2))

variable {α : Type} [PyNum α]

namespace Val

/-- An integer as a number. -/
def ofInt : Int → α
  | .ofNat n => PyNum.nat n
  | .negSucc n => -PyNum.nat (n + 1)

/-- Python's arithmetic on two numbers, integers or complex numbers, entry by entry on arrays
(a number meets every entry; two arrays follow numpy's broadcasting rule). -/
def arith (f : α → α → α) (g : Cx α → Cx α → Cx α) : Val α → Val α → Res (Val α)
  | num a, num b => .ok (num (f a b))
  | num a, int n => .ok (num (f a (ofInt n)))
  | int n, num b => .ok (num (f (ofInt n) b))
  | int n, int k => .ok (num (f (ofInt n) (ofInt k)))
  | cx z, cx w => .ok (cx (g z w))
  | cx z, num b => .ok (cx (g z (.ofR b)))
  | num a, cx w => .ok (cx (g (.ofR a) w))
  | cx z, int n => .ok (cx (g z (.ofR (ofInt n))))
  | int n, cx w => .ok (cx (g (.ofR (ofInt n)) w))
  | vec l, num b => .ok (vec (l.map (f · b)))
  | vec l, int n => .ok (vec (l.map (f · (ofInt n))))
  | num a, vec l => .ok (vec (l.map (f a ·)))
  | int n, vec l => .ok (vec (l.map (f (ofInt n) ·)))
  | vec l, vec m => (ofPy (bzip f l m)).map vec
  | mat l, num b => .ok (mat (l.map (·.map (f · b))))
  | mat l, int n => .ok (mat (l.map (·.map (f · (ofInt n)))))
  | num a, mat l => .ok (mat (l.map (·.map (f a ·))))
  | int n, mat l => .ok (mat (l.map (·.map (f (ofInt n) ·))))
  | mat l, mat m => (matZip f l m).map mat
  | mat l, vec m => (matZip f l [m]).map mat
  | vec l, mat m => (matZip f [l] m).map mat
  | vec l, cx w => .ok (cvec (l.map fun a => g (.ofR a) w))
  | cx z, vec m => .ok (cvec (m.map fun b => g z (.ofR b)))
  | cvec l, num b => .ok (cvec (l.map (g · (.ofR b))))
  | num a, cvec m => .ok (cvec (m.map (g (.ofR a) ·)))
  | cvec l, int n => .ok (cvec (l.map (g · (.ofR (ofInt n)))))
  | int n, cvec m => .ok (cvec (m.map (g (.ofR (ofInt n)) ·)))
  | cvec l, cx w => .ok (cvec (l.map (g · w)))
  | cx z, cvec m => .ok (cvec (m.map (g z ·)))
  | cvec l, vec m => (ofPy (bzip (fun z b => g z (.ofR b)) l m)).map cvec
  | vec l, cvec m => (ofPy (bzip (fun a w => g (.ofR a) w) l m)).map cvec
  | cvec l, cvec m => (ofPy (bzip g l m)).map cvec
  | int _, none => .error (.py .TypeError)
  | _, _ => .error .stuck

/-- `-a`. -/
def neg : Val α → Res (Val α)
  | num a => .ok (num (-a))
  | int n => .ok (int (-n))
  | cx z => .ok (cx (-z))
  | vec l => .ok (vec (l.map (-·)))
  | cvec l => .ok (cvec (l.map (-·)))
  | mat l => .ok (mat (l.map (·.map (-·))))
  | _ => .error .stuck

/-- A function of one number, entry by entry on an array; `g` is its extension to complex
numbers. -/
def unary (f : α → α) (g : Cx α → Res (Cx α)) : Val α → Res (Val α)
  | num a => .ok (num (f a))
  | int n => .ok (num (f (ofInt n)))
  | cx z => (g z).map cx
  | cvec l => (each g l).map cvec
  | vec l => .ok (vec (l.map f))
  | mat l => .ok (mat (l.map (·.map f)))
  | _ => .error .stuck

/-- A power of a complex number with a natural exponent. -/
def cxpow (z : Cx α) : Nat → Cx α
  | 0 => .ofR 1
  | 1 => z
  | n + 2 => cxpow z (n + 1) * z

/-- `a ** n` for a literal natural exponent. -/
def powNat (n : Nat) : Val α → Res (Val α) :=
  unary (PyNum.npow · n) (fun z => .ok (cxpow z n))

/-- `a ** -1`. -/
def powInv : Val α → Res (Val α) := unary PyNum.inv (fun z => .ok (Cx.ofR 1 / z))

/-- `a ** b`.  A negative power of an integer is a quotient. -/
def power : Val α → Val α → Res (Val α)
  | int m, int (.negSucc (n + 1)) => .ok (num (1 / PyNum.npow (ofInt m) (n + 2)))
  | a, int (.ofNat n) => powNat n a
  | a, int (.negSucc 0) => powInv a
  | cx _, _ => .error .stuck
  | cvec _, _ => .error .stuck
  | _, cx _ => .error .stuck
  | _, cvec _ => .error .stuck
  | a, b => arith PyNum.rpow (fun z _ => z) a b

/-- The comparison of two numbers. -/
def cmpNum : Cmp → α → α → Bool
  | .eq => PyNum.eq
  | .lt => PyNum.lt
  | .le => PyNum.le
  | .gt => fun a b => PyNum.lt b a
  | .ge => fun a b => PyNum.le b a
  | .is => fun _ _ => false

/-- The comparison of two integers. -/
def cmpInt : Cmp → Int → Int → Bool
  | .eq => fun a b => decide (a = b)
  | .lt => fun a b => decide (a < b)
  | .le => fun a b => decide (a ≤ b)
  | .gt => fun a b => decide (b < a)
  | .ge => fun a b => decide (b ≤ a)
  | .is => fun a b => decide (a = b)

/-- `a == b`, `a < b`, ..., `a is b`.  The comparison of an array is an array of Booleans. -/
def compare : Cmp → Val α → Val α → Res (Val α)
  | o, num a, num b => .ok (bool (cmpNum o a b))
  | o, num a, int n => .ok (bool (cmpNum o a (ofInt n)))
  | o, int n, num b => .ok (bool (cmpNum o (ofInt n) b))
  | o, int n, int k => .ok (bool (cmpInt o n k))
  | o, vec l, num b => .ok (mask (l.map (cmpNum o · b)))
  | o, vec l, int n => .ok (mask (l.map (cmpNum o · (ofInt n))))
  | o, vec l, vec m => (ofPy (bzip (cmpNum o) l m)).map mask
  | o, mat l, num b => .ok (mmask (l.map (·.map (cmpNum o · b))))
  | .eq, str s, str t => .ok (bool (decide (s = t)))
  | .eq, bool a, bool b => .ok (bool (a == b))
  | .is, bool a, bool b => .ok (bool (a == b))
  | .eq, none, none => .ok (bool true)
  | .eq, num _, none => .ok (bool false)
  | .eq, int _, none => .ok (bool false)
  | .eq, str _, none => .ok (bool false)
  | .is, none, none => .ok (bool true)
  | _, _, _ => .error .stuck

/-- The truth of the condition of an `if`. -/
def truth : Val α → Res Bool
  | bool b => .ok b
  | _ => .error .stuck

/-- The numbers in a list of values. -/
def nums : List (Val α) → Option (List α)
  | [] => some []
  | num a :: l => (nums l).map (a :: ·)
  | int n :: l => (nums l).map (ofInt n :: ·)
  | _ => Option.none

/-- The rows in a list of values. -/
def rows : List (Val α) → Option (List (List α))
  | [] => some []
  | vec a :: l => (rows l).map (a :: ·)
  | tup a :: l => (nums a).bind fun r => (rows l).map (r :: ·)
  | _ => Option.none

/-- `np.array` of a list of numbers or of a list of rows; `np.asanyarray` of a number or an array
is that number or array. -/
def toArray : Val α → Res (Val α)
  | num a => .ok (num a)
  | int n => .ok (int n)
  | vec l => .ok (vec l)
  | mat l => .ok (mat l)
  | tup l => match nums l with
    | some v => .ok (vec v)
    | Option.none => match rows l with
      | some m => .ok (mat m)
      | Option.none => .error .stuck
  | _ => .error .stuck

/-- The entries under a mask; a mask of another length raises `IndexError`. -/
def select {β : Type} : List β → List Bool → Res (List β)
  | [], [] => .ok []
  | a :: l, b :: m => (select l m).map fun r => cond b (a :: r) r
  | _, _ => .error (.py .IndexError)

/-- The position an integer index refers to in a sequence of the given length: negative indices
count from the end. -/
def position (n : Nat) : Int → Res Nat
  | .ofNat k => if k < n then .ok k else .error (.py .IndexError)
  | .negSucc k => if k + 1 ≤ n then .ok (n - (k + 1)) else .error (.py .IndexError)

/-- The entry of a list at a position. -/
def nth {β : Type} : List β → Nat → Res β
  | [], _ => .error (.py .IndexError)
  | a :: _, 0 => .ok a
  | _ :: l, n + 1 => nth l n

/-- The entries at one position of every row. -/
def column {β : Type} (j : Int) : List (List β) → Res (List β)
  | [] => .ok []
  | r :: l => (position r.length j).bind fun c => (nth r c).bind fun a =>
      (column j l).map (a :: ·)

/-- One row of a data frame, all columns but the last. -/
def frameRow {β : Type} (k : Nat) : List (String × List β) → Res (List β)
  | [] => .ok []
  | [_] => .ok []
  | c :: cols => (nth c.2 k).bind fun a => (frameRow k cols).map (a :: ·)

/-- The number of rows of a data frame. -/
def frameRows {β : Type} : List (String × List β) → Nat
  | [] => 0
  | c :: _ => c.2.length

/-- `a[i]` and `a[i, j]`; a slice has been evaluated to a pair. -/
def index : Val α → List (Val α) → Res (Val α)
  | vec l, [int i] => (position l.length i).bind fun k => (nth l k).map num
  | vec l, [mask m] => (select l m).map vec
  | cvec l, [mask m] => (select l m).map cvec
  | vec l, [tup [none, none], none] => .ok (mat (l.map fun a => [a]))
  | tup l, [int i] => (position l.length i).bind fun k => nth l k
  | mat l, [int i, int j] => (position l.length i).bind fun k => (nth l k).bind fun r =>
      (position r.length j).bind fun c => (nth r c).map num
  | mat l, [tup [int 0, int (.ofNat n)], tup [none, none]] => .ok (mat (l.take n))
  | mat l, [tup [int 0, int (.ofNat n)], tup [int 0, int (.ofNat k)]] =>
      .ok (mat ((l.take n).map (List.take k)))
  | mat l, [tup [none, none], int j] =>
      (column j l).map vec
  | tup _, [mask _] => .error (.py .TypeError)
  | frame cols, [int i, tup [none, int (.negSucc 0)]] =>
      (position (frameRows cols) i).bind fun k => (frameRow k cols).map vec
  | _, _ => .error .stuck

end Val

open Val

/-- The transpose of a matrix given by its rows, all of them as long as the first. -/
def transpose {β : Type} (l : List (List β)) : List (List β) :=
  match l with
  | [] => []
  | r :: _ => (List.range r.length).map fun j => l.filterMap fun row => row[j]?

/-- The sum of the entries of a list from left to right. -/
def sumLeft : List α → α
  | [] => PyNum.nat 0
  | a :: l => l.foldl (· + ·) a

/-- One entry of a product of matrices. -/
def entry (r c : List α) : Res α :=
  if r.length = c.length then .ok (sumLeft (List.zipWith (· * ·) r c))
  else .error (.py .ValueError)

/-- Rows times columns. -/
def matmul (a b : List (List α)) : Res (List (List α)) :=
  each (fun r => each (entry r) (transpose b)) a

/-- The sums of the columns of a matrix. -/
def colSums (l : List (List α)) : List α := (transpose l).map sumLeft

/-- The rows of `k` entries each of a list. -/
def chunks {β : Type} (k : Nat) : Nat → List β → List (List β)
  | 0, _ => []
  | n + 1, l => l.take k :: chunks k n (l.drop k)

/-- `np.array(...).reshape((n, k))` and the like; `ValueError` unless the sizes agree. -/
def reshape (l : List α) (n k : Nat) : Res (Val α) :=
  if l.length = n * k then .ok (mat (chunks k n l)) else .error (.py .ValueError)

/-- The blocks of one row of `np.block`, side by side. -/
def beside : List (Val α) → Res (List (List α))
  | [] => .error .stuck
  | [mat m] => .ok m
  | mat m :: l => (beside l).map fun r => List.zipWith (· ++ ·) m r
  | _ => .error .stuck

/-- `np.block`. -/
def block : List (Val α) → Res (List (List α))
  | [] => .ok []
  | tup r :: l => (beside r).bind fun m => (block l).map (m ++ ·)
  | _ => .error .stuck

/-- Arrays joined one after the other. -/
def joined : List (Val α) → Res (List α)
  | [] => .ok []
  | vec a :: l => (joined l).map (a ++ ·)
  | _ => .error .stuck

/-- `np.vstack`: every argument is one row, a number a row of one entry; `ValueError` unless the rows
have the same length. -/
def vrows : List (Val α) → Res (List (List α))
  | [] => .error (.py .ValueError)
  | [num a] => .ok [[a]]
  | [vec a] => .ok [a]
  | num a :: l => (vrows l).bind (addRow [a])
  | vec a :: l => (vrows l).bind (addRow a)
  | _ => .error .stuck
where
  /-- One more row on top. -/
  addRow (r : List α) (m : List (List α)) : Res (List (List α)) :=
    if r.length = (m.headD []).length then .ok (r :: m) else .error (.py .ValueError)

/-- `np.linspace(start, stop, n)`: evenly spaced numbers, the last is `stop`. -/
def linspace (start stop : α) (n : Nat) : List α :=
  (List.range n).map fun i =>
    if i + 1 = n then stop
    else PyNum.nat i * ((stop - start) / PyNum.nat (n - 1)) + start

/-- `np.maximum` of two numbers. -/
def max2 (a b : α) : α := if PyNum.le a b then b else if PyNum.lt b a then a else a + b

/-- `np.minimum` of two numbers. -/
def min2 (a b : α) : α := if PyNum.le a b then a else if PyNum.lt b a then b else a + b

/-- The pairs `(0, x), (1, y), ...` of `enumerate`. -/
def numbered : Nat → List α → List (Val α)
  | _, [] => []
  | n, a :: l => tup [int (.ofNat n), num a] :: numbered (n + 1) l

/-- The functions of numpy (and Python) the source calls, on values. -/
def builtins : List (Name × (List (Val α) → List (Name × Val α) → Res (Val α))) :=
  let fn1 (f : α → α) : List (Val α) → List (Name × Val α) → Res (Val α)
    | [a], [] => unary f (fun _ => .error .stuck) a
    | _, _ => .error .stuck
  let fn1c (f : α → α) (g : Cx α → Cx α) : List (Val α) → List (Name × Val α) → Res (Val α)
    | [a], [] => unary f (fun z => .ok (g z)) a
    | _, _ => .error .stuck
  [ (n!"np.sqrt", fn1c PyNum.sqrt Cx.sqrt),
    (n!"np.exp", fn1c PyNum.exp Cx.exp),
    (n!"np.sin", fn1 PyNum.sin),
    (n!"np.cos", fn1 PyNum.cos),
    (n!"np.tan", fn1 PyNum.tan),
    (n!"np.log", fn1 PyNum.log),
    (n!"np.arcsin", fn1 PyNum.arcsin),
    (n!"np.arccos", fn1 PyNum.arccos),
    (n!"np.arctan", fn1 PyNum.arctan),
    (n!"np.cosh", fn1 PyNum.cosh),
    (n!"np.deg2rad", fn1 deg2rad),
    (n!"np.radians", fn1 deg2rad),
    (n!"np.abs", fun
      | [cx z], [] => .ok (num z.abs)
      | _, _ => .error .stuck),
    (n!"np.asanyarray", fun | [a], [] => toArray a | _, _ => .error .stuck),
    (n!"np.array", fun | [a], [] => toArray a | _, _ => .error .stuck),
    (n!"np.sum", fun
      | [vec l], [] => .ok (num (lsum l))
      | [mat l], [] => .ok (num (sumLeft (colSums l)))
      | [mat l], [(_, int 0)] => .ok (vec (colSums l))
      | _, _ => .error .stuck),
    (n!"sum", fun
      | [tup l], [] => match nums l with
        | some v => .ok (num (lsum v))
        | .none => .error .stuck
      | _, _ => .error .stuck),
    (n!"np.mean", fun
      | [vec l], [] => .ok (num (lsum l / PyNum.nat l.length))
      | [mat l], [] => .ok (num (lsum l.flatten / PyNum.nat l.flatten.length))
      | _, _ => .error .stuck),
    (n!"np.dot", fun
      | [vec l, vec m], [] => (ofPy (dot l m)).map num
      | [mat l, vec m], [] => (each (fun r => ofPy (dot r m)) l).map vec
      | [mat l, mat m], [] => (matmul l m).map mat
      | _, _ => .error .stuck),
    (n!"np.diff", fun
      | [vec l], [] => .ok (vec (List.zipWith (fun a b => b - a) l l.tail))
      | _, _ => .error .stuck),
    (n!"np.maximum", fun
      | [a, b], [] => arith max2 (fun z _ => z) a b
      | _, _ => .error .stuck),
    (n!"np.hstack", fun
      | [tup l], [] => (joined l).map vec
      | _, _ => .error .stuck),
    (n!"np.vstack", fun
      | [tup l], [] => (vrows l).map mat
      | _, _ => .error .stuck),
    (n!"np.meshgrid", fun
      | [vec l, vec m], [] =>
        .ok (tup [mat (m.map fun _ => l), mat (m.map fun b => l.map fun _ => b)])
      | _, _ => .error .stuck),
    (n!"np.linspace", fun
      | [num a, num b, int (.ofNat n)], [] => .ok (vec (linspace a b n))
      | _, _ => .error .stuck),
    (n!"np.zeros", fun
      | [int (.ofNat n)], [(_, str "complex")] =>
        .ok (cvec (List.replicate n (.ofR (PyNum.nat 0))))
      | _, _ => .error .stuck),
    (n!"np.block", fun
      | [tup l], [] => (block l).map mat
      | _, _ => .error .stuck),
    (n!"np.any", fun
      | [Val.bool b], [] => .ok (Val.bool b)
      | [mask l], [] => .ok (Val.bool (l.any id))
      | _, _ => .error .stuck),
    (n!"warnings.warn", fun _ _ => .ok none),
    (n!"isinstance", fun
      | [vec _, _], [] => .ok (Val.bool true)
      | [num _, _], [] => .ok (Val.bool false)
      | _, _ => .error .stuck),
    (n!"range", fun
      | [int (.ofNat n)], [] => .ok (tup ((List.range n).map fun i => int (.ofNat i)))
      | [int (.negSucc _)], [] => .ok (tup [])
      | _, _ => .error .stuck),
    (n!"enumerate", fun
      | [vec l], [] => .ok (tup (numbered 0 l))
      | _, _ => .error .stuck),
    (n!"pd.DataFrame", fun
      | [], [] => .ok (frame [])
      | _, _ => .error .stuck) ]

/-- The largest entry of an array; `ValueError` for an empty one. -/
def largest : List α → Res α
  | [] => .error (.py .ValueError)
  | a :: l => .ok (l.foldl max2 a)

/-- The smallest entry of an array; `ValueError` for an empty one. -/
def smallest : List α → Res α
  | [] => .error (.py .ValueError)
  | a :: l => .ok (l.foldl min2 a)

/-- `d.get(key)` of the dictionary with the given items. -/
def getItem (key : String) : List (Val α) → Res (Val α)
  | [] => .ok none
  | tup [str k, v] :: l => if k = key then .ok v else getItem key l
  | _ => .error .stuck

/-- The column of a data frame with the given name. -/
def frameCol (name : String) : List (String × List α) → Res (Val α)
  | [] => .error .stuck
  | (c, l) :: cols => if c = name then .ok (vec l) else frameCol name cols

/-- The methods of numpy's arrays the source calls; the dictionary of the surplus keyword arguments
of a call is the tuple of its items. -/
def methods : List (Name × (Val α → List (Val α) → Res (Val α))) :=
  [ (n!"mean", fun
      | vec l, [] => .ok (num (lsum l / PyNum.nat l.length))
      | _, _ => .error .stuck),
    (n!"sum", fun
      | vec l, [] => .ok (num (lsum l))
      | _, _ => .error .stuck),
    (n!"max", fun
      | vec l, [] => (largest l).map num
      | mat l, [] => (largest l.flatten).map num
      | _, _ => .error .stuck),
    (n!"min", fun
      | vec l, [] => (smallest l).map num
      | _, _ => .error .stuck),
    (n!"get", fun
      | tup l, [str key] => getItem key l
      | _, _ => .error .stuck),
    (n!"reshape", fun
      | vec l, [tup [int (.ofNat n), int (.ofNat k)]] => reshape l n k
      | _, _ => .error .stuck) ]

/-- The attributes of numpy's arrays and of data frames the source reads. -/
def attributes : List (Name × (Val α → Res (Val α))) :=
  [ (n!"T", fun
      | mat l => .ok (mat (transpose l))
      | _ => .error .stuck),
    (n!"real", fun
      | cx z => .ok (num z.re)
      | cvec l => .ok (vec (l.map Cx.re))
      | _ => .error .stuck),
    (n!"imag", fun
      | cx z => .ok (num z.im)
      | cvec l => .ok (vec (l.map Cx.im))
      | _ => .error .stuck),
    (n!"size", fun
      | vec l => .ok (int (.ofNat l.length))
      | _ => .error .stuck),
    (n!"iloc", fun
      | frame cols => .ok (frame cols)
      | _ => .error .stuck),
    (n!"vcem", fun
      | frame cols => frameCol "vcem" cols
      | _ => .error .stuck),
    (n!"values", fun
      | vec l => .ok (vec l)
      | _ => .error .stuck) ]

/-- The constants of numpy the source uses, the functions of the package it passes to scipy, and
the colour maps defined at the head of `QI.py`. -/
def constants : List (Name × Val α) :=
  [ (n!"np.pi", num pi),
    (n!"np.nan", num (PyNum.nat 0 / PyNum.nat 0)),
    (n!"np.ndarray", none),
    (n!"np.newaxis", none),
    (n!"complex", str "complex"),
    (n!"EM.Berryman_func", fn n!"EM.Berryman_func"),
    (n!"EM.DEM", fn n!"EM.DEM"),
    (n!"EM.OC_R_funcs", fn n!"EM.OC_R_funcs"),
    (n!"cmap_sand", str "cmap_sand"),
    (n!"cmap_kde", str "cmap_kde"),
    (n!"cmap_cem", str "cmap_cem") ]

/-- The items a `for` loop or a generator runs over. -/
def items : Val α → Res (List (Val α))
  | tup l => .ok l
  | vec l => .ok (l.map num)
  | _ => .error .stuck

/-- How a call is answered: the callee, the arguments by position, those by keyword. -/
abbrev Caller (α : Type) := Name → List (Val α) → List (Name × Val α) → Res (Val α)

mutual
/-- The value of an expression. -/
def eval (F : Caller α) (env : Env α) : Expr → Res (Val α)
  | .var x => match lookup x env with
    | some b => .ok b.2
    | .none => match lookup x constants with
      | some v => .ok v
      | .none => .error (.py .UnboundLocalError)
  | .int n => .ok (int (.ofNat n))
  | .flt d => .ok (num (PyNum.sci d.m d.s d.e))
  | .imag d => .ok (cx (match d.toNat? with
    | some n => ⟨PyNum.nat 0, PyNum.nat n⟩
    | .none => ⟨PyNum.nat 0, PyNum.sci d.m d.s d.e⟩))
  | .str s => .ok (str s)
  | .none => .ok none
  | .bool b => .ok (Val.bool b)
  | .neg a => (eval F env a).bind neg
  | .bin .pow a (.flt d) => (eval F env a).bind fun v => match d.toNat? with
    | some n => powNat n v
    | .none => power v (num (PyNum.sci d.m d.s d.e))
  | .bin .pow a (.bin .div (.int 1) (.int 2)) => (eval F env a).bind fun v => match v with
    | cx z => .ok (cx z.sqrt)
    | v => power v (num (PyNum.nat 1 / PyNum.nat 2))
  | .bin o a b => (eval F env a).bind fun v => (eval F env b).bind fun w => match o with
    | .add => match v, w with
      | str s, str t => .ok (str (s ++ t))
      | v, w => arith (· + ·) (· + ·) v w
    | .sub => arith (· - ·) (· - ·) v w
    | .mul => arith (· * ·) (· * ·) v w
    | .div => arith (· / ·) (· / ·) v w
    | .pow => power v w
    | .matmul => match v, w with
      | mat l, mat m => (matmul l m).map mat
      | _, _ => .error .stuck
    | .bitand => match v, w with
      | mask l, mask m => (ofPy (bzip (· && ·) l m)).map mask
      | _, _ => .error .stuck
  | .cmp o a b => (eval F env a).bind fun v => (eval F env b).bind fun w => compare o v w
  | .call f as => (evalArgs F env as).bind fun p => match lookup f builtins with
    | some g => g p.1 p.2
    | .none => F f p.1 p.2
  | .meth a m as => (eval F env a).bind fun v => (evalArgs F env as).bind fun p =>
    match lookup m methods with
    | some g => g v p.1
    | .none => .error .stuck
  | .attr a x => (eval F env a).bind fun v => match lookup x attributes with
    | some g => g v
    | .none => .error .stuck
  | .tuple as => (evalArgs F env as).map fun p => tup p.1
  | .list as => (evalArgs F env as).map fun p => tup p.1
  | .idx a i => (eval F env a).bind fun v => (evalArgs F env i).bind fun p => index v p.1
  | .slice lo hi => (eval F env lo).bind fun v => (eval F env hi).map fun w => tup [v, w]
  | .gen x it body => (eval F env it).bind fun v => (items v).bind fun l =>
      (each (fun w => (eval F ((x, env.length, w) :: env) body).bind items) l).map
        fun r => tup r.flatten
  | .yield a => (eval F env a).map fun v => tup [v]
/-- The values of arguments, from left to right. -/
def evalArgs (F : Caller α) (env : Env α) : Args → Res (Actual α)
  | .nil => .ok ([], [])
  | .pos a as => (eval F env a).bind fun v => (evalArgs F env as).map fun p => (v :: p.1, p.2)
  | .kw x a as => (eval F env a).bind fun v =>
      (evalArgs F env as).map fun p => (p.1, (x, v) :: p.2)
end

/-- Binding the names on the left of `=`. -/
def bindAll : List Name → List (Val α) → Env α → Res (Env α)
  | [], [], env => .ok env
  | x :: xs, v :: vs, env => bindAll xs vs ((x, env.length, v) :: env)
  | _, _, _ => .error (.py .ValueError)

/-- `a[mask] = v` for one number `v`; `st` puts it into an entry. -/
def fill {β : Type} (st : β → β → β) (x : β) : List β → List Bool → Res (List β)
  | [], [] => .ok []
  | a :: l, b :: m => (fill st x l m).map fun r => cond b (st a x) a :: r
  | _, _ => .error (.py .IndexError)

/-- The selected positions are filled in order, one entry of the value for each. -/
def scatter {β : Type} (st : β → β → β) : List β → List Bool → List β → Res (List β)
  | [], [], [] => .ok []
  | a :: l, false :: m, v => (scatter st l m v).map (a :: ·)
  | a :: l, true :: m, x :: v => (scatter st l m v).map (st a x :: ·)
  | _, _, _ => .error (.py .ValueError)

/-- `a[mask] = v` for an array `v`: a single value goes to all selected positions; otherwise there
must be as many values as selected positions. The mask must be as long as the array. -/
def fillWith {β : Type} (st : β → β → β) (l : List β) (m : List Bool) : List β → Res (List β)
  | [x] => fill st x l m
  | v => cond (Nat.beq m.length l.length) (scatter st l m v) (.error (.py .IndexError))

/-- `x` stored at one position. -/
def storeAt (x : α) : List α → Nat → Res (List α)
  | [], _ => .error (.py .IndexError)
  | a :: l, 0 => .ok (PyNum.store a x :: l)
  | a :: l, n + 1 => (storeAt x l n).map (a :: ·)

/-- One entry of `v` stored at position `j` of every row. -/
def storeCol (j : Int) : List (List α) → List α → Res (List (List α))
  | [], [] => .ok []
  | r :: l, x :: v => (position r.length j).bind fun k => (storeAt x r k).bind fun r' =>
      (storeCol j l v).map (r' :: ·)
  | _, _ => .error (.py .ValueError)

/-- `x` stored where the mask is true. -/
def fillRows (x : α) : List (List α) → List (List Bool) → Res (List (List α))
  | [], [] => .ok []
  | r :: l, b :: m => (fill PyNum.store x r b).bind fun r' => (fillRows x l m).map (r' :: ·)
  | _, _ => .error (.py .IndexError)

/-- A column of a data frame replaced, or added on the right. -/
def setCol {β : Type} (name : String) (v : List β) :
    List (String × List β) → List (String × List β)
  | [] => [(name, v)]
  | (c, l) :: cols => if c = name then (c, v) :: cols else (c, l) :: setCol name v cols

/-- The array after `a[i] = v`; an array of numbers keeps its dtype.  An array stored in one cell
must have one entry. -/
def store : Val α → List (Val α) → Val α → Res (Val α)
  | vec l, [mask m], num x => (fill PyNum.store x l m).map vec
  | vec l, [mask m], int n => (fill PyNum.store (ofInt n) l m).map vec
  | vec l, [mask m], vec v => (fillWith PyNum.store l m v).map vec
  | cvec l, [mask m], cx z => (fill (fun _ w => w) z l m).map cvec
  | cvec l, [mask m], num x => (fill (fun _ w => w) (.ofR x) l m).map cvec
  | cvec l, [mask m], int n => (fill (fun _ w => w) (.ofR (ofInt n)) l m).map cvec
  | cvec l, [mask m], cvec v => (fillWith (fun _ w => w) l m v).map cvec
  | vec l, [int i], num x => (position l.length i).bind fun k => (storeAt x l k).map vec
  | vec l, [int i], int n => (position l.length i).bind fun k => (storeAt (ofInt n) l k).map vec
  | vec l, [int i], vec [x] => (position l.length i).bind fun k => (storeAt x l k).map vec
  | vec l, [int i], vec _ => (position l.length i).bind fun _ => .error (.py .ValueError)
  | mat l, [mmask m], int n => (fillRows (ofInt n) l m).map mat
  | mat l, [tup [Val.none, Val.none], int j], vec v => (storeCol j l v).map mat
  | frame [], [str s], vec v => .ok (frame [(s, v)])
  | frame cols, [str s], vec v =>
      cond (Nat.beq v.length (frameRows cols)) (.ok (frame (setCol s v cols)))
        (.error (.py .ValueError))
  | frame cols, [str s], num x =>
      .ok (frame (setCol s (List.replicate (frameRows cols) x) cols))
  | _, _, _ => .error .stuck

/-- Every variable bound to the object `id` sees its new contents. -/
def update (id : Nat) (v : Val α) : Env α → Env α
  | [] => []
  | (x, k, w) :: env => (x, k, cond (Nat.beq k id) v w) :: update id v env

/-- Assignment of a computed value. -/
def assign (F : Caller α) (env : Env α) : Target → Val α → Res (Env α)
  | .var x, v => .ok ((x, env.length, v) :: env)
  | .tuple xs, tup l => bindAll xs l env
  | .tuple xs, vec l => bindAll xs (l.map num) env
  | .tuple _, _ => .error .stuck
  | .idx x i, v => match lookup x env with
    | some b => (evalArgs F env i).bind fun p => (store b.2 p.1 v).map fun w => update b.1 w env
    | .none => .error (.py .UnboundLocalError)
  | .cell x c i, v => match lookup x env with
    | some (id, frame cols) => (frameCol c cols).bind fun col => (evalArgs F env i).bind fun p =>
        (store col p.1 v).bind fun w => match w with
          | vec l => .ok (update id (frame (setCol c l cols)) env)
          | _ => .error .stuck
    | some _ => .error .stuck
    | .none => .error (.py .UnboundLocalError)

/-- `t = a`.  When `a` is a variable, the new name refers to the same object. -/
def bindTo (F : Caller α) (env : Env α) : Target → Expr → Res (Env α)
  | .var x, .var y => match lookup y env with
    | some b => .ok ((x, b) :: env)
    | .none => (eval F env (.var y)).bind (assign F env (.var x))
  | t, a => (eval F env a).bind (assign F env t)

/-- Running the body of a loop for one item after the other, until one returns. -/
def loop (step : Env α → Val α → Res (Env α × Option (Val α))) :
    List (Val α) → Env α → Res (Env α × Option (Val α))
  | [], env => .ok (env, .none)
  | v :: l, env => (step env v).bind fun r => match r.2 with
    | .none => loop step l r.1
    | some w => .ok (r.1, some w)

mutual
/-- Executing a statement: the variables afterwards, and the value if it returned one. -/
def exec (F : Caller α) : Stmt → Env α → Res (Env α × Option (Val α))
  | .assign t a, env => (bindTo F env t a).map fun e => (e, .none)
  | .ret a, env => (eval F env a).map fun v => (env, some v)
  | .ite c t e, env => (eval F env c).bind fun v => (truth v).bind fun b =>
      cond b (execAll F t env) (execAll F e env)
  | .each t a b, env => (eval F env a).bind fun v => (items v).bind fun l =>
      loop (fun env v => (assign F env t v).bind fun env => execAll F b env) l env
  | .expr a, env => (eval F env a).map fun _ => (env, .none)
/-- Executing statements one after the other, until one returns. -/
def execAll (F : Caller α) : Block → Env α → Res (Env α × Option (Val α))
  | .nil, env => .ok (env, .none)
  | .cons s b, env => (exec F s env).bind fun r => match r.2 with
    | .none => execAll F b r.1
    | some w => .ok (r.1, some w)
end

/-- Binding arguments to parameters: by position, then by keyword, then by default value (which
is a literal, evaluated when the function is defined).  A missing or surplus argument raises
`TypeError`. -/
def bindParams : List Param → List (Val α) → List (Name × Val α) → Res (Env α)
  | [], [], _ => .ok []
  | [], _ :: _, _ => .error (.py .TypeError)
  | p :: ps, v :: vs, kw => match lookup p.name kw with
    | some _ => .error (.py .TypeError)
    | .none => (bindParams ps vs kw).map fun e => (p.name, e.length, v) :: e
  | p :: ps, [], kw => match lookup p.name kw with
    | some v => (bindParams ps [] kw).map fun e => (p.name, e.length, v) :: e
    | .none => match p.dflt with
      | some d => (eval (fun _ _ _ => .error .stuck) [] d).bind fun v =>
          (bindParams ps [] kw).map fun e => (p.name, e.length, v) :: e
      | .none => .error (.py .TypeError)

/-- Every keyword is the name of a parameter. -/
def knownKw (ps : List Param) : List (Name × Val α) → Bool
  | [] => true
  | (x, _) :: l => ps.any (fun p => Nat.beq p.name x) && knownKw ps l

/-- Running a function on arguments. -/
def Fun.run (F : Caller α) (f : Fun) (vs : List (Val α)) (kw : List (Name × Val α)) :
    Res (Val α) :=
  cond (knownKw f.params kw)
    ((bindParams f.params vs kw).bind fun env => (execAll F f.body env).map fun r =>
      match r.2 with
      | some v => v
      | .none => Val.none)
    (.error (.py .TypeError))

/-- The attributes of an object: `self.x` is the variable of that name. -/
def bindSelf : List (Name × Val α) → Env α → Env α
  | [], env => env
  | (x, v) :: l, env => bindSelf l ((x, env.length, v) :: env)

/-- Running a method of the object with the given attributes. -/
def Fun.runSelf (F : Caller α) (f : Fun) (self : List (Name × Val α)) (vs : List (Val α))
    (kw : List (Name × Val α)) : Res (Env α × Option (Val α)) :=
  cond (knownKw f.params kw)
    ((bindParams f.params vs kw).bind fun env => execAll F f.body (bindSelf self env))
    (.error (.py .TypeError))

/-- Functions outside the package that receive functions of it or that are not arithmetic
(`fsolve`, `odeint`, `np.linalg.inv`, ...).  They get the means to call the package. -/
abbrev Lib (α : Type) := Caller α → Caller α

/-- Calling a function of the program `P` by its name; calls may be nested `d` deep. -/
def callFn (L : Lib α) (P : List (Name × Fun)) : Nat → Caller α
  | 0 => fun _ _ _ => .error .stuck
  | d + 1 => fun f vs kw => match lookup f P with
    | some g => g.run (callFn L P d) vs kw
    | .none => L (callFn L P d) f vs kw

end RockPhy.Py
