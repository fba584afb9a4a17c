import Mathlib.Analysis.SpecialFunctions.Pow.Real
import Mathlib.Analysis.SpecialFunctions.Trigonometric.Inverse
import Mathlib.Analysis.SpecialFunctions.Trigonometric.Arctan
import Mathlib.Tactic.Positivity
import Mathlib.Tactic.FieldSimp
import Mathlib.Tactic.Field
import Mathlib.Tactic.LinearCombination
import Mathlib.Tactic.NormNum
import Mathlib.Tactic.Linarith
import Mathlib.Tactic.Ring
import Mathlib.Data.Matrix.Basic
import Mathlib.LinearAlgebra.Matrix.Notation
import Verif.Attr

/-!
# Numbers used by the model

`PyNum` is the arithmetic vocabulary of the Python source.  Every modelled function is
generic in it.  Two instances live here: `Fl` (exact reals plus one absorbing "left the
finite reals" value; all theorems are stated at this type) and `Float` (only for the
executable tests in `Verif/Tests`).
-/

namespace RockPhy

/-- Python exceptions the modelled code can raise. -/
inductive PyErr
  | UnboundLocalError
  | ValueError
  | IndexError
  | TypeError
  | ZeroDivisionError
  | LinAlgError
  deriving DecidableEq, Repr

/-- The arithmetic the Python source uses.  `npow` is `x**n` for a literal natural
exponent, `inv` is `x**-1`, `rpow` is `x**y` for any other exponent.  `store old new` is what an
array element holds after `a[i] = new` when it held `old`: the array keeps its dtype. -/
class PyNum (α : Type) extends Add α, Sub α, Mul α, Div α, Neg α where
  nat : Nat → α
  sci : Nat → Bool → Nat → α
  inv : α → α
  npow : α → Nat → α
  rpow : α → α → α
  sqrt : α → α
  exp : α → α
  log : α → α
  sin : α → α
  cos : α → α
  tan : α → α
  arcsin : α → α
  arccos : α → α
  arctan : α → α
  cosh : α → α
  pi : α
  lt : α → α → Bool
  le : α → α → Bool
  eq : α → α → Bool
  store : α → α → α

export PyNum (inv rpow sqrt exp log sin cos tan arcsin arccos arctan cosh pi)

/-- Integer literals of the source. -/
scoped instance (priority := low) instOfNatPy {α} [PyNum α] (n : Nat) : OfNat α n :=
  ⟨PyNum.nat n⟩
/-- Decimal literals of the source. -/
scoped instance (priority := low) instSciPy {α} [PyNum α] : OfScientific α := ⟨PyNum.sci⟩

/-- `x ** n` with a natural exponent. -/
scoped infixr:75 " ** " => PyNum.npow
/-- `x ** y` with any other exponent. -/
scoped infixr:75 " **. " => PyNum.rpow

/-- `np.deg2rad` / `np.radians`. -/
def deg2rad {α} [PyNum α] (x : α) : α := x * (pi / 180)

/-- `np.sum` of a one dimensional array. -/
def lsum {α} [PyNum α] (l : List α) : α := l.foldr (· + ·) 0

/-- `np.dot` of two one dimensional arrays; numpy raises `ValueError` when the shapes are
not aligned. -/
def dot {α} [PyNum α] (x y : List α) : Except PyErr α :=
  if x.length = y.length then .ok (lsum (List.zipWith (· * ·) x y)) else .error .ValueError

/-- Entrywise combination of two one dimensional arrays with numpy's broadcasting rule: equal
lengths, or one of the two has length one; any other pair of shapes raises `ValueError`. -/
def bzip {α β γ : Type} (f : α → β → γ) (x : List α) (y : List β) : Except PyErr (List γ) :=
  if x.length = y.length then .ok (List.zipWith f x y)
  else match x, y with
    | [a], y => .ok (y.map (f a))
    | x, [b] => .ok (x.map (f · b))
    | _, _ => .error .ValueError

/-- A 6x6 matrix in Voigt notation (`np.array` of shape `(6,6)`). -/
abbrev Mat6 (α : Type) := Matrix (Fin 6) (Fin 6) α

/-- `A @ B` for 6x6 arrays. -/
def matmul6 {α} [PyNum α] (A B : Mat6 α) : Mat6 α := fun i j =>
  A i 0 * B 0 j + A i 1 * B 1 j + A i 2 * B 2 j + A i 3 * B 3 j + A i 4 * B 4 j + A i 5 * B 5 j

/-! ## Exact reals with an absorbing undefined value -/

/-- `fin r`: the computation stayed inside the finite reals and its exact value is `r`.
`bad`: some step left them (division by zero, square root of a negative number, ...).
Python then raises or produces a complex number; numpy produces inf or nan. -/
inductive Fl
  | fin (r : ℝ)
  | bad

namespace Fl

open Classical in
noncomputable instance instPyNum : PyNum Fl where
  add | fin a, fin b => fin (a + b) | _, _ => bad
  sub | fin a, fin b => fin (a - b) | _, _ => bad
  mul | fin a, fin b => fin (a * b) | _, _ => bad
  div | fin a, fin b => if b = 0 then bad else fin (a / b) | _, _ => bad
  neg | fin a => fin (-a) | _ => bad
  nat n := fin n
  sci m s e := fin (OfScientific.ofScientific m s e)
  inv | fin a => if a = 0 then bad else fin (a⁻¹) | _ => bad
  npow | fin a, n => fin (a ^ n) | _, _ => bad
  rpow
    | fin a, fin b =>
      if 0 < a ∨ (a = 0 ∧ 0 ≤ b) ∨ (a < 0 ∧ ∃ n : ℤ, b = n) then fin (a ^ b) else bad
    | _, _ => bad
  sqrt | fin a => if a < 0 then bad else fin (Real.sqrt a) | _ => bad
  exp | fin a => fin (Real.exp a) | _ => bad
  log | fin a => if 0 < a then fin (Real.log a) else bad | _ => bad
  sin | fin a => fin (Real.sin a) | _ => bad
  cos | fin a => fin (Real.cos a) | _ => bad
  tan | fin a => if Real.cos a = 0 then bad else fin (Real.tan a) | _ => bad
  arcsin | fin a => if -1 ≤ a ∧ a ≤ 1 then fin (Real.arcsin a) else bad | _ => bad
  arccos | fin a => if -1 ≤ a ∧ a ≤ 1 then fin (Real.arccos a) else bad | _ => bad
  arctan | fin a => fin (Real.arctan a) | _ => bad
  cosh | fin a => fin (Real.cosh a) | _ => bad
  pi := fin Real.pi
  lt | fin a, fin b => decide (a < b) | _, _ => false
  le | fin a, fin b => decide (a ≤ b) | _, _ => false
  eq | fin a, fin b => decide (a = b) | _, _ => false
  store _ x := x

instance : Coe ℝ Fl := ⟨fin⟩

/-- Order on results: both sides are finite real numbers and are ordered. -/
instance : LE Fl := ⟨fun x y => ∃ a b : ℝ, x = fin a ∧ y = fin b ∧ a ≤ b⟩
/-- Strict order on results: both sides are finite real numbers and are strictly ordered. -/
instance : LT Fl := ⟨fun x y => ∃ a b : ℝ, x = fin a ∧ y = fin b ∧ a < b⟩

/-- The result is a finite real number. -/
def IsFin (x : Fl) : Prop := ∃ r : ℝ, x = fin r

@[simp] theorem fin_inj {a b : ℝ} : fin a = fin b ↔ a = b :=
  ⟨fun h => by injection h, fun h => by rw [h]⟩
@[simp] theorem fin_ne_bad {a : ℝ} : fin a ≠ bad := fun h => by injection h
@[simp] theorem bad_ne_fin {a : ℝ} : bad ≠ fin a := fun h => by injection h
@[simp] theorem fin_le {a b : ℝ} : fin a ≤ fin b ↔ a ≤ b := by
  constructor
  · rintro ⟨x, y, hx, hy, h⟩
    cases hx; cases hy; exact h
  · intro h; exact ⟨a, b, rfl, rfl, h⟩
@[simp] theorem fin_lt {a b : ℝ} : fin a < fin b ↔ a < b := by
  constructor
  · rintro ⟨x, y, hx, hy, h⟩
    cases hx; cases hy; exact h
  · intro h; exact ⟨a, b, rfl, rfl, h⟩
@[simp] theorem isFin_fin (a : ℝ) : IsFin (fin a) := ⟨a, rfl⟩
@[simp] theorem not_isFin_bad : ¬ IsFin bad := fun ⟨_, h⟩ => by injection h

end Fl

open Fl

/-! ### Evaluation rules (simp set `fl`) -/

@[fl] theorem fl_nat (n : ℕ) [n.AtLeastTwo] : (OfNat.ofNat n : Fl) = fin (OfNat.ofNat n) := rfl
@[fl] theorem fl_zero : (0 : Fl) = fin 0 := by
  show fin ((0 : ℕ) : ℝ) = _
  rw [Nat.cast_zero]
@[fl] theorem fl_one : (1 : Fl) = fin 1 := by
  show fin ((1 : ℕ) : ℝ) = _
  rw [Nat.cast_one]
@[fl] theorem fl_sci (m s e) :
    (OfScientific.ofScientific m s e : Fl) = fin (OfScientific.ofScientific m s e) := rfl
@[fl] theorem fl_add (a b : ℝ) : fin a + fin b = fin (a + b) := rfl
@[fl] theorem fl_sub (a b : ℝ) : fin a - fin b = fin (a - b) := rfl
@[fl] theorem fl_mul (a b : ℝ) : fin a * fin b = fin (a * b) := rfl
@[fl] theorem fl_neg (a : ℝ) : - fin a = fin (-a) := rfl
@[fl] theorem fl_npow (a : ℝ) (n : ℕ) : fin a ** n = fin (a ^ n) := rfl
@[fl] theorem fl_div {a b : ℝ} (h : b ≠ 0) : fin a / fin b = fin (a / b) := if_neg h
@[fl] theorem fl_inv {a : ℝ} (h : a ≠ 0) : PyNum.inv (fin a) = fin (a⁻¹) := if_neg h
@[fl] theorem fl_sqrt {a : ℝ} (h : 0 ≤ a) : PyNum.sqrt (fin a) = fin (Real.sqrt a) :=
  if_neg (not_lt.mpr h)
@[fl] theorem fl_rpow {a b : ℝ} (h : 0 < a) : fin a **. fin b = fin (a ^ b) := if_pos (Or.inl h)
theorem fl_rpow_zero {b : ℝ} (h : 0 ≤ b) : fin 0 **. fin b = fin ((0 : ℝ) ^ b) :=
  if_pos (Or.inr (Or.inl ⟨rfl, h⟩))
theorem fl_rpow_nonneg {a b : ℝ} (ha : 0 ≤ a) (h : 0 ≤ b) : fin a **. fin b = fin (a ^ b) := by
  rcases ha.eq_or_lt with rfl | ha
  · exact fl_rpow_zero h
  · exact fl_rpow ha
@[fl] theorem fl_exp (a : ℝ) : PyNum.exp (fin a) = fin (Real.exp a) := rfl
@[fl] theorem fl_log {a : ℝ} (h : 0 < a) : PyNum.log (fin a) = fin (Real.log a) := if_pos h
@[fl] theorem fl_sin (a : ℝ) : PyNum.sin (fin a) = fin (Real.sin a) := rfl
@[fl] theorem fl_cos (a : ℝ) : PyNum.cos (fin a) = fin (Real.cos a) := rfl
@[fl] theorem fl_tan {a : ℝ} (h : Real.cos a ≠ 0) : PyNum.tan (fin a) = fin (Real.tan a) :=
  if_neg h
@[fl] theorem fl_arcsin {a : ℝ} (h : -1 ≤ a ∧ a ≤ 1) :
    PyNum.arcsin (fin a) = fin (Real.arcsin a) := if_pos h
@[fl] theorem fl_arccos {a : ℝ} (h : -1 ≤ a ∧ a ≤ 1) :
    PyNum.arccos (fin a) = fin (Real.arccos a) := if_pos h
@[fl] theorem fl_arctan (a : ℝ) : PyNum.arctan (fin a) = fin (Real.arctan a) := rfl
@[fl] theorem fl_cosh (a : ℝ) : PyNum.cosh (fin a) = fin (Real.cosh a) := rfl
@[fl] theorem fl_pi : (PyNum.pi : Fl) = fin Real.pi := rfl
@[fl] theorem fl_lt (a b : ℝ) : (PyNum.lt (fin a) (fin b) = true) = (a < b) := by
  simp [PyNum.lt]
@[fl] theorem fl_le (a b : ℝ) : (PyNum.le (fin a) (fin b) = true) = (a ≤ b) := by
  simp [PyNum.le]
@[fl] theorem fl_eq (a b : ℝ) : (PyNum.eq (fin a) (fin b) = true) = (a = b) := by
  simp [PyNum.eq]

@[fl] theorem fl_store (x y : Fl) : PyNum.store x y = y := rfl

theorem fl_div_zero (a : Fl) : a / fin 0 = bad := by cases a <;> simp [HDiv.hDiv, Div.div]
theorem fl_inv_zero : PyNum.inv (fin 0) = bad := if_pos rfl
theorem fl_sqrt_neg {a : ℝ} (h : a < 0) : PyNum.sqrt (fin a) = bad := if_pos h
theorem fl_sqrt_eq_fin {a v : ℝ} (h : PyNum.sqrt (fin a) = fin v) : 0 ≤ a ∧ v = Real.sqrt a := by
  by_cases ha : a < 0
  · rw [fl_sqrt_neg ha] at h; exact absurd h bad_ne_fin
  · rw [fl_sqrt (not_lt.mp ha), fin_inj] at h
    exact ⟨not_lt.mp ha, h.symm⟩
theorem fl_log_nonpos {a : ℝ} (h : a ≤ 0) : PyNum.log (fin a) = bad := if_neg (not_lt.mpr h)
@[fl] theorem fl_bad_add (x : Fl) : bad + x = bad := rfl
@[fl] theorem fl_add_bad (x : Fl) : x + bad = bad := by cases x <;> rfl
@[fl] theorem fl_bad_sub (x : Fl) : bad - x = bad := rfl
@[fl] theorem fl_sub_bad (x : Fl) : x - bad = bad := by cases x <;> rfl
@[fl] theorem fl_bad_mul (x : Fl) : bad * x = bad := rfl
@[fl] theorem fl_mul_bad (x : Fl) : x * bad = bad := by cases x <;> rfl
@[fl] theorem fl_bad_div (x : Fl) : bad / x = bad := rfl
@[fl] theorem fl_div_bad (x : Fl) : x / bad = bad := by cases x <;> rfl
@[fl] theorem fl_neg_bad : -bad = bad := rfl
@[fl] theorem fl_bad_npow (n : ℕ) : bad ** n = bad := rfl
@[fl] theorem fl_inv_bad : PyNum.inv bad = bad := rfl
@[fl] theorem fl_sqrt_bad : PyNum.sqrt bad = bad := rfl
@[fl] theorem fl_rpow_bad (x : Fl) : x **. bad = bad := by cases x <;> rfl
@[fl] theorem fl_bad_rpow (x : Fl) : bad **. x = bad := rfl

@[fl] theorem fl_deg2rad (a : ℝ) : deg2rad (fin a) = fin (a * (Real.pi / 180)) := by
  show fin a * (fin Real.pi / fin 180) = _
  rw [fl_div (by norm_num), fl_mul]

@[fl] theorem lsum_nil : lsum ([] : List Fl) = fin 0 := by
  show (0 : Fl) = _
  exact fl_zero
@[fl] theorem lsum_cons (x : Fl) (l : List Fl) : lsum (x :: l) = x + lsum l := rfl

theorem lsum_map_fin (l : List ℝ) : lsum (l.map fin) = fin l.sum := by
  induction l with
  | nil => exact lsum_nil
  | cons x l ih => rw [List.map_cons, lsum_cons, ih, fl_add, List.sum_cons]

@[fl] theorem except_ok_bind {ε α β : Type} (a : α) (f : α → Except ε β) :
    (Except.ok a >>= f) = f a := rfl
@[fl] theorem except_error_bind {ε α β : Type} (e : ε) (f : α → Except ε β) :
    ((Except.error e : Except ε α) >>= f) = .error e := rfl
@[fl] theorem except_pure {ε α : Type} (a : α) : (pure a : Except ε α) = .ok a := rfl

theorem bzip_eq {α β γ : Type} (f : α → β → γ) {x : List α} {y : List β}
    (h : x.length = y.length) : bzip f x y = .ok (List.zipWith f x y) := if_pos h

theorem zipWith_mul_map_fin (x y : List ℝ) :
    List.zipWith (· * ·) (x.map fin) (y.map fin) = (List.zipWith (· * ·) x y).map fin := by
  induction x generalizing y with
  | nil => simp
  | cons a x ih =>
    cases y with
    | nil => simp
    | cons b y => simp only [List.map_cons, List.zipWith_cons_cons, ih, fl_mul]

/-- Real dot product of two lists (zip, multiply, add up). -/
def rdot (x y : List ℝ) : ℝ := (List.zipWith (· * ·) x y).sum

theorem dot_map_fin {x y : List ℝ} (h : x.length = y.length) :
    dot (x.map fin) (y.map fin) = .ok (fin (rdot x y)) := by
  unfold dot
  rw [if_pos (by simpa using h), zipWith_mul_map_fin, lsum_map_fin]; rfl

/-- Evaluate a model expression on finite inputs, discharging the definedness side
conditions by assumption, positivity or linear arithmetic. -/
macro "fl_eval" "[" ls:Lean.Parser.Tactic.simpLemma,* "]" : tactic =>
  `(tactic| simp (disch := first | assumption | positivity | (norm_num; done) | fail) only [fl, $ls,*])

/-! ## Executable floats, for tests only -/

instance : PyNum Float where
  nat n := OfNat.ofNat n
  sci m s e := OfScientific.ofScientific m s e
  inv x := 1.0 / x
  npow x n := Float.pow x n.toFloat
  rpow := Float.pow
  sqrt := Float.sqrt
  exp := Float.exp
  log := Float.log
  sin := Float.sin
  cos := Float.cos
  tan := Float.tan
  arcsin := Float.asin
  arccos := Float.acos
  arctan := Float.atan
  cosh := Float.cosh
  pi := 3.141592653589793
  lt a b := decide (a < b)
  le a b := decide (a ≤ b)
  eq a b := a == b
  store _ x := x

end RockPhy
