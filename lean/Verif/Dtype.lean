import Verif.Num
import Mathlib.Algebra.Order.Floor.Ring
import Mathlib.Algebra.Order.Archimedean.Real.Basic

/-!
# Numpy integers

The fifth instance of `PyNum`: a value is an element of an integer array or of a float array.
`+`, `-`, `*` and powers with a natural exponent stay integers, true division and every function
of `numpy` give floats, an integer raised to a negative integer power raises `ValueError`, and an
element stored into an integer array is truncated.  Integer overflow is not modelled.
-/

namespace RockPhy

/-- `int n`: an element of an integer array.  `flt r`: an element of a float array.  `bad`: the
computation left the finite reals.  `err`: the expression raised `ValueError`. -/
inductive Dt
  | int (n : ℤ)
  | flt (r : ℝ)
  | bad
  | err

namespace Dt

/-- The number as a float. -/
def toFl : Dt → Fl
  | int n => .fin n
  | flt r => .fin r
  | bad => .bad
  | err => .bad

/-- A float result. -/
def ofFl : Fl → Dt
  | .fin r => flt r
  | .bad => bad

/-- The value is an element of an integer array. -/
def isInt : Dt → Bool
  | int _ => true
  | _ => false

/-- Conversion of a float to an integer dtype: truncation towards zero. -/
noncomputable def trunc (r : ℝ) : ℤ := if 0 ≤ r then ⌊r⌋ else ⌈r⌉

/-- A function of `numpy` that always gives floats. -/
def fn (f : Fl → Fl) : Dt → Dt
  | err => err
  | x => ofFl (f x.toFl)

/-- An operator that always gives floats. -/
def fn2 (f : Fl → Fl → Fl) : Dt → Dt → Dt
  | err, _ => err
  | _, err => err
  | x, y => ofFl (f x.toFl y.toFl)

/-- An operator that gives an integer when both operands are integers. -/
def op2 (g : ℤ → ℤ → ℤ) (f : Fl → Fl → Fl) : Dt → Dt → Dt
  | int a, int b => int (g a b)
  | x, y => fn2 f x y

open Classical in
noncomputable instance instPyNum : PyNum Dt where
  add := op2 (· + ·) (· + ·)
  sub := op2 (· - ·) (· - ·)
  mul := op2 (· * ·) (· * ·)
  div := fn2 (· / ·)
  neg | int a => int (-a) | x => fn (- ·) x
  nat n := int n
  sci m s e := flt (OfScientific.ofScientific m s e)
  inv | int _ => err | x => fn PyNum.inv x
  npow | int a, n => int (a ^ n) | x, n => fn (· ** n) x
  rpow | int a, int b => if b < 0 then err else int (a ^ b.toNat) | x, y => fn2 (· **. ·) x y
  sqrt := fn PyNum.sqrt
  exp := fn PyNum.exp
  log := fn PyNum.log
  sin := fn PyNum.sin
  cos := fn PyNum.cos
  tan := fn PyNum.tan
  arcsin := fn PyNum.arcsin
  arccos := fn PyNum.arccos
  arctan := fn PyNum.arctan
  cosh := fn PyNum.cosh
  pi := flt Real.pi
  lt a b := PyNum.lt a.toFl b.toFl
  le a b := PyNum.le a.toFl b.toFl
  eq a b := PyNum.eq a.toFl b.toFl
  store
    | err, _ => err
    | _, err => err
    | int _, int n => int n
    | int _, flt r => int (trunc r)
    | _, x => ofFl x.toFl

/-! ### Conversion to floats -/

@[dt] theorem toFl_ofFl (x : Fl) : (ofFl x).toFl = x := by cases x <;> rfl
theorem toFl_fn {f : Fl → Fl} (h : f .bad = .bad) (x : Dt) : (fn f x).toFl = f x.toFl := by
  cases x <;> simp [fn, toFl_ofFl]
  simp [toFl, h]
theorem toFl_fn2 {f : Fl → Fl → Fl} (h : ∀ x, f .bad x = .bad) (h' : ∀ x, f x .bad = .bad)
    (x y : Dt) : (fn2 f x y).toFl = f x.toFl y.toFl := by
  cases x <;> cases y <;> simp [fn2, toFl_ofFl] <;> simp [toFl, h, h']
theorem toFl_op2 {g : ℤ → ℤ → ℤ} {f : Fl → Fl → Fl} (h : ∀ x, f .bad x = .bad)
    (h' : ∀ x, f x .bad = .bad) (hg : ∀ a b : ℤ, f (.fin a) (.fin b) = .fin (g a b))
    (x y : Dt) : (op2 g f x y).toFl = f x.toFl y.toFl := by
  cases x <;> cases y <;> simp only [op2] <;> first | exact toFl_fn2 h h' _ _ | exact (hg _ _).symm

@[dt] theorem toFl_add (x y : Dt) : (x + y).toFl = x.toFl + y.toFl :=
  toFl_op2 fl_bad_add fl_add_bad (fun a b => by simp [fl]) x y
@[dt] theorem toFl_sub (x y : Dt) : (x - y).toFl = x.toFl - y.toFl :=
  toFl_op2 fl_bad_sub fl_sub_bad (fun a b => by simp [fl]) x y
@[dt] theorem toFl_mul (x y : Dt) : (x * y).toFl = x.toFl * y.toFl :=
  toFl_op2 fl_bad_mul fl_mul_bad (fun a b => by simp [fl]) x y
@[dt] theorem toFl_div (x y : Dt) : (x / y).toFl = x.toFl / y.toFl :=
  toFl_fn2 fl_bad_div fl_div_bad x y
@[dt] theorem toFl_neg (x : Dt) : (-x).toFl = -x.toFl := by
  cases x with
  | int a => show Fl.fin ((-a : ℤ) : ℝ) = -Fl.fin a; simp [fl]
  | flt r => exact toFl_fn fl_neg_bad (flt r)
  | bad => rfl
  | err => rfl
@[dt] theorem toFl_npow (x : Dt) (n : ℕ) : (x ** n).toFl = x.toFl ** n := by
  cases x with
  | int a => show Fl.fin ((a ^ n : ℤ) : ℝ) = Fl.fin a ** n; simp [fl]
  | flt r => rfl
  | bad => rfl
  | err => rfl
@[dt] theorem toFl_nat (n : ℕ) : (PyNum.nat n : Dt).toFl = PyNum.nat n := by
  show Fl.fin ((n : ℤ) : ℝ) = Fl.fin n; simp
@[dt] theorem toFl_ofNat (n : ℕ) [n.AtLeastTwo] : (ofNat(n) : Dt).toFl = OfNat.ofNat n :=
  toFl_nat n
@[dt] theorem toFl_zero : (0 : Dt).toFl = 0 := toFl_nat 0
@[dt] theorem toFl_one : (1 : Dt).toFl = 1 := toFl_nat 1
@[dt] theorem toFl_sci (m s e) :
    (OfScientific.ofScientific m s e : Dt).toFl = OfScientific.ofScientific m s e := rfl
@[dt] theorem toFl_pi : (PyNum.pi : Dt).toFl = PyNum.pi := rfl
@[dt] theorem toFl_sqrt (x : Dt) : (PyNum.sqrt x).toFl = PyNum.sqrt x.toFl := toFl_fn rfl x
@[dt] theorem toFl_exp (x : Dt) : (PyNum.exp x).toFl = PyNum.exp x.toFl := toFl_fn rfl x
@[dt] theorem toFl_log (x : Dt) : (PyNum.log x).toFl = PyNum.log x.toFl := toFl_fn rfl x
@[dt] theorem toFl_sin (x : Dt) : (PyNum.sin x).toFl = PyNum.sin x.toFl := toFl_fn rfl x
@[dt] theorem toFl_cos (x : Dt) : (PyNum.cos x).toFl = PyNum.cos x.toFl := toFl_fn rfl x
@[dt] theorem toFl_tan (x : Dt) : (PyNum.tan x).toFl = PyNum.tan x.toFl := toFl_fn rfl x
@[dt] theorem toFl_arcsin (x : Dt) : (PyNum.arcsin x).toFl = PyNum.arcsin x.toFl := toFl_fn rfl x
@[dt] theorem toFl_arccos (x : Dt) : (PyNum.arccos x).toFl = PyNum.arccos x.toFl := toFl_fn rfl x
@[dt] theorem toFl_arctan (x : Dt) : (PyNum.arctan x).toFl = PyNum.arctan x.toFl := toFl_fn rfl x
@[dt] theorem toFl_cosh (x : Dt) : (PyNum.cosh x).toFl = PyNum.cosh x.toFl := toFl_fn rfl x
@[dt] theorem lt_toFl (x y : Dt) : PyNum.lt x y = PyNum.lt x.toFl y.toFl := rfl
@[dt] theorem le_toFl (x y : Dt) : PyNum.le x y = PyNum.le x.toFl y.toFl := rfl
@[dt] theorem eq_toFl (x y : Dt) : PyNum.eq x y = PyNum.eq x.toFl y.toFl := rfl
@[dt] theorem toFl_deg2rad (x : Dt) : (deg2rad x).toFl = deg2rad x.toFl := by
  simp only [deg2rad, dt]
@[dt] theorem toFl_lsum (l : List Dt) : (lsum l).toFl = lsum (l.map toFl) := by
  induction l with
  | nil => exact toFl_zero
  | cons a l ih => exact (toFl_add _ _).trans (congrArg _ ih)

/-! ### Which expressions are floats -/

@[dt] theorem isInt_ofFl (x : Fl) : (ofFl x).isInt = false := by cases x <;> rfl
@[dt] theorem isInt_fn (f : Fl → Fl) (x : Dt) : (fn f x).isInt = false := by
  cases x <;> first | exact isInt_ofFl _ | rfl
@[dt] theorem isInt_fn2 (f : Fl → Fl → Fl) (x y : Dt) : (fn2 f x y).isInt = false := by
  cases x <;> cases y <;> first | exact isInt_ofFl _ | rfl
theorem isInt_op2 (g : ℤ → ℤ → ℤ) (f : Fl → Fl → Fl) (x y : Dt) :
    (op2 g f x y).isInt = (x.isInt && y.isInt) := by
  cases x <;> cases y <;> simp only [op2] <;> first | rfl | exact isInt_fn2 _ _ _
@[dt] theorem isInt_add (x y : Dt) : (x + y).isInt = (x.isInt && y.isInt) := isInt_op2 _ _ _ _
@[dt] theorem isInt_sub (x y : Dt) : (x - y).isInt = (x.isInt && y.isInt) := isInt_op2 _ _ _ _
@[dt] theorem isInt_mul (x y : Dt) : (x * y).isInt = (x.isInt && y.isInt) := isInt_op2 _ _ _ _
@[dt] theorem isInt_div (x y : Dt) : (x / y).isInt = false := isInt_fn2 _ _ _
@[dt] theorem isInt_neg (x : Dt) : (-x).isInt = x.isInt := by
  cases x <;> rfl
@[dt] theorem isInt_npow (x : Dt) (n : ℕ) : (x ** n).isInt = x.isInt := by
  cases x <;> rfl
@[dt] theorem isInt_inv (x : Dt) : (PyNum.inv x).isInt = false := by
  cases x <;> first | rfl | exact isInt_fn _ _
@[dt] theorem isInt_sci (m s e) : (OfScientific.ofScientific m s e : Dt).isInt = false := rfl
@[dt] theorem isInt_pi : (PyNum.pi : Dt).isInt = false := rfl
@[dt] theorem isInt_sqrt (x : Dt) : (PyNum.sqrt x).isInt = false := isInt_fn _ x
@[dt] theorem isInt_exp (x : Dt) : (PyNum.exp x).isInt = false := isInt_fn _ x
@[dt] theorem isInt_log (x : Dt) : (PyNum.log x).isInt = false := isInt_fn _ x
@[dt] theorem isInt_sin (x : Dt) : (PyNum.sin x).isInt = false := isInt_fn _ x
@[dt] theorem isInt_cos (x : Dt) : (PyNum.cos x).isInt = false := isInt_fn _ x
@[dt] theorem isInt_tan (x : Dt) : (PyNum.tan x).isInt = false := isInt_fn _ x
@[dt] theorem isInt_arcsin (x : Dt) : (PyNum.arcsin x).isInt = false := isInt_fn _ x
@[dt] theorem isInt_arccos (x : Dt) : (PyNum.arccos x).isInt = false := isInt_fn _ x
@[dt] theorem isInt_arctan (x : Dt) : (PyNum.arctan x).isInt = false := isInt_fn _ x
@[dt] theorem isInt_cosh (x : Dt) : (PyNum.cosh x).isInt = false := isInt_fn _ x
@[dt] theorem isInt_flt (r : ℝ) : (flt r).isInt = false := rfl
@[dt] theorem isInt_int (n : ℤ) : (int n).isInt = true := rfl
@[dt] theorem isInt_ofNat (n : ℕ) [n.AtLeastTwo] : (ofNat(n) : Dt).isInt = true := rfl
@[dt] theorem isInt_one : (1 : Dt).isInt = true := rfl
@[dt] theorem isInt_zero : (0 : Dt).isInt = true := rfl

/-- `x**-1` of a float. -/
@[dt] theorem toFl_inv {x : Dt} (h : x.isInt = false) :
    (PyNum.inv x).toFl = PyNum.inv x.toFl := by
  cases x with
  | int a => exact absurd h (by simp [isInt])
  | flt r => exact toFl_fn rfl (flt r)
  | bad => rfl
  | err => rfl
/-- `x**-1` of an integer raises. -/
@[dt] theorem inv_err {x : Dt} (h : x.isInt = true) : PyNum.inv x = err := by
  cases x <;> first | rfl | exact absurd h (by simp [isInt])

theorem fl_rpow_int (a : ℤ) {b : ℤ} (hb : 0 ≤ b) :
    Fl.fin (a : ℝ) **. Fl.fin (b : ℝ) = Fl.fin ((a ^ b.toNat : ℤ) : ℝ) := by
  have e : (a : ℝ) ^ (b : ℝ) = ((a ^ b.toNat : ℤ) : ℝ) := by
    lift b to ℕ using hb
    simp
  rw [← e]
  refine if_pos ?_
  rcases lt_trichotomy (a : ℝ) 0 with h | h | h
  · exact Or.inr (Or.inr ⟨h, b, rfl⟩)
  · exact Or.inr (Or.inl ⟨h, by exact_mod_cast hb⟩)
  · exact Or.inl h

/-- `x**y` unless an integer is raised to a negative integer. -/
theorem toFl_rpow {x y : Dt} (h : ∀ a b : ℤ, x = int a → y = int b → 0 ≤ b) :
    (x **. y).toFl = x.toFl **. y.toFl := by
  cases x with
  | int a =>
    cases y with
    | int b =>
      have hb := h a b rfl rfl
      show Dt.toFl (if b < 0 then err else int (a ^ b.toNat)) = _
      rw [if_neg (not_lt.mpr hb)]
      exact (fl_rpow_int a hb).symm
    | flt r => exact toFl_fn2 fl_bad_rpow fl_rpow_bad (int a) (flt r)
    | bad => exact toFl_fn2 fl_bad_rpow fl_rpow_bad (int a) bad
    | err => exact toFl_fn2 fl_bad_rpow fl_rpow_bad (int a) err
  | flt r => exact toFl_fn2 fl_bad_rpow fl_rpow_bad (flt r) y
  | bad => exact toFl_fn2 fl_bad_rpow fl_rpow_bad bad y
  | err => exact toFl_fn2 fl_bad_rpow fl_rpow_bad err y
/-- `x**y` with a float exponent. -/
@[dt] theorem toFl_rpow_flt {x y : Dt} (h : y.isInt = false) :
    (x **. y).toFl = x.toFl **. y.toFl :=
  toFl_rpow fun a b _ e => by subst e; exact absurd h (by simp [isInt])
/-- `x**y` with a float base. -/
theorem toFl_rpow_base {x y : Dt} (h : x.isInt = false) :
    (x **. y).toFl = x.toFl **. y.toFl :=
  toFl_rpow fun a b e _ => by subst e; exact absurd h (by simp [isInt])
theorem isInt_rpow (x y : Dt) (h : (x **. y).isInt = true) :
    x.isInt = true ∧ y.isInt = true := by
  have key : ∀ x y : Dt, (fn2 (· **. ·) x y).isInt = true → False := fun x y h => by
    rw [isInt_fn2] at h; exact Bool.false_ne_true h
  cases x with
  | int a =>
    cases y with
    | int b => exact ⟨rfl, rfl⟩
    | flt r => exact (key (int a) (flt r) h).elim
    | bad => exact (key (int a) bad h).elim
    | err => exact (key (int a) err h).elim
  | flt r => exact (key (flt r) y h).elim
  | bad => exact (key bad y h).elim
  | err => exact (key err y h).elim
@[dt] theorem isInt_rpow_flt {x y : Dt} (h : y.isInt = false) : (x **. y).isInt = false := by
  by_contra c
  rw [Bool.not_eq_false] at c
  rw [(isInt_rpow x y c).2] at h
  exact absurd h (by simp)

/-! ### Exceptions abort the call -/

theorem err_fn (f : Fl → Fl) : fn f err = err := rfl
theorem err_fn2 (f : Fl → Fl → Fl) (x : Dt) : fn2 f err x = err := by cases x <;> rfl
theorem fn2_err (f : Fl → Fl → Fl) (x : Dt) : fn2 f x err = err := by cases x <;> rfl
theorem err_op2 (g : ℤ → ℤ → ℤ) (f : Fl → Fl → Fl) (x : Dt) : op2 g f err x = err := by
  cases x <;> rfl
theorem op2_err (g : ℤ → ℤ → ℤ) (f : Fl → Fl → Fl) (x : Dt) : op2 g f x err = err := by
  cases x <;> rfl
@[dt] theorem err_add (x : Dt) : err + x = err := err_op2 _ _ x
@[dt] theorem add_err (x : Dt) : x + err = err := op2_err _ _ x
@[dt] theorem err_sub (x : Dt) : err - x = err := err_op2 _ _ x
@[dt] theorem sub_err (x : Dt) : x - err = err := op2_err _ _ x
@[dt] theorem err_mul (x : Dt) : err * x = err := err_op2 _ _ x
@[dt] theorem mul_err (x : Dt) : x * err = err := op2_err _ _ x
@[dt] theorem err_div (x : Dt) : err / x = err := err_fn2 _ x
@[dt] theorem div_err (x : Dt) : x / err = err := fn2_err _ x
@[dt] theorem inv_of_err : PyNum.inv err = err := rfl

end Dt

end RockPhy
