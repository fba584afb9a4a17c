import Verif.Np
import Verif.NanAttr

/-!
# Specification: missing values

A missing sample of a log is a `nan`.  `HasNaN` lists the rules of IEEE arithmetic that concern `nan`:
every operation on a `nan` is `nan` and every comparison with it is false, except for powers:
`nan ** 0` and `1 ** nan` are 1.  The literals that serve as exponents are not zero.  Double precision
numbers obey these rules; so does the ideal instance below.
-/

namespace RockPhy.Spec

/-- Literals between 0 and 1000. -/
inductive Literal {α : Type} [PyNum α] : α → Prop
  | nat (n : ℕ) : 0 < n → n < 1000 → Literal (PyNum.nat n)
  | sci (m : ℕ) (e : ℕ) : 0 < m → m < 1000000 → e < 10 → Literal (PyNum.sci m true e)

/-- The rules of `nan`. -/
class HasNaN (α : Type) extends PyNum α where
  nan : α
  nan_add (x : α) : nan + x = nan
  add_nan (x : α) : x + nan = nan
  nan_sub (x : α) : nan - x = nan
  sub_nan (x : α) : x - nan = nan
  nan_mul (x : α) : nan * x = nan
  mul_nan (x : α) : x * nan = nan
  nan_div (x : α) : nan / x = nan
  div_nan (x : α) : x / nan = nan
  neg_nan : -nan = nan
  inv_nan : PyNum.inv nan = nan
  npow_nan (n : ℕ) : n ≠ 0 → PyNum.npow nan n = nan
  nan_rpow (y : α) : PyNum.eq y (PyNum.nat 0) = false → PyNum.rpow nan y = nan
  rpow_nan (x : α) : PyNum.eq x (PyNum.nat 1) = false → PyNum.rpow x nan = nan
  sqrt_nan : PyNum.sqrt nan = nan
  exp_nan : PyNum.exp nan = nan
  log_nan : PyNum.log nan = nan
  sin_nan : PyNum.sin nan = nan
  cos_nan : PyNum.cos nan = nan
  tan_nan : PyNum.tan nan = nan
  arcsin_nan : PyNum.arcsin nan = nan
  arccos_nan : PyNum.arccos nan = nan
  arctan_nan : PyNum.arctan nan = nan
  cosh_nan : PyNum.cosh nan = nan
  store_nan (x : α) : PyNum.store x nan = nan
  nan_lt (x : α) : PyNum.lt nan x = false
  lt_nan (x : α) : PyNum.lt x nan = false
  nan_le (x : α) : PyNum.le nan x = false
  le_nan (x : α) : PyNum.le x nan = false
  nan_eq (x : α) : PyNum.eq nan x = false
  eq_nan (x : α) : PyNum.eq x nan = false
  zero_div_zero : (PyNum.nat 0 / PyNum.nat 0 : α) = nan
  literal (x : α) : Literal x → PyNum.eq x (PyNum.nat 0) = false
  neg_literal (x : α) : Literal x → PyNum.eq (-x) (PyNum.nat 0) = false
  quotient (x y : α) : Literal x → Literal y → PyNum.eq (x / y) (PyNum.nat 0) = false
  not_one (n : ℕ) : n ≠ 1 → n < 1000 → PyNum.eq (PyNum.nat n : α) (PyNum.nat 1) = false

namespace HasNaN

theorem literal_fin {x : Np} (h : Literal x) : ∃ r : ℝ, 0 < r ∧ x = .fin r := by
  cases h with
  | nat n h0 h1 => exact ⟨n, by exact_mod_cast h0, rfl⟩
  | sci m e h0 h1 h2 =>
    refine ⟨OfScientific.ofScientific m true e, ?_, rfl⟩
    have : (OfScientific.ofScientific m true e : ℝ) = ((OfScientific.ofScientific m true e : ℚ) : ℝ) :=
      (Rat.cast_ofScientific m true e).symm
    rw [this, Rat.cast_pos]
    show (0 : ℚ) < Rat.ofScientific m true e
    rw [Rat.ofScientific_true_def, Rat.mkRat_eq_div]
    positivity

open Classical in
/-- Reals with infinities and `nan`. -/
noncomputable instance : HasNaN Np where
  nan := .nan
  nan_add x := by cases x <;> rfl
  add_nan x := by cases x <;> rfl
  nan_sub x := by cases x <;> rfl
  sub_nan x := by cases x <;> rfl
  nan_mul x := by cases x <;> rfl
  mul_nan x := by cases x <;> rfl
  nan_div x := by cases x <;> rfl
  div_nan x := by cases x <;> rfl
  neg_nan := rfl
  inv_nan := rfl
  npow_nan n h := if_neg h
  nan_rpow y h := by
    cases y with
    | fin b =>
      refine if_neg fun e => ?_
      subst e
      have : decide ((0 : ℝ) = ((0 : ℕ) : ℝ)) = false := h
      simp at this
    | _ => rfl
  rpow_nan x h := by
    cases x with
    | fin b =>
      refine if_neg fun e => ?_
      subst e
      have : decide ((1 : ℝ) = ((1 : ℕ) : ℝ)) = false := h
      simp at this
    | _ => rfl
  sqrt_nan := rfl
  exp_nan := rfl
  log_nan := rfl
  sin_nan := rfl
  cos_nan := rfl
  tan_nan := rfl
  arcsin_nan := rfl
  arccos_nan := rfl
  arctan_nan := rfl
  cosh_nan := rfl
  store_nan _ := rfl
  nan_lt x := by cases x <;> rfl
  lt_nan x := by cases x <;> rfl
  nan_le x := by cases x <;> rfl
  le_nan x := by cases x <;> rfl
  nan_eq x := by cases x <;> rfl
  eq_nan x := by cases x <;> rfl
  zero_div_zero := by
    show (if ((0 : ℕ) : ℝ) = 0 then Np.infMul ((0 : ℕ) : ℝ) true else _) = _
    simp [Np.infMul]
  literal x h := by
    obtain ⟨r, h0, rfl⟩ := literal_fin h
    show decide (r = ((0 : ℕ) : ℝ)) = false
    simp [h0.ne']
  neg_literal x h := by
    obtain ⟨r, h0, rfl⟩ := literal_fin h
    show decide (-r = ((0 : ℕ) : ℝ)) = false
    simp [h0.ne']
  quotient x y h k := by
    obtain ⟨r, h0, rfl⟩ := literal_fin h
    obtain ⟨q, k0, rfl⟩ := literal_fin k
    rw [Np.np_div k0.ne']
    show decide (r / q = ((0 : ℕ) : ℝ)) = false
    simp [h0.ne', k0.ne']
  not_one n h _ := by
    show decide ((n : ℝ) = ((1 : ℕ) : ℝ)) = false
    simp [h]

end HasNaN
end RockPhy.Spec
