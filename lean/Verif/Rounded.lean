import Verif.Num
import Mathlib.Data.Int.Log

/-!
# Arithmetic with rounding

The fourth instance of `PyNum`: every operation is the exact one followed by an error of at most
`u` times the exact result, the standard model of floating-point arithmetic without overflow and
underflow.  Nothing else is assumed of the error, which may depend on the operation and on its
operands, so binary64 arithmetic and any correctly rounded or faithful library functions are
covered (with `u = 2⁻⁵³` for the former and a few times that for the latter).  Integer literals and
comparisons are exact.
-/

namespace RockPhy

/-- The operations that round. -/
inductive Op
  | lit | add | sub | mul | div | inv | npow | rpow | sqrt | exp | log | sin | cos | tan | arcsin
  | arccos | arctan | cosh | pi

/-- A computer arithmetic: the result of each operation, given the operands and the exact
result. -/
structure Rounding where
  u : ℝ
  u_nonneg : 0 ≤ u
  u_lt : u < 1
  rnd : Op → ℝ → ℝ → ℝ → ℝ
  err : ∀ o x y e, |rnd o x y e - e| ≤ u * |e|

/-- Numbers of a computer arithmetic. -/
inductive Rd (A : Rounding)
  | fin (r : ℝ)
  | bad

namespace Rd

variable (A : Rounding)

open Classical in
noncomputable instance instPyNum : PyNum (Rd A) where
  add | fin a, fin b => fin (A.rnd .add a b (a + b)) | _, _ => bad
  sub | fin a, fin b => fin (A.rnd .sub a b (a - b)) | _, _ => bad
  mul | fin a, fin b => fin (A.rnd .mul a b (a * b)) | _, _ => bad
  div | fin a, fin b => if b = 0 then bad else fin (A.rnd .div a b (a / b)) | _, _ => bad
  neg | fin a => fin (-a) | _ => bad
  nat n := fin n
  sci m s e := fin (A.rnd .lit 0 0 (OfScientific.ofScientific m s e))
  inv | fin a => if a = 0 then bad else fin (A.rnd .inv a 0 a⁻¹) | _ => bad
  npow | fin a, n => fin (A.rnd .npow a n (a ^ n)) | _, _ => bad
  rpow
    | fin a, fin b =>
      if 0 < a ∨ (a = 0 ∧ 0 ≤ b) ∨ (a < 0 ∧ ∃ n : ℤ, b = n) then fin (A.rnd .rpow a b (a ^ b))
      else bad
    | _, _ => bad
  sqrt | fin a => if a < 0 then bad else fin (A.rnd .sqrt a 0 (Real.sqrt a)) | _ => bad
  exp | fin a => fin (A.rnd .exp a 0 (Real.exp a)) | _ => bad
  log | fin a => if 0 < a then fin (A.rnd .log a 0 (Real.log a)) else bad | _ => bad
  sin | fin a => fin (A.rnd .sin a 0 (Real.sin a)) | _ => bad
  cos | fin a => fin (A.rnd .cos a 0 (Real.cos a)) | _ => bad
  tan | fin a => if Real.cos a = 0 then bad else fin (A.rnd .tan a 0 (Real.tan a)) | _ => bad
  arcsin
    | fin a => if -1 ≤ a ∧ a ≤ 1 then fin (A.rnd .arcsin a 0 (Real.arcsin a)) else bad
    | _ => bad
  arccos
    | fin a => if -1 ≤ a ∧ a ≤ 1 then fin (A.rnd .arccos a 0 (Real.arccos a)) else bad
    | _ => bad
  arctan | fin a => fin (A.rnd .arctan a 0 (Real.arctan a)) | _ => bad
  cosh | fin a => fin (A.rnd .cosh a 0 (Real.cosh a)) | _ => bad
  pi := fin (A.rnd .pi 0 0 Real.pi)
  lt | fin a, fin b => decide (a < b) | _, _ => false
  le | fin a, fin b => decide (a ≤ b) | _, _ => false
  eq | fin a, fin b => decide (a = b) | _, _ => false
  store _ x := x

end Rd

/-- Rounding to nearest in binary with 53 significant bits and an unlimited range of exponents. -/
noncomputable def nearest (x : ℝ) : ℝ :=
  round (x / (2 : ℝ) ^ (Int.log 2 |x| - 52)) * (2 : ℝ) ^ (Int.log 2 |x| - 52)

theorem nearest_err (x : ℝ) : |nearest x - x| ≤ 2⁻¹ ^ 53 * |x| := by
  rcases eq_or_ne x 0 with rfl | hx
  · simp [nearest]
  have hp : (0 : ℝ) < (2 : ℝ) ^ (Int.log 2 |x| - 52) := by positivity
  have h1 := abs_sub_round (x / (2 : ℝ) ^ (Int.log 2 |x| - 52))
  have h2 : (2 : ℝ) ^ Int.log 2 |x| ≤ |x| := Int.zpow_log_le_self (by norm_num) (abs_pos.mpr hx)
  have h3 : (2 : ℝ) ^ (Int.log 2 |x| - 52) = (2 : ℝ) ^ Int.log 2 |x| * 2⁻¹ ^ 52 := by
    rw [zpow_sub₀ (by norm_num), div_eq_mul_inv]; norm_num
  have e : nearest x - x = -((x / (2 : ℝ) ^ (Int.log 2 |x| - 52)
      - round (x / (2 : ℝ) ^ (Int.log 2 |x| - 52))) * (2 : ℝ) ^ (Int.log 2 |x| - 52)) := by
    rw [nearest, sub_mul, div_mul_cancel₀ _ hp.ne']; ring
  rw [e, abs_neg, abs_mul, abs_of_pos hp]
  calc _ ≤ 1 / 2 * (2 : ℝ) ^ (Int.log 2 |x| - 52) := mul_le_mul_of_nonneg_right h1 hp.le
    _ = 2⁻¹ ^ 53 * (2 : ℝ) ^ Int.log 2 |x| := by rw [h3]; ring
    _ ≤ _ := mul_le_mul_of_nonneg_left h2 (by positivity)

/-- Binary arithmetic with 53 significant bits. -/
noncomputable def binary53 : Rounding where
  u := 2⁻¹ ^ 53
  u_nonneg := by positivity
  u_lt := by norm_num
  rnd _ _ _ e := nearest e
  err _ _ _ e := nearest_err e

end RockPhy
