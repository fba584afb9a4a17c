import Verif.Num

/-!
# numpy floats with infinities

A third instance of `PyNum`, used only where the result depends on numpy returning `inf`
instead of raising: exact reals plus `inf`, `-inf` and `nan`, with the IEEE rules.
Simplification: zero is always `+0.0` (that is what `x - x` gives), so `1/0 = inf`.
-/

namespace RockPhy

inductive Np
  | fin (r : ℝ)
  | inf
  | ninf
  | nan

namespace Np

/-- `+inf`, `-inf` or `nan` times a real of known sign. -/
noncomputable def infMul (r : ℝ) (pos : Bool) : Np :=
  if r = 0 then nan else if (decide (0 < r)) = pos then inf else ninf

open Classical in
noncomputable instance instPyNum : PyNum Np where
  add
    | fin a, fin b => fin (a + b)
    | nan, _ => nan | _, nan => nan
    | inf, ninf => nan | ninf, inf => nan
    | inf, _ => inf | _, inf => inf
    | ninf, _ => ninf | _, ninf => ninf
  sub
    | fin a, fin b => fin (a - b)
    | nan, _ => nan | _, nan => nan
    | inf, inf => nan | ninf, ninf => nan
    | inf, _ => inf | _, inf => ninf
    | ninf, _ => ninf | _, ninf => inf
  mul
    | fin a, fin b => fin (a * b)
    | nan, _ => nan | _, nan => nan
    | inf, fin b => infMul b true | fin a, inf => infMul a true
    | ninf, fin b => infMul b false | fin a, ninf => infMul a false
    | inf, inf => inf | ninf, ninf => inf | inf, ninf => ninf | ninf, inf => ninf
  div
    | fin a, fin b => if b = 0 then infMul a true else fin (a / b)
    | nan, _ => nan | _, nan => nan
    | fin _, inf => fin 0 | fin _, ninf => fin 0
    | inf, fin b => if b < 0 then ninf else inf
    | ninf, fin b => if b < 0 then inf else ninf
    | inf, inf => nan | inf, ninf => nan | ninf, inf => nan | ninf, ninf => nan
  neg | fin a => fin (-a) | inf => ninf | ninf => inf | nan => nan
  nat n := fin n
  sci m s e := fin (OfScientific.ofScientific m s e)
  inv
    | fin a => if a = 0 then inf else fin (a⁻¹)
    | inf => fin 0 | ninf => fin 0 | nan => nan
  npow
    | fin a, n => fin (a ^ n)
    | inf, n => if n = 0 then fin 1 else inf
    | ninf, n => if n = 0 then fin 1 else if n % 2 = 0 then inf else ninf
    | nan, n => if n = 0 then fin 1 else nan
  rpow
    | fin a, fin b =>
      if 0 < a ∨ (a = 0 ∧ 0 ≤ b) ∨ (a < 0 ∧ ∃ n : ℤ, b = n) then fin (a ^ b)
      else if a = 0 then inf else nan
    | nan, fin b => if b = 0 then fin 1 else nan
    | fin a, nan => if a = 1 then fin 1 else nan
    | nan, _ => nan | _, nan => nan
    | inf, fin b => if b = 0 then fin 1 else if 0 < b then inf else fin 0
    | ninf, fin b => if b = 0 then fin 1 else if b < 0 then fin 0
        else if ∃ n : ℤ, b = 2 * n + 1 then ninf else inf
    | fin a, inf => if |a| = 1 then fin 1 else if |a| < 1 then fin 0 else inf
    | fin a, ninf => if |a| = 1 then fin 1 else if |a| < 1 then inf else fin 0
    | inf, inf => inf | inf, ninf => fin 0 | ninf, inf => inf | ninf, ninf => fin 0
  sqrt | fin a => if a < 0 then nan else fin (Real.sqrt a) | inf => inf | _ => nan
  exp | fin a => fin (Real.exp a) | inf => inf | ninf => fin 0 | nan => nan
  log | fin a => if 0 < a then fin (Real.log a) else if a = 0 then ninf else nan
      | inf => inf | _ => nan
  sin | fin a => fin (Real.sin a) | _ => nan
  cos | fin a => fin (Real.cos a) | _ => nan
  tan | fin a => fin (Real.tan a) | _ => nan
  arcsin | fin a => if -1 ≤ a ∧ a ≤ 1 then fin (Real.arcsin a) else nan | _ => nan
  arccos | fin a => if -1 ≤ a ∧ a ≤ 1 then fin (Real.arccos a) else nan | _ => nan
  arctan | fin a => fin (Real.arctan a) | inf => fin (Real.pi / 2) | ninf => fin (-(Real.pi / 2))
         | nan => nan
  cosh | fin a => fin (Real.cosh a) | inf => inf | ninf => inf | nan => nan
  pi := fin Real.pi
  lt
    | fin a, fin b => decide (a < b)
    | nan, _ => false | _, nan => false
    | ninf, ninf => false | ninf, _ => true
    | _, inf => true
    | _, _ => false
  le
    | fin a, fin b => decide (a ≤ b)
    | nan, _ => false | _, nan => false
    | ninf, _ => true | _, inf => true
    | _, _ => false
  eq
    | fin a, fin b => decide (a = b)
    | inf, inf => true | ninf, ninf => true
    | _, _ => false
  store _ x := x

@[np] theorem np_nat (n : ℕ) [n.AtLeastTwo] : (OfNat.ofNat n : Np) = fin (OfNat.ofNat n) := rfl
@[np] theorem np_zero : (0 : Np) = fin 0 := by
  show fin ((0 : ℕ) : ℝ) = _
  rw [Nat.cast_zero]
@[np] theorem np_one : (1 : Np) = fin 1 := by
  show fin ((1 : ℕ) : ℝ) = _
  rw [Nat.cast_one]
@[np] theorem np_sci (m s e) :
    (OfScientific.ofScientific m s e : Np) = fin (OfScientific.ofScientific m s e) := rfl
@[np] theorem np_add (a b : ℝ) : fin a + fin b = fin (a + b) := rfl
@[np] theorem np_sub (a b : ℝ) : fin a - fin b = fin (a - b) := rfl
@[np] theorem np_mul (a b : ℝ) : fin a * fin b = fin (a * b) := rfl
@[np] theorem np_neg (a : ℝ) : - fin a = fin (-a) := rfl
@[np] theorem np_npow (a : ℝ) (n : ℕ) : fin a ** n = fin (a ^ n) := rfl
@[np] theorem np_div {a b : ℝ} (h : b ≠ 0) : fin a / fin b = fin (a / b) := if_neg h
@[np] theorem np_inv {a : ℝ} (h : a ≠ 0) : PyNum.inv (fin a) = fin (a⁻¹) := if_neg h
@[np] theorem np_inv_zero : PyNum.inv (fin 0) = inf := if_pos rfl
@[np] theorem np_div_zero {a : ℝ} (h : 0 < a) : fin a / fin 0 = inf := by
  show (if (0 : ℝ) = 0 then infMul a true else _) = _
  rw [if_pos rfl, infMul, if_neg h.ne', decide_eq_true h, if_pos rfl]
@[np] theorem np_zero_div_zero : fin 0 / fin 0 = nan := by
  show (if (0 : ℝ) = 0 then infMul 0 true else _) = _
  rw [if_pos rfl, infMul, if_pos rfl]
@[np] theorem np_inf_add (a : ℝ) : inf + fin a = inf := rfl
@[np] theorem np_add_inf (a : ℝ) : fin a + inf = inf := rfl
@[np] theorem np_div_inf (a : ℝ) : fin a / inf = fin 0 := rfl
@[np] theorem np_inv_inf : PyNum.inv inf = fin 0 := rfl
@[np] theorem np_nan_add (x : Np) : nan + x = nan := by cases x <;> rfl
@[np] theorem np_add_nan (x : Np) : x + nan = nan := by cases x <;> rfl

end Np
end RockPhy
