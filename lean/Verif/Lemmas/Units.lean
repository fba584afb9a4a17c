import Verif.Spec.Units
import Verif.UnitsAttr
import Mathlib.Tactic.FinCases

/-! # Carrying a change of units through arithmetic -/

namespace RockPhy.Spec.Units

variable (U : Units) (a b c a' b' c' : ℤ) (x y : Fl)

theorem div_def (x y : ℝ) : Fl.fin x / Fl.fin y = if y = 0 then Fl.bad else Fl.fin (x / y) := rfl
theorem inv_def (x : ℝ) : inv (Fl.fin x) = if x = 0 then Fl.bad else Fl.fin x⁻¹ := rfl
theorem sqrt_def (x : ℝ) : sqrt (Fl.fin x) = if x < 0 then Fl.bad else Fl.fin (Real.sqrt x) := rfl
open Classical in
theorem rpow_def (x y : ℝ) : (Fl.fin x) **. (Fl.fin y)
    = if 0 < x ∨ (x = 0 ∧ 0 ≤ y) ∨ (x < 0 ∧ ∃ n : ℤ, y = n) then Fl.fin (x ^ y) else Fl.bad := rfl

theorem factor_pos : 0 < U.factor a b c :=
  mul_pos (mul_pos (zpow_pos U.mass_pos _) (zpow_pos U.length_pos _)) (zpow_pos U.time_pos _)

theorem factor_add : U.factor (a + a') (b + b') (c + c') = U.factor a b c * U.factor a' b' c' := by
  simp only [factor, zpow_add₀ U.mass_pos.ne', zpow_add₀ U.length_pos.ne', zpow_add₀ U.time_pos.ne']
  ring

theorem factor_neg : U.factor (-a) (-b) (-c) = (U.factor a b c)⁻¹ := by
  simp only [factor, zpow_neg, mul_inv]

theorem factor_pow (n : ℕ) : U.factor (n * a) (n * b) (n * c) = U.factor a b c ^ n := by
  simp only [factor, mul_pow, zpow_mul', zpow_natCast]

@[un] theorem conv_zero : U.conv 0 0 0 x = x := by
  cases x <;> simp [conv, factor]

@[un] theorem conv_conv : U.conv a b c (U.conv a' b' c' x) = U.conv (a + a') (b + b') (c + c') x := by
  cases x <;> simp [conv, factor_add, mul_assoc]

@[un] theorem conv_nat_zero : U.conv a b c 0 = 0 := by
  show U.conv a b c (PyNum.nat 0) = PyNum.nat 0
  simp [conv, PyNum.nat]

@[un] theorem conv_mul : U.conv a b c x * y = U.conv a b c (x * y) := by
  cases x <;> cases y <;> simp [conv, fl, mul_assoc]

@[un] theorem mul_conv : x * U.conv a b c y = U.conv a b c (x * y) := by
  cases x <;> cases y <;> simp [conv, fl, mul_left_comm]

@[un] theorem conv_add_conv : U.conv a b c x + U.conv a b c y = U.conv a b c (x + y) := by
  cases x <;> cases y <;> simp [conv, fl, mul_add]

@[un] theorem conv_sub_conv : U.conv a b c x - U.conv a b c y = U.conv a b c (x - y) := by
  cases x <;> cases y <;> simp [conv, fl, mul_sub]

@[un] theorem neg_conv : -U.conv a b c x = U.conv a b c (-x) := by
  cases x <;> simp [conv, fl]

@[un] theorem conv_div : U.conv a b c x / y = U.conv a b c (x / y) := by
  cases x with
  | bad => cases y <;> simp [conv, fl]
  | fin x => cases y with
    | bad => simp [conv, fl]
    | fin y => by_cases h : y = 0 <;> simp [conv, div_def, h, mul_div_assoc]

@[un] theorem inv_conv : inv (U.conv a b c x) = U.conv (-a) (-b) (-c) (inv x) := by
  have hf := (factor_pos U a b c).ne'
  cases x with
  | bad => simp [conv, fl]
  | fin x => by_cases h : x = 0 <;> simp [conv, inv_def, h, hf, factor_neg, mul_comm]

@[un] theorem div_conv : x / U.conv a b c y = U.conv (-a) (-b) (-c) (x / y) := by
  have hf := (factor_pos U a b c).ne'
  cases x with
  | bad => cases y <;> simp [conv, fl]
  | fin x => cases y with
    | bad => simp [conv, fl]
    | fin y =>
      by_cases h : y = 0
      · simp [conv, div_def, h]
      · simp [conv, div_def, h, hf, factor_neg]; field_simp

@[un] theorem conv_npow (n : ℕ) : (U.conv a b c x) ** n = U.conv (n * a) (n * b) (n * c) (x ** n) := by
  cases x <;> simp [conv, fl, factor_pow, mul_pow]

@[un] theorem sqrt_conv (ha : a % 2 = 0) (hb : b % 2 = 0) (hc : c % 2 = 0) :
    sqrt (U.conv a b c x) = U.conv (a / 2) (b / 2) (c / 2) (sqrt x) := by
  obtain ⟨a, rfl⟩ := Int.dvd_of_emod_eq_zero ha
  obtain ⟨b, rfl⟩ := Int.dvd_of_emod_eq_zero hb
  obtain ⟨c, rfl⟩ := Int.dvd_of_emod_eq_zero hc
  have hp := factor_pos U a b c
  have h2 : U.factor (2 * a) (2 * b) (2 * c) = U.factor a b c ^ 2 := by
    simpa using factor_pow U a b c 2
  have hl : ∀ x, U.factor a b c ^ 2 * x < 0 ↔ x < 0 := fun x => by
    rw [mul_neg_iff]; simp [pow_pos hp 2, not_lt.2 (pow_pos hp 2).le]
  cases x with
  | bad => simp [conv, fl]
  | fin x =>
    by_cases h : x < 0
    · simp [conv, sqrt_def, h2, hl, h]
    · simp [conv, sqrt_def, h2, hl, h, Real.sqrt_mul (sq_nonneg _), Real.sqrt_sq hp.le]

@[un] theorem cbrt_conv (ha : a % 3 = 0) (hb : b % 3 = 0) (hc : c % 3 = 0) :
    (U.conv a b c x) **. (1 / 3) = U.conv (a / 3) (b / 3) (c / 3) (x **. (1 / 3)) := by
  obtain ⟨a, rfl⟩ := Int.dvd_of_emod_eq_zero ha
  obtain ⟨b, rfl⟩ := Int.dvd_of_emod_eq_zero hb
  obtain ⟨c, rfl⟩ := Int.dvd_of_emod_eq_zero hc
  have hp := factor_pos U a b c
  have h3 : U.factor (3 * a) (3 * b) (3 * c) = U.factor a b c ^ 3 := by
    simpa using factor_pow U a b c 3
  have hz : ¬ ∃ n : ℤ, (3 : ℝ)⁻¹ = n := by
    rintro ⟨n, h⟩
    have : (3 * n : ℤ) = 1 := by exact_mod_cast (by rw [← h]; norm_num : (3 : ℝ) * n = 1)
    omega
  have hr : (U.factor a b c ^ 3) ^ (3 : ℝ)⁻¹ = U.factor a b c := by
    rw [← Real.rpow_natCast, ← Real.rpow_mul hp.le]; norm_num
  have h13 : (1 / 3 : Fl) = Fl.fin 3⁻¹ := by fl_eval []; norm_num
  rw [h13]
  cases x with
  | bad => simp [conv, fl]
  | fin x =>
    rcases lt_trichotomy x 0 with h | h | h
    · have : ¬ 0 < U.factor a b c ^ 3 * x := by
        have := mul_neg_of_pos_of_neg (pow_pos hp 3) h; linarith
      simp [conv, rpow_def, h3, h.ne, hp.ne', this, hz, not_lt.2 h.le]
    · simp [conv, rpow_def, h]
    · simp [conv, rpow_def, h3, h, hp, Real.mul_rpow (pow_pos hp 3).le h.le, hr]

@[un] theorem lt_conv : PyNum.lt (U.conv a b c x) (U.conv a b c y) = PyNum.lt x y := by
  have hp := factor_pos U a b c
  cases x <;> cases y <;> simp [conv, PyNum.lt, hp]

@[un] theorem le_conv : PyNum.le (U.conv a b c x) (U.conv a b c y) = PyNum.le x y := by
  have hp := factor_pos U a b c
  cases x <;> cases y <;> simp [conv, PyNum.le, hp]

@[un] theorem eq_conv : PyNum.eq (U.conv a b c x) (U.conv a b c y) = PyNum.eq x y := by
  have hp := factor_pos U a b c
  cases x <;> cases y <;> simp [conv, PyNum.eq, hp.ne']

@[un] theorem ite_conv (p : Prop) [Decidable p] :
    (if p then U.conv a b c x else U.conv a b c y) = U.conv a b c (if p then x else y) := by
  split <;> rfl

@[un] theorem conv_add_zero : U.conv a b c x + 0 = U.conv a b c (x + 0) := by
  rw [← conv_nat_zero U a b c, conv_add_conv, conv_nat_zero]

@[un] theorem zero_add_conv : 0 + U.conv a b c x = U.conv a b c (0 + x) := by
  rw [← conv_nat_zero U a b c, conv_add_conv, conv_nat_zero]

@[un] theorem conv_lt_zero : PyNum.lt (U.conv a b c x) 0 = PyNum.lt x 0 := by
  rw [← conv_nat_zero U a b c, lt_conv, conv_nat_zero]

theorem conv_nan : U.conv a b c (0 / 0) = 0 / 0 := by
  rw [← conv_div, conv_nat_zero]

@[un] theorem ite_nan_conv (p : Prop) [Decidable p] :
    (if p then 0 / 0 else U.conv a b c x) = U.conv a b c (if p then 0 / 0 else x) := by
  split
  · rw [conv_nan]
  · rfl

/-! ## Lists -/

theorem lsum_map (l : List Fl) : lsum (l.map (U.conv a b c)) = U.conv a b c (lsum l) := by
  unfold lsum
  induction l with
  | nil => exact (conv_nat_zero U a b c).symm
  | cons x l ih => simp only [List.map_cons, List.foldr_cons, ih, conv_add_conv]

theorem zipWith_mul_map (v l : List Fl) : List.zipWith (· * ·) v (l.map (U.conv a b c))
    = (List.zipWith (· * ·) v l).map (U.conv a b c) := by
  induction v generalizing l with
  | nil => simp
  | cons x v ih => cases l <;> simp [ih, mul_conv]

theorem dot_map (v l : List Fl) : dot v (l.map (U.conv a b c)) = (dot v l).map (U.conv a b c) := by
  unfold dot
  simp only [List.length_map]
  split
  · rw [zipWith_mul_map, lsum_map]; rfl
  · rfl

theorem bzip_map {γ δ : Type} (u v : Fl → Fl) (w : γ → δ) (f : Fl → Fl → δ) (g : Fl → Fl → γ)
    (h : ∀ x y, f (u x) (v y) = w (g x y)) (l m : List Fl) :
    bzip f (l.map u) (m.map v) = (bzip g l m).map (List.map w) := by
  unfold bzip
  simp only [List.length_map]
  split
  · simp only [Except.map, List.zipWith_map, List.map_zipWith, h]
  · rcases l with _ | ⟨x, _ | ⟨x', l⟩⟩ <;> rcases m with _ | ⟨y, _ | ⟨y', m⟩⟩ <;>
      simp [Except.map, h]

/-! ## Complex numbers -/

open Cx (ofR I)

variable (z w : Cx Fl)

@[un] theorem ofR_conv : ofR (U.conv a b c x) = U.convC a b c (ofR x) := by
  simp only [ofR, convC, un]

@[un] theorem convC_re : (U.convC a b c z).re = U.conv a b c z.re := rfl
@[un] theorem convC_im : (U.convC a b c z).im = U.conv a b c z.im := rfl

@[un] theorem convC_zero : U.convC 0 0 0 z = z := by
  cases z; simp only [convC, un]

@[un] theorem convC_convC :
    U.convC a b c (U.convC a' b' c' z) = U.convC (a + a') (b + b') (c + c') z := by
  simp only [convC, un]

theorem cmul_def : z * w = ⟨z.re * w.re - z.im * w.im, z.re * w.im + z.im * w.re⟩ := rfl
theorem cadd_def : z + w = ⟨z.re + w.re, z.im + w.im⟩ := rfl
theorem csub_def : z - w = ⟨z.re - w.re, z.im - w.im⟩ := rfl
theorem cneg_def : -z = ⟨-z.re, -z.im⟩ := rfl
theorem cdiv_def : z / w = ⟨(z.re * w.re + z.im * w.im) / (w.re * w.re + w.im * w.im),
  (z.im * w.re - z.re * w.im) / (w.re * w.re + w.im * w.im)⟩ := rfl

@[un] theorem convC_mul : U.convC a b c z * w = U.convC a b c (z * w) := by
  simp only [cmul_def, convC, un]

@[un] theorem mul_convC : z * U.convC a b c w = U.convC a b c (z * w) := by
  simp only [cmul_def, convC, un]

@[un] theorem convC_add : U.convC a b c z + U.convC a b c w = U.convC a b c (z + w) := by
  simp only [cadd_def, convC, un]

@[un] theorem convC_sub : U.convC a b c z - U.convC a b c w = U.convC a b c (z - w) := by
  simp only [csub_def, convC, un]

@[un] theorem neg_convC : -U.convC a b c z = U.convC a b c (-z) := by
  simp only [cneg_def, convC, un]

@[un] theorem convC_div : U.convC a b c z / w = U.convC a b c (z / w) := by
  simp only [cdiv_def, convC, un]

@[un] theorem div_convC : z / U.convC a b c w = U.convC (-a) (-b) (-c) (z / w) := by
  simp only [cdiv_def, convC, un]
  simp only [neg_add_rev, neg_add_cancel_right]

@[un] theorem abs_convC : (U.convC a b c z).abs = U.conv a b c z.abs := by
  simp only [Cx.abs, convC, un]
  rw [sqrt_conv _ _ _ _ _ (by omega) (by omega) (by omega)]
  congr 1 <;> omega

@[un] theorem csqrt_convC (ha : a % 2 = 0) (hb : b % 2 = 0) (hc : c % 2 = 0) :
    Cx.sqrt (U.convC a b c z) = U.convC (a / 2) (b / 2) (c / 2) (Cx.sqrt z) := by
  simp only [Cx.sqrt, abs_convC, convC_re, convC_im, conv_add_conv, conv_sub_conv, conv_div,
    sqrt_conv U a b c _ ha hb hc, neg_conv, conv_lt_zero, ite_conv]
  rfl

/-! ## The tactics -/

/-- Carry the conversions of the arguments through a formula. -/
scoped macro "un_eval" "[" ls:Lean.Parser.Tactic.simpLemma,* "]" : tactic =>
  `(tactic| simp (disch := norm_num) only [un, on2, on3, on5, onM, Int.reduceAdd, Int.reduceNeg,
     Int.reduceMul, Int.reduceDiv, Int.reduceMod, Nat.cast_ofNat, mul_zero, zero_mul, neg_zero,
     add_zero, zero_add, Int.zero_ediv, neg_neg, mul_one, $ls,*])

/-- The same for the entries of a 6x6 matrix. -/
scoped macro "un_mat" "[" ls:Lean.Parser.Tactic.simpLemma,* "]" : tactic =>
  `(tactic| (funext i j; fin_cases i <;> fin_cases j <;>
     un_eval [Fin.isValue, Fin.zero_eta, Fin.mk_one, Fin.reduceFinMk, Matrix.cons_val, $ls,*]))

end RockPhy.Spec.Units
