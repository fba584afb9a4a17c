import Verif.Spec.Missing

/-!
# Missing values: the rules as a simp set
-/

namespace RockPhy.Spec

open HasNaN PyNum

variable {α : Type} [HasNaN α]

attribute [nn] nan_add add_nan nan_sub sub_nan nan_mul mul_nan nan_div div_nan neg_nan inv_nan npow_nan
  sqrt_nan exp_nan log_nan sin_nan cos_nan tan_nan arcsin_nan arccos_nan arctan_nan cosh_nan store_nan
  nan_lt lt_nan nan_le le_nan nan_eq eq_nan

@[nn] theorem nan_rpow_sci (m e : ℕ) (h : 0 < m) (h1 : m < 1000000) (h2 : e < 10) :
    rpow (nan : α) (OfScientific.ofScientific m true e) = nan :=
  nan_rpow _ (literal _ (.sci m e h h1 h2))

@[nn] theorem nan_rpow_neg_sci (m e : ℕ) (h : 0 < m) (h1 : m < 1000000) (h2 : e < 10) :
    rpow (nan : α) (-OfScientific.ofScientific m true e) = nan :=
  nan_rpow _ (neg_literal _ (.sci m e h h1 h2))

@[nn] theorem nan_rpow_div_sci (m e m' e' : ℕ) (h : 0 < m) (h1 : m < 1000000) (h2 : e < 10)
    (h' : 0 < m') (h1' : m' < 1000000) (h2' : e' < 10) :
    rpow (nan : α) (OfScientific.ofScientific m true e / OfScientific.ofScientific m' true e') = nan :=
  nan_rpow _ (quotient _ _ (.sci m e h h1 h2) (.sci m' e' h' h1' h2'))

theorem nan_rpow_div_nat (n d : ℕ) (h : 0 < n) (h1 : n < 1000) (h' : 0 < d) (h1' : d < 1000) :
    rpow (nan : α) (PyNum.nat n / PyNum.nat d) = nan :=
  nan_rpow _ (quotient _ _ (.nat n h h1) (.nat d h' h1'))

@[nn] theorem nan_rpow_half : rpow (nan : α) (1 / 2) = nan := nan_rpow_div_nat 1 2 (by decide) (by decide) (by decide) (by decide)
@[nn] theorem nan_rpow_third : rpow (nan : α) (1 / 3) = nan := nan_rpow_div_nat 1 3 (by decide) (by decide) (by decide) (by decide)
@[nn] theorem nan_rpow_quarter : rpow (nan : α) (1 / 4) = nan := nan_rpow_div_nat 1 4 (by decide) (by decide) (by decide) (by decide)
@[nn] theorem nan_rpow_three_halves : rpow (nan : α) (3 / 2) = nan :=
  nan_rpow_div_nat 3 2 (by decide) (by decide) (by decide) (by decide)

@[nn] theorem nan_rpow' (y : α) (h : PyNum.eq y 0 = false) : rpow nan y = nan := nan_rpow y h
@[nn] theorem rpow_nan' (x : α) (h : PyNum.eq x 1 = false) : rpow x nan = nan := rpow_nan x h
@[nn] theorem rpow_nan_nan : rpow (nan : α) nan = nan := nan_rpow _ (nan_eq _)
@[nn] theorem ten_rpow_nan : rpow (10 : α) nan = nan := rpow_nan _ (not_one 10 (by decide) (by decide))

@[nn] theorem nan_deg2rad : deg2rad (nan : α) = nan := by rw [deg2rad, nan_mul]

attribute [nn] Bool.false_eq_true if_false ite_self

@[nn] theorem dot_two (a b c d : α) : dot [a, b] [c, d] = .ok (a * c + (b * d + 0)) := rfl
@[nn] theorem dot_three (a b c d e f : α) :
    dot [a, b, c] [d, e, f] = .ok (a * d + (b * e + (c * f + 0))) := rfl
@[nn] theorem zero_div_zero' : (0 / 0 : α) = nan := zero_div_zero

attribute [nn] List.map_cons List.map_nil

/-- Side conditions. -/
macro "nan_side" : tactic => `(tactic| first | assumption | exact nan_eq _ | decide)

/-- Carry `nan` through the definitions. -/
macro "nan_eval" "[" ls:Lean.Parser.Tactic.simpLemma,* "]" : tactic => `(tactic| first
  | (simp (disch := nan_side) only [nn, $ls,*]; done)
  | (simp (disch := nan_side) only [nn, $ls,*]
     repeat' split
     all_goals first
      | rfl
      | (simp (disch := nan_side) only [nn, $ls,*]; done)))

/-- A value that was returned is the one computed. -/
theorem ok_eq {β : Type} {a b : β} (h : (Except.ok a : Except PyErr β) = .ok b) : b = a :=
  (Except.ok.inj h).symm

/-- The same for functions that can raise. -/
macro "nan_except" "[" ls:Lean.Parser.Tactic.simpLemma,* "]" : tactic => `(tactic| (
  intro v h
  simp (disch := nan_side) only [nn, Bind.bind, Except.bind, pure, Except.pure, $ls,*] at h
  repeat' split at h
  all_goals first
    | (cases h; done)
    | (cases h; rfl)
    | (rw [ok_eq h]; simp (disch := nan_side) only [nn, $ls,*])))

/-- One of the arguments is missing. -/
macro "nan_any" "[" ls:Lean.Parser.Tactic.simpLemma,* "]" : tactic => `(tactic| (
  intro h
  try casesm* _ ∨ _
  all_goals (subst_vars; nan_eval [$ls,*])))

/-- One of the arguments is missing, and the function can raise. -/
macro "nan_any_ok" "[" ls:Lean.Parser.Tactic.simpLemma,* "]" : tactic => `(tactic| (
  intro h
  try casesm* _ ∨ _
  all_goals (subst_vars; nan_except [$ls,*])))

end RockPhy.Spec
