import Verif.Spec.Defined
import Verif.Model.GM
import Mathlib.Tactic.Positivity
import Mathlib.Tactic.Linarith

/-!
# Numbers stay numbers: the rules, and a tactic that applies them along a formula
-/

namespace RockPhy.Spec

open Fl

theorem NonNeg.number {x : Fl} : NonNeg x → Number x := fun ⟨r, _, h⟩ => ⟨r, h⟩
theorem Pos.number {x : Fl} : Pos x → Number x := fun ⟨r, _, h⟩ => ⟨r, h⟩
theorem Pos.nonneg {x : Fl} : Pos x → NonNeg x := fun ⟨r, k, h⟩ => ⟨r, k.le, h⟩
theorem Below.left {x y : Fl} : Below x y → Number x := fun ⟨a, _, _, h, _⟩ => ⟨a, h⟩
theorem Below.right {x y : Fl} : Below x y → Number y := fun ⟨_, b, _, _, h⟩ => ⟨b, h⟩
theorem AtMost.left {x y : Fl} : AtMost x y → Number x := fun ⟨a, _, _, h, _⟩ => ⟨a, h⟩
theorem AtMost.right {x y : Fl} : AtMost x y → Number y := fun ⟨_, b, _, _, h⟩ => ⟨b, h⟩

namespace Def

theorem zero : NonNeg (0 : Fl) := ⟨0, le_rfl, fl_zero⟩
theorem one : Pos (1 : Fl) := ⟨1, one_pos, fl_one⟩
theorem nat (n : ℕ) [n.AtLeastTwo] : Pos (OfNat.ofNat n : Fl) :=
  ⟨OfNat.ofNat n, Nat.ofNat_pos, fl_nat n⟩
theorem sci {m : ℕ} {s : Bool} {e : ℕ} (h : (0 : ℝ) < OfScientific.ofScientific m s e) :
    Pos (OfScientific.ofScientific m s e : Fl) := ⟨_, h, fl_sci m s e⟩
theorem pi : Pos (PyNum.pi : Fl) := ⟨_, Real.pi_pos, rfl⟩

variable {x y : Fl}

theorem add : Number x → Number y → Number (x + y)
  | ⟨a, ha⟩, ⟨b, hb⟩ => ⟨a + b, by rw [ha, hb, fl_add]⟩
theorem sub : Number x → Number y → Number (x - y)
  | ⟨a, ha⟩, ⟨b, hb⟩ => ⟨a - b, by rw [ha, hb, fl_sub]⟩
theorem mul : Number x → Number y → Number (x * y)
  | ⟨a, ha⟩, ⟨b, hb⟩ => ⟨a * b, by rw [ha, hb, fl_mul]⟩
theorem neg : Number x → Number (-x)
  | ⟨a, ha⟩ => ⟨-a, by rw [ha, fl_neg]⟩
theorem div : Number x → Pos y → Number (x / y)
  | ⟨a, ha⟩, ⟨b, h, hb⟩ => ⟨a / b, by rw [ha, hb, fl_div h.ne']⟩
theorem inv : Pos x → Pos (PyNum.inv x)
  | ⟨b, h, hb⟩ => ⟨b⁻¹, inv_pos.mpr h, by rw [hb, fl_inv h.ne']⟩
theorem npow (n : ℕ) : Number x → Number (x ** n)
  | ⟨a, ha⟩ => ⟨a ^ n, by rw [ha, fl_npow]⟩
theorem rpow : Pos x → Number y → Pos (x **. y)
  | ⟨a, h, ha⟩, ⟨b, hb⟩ => ⟨a ^ b, Real.rpow_pos_of_pos h b, by rw [ha, hb, fl_rpow h]⟩
theorem rpow0 : NonNeg x → Pos y → NonNeg (x **. y)
  | ⟨a, h, ha⟩, ⟨b, k, hb⟩ => ⟨a ^ b, Real.rpow_nonneg h b, by
      rw [ha, hb]; exact if_pos (by rcases h.lt_or_eq with h | h
                                    · exact .inl h
                                    · exact .inr (.inl ⟨h.symm, k.le⟩))⟩
theorem exp : Number x → Pos (PyNum.exp x)
  | ⟨a, ha⟩ => ⟨Real.exp a, Real.exp_pos a, by rw [ha, fl_exp]⟩
theorem log : Pos x → Number (PyNum.log x)
  | ⟨a, h, ha⟩ => ⟨Real.log a, by rw [ha, fl_log h]⟩
theorem sin : Number x → Number (PyNum.sin x)
  | ⟨a, ha⟩ => ⟨Real.sin a, by rw [ha, fl_sin]⟩
theorem cos : Number x → Number (PyNum.cos x)
  | ⟨a, ha⟩ => ⟨Real.cos a, by rw [ha, fl_cos]⟩
theorem arctan : Number x → Number (PyNum.arctan x)
  | ⟨a, ha⟩ => ⟨Real.arctan a, by rw [ha, fl_arctan]⟩
theorem sqrt : NonNeg x → NonNeg (PyNum.sqrt x)
  | ⟨a, h, ha⟩ => ⟨Real.sqrt a, Real.sqrt_nonneg a, by rw [ha, fl_sqrt h]⟩
theorem deg2rad : Number x → Number (deg2rad x)
  | ⟨a, ha⟩ => ⟨_, by rw [ha, fl_deg2rad]⟩

theorem nn_add : NonNeg x → NonNeg y → NonNeg (x + y)
  | ⟨a, h, ha⟩, ⟨b, k, hb⟩ => ⟨a + b, add_nonneg h k, by rw [ha, hb, fl_add]⟩
theorem nn_mul : NonNeg x → NonNeg y → NonNeg (x * y)
  | ⟨a, h, ha⟩, ⟨b, k, hb⟩ => ⟨a * b, mul_nonneg h k, by rw [ha, hb, fl_mul]⟩
theorem nn_div : NonNeg x → Pos y → NonNeg (x / y)
  | ⟨a, h, ha⟩, ⟨b, k, hb⟩ => ⟨a / b, div_nonneg h k.le, by rw [ha, hb, fl_div k.ne']⟩
theorem nn_npow (n : ℕ) : NonNeg x → NonNeg (x ** n)
  | ⟨a, h, ha⟩ => ⟨a ^ n, pow_nonneg h n, by rw [ha, fl_npow]⟩
theorem nn_sq : Number x → NonNeg (x ** 2)
  | ⟨a, ha⟩ => ⟨a ^ 2, sq_nonneg a, by rw [ha, fl_npow]⟩
theorem nn_sub : AtMost x y → NonNeg (y - x)
  | ⟨a, b, h, ha, hb⟩ => ⟨b - a, sub_nonneg.mpr h, by rw [ha, hb, fl_sub]⟩

theorem pos_add_left : Pos x → NonNeg y → Pos (x + y)
  | ⟨a, h, ha⟩, ⟨b, k, hb⟩ => ⟨a + b, add_pos_of_pos_of_nonneg h k, by rw [ha, hb, fl_add]⟩
theorem pos_add_right : NonNeg x → Pos y → Pos (x + y)
  | ⟨a, h, ha⟩, ⟨b, k, hb⟩ => ⟨a + b, add_pos_of_nonneg_of_pos h k, by rw [ha, hb, fl_add]⟩
theorem pos_mul : Pos x → Pos y → Pos (x * y)
  | ⟨a, h, ha⟩, ⟨b, k, hb⟩ => ⟨a * b, mul_pos h k, by rw [ha, hb, fl_mul]⟩
theorem pos_div : Pos x → Pos y → Pos (x / y)
  | ⟨a, h, ha⟩, ⟨b, k, hb⟩ => ⟨a / b, div_pos h k, by rw [ha, hb, fl_div k.ne']⟩
theorem pos_npow (n : ℕ) : Pos x → Pos (x ** n)
  | ⟨a, h, ha⟩ => ⟨a ^ n, pow_pos h n, by rw [ha, fl_npow]⟩
theorem pos_sqrt : Pos x → Pos (PyNum.sqrt x)
  | ⟨a, h, ha⟩ => ⟨Real.sqrt a, Real.sqrt_pos.mpr h, by rw [ha, fl_sqrt h.le]⟩
theorem pos_sub : Below x y → Pos (y - x)
  | ⟨a, b, h, ha, hb⟩ => ⟨b - a, sub_pos.mpr h, by rw [ha, hb, fl_sub]⟩
theorem neg_div : Number x → Pos y → Number (x / -y)
  | ⟨a, ha⟩, ⟨b, h, hb⟩ => ⟨a / -b, by rw [ha, hb, fl_neg, fl_div (neg_ne_zero.mpr h.ne')]⟩
theorem sub_div : Number x → Below y z → Number (x / (y - z))
  | ⟨a, ha⟩, ⟨b, c, h, hb, hc⟩ =>
    ⟨a / (b - c), by rw [ha, hb, hc, fl_sub, fl_div (sub_neg.mpr h).ne]⟩

theorem ratio : Pos x → Below x y → Below (x / y) 1
  | ⟨r, hr, e⟩, ⟨a, b, h, ha, hb⟩ => by
    obtain rfl : r = a := Fl.fin.inj (e.symm.trans ha)
    have hb0 : 0 < b := hr.trans h
    exact ⟨r / b, 1, (div_lt_one hb0).mpr h, by rw [ha, hb, fl_div hb0.ne'], fl_one⟩
theorem tan {a : ℝ} (h : Real.cos a ≠ 0) : Number (PyNum.tan (fin a)) := ⟨_, fl_tan h⟩
theorem max : Number x → Number y → Number (maximum x y)
  | ⟨a, ha⟩, ⟨b, hb⟩ => by
    subst ha hb
    unfold maximum
    split_ifs <;> exact ⟨_, rfl⟩
theorem ite {c : Prop} [Decidable c] : Number x → Number y → Number (if c then x else y) := by
  intro h k; split_ifs <;> assumption

/-- The Poisson ratio of positive moduli lies between -1 and 1/2. -/
theorem poisson {K G : Fl} (hK : Pos K) (hG : Pos G) : ∃ nu : ℝ, -1 < nu ∧ nu < 1 / 2
    ∧ (3 * K - 2 * G) / (6 * K + 2 * G) = fin nu ∧ (3 * K - 2 * G) / (2 * (3 * K + G)) = fin nu := by
  obtain ⟨k, hk, rfl⟩ := hK
  obtain ⟨g, hg, rfl⟩ := hG
  have h0 : 0 < 6 * k + 2 * g := by positivity
  refine ⟨(3 * k - 2 * g) / (6 * k + 2 * g), ?_, ?_, ?_, ?_⟩
  · rw [lt_div_iff₀ h0]; linarith
  · rw [div_lt_iff₀ h0]; linarith
  · fl_eval []
  · fl_eval []
    congr 2; ring

theorem lit {a : ℝ} (h : 0 < a) : Pos (fin a) := ⟨a, h, rfl⟩
theorem lit_number (a : ℝ) : Number (fin a) := ⟨a, rfl⟩

end Def

/-- Shows that a formula is a number (positive, not negative) by the rules above. -/
syntax "num" : tactic
macro_rules
  | `(tactic| num) => `(tactic| first
    | assumption
    | with_reducible exact Def.one
    | with_reducible exact Def.zero
    | with_reducible exact Def.nat _
    | (with_reducible apply Def.sci; norm_num; done)
    | with_reducible exact Def.pi
    | with_reducible exact (Def.one).nonneg
    | with_reducible exact (Def.nat _).nonneg
    | with_reducible exact (Def.one).number
    | with_reducible exact (Def.zero).number
    | with_reducible exact (Def.nat _).number
    | with_reducible exact (Def.pi).number
    | with_reducible exact (Def.pi).nonneg
    | (with_reducible apply Pos.number; with_reducible apply Def.sci; norm_num; done)
    | (with_reducible apply Pos.nonneg; with_reducible apply Def.sci; norm_num; done)
    | (with_reducible apply Pos.number; assumption)
    | (with_reducible apply Pos.nonneg; assumption)
    | (with_reducible apply NonNeg.number; assumption)
    | (with_reducible apply Below.left; assumption)
    | (with_reducible apply Below.right; assumption)
    | (with_reducible apply AtMost.left; assumption)
    | (with_reducible apply AtMost.right; assumption)
    | (with_reducible apply Def.add <;> num)
    | (with_reducible apply Def.sub <;> num)
    | (with_reducible apply Def.mul <;> num)
    | (with_reducible apply Def.neg; num)
    | (with_reducible apply Def.npow; num)
    | (with_reducible apply Def.sub_div <;> num)
    | (with_reducible apply Def.neg_div <;> num)
    | (with_reducible apply Def.div <;> num)
    | (with_reducible apply Def.exp; num)
    | (with_reducible apply Def.log; num)
    | (with_reducible apply Def.sin; num)
    | (with_reducible apply Def.cos; num)
    | (with_reducible apply Def.arctan; num)
    | (with_reducible apply Def.deg2rad; num)
    | (with_reducible apply Def.pos_sub; assumption)
    | (with_reducible apply Def.pos_sub; with_reducible apply Def.ratio <;> assumption)
    | with_reducible exact Def.lit_number _
    | (with_reducible apply Def.max <;> num)
    | (with_reducible apply Def.ite <;> num)
    | (with_reducible apply Def.pos_mul <;> num)
    | (with_reducible apply Def.pos_div <;> num)
    | (with_reducible apply Def.pos_npow; num)
    | (with_reducible apply Def.pos_sqrt; num)
    | (with_reducible apply Def.inv; num)
    | (with_reducible apply Def.rpow <;> num)
    | (with_reducible apply Def.pos_add_left <;> num)
    | (with_reducible apply Def.pos_add_right <;> num)
    | (with_reducible apply Def.nn_sub; assumption)
    | (with_reducible apply Pos.nonneg; with_reducible apply Def.pos_sub; assumption)
    | (with_reducible apply Pos.nonneg; with_reducible apply Def.pos_sub; with_reducible apply Def.ratio <;> assumption)
    | (with_reducible apply Def.nn_add <;> num)
    | (with_reducible apply Def.nn_mul <;> num)
    | (with_reducible apply Def.nn_div <;> num)
    | (with_reducible apply Def.nn_npow; num)
    | (with_reducible apply Def.nn_sq; num)
    | (with_reducible apply Def.sqrt; num)
    | (with_reducible apply Def.rpow0 <;> num)
    | (with_reducible apply NonNeg.number; with_reducible apply Def.sqrt; num)
    | (with_reducible apply Pos.number; with_reducible apply Def.rpow <;> num)
    | (with_reducible apply Pos.number; with_reducible apply Def.exp; num)
    | (with_reducible apply Pos.number; with_reducible apply Def.inv; num)
    | (with_reducible apply Pos.nonneg; with_reducible apply Def.rpow <;> num)
    | (with_reducible apply Pos.nonneg; with_reducible apply Def.exp; num)
    | (with_reducible apply NonNeg.number; with_reducible apply Def.rpow0 <;> num)
    | (with_reducible apply Pos.nonneg; with_reducible apply Def.inv; num))

/-- Unfolds a formula and shows that its value is a number. -/
macro "num_def" "[" ls:Lean.Parser.Tactic.simpLemma,* "]" : tactic =>
  `(tactic| first | num | (simp only [$ls,*, fl_store]; num))

end RockPhy.Spec
