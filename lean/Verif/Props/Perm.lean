import Verif.Model.Perm


/-! # Properties C58, C59, C65 and C66 (permeability) -/

namespace RockPhy.Permeability

open Fl

theorem KC_eval {φ d : ℝ} (h : φ ≠ 1) :
    Kozeny_Carman (fin φ) (fin d) = fin (d ^ 2 * φ ^ 3 / (180 * (1 - φ) ^ 2)) := by
  have n : 1 - φ ≠ 0 := sub_ne_zero.mpr h.symm
  unfold Kozeny_Carman
  fl_eval []
  exact congrArg fin (by field)

end RockPhy.Permeability

namespace RockPhy.Props

open Fl Permeability

/-- C58: the Kozeny-Carman permeability is `d² φ³ / (180 (1-φ)²)`. -/
theorem C58_kozeny_carman {φ d : ℝ} (h : φ ≠ 1) :
    Kozeny_Carman (fin φ) (fin d) = fin (d ^ 2 * φ ^ 3 / (180 * (1 - φ) ^ 2)) := KC_eval h

example : Kozeny_Carman (fin (1 / 2)) (fin 6) = fin (1 / 10) := by
  rw [C58_kozeny_carman (by norm_num)]; norm_num

/-- C58: it is zero without pore space and strictly increases with porosity. -/
theorem C58_zero_and_strictMono {φ ψ d : ℝ} (h0 : 0 ≤ φ) (h : φ < ψ) (h1 : ψ < 1) (hd : d ≠ 0) :
    Kozeny_Carman (fin 0) (fin d) = fin 0 ∧
      Kozeny_Carman (fin φ) (fin d) < Kozeny_Carman (fin ψ) (fin d) := by
  refine ⟨by rw [KC_eval (by norm_num)]; norm_num, ?_⟩
  rw [KC_eval (by linarith), KC_eval (by linarith), fin_lt]
  have a : 0 < 1 - ψ := by linarith
  have b : 0 < 1 - φ := by linarith
  have d2 : 0 < d ^ 2 := by positivity
  have p3 : φ ^ 3 < ψ ^ 3 := pow_lt_pow_left₀ h h0 (by norm_num)
  have q : (1 - ψ) ^ 2 ≤ (1 - φ) ^ 2 := pow_le_pow_left₀ a.le (by linarith) 2
  have hψ : 0 < ψ := by linarith
  calc d ^ 2 * φ ^ 3 / (180 * (1 - φ) ^ 2) ≤ d ^ 2 * φ ^ 3 / (180 * (1 - ψ) ^ 2) := by gcongr
    _ < d ^ 2 * ψ ^ 3 / (180 * (1 - ψ) ^ 2) := by gcongr

example : Kozeny_Carman (fin 0.1) (fin 250) < Kozeny_Carman (fin 0.3) (fin 250) :=
  (C58_zero_and_strictMono (by norm_num) (by norm_num) (by norm_num) (by norm_num)).2

/-- C58: scaling every length by `c` scales the permeability by `c²`. -/
theorem C58_scaling {φ d c : ℝ} (h : φ ≠ 1) :
    Kozeny_Carman (fin φ) (fin (c * d)) = fin (c ^ 2) * Kozeny_Carman (fin φ) (fin d) := by
  rw [KC_eval h, KC_eval h, fl_mul]
  exact congrArg fin (by ring)

/-- C58: the percolation form at threshold `φc` is the Kozeny-Carman form of the porosity in
excess of the threshold, with `180 B` as factor; without threshold and with `B = 1/180` they
coincide. -/
theorem C58_percolation {φ φc d B : ℝ} (h : φ - φc ≠ 1) :
    Kozeny_Carman_Percolation (fin φ) (fin φc) (fin d) (fin B)
        = fin (180 * B) * Kozeny_Carman (fin (φ - φc)) (fin d) ∧
      (φ ≠ 1 → Kozeny_Carman_Percolation (fin φ) (fin 0) (fin d) (fin (1 / 180))
        = Kozeny_Carman (fin φ) (fin d)) := by
  constructor
  · rw [KC_eval h]
    have n : 1 + φc - φ ≠ 0 := fun e => h (by linarith)
    have n' : 1 - (φ - φc) ≠ 0 := fun e => h (by linarith)
    have e : 1 + φc - φ = 1 - (φ - φc) := by ring
    unfold Kozeny_Carman_Percolation
    fl_eval []
    rw [e]
    generalize φ - φc = x at *
    exact congrArg fin (by field)
  · intro h1
    rw [KC_eval h1]
    have n : 1 + 0 - φ ≠ 0 := fun e => h1 (by linarith)
    have n' : 1 - φ ≠ 0 := fun e => h1 (by linarith)
    unfold Kozeny_Carman_Percolation
    fl_eval []
    simp only [add_zero, sub_zero]
    exact congrArg fin (by field)

example : Kozeny_Carman_Percolation (fin 0.52) (fin 0.02) (fin 6) (fin (1 / 180)) = fin 0.1 := by
  rw [(C58_percolation (by norm_num)).1, C58_kozeny_carman (by norm_num), fl_mul]; norm_num

/-- C58: the percolation form is not cut off: it is zero exactly at the threshold and negative
below it. -/
theorem C58_percolation_below {φ φc d B : ℝ} (hd : d ≠ 0) (hB : 0 < B) :
    Kozeny_Carman_Percolation (fin φc) (fin φc) (fin d) (fin B) = fin 0 ∧
      (φ < φc → Kozeny_Carman_Percolation (fin φ) (fin φc) (fin d) (fin B) < fin 0) := by
  constructor
  · rw [(C58_percolation (φ := φc) (φc := φc) (by norm_num)).1, KC_eval (by norm_num), fl_mul]
    norm_num
  · intro h
    have n : φ - φc ≠ 1 := by linarith
    rw [(C58_percolation n).1, KC_eval n, fl_mul, fin_lt]
    have a : (φ - φc) ^ 3 < 0 := Odd.pow_neg (by decide) (by linarith)
    have b : 0 < 1 - (φ - φc) := by linarith
    have : 0 < d ^ 2 := by positivity
    have : d ^ 2 * (φ - φc) ^ 3 / (180 * (1 - (φ - φc)) ^ 2) < 0 :=
      div_neg_of_neg_of_pos (by nlinarith) (by positivity)
    nlinarith

example : Kozeny_Carman_Percolation (fin 0.01) (fin 0.02) (fin 6) (fin 1) < fin 0 :=
  (C58_percolation_below (by norm_num) (by norm_num)).2 (by norm_num)

/-- C58: Panda and Lake's formula for a pack of equal grains (coefficient of variation zero) with
tortuosity 2.5 is Kozeny-Carman, for every skewness. -/
theorem C58_panda_lake {φ d S : ℝ} (h : φ ≠ 1) :
    Panda_Lake (fin d) (fin 0) (fin S) (fin 2.5) (fin φ) = Kozeny_Carman (fin φ) (fin d) := by
  have n : 1 - φ ≠ 0 := sub_ne_zero.mpr h.symm
  have n2 : (0 : ℝ) ^ 2 + 1 ≠ 0 := by norm_num
  have n3 : (72 : ℝ) * 2.5 * (1 - φ) ^ 2 * (0 ^ 2 + 1) ^ 2 ≠ 0 := by norm_num; exact n
  rw [KC_eval h]
  unfold Panda_Lake
  fl_eval []
  have e : (72 : ℝ) * 2.5 = 180 := by norm_num
  rw [e]
  exact congrArg fin (by norm_num)

/-- C58: for a non-negative skewness, a spread of grain sizes never gives less permeability than
equal grains of the same mean size. -/
theorem C58_panda_lake_spread {φ d C S τ : ℝ} (h0 : 0 ≤ φ) (h : φ < 1) (hτ : 0 < τ) (hC : 0 ≤ C)
    (hS : 0 ≤ S) :
    Panda_Lake (fin d) (fin 0) (fin S) (fin τ) (fin φ)
      ≤ Panda_Lake (fin d) (fin C) (fin S) (fin τ) (fin φ) := by
  have n : 0 < 1 - φ := by linarith
  have n2 : (0 : ℝ) < 72 * τ * (1 - φ) ^ 2 * (0 ^ 2 + 1) ^ 2 := by norm_num; positivity
  have n3 : (0 : ℝ) < 72 * τ * (1 - φ) ^ 2 * (C ^ 2 + 1) ^ 2 := by positivity
  unfold Panda_Lake
  fl_eval []
  rw [fin_le]
  have e1 : d ^ 2 * φ ^ 3 * (0 ^ 3 * S + 3 * 0 ^ 2 + 1) ^ 2 / (72 * τ * (1 - φ) ^ 2 * (0 ^ 2 + 1) ^ 2)
      = d ^ 2 * φ ^ 3 / (72 * τ * (1 - φ) ^ 2) * 1 := by norm_num
  have e2 : d ^ 2 * φ ^ 3 * (C ^ 3 * S + 3 * C ^ 2 + 1) ^ 2 / (72 * τ * (1 - φ) ^ 2 * (C ^ 2 + 1) ^ 2)
      = d ^ 2 * φ ^ 3 / (72 * τ * (1 - φ) ^ 2) * ((C ^ 3 * S + 3 * C ^ 2 + 1) / (C ^ 2 + 1)) ^ 2 := by
    field
  rw [e1, e2]
  refine mul_le_mul_of_nonneg_left ?_ (by positivity)
  have p : 0 < C ^ 2 + 1 := by positivity
  have q : 1 ≤ (C ^ 3 * S + 3 * C ^ 2 + 1) / (C ^ 2 + 1) := by
    rw [le_div_iff₀ p]
    have : 0 ≤ C ^ 3 * S := by positivity
    nlinarith [sq_nonneg C]
  nlinarith

example : Panda_Lake (fin 6) (fin 0) (fin 1) (fin 2.5) (fin (1 / 2)) = fin (1 / 10) := by
  rw [C58_panda_lake (by norm_num), C58_kozeny_carman (by norm_num)]; norm_num

/-- C58: the cemented form is 601.2 times Kozeny-Carman. -/
theorem C58_panda_lake_cem {φ d : ℝ} (h : φ ≠ 1) :
    Panda_Lake_cem (fin φ) (fin d) = fin 601.2 * Kozeny_Carman (fin φ) (fin d) := by
  have n : 1 - φ ≠ 0 := sub_ne_zero.mpr h.symm
  rw [KC_eval h]
  unfold Panda_Lake_cem
  fl_eval []
  have e : (601.2 : ℝ) = 3.34 * 180 := by norm_num
  rw [e]
  exact congrArg fin (by field)

/-- C59: the value returned by `Fredrich`.  With a surface per volume of `6(1-φ)/d`, which is what
spherical grains of diameter `d` have, the same formula `φ³/(2.5 b Sv²)` would give
`d² φ³/(90 b (1-φ)²)`; the code returns that number divided by `d⁴`. -/
theorem C59_value {φ d b : ℝ} (h0 : φ ≠ 0) (h : φ ≠ 1) (hd : d ≠ 0) (hb : b ≠ 0) :
    Fredrich (fin φ) (fin d) (fin b) = fin (φ ^ 3 / (90 * b * (1 - φ) ^ 2 * d ^ 2)) ∧
      fin (d ^ 4) * Fredrich (fin φ) (fin d) (fin b)
        = fin (φ ^ 3 / (2.5 * b * (6 * (1 - φ) / d) ^ 2)) := by
  have n : 1 - φ ≠ 0 := sub_ne_zero.mpr h.symm
  have nF : b * (2.5 / φ) ≠ 0 := mul_ne_zero hb (div_ne_zero (by norm_num) h0)
  have nS : 6 * (1 - φ) * d ≠ 0 := by positivity
  have e : Fredrich (fin φ) (fin d) (fin b) = fin (φ ^ 3 / (90 * b * (1 - φ) ^ 2 * d ^ 2)) := by
    unfold Fredrich
    fl_eval []
    refine congrArg fin ?_
    have : (2.5 : ℝ) = 5 / 2 := by norm_num
    rw [this]
    generalize 1 - φ = x at *
    field_simp
    norm_num
  refine ⟨e, ?_⟩
  rw [e, fl_mul]
  have : (2.5 : ℝ) = 5 / 2 := by norm_num
  rw [this]
  refine congrArg fin ?_
  generalize 1 - φ = x at *
  field_simp
  norm_num

example : Fredrich (fin (1 / 2)) (fin 2) (fin 2) = fin (1 / 1440) := by
  rw [(C59_value (by norm_num) (by norm_num) (by norm_num) (by norm_num)).1]; norm_num

/-- C59 (what a user would expect is false): the permeability strictly *decreases* when the grains
get coarser. -/
theorem C59_decreases_with_grain_size {φ d d' b : ℝ} (h0 : 0 < φ) (h : φ < 1) (hd : 0 < d)
    (hdd : d < d') (hb : 0 < b) :
    Fredrich (fin φ) (fin d') (fin b) < Fredrich (fin φ) (fin d) (fin b) := by
  have n : 0 < 1 - φ := by linarith
  have hd' : 0 < d' := by linarith
  rw [(C59_value h0.ne' h.ne hd.ne' hb.ne').1, (C59_value h0.ne' h.ne hd'.ne' hb.ne').1, fin_lt]
  have : d ^ 2 < d' ^ 2 := pow_lt_pow_left₀ hdd hd.le (by norm_num)
  gcongr

example : Fredrich (fin 0.2) (fin 0.5) (fin 2) < Fredrich (fin 0.2) (fin 0.25) (fin 2) :=
  C59_decreases_with_grain_size (by norm_num) (by norm_num) (by norm_num) (by norm_num) (by norm_num)

/-- C59: with the shape factor 2 of circular tubes the formula with the right surface is the
Kozeny-Carman formula, so the code's value agrees with `Kozeny_Carman` exactly when `d⁴ = 1`. -/
theorem C59_vs_kozeny_carman {φ d : ℝ} (h0 : 0 < φ) (h : φ < 1) (hd : 0 < d) :
    fin (d ^ 4) * Fredrich (fin φ) (fin d) (fin 2) = Kozeny_Carman (fin φ) (fin d) ∧
      (Fredrich (fin φ) (fin d) (fin 2) = Kozeny_Carman (fin φ) (fin d) ↔ d = 1) := by
  have n : 0 < 1 - φ := by linarith
  obtain ⟨e, -⟩ := C59_value (φ := φ) (d := d) (b := 2) h0.ne' h.ne hd.ne' (by norm_num)
  rw [e, KC_eval h.ne]
  constructor
  · rw [fl_mul]
    exact congrArg fin (by field_simp; norm_num)
  · rw [fin_inj, div_eq_div_iff (by positivity) (by positivity)]
    constructor
    · intro q
      have q' : (180 * φ ^ 3 * (1 - φ) ^ 2) * (d ^ 4 - 1) = 0 := by linear_combination -q
      have : d ^ 4 = 1 ^ 4 := by
        rcases mul_eq_zero.mp q' with z | z
        · exact absurd z (by positivity)
        · linarith
      exact (pow_left_inj₀ hd.le (by norm_num) (by norm_num)).mp this
    · rintro rfl; ring

/-- C65: Bernabe's permeability is the volume average of the permeabilities of a rock whose whole
pore space is cracks (`w² φ/30`) and of one whose whole pore space is tubes (`r² φ/20`). -/
theorem C65_mixture (φ c w r : ℝ) :
    Bernabe (fin φ) (fin c) (fin w) (fin r)
        = fin (c * (w ^ 2 * φ / 30) + (1 - c) * (r ^ 2 * φ / 20)) ∧
      Bernabe (fin φ) (fin 1) (fin w) (fin r) = fin (w ^ 2 * φ / 30) ∧
      Bernabe (fin φ) (fin 0) (fin w) (fin r) = fin (r ^ 2 * φ / 20) := by
  refine ⟨?_, ?_, ?_⟩ <;>
  · unfold Bernabe
    fl_eval []
    exact congrArg fin (by ring)

/-- C65: it lies between the two. -/
theorem C65_between {φ c w r : ℝ} (h0 : 0 ≤ c) (h1 : c ≤ 1) :
    fin (min (w ^ 2 * φ / 30) (r ^ 2 * φ / 20)) ≤ Bernabe (fin φ) (fin c) (fin w) (fin r) ∧
      Bernabe (fin φ) (fin c) (fin w) (fin r) ≤ fin (max (w ^ 2 * φ / 30) (r ^ 2 * φ / 20)) := by
  rw [(C65_mixture φ c w r).1, fin_le, fin_le]
  generalize w ^ 2 * φ / 30 = a
  generalize r ^ 2 * φ / 20 = b
  constructor
  · nlinarith [min_le_left a b, min_le_right a b]
  · nlinarith [le_max_left a b, le_max_right a b]

example : Bernabe (fin 0.1) (fin 0.3) (fin 1) (fin 10) ≤ fin (max (1 ^ 2 * 0.1 / 30) (10 ^ 2 * 0.1 / 20)) :=
  (C65_between (by norm_num) (by norm_num)).2

/-- C66: the four log correlations are defined for `0 < Swi`, are non-negative, and with the same
saturation do not decrease with porosity. -/
theorem C66_perm_logs_mono {φ ψ s : ℝ} (h0 : 0 ≤ φ) (h : φ ≤ ψ) (hs : 0 < s) :
    (fin 0 ≤ (Perm_logs (fin φ) (fin s)).1 ∧
      (Perm_logs (fin φ) (fin s)).1 ≤ (Perm_logs (fin ψ) (fin s)).1) ∧
    (fin 0 ≤ (Perm_logs (fin φ) (fin s)).2.1 ∧
      (Perm_logs (fin φ) (fin s)).2.1 ≤ (Perm_logs (fin ψ) (fin s)).2.1) ∧
    (fin 0 ≤ (Perm_logs (fin φ) (fin s)).2.2.1 ∧
      (Perm_logs (fin φ) (fin s)).2.2.1 ≤ (Perm_logs (fin ψ) (fin s)).2.2.1) ∧
    (fin 0 ≤ (Perm_logs (fin φ) (fin s)).2.2.2 ∧
      (Perm_logs (fin φ) (fin s)).2.2.2 ≤ (Perm_logs (fin ψ) (fin s)).2.2.2) := by
  have hψ : 0 ≤ ψ := h0.trans h
  have q : (0 : ℝ) ≤ 4.5 := by norm_num
  have r1 : φ ^ (4.5 : ℝ) ≤ ψ ^ (4.5 : ℝ) := Real.rpow_le_rpow h0 h q
  have r0 : 0 ≤ φ ^ (4.5 : ℝ) := Real.rpow_nonneg h0 _
  have p6 : φ ^ 6 ≤ ψ ^ 6 := pow_le_pow_left₀ h0 h 6
  have p4 : φ ^ 4 ≤ ψ ^ 4 := pow_le_pow_left₀ h0 h 4
  unfold Perm_logs
  fl_eval [fl_rpow_nonneg h0 q, fl_rpow_nonneg hψ q, fin_le]
  refine ⟨⟨by positivity, by gcongr⟩, ⟨by positivity, by gcongr⟩, ⟨by positivity, by gcongr⟩,
    ⟨by positivity, by gcongr⟩⟩

example : (Perm_logs (fin 0.1) (fin 0.2)).1 ≤ (Perm_logs (fin 0.25) (fin 0.2)).1 :=
  (C66_perm_logs_mono (by norm_num) (by norm_num) (by norm_num)).1.2

/-- C66: above zero saturation and below full saturation all four strictly rise with porosity and, in
a porous rock, strictly fall with irreducible water saturation. -/
theorem C66_perm_logs_strict {φ ψ s t : ℝ} (h0 : 0 < φ) (h : φ < ψ) (hs : 0 < s) (hst : s < t)
    (h1 : t ≤ 1) :
    ((Perm_logs (fin φ) (fin s)).1 < (Perm_logs (fin ψ) (fin s)).1 ∧
      (Perm_logs (fin φ) (fin s)).2.1 < (Perm_logs (fin ψ) (fin s)).2.1 ∧
      (Perm_logs (fin φ) (fin s)).2.2.1 < (Perm_logs (fin ψ) (fin s)).2.2.1 ∧
      (Perm_logs (fin φ) (fin s)).2.2.2 < (Perm_logs (fin ψ) (fin s)).2.2.2) ∧
    (Perm_logs (fin φ) (fin t)).1 < (Perm_logs (fin φ) (fin s)).1 ∧
      (Perm_logs (fin φ) (fin t)).2.1 < (Perm_logs (fin φ) (fin s)).2.1 ∧
      (Perm_logs (fin φ) (fin t)).2.2.1 < (Perm_logs (fin φ) (fin s)).2.2.1 ∧
      (Perm_logs (fin φ) (fin t)).2.2.2 < (Perm_logs (fin φ) (fin s)).2.2.2 := by
  have hψ : 0 < ψ := h0.trans h
  have ht : 0 < t := hs.trans hst
  have q : (0 : ℝ) ≤ 4.5 := by norm_num
  have r1 : φ ^ (4.5 : ℝ) < ψ ^ (4.5 : ℝ) := Real.rpow_lt_rpow h0.le h (by norm_num)
  have r0 : 0 < φ ^ (4.5 : ℝ) := Real.rpow_pos_of_pos h0 _
  have p6 : φ ^ 6 < ψ ^ 6 := pow_lt_pow_left₀ h h0.le (by norm_num)
  have p4 : φ ^ 4 < ψ ^ 4 := pow_lt_pow_left₀ h h0.le (by norm_num)
  have c0 : 0 < (1 - s) ^ 2 := pow_pos (by linarith) 2
  have c : (1 - t) ^ 2 ≤ (1 - s) ^ 2 := pow_le_pow_left₀ (by linarith) (by linarith) 2
  have s2 : s ^ 2 < t ^ 2 := pow_lt_pow_left₀ hst hs.le (by norm_num)
  have s4 : s ^ 4 < t ^ 4 := pow_lt_pow_left₀ hst hs.le (by norm_num)
  unfold Perm_logs
  fl_eval [fl_rpow_nonneg h0.le q, fl_rpow_nonneg hψ.le q, fin_lt]
  refine ⟨⟨by gcongr, by gcongr, by gcongr, by gcongr⟩, by gcongr, by gcongr, ?_, by gcongr⟩
  calc 10000 * φ ^ 4 * (1 - t) ^ 2 / t ^ 2 ≤ 10000 * φ ^ 4 * (1 - s) ^ 2 / t ^ 2 := by gcongr
    _ < _ := by gcongr

example : (0 : ℝ) < 0.1 ∧ (0.1 : ℝ) < 0.2 ∧ (0 : ℝ) < 0.15 ∧ (0.15 : ℝ) < 0.3 ∧ (0.3 : ℝ) ≤ 1 := by
  norm_num

/-- C66: with the same porosity they do not increase with irreducible water saturation, and the
Coates permeability vanishes at full saturation. -/
theorem C66_perm_logs_antitone {φ s t : ℝ} (h0 : 0 ≤ φ) (hs : 0 < s) (h : s ≤ t) (h1 : t ≤ 1) :
    (Perm_logs (fin φ) (fin t)).1 ≤ (Perm_logs (fin φ) (fin s)).1 ∧
    (Perm_logs (fin φ) (fin t)).2.1 ≤ (Perm_logs (fin φ) (fin s)).2.1 ∧
    (Perm_logs (fin φ) (fin t)).2.2.1 ≤ (Perm_logs (fin φ) (fin s)).2.2.1 ∧
    (Perm_logs (fin φ) (fin t)).2.2.2 ≤ (Perm_logs (fin φ) (fin s)).2.2.2 ∧
    (Perm_logs (fin φ) (fin 1)).2.2.1 = fin 0 := by
  have ht : 0 < t := by linarith
  have q : (0 : ℝ) ≤ 4.5 := by norm_num
  have r0 : 0 ≤ φ ^ (4.5 : ℝ) := Real.rpow_nonneg h0 _
  have c : (1 - t) ^ 2 ≤ (1 - s) ^ 2 := pow_le_pow_left₀ (by linarith) (by linarith) 2
  unfold Perm_logs
  fl_eval [fl_rpow_nonneg h0 q, fin_le]
  exact ⟨by gcongr, by gcongr, by gcongr, by gcongr, by norm_num⟩

/-- C66: Owolabi's correlations: both permeabilities stay above their constant term when
`Swi² ≤ 2655/3454`, but they are not bounded below: a water saturated sand of 30% porosity
gets a negative permeability from both. -/
theorem C66_owolabi {φ s : ℝ} (h : s ^ 2 ≤ 2655 / 3454) :
    fin 307 ≤ (Owolabi (fin φ) (fin s)).1 ∧ fin 30.7 ≤ (Owolabi (fin φ) (fin s)).2 ∧
      (Owolabi (fin 0.3) (fin 1)).1 < fin 0 ∧ (Owolabi (fin 0.3) (fin 1)).2 < fin 0 := by
  unfold Owolabi
  fl_eval [fin_le, fin_lt]
  have := sq_nonneg φ
  refine ⟨?_, ?_, by norm_num, by norm_num⟩
  · nlinarith [mul_nonneg this (sub_nonneg.mpr h)]
  · nlinarith [mul_nonneg this (sub_nonneg.mpr h)]

/-- C66: the published forms.  Tixier, Timur and Coates relate the square root of permeability to
porosity and irreducible saturation; Coates-Dumanoir is the same with exponent `w = 2`; Owolabi's
gas relation is the oil relation for one tenth of the permeability, up to rounding. -/
theorem C66_published {φ s : ℝ} (h0 : 0 ≤ φ) (hs : 0 < s) (h1 : s ≤ 1) :
    (∃ k₁ k₂ k₃ k₄, Perm_logs (fin φ) (fin s) = (fin k₁, fin k₂, fin k₃, fin k₄) ∧
      √k₁ = 250 * φ ^ 3 / s ∧ √k₂ = 100 * φ ^ (2.25 : ℝ) / s ∧
      √k₃ = 100 * φ ^ 2 * (1 - s) / s ∧ √k₄ = √352 * φ ^ 2 / s ^ 2) ∧
    Owolabi (fin φ) (fin s)
      = (fin (307 + φ ^ 2 * (26552 - 34540 * s ^ 2)),
         fin (30.7 + φ ^ 2 * (2655 - 3454 * s ^ 2))) := by
  have q : (0 : ℝ) ≤ 4.5 := by norm_num
  have hs1 : 0 ≤ 1 - s := by linarith
  constructor
  · refine ⟨62500 * φ ^ 6 / s ^ 2, 10000 * φ ^ (4.5 : ℝ) / s ^ 2,
      10000 * φ ^ 4 * (1 - s) ^ 2 / s ^ 2, 352 * φ ^ 4 / s ^ 4, ?_, ?_, ?_, ?_, ?_⟩
    · unfold Perm_logs
      fl_eval [fl_rpow_nonneg h0 q]
    · rw [show 62500 * φ ^ 6 / s ^ 2 = (250 * φ ^ 3 / s) ^ 2 by ring]
      exact Real.sqrt_sq (by positivity)
    · have e : φ ^ (4.5 : ℝ) = (φ ^ (2.25 : ℝ)) ^ 2 := by
        rw [← Real.rpow_natCast, ← Real.rpow_mul h0]; norm_num
      rw [e, show 10000 * (φ ^ (2.25 : ℝ)) ^ 2 / s ^ 2 = (100 * φ ^ (2.25 : ℝ) / s) ^ 2 by ring]
      exact Real.sqrt_sq (by positivity)
    · rw [show 10000 * φ ^ 4 * (1 - s) ^ 2 / s ^ 2 = (100 * φ ^ 2 * (1 - s) / s) ^ 2 by ring]
      exact Real.sqrt_sq (by positivity)
    · rw [show 352 * φ ^ 4 / s ^ 4 = 352 * (φ ^ 2 / s ^ 2) ^ 2 by ring,
        Real.sqrt_mul (by norm_num), Real.sqrt_sq (by positivity)]
      ring
  · unfold Owolabi
    fl_eval []
    exact Prod.ext (congrArg fin (by ring)) (congrArg fin (by ring))

/-- C66: Revil's permeability vanishes without pores, strictly increases with porosity and scales
with the square of the grain size. -/
theorem C66_revil {φ ψ d c : ℝ} (h0 : 0 ≤ φ) (h : φ < ψ) (hd : d ≠ 0) :
    Revil (fin 0) (fin d) = fin 0 ∧ Revil (fin φ) (fin d) < Revil (fin ψ) (fin d) ∧
      Revil (fin φ) (fin (c * d)) = fin (c ^ 2) * Revil (fin φ) (fin d) := by
  have hψ : 0 ≤ ψ := h0.trans h.le
  have q : (0 : ℝ) ≤ 4.5 := by norm_num
  have r1 : φ ^ (4.5 : ℝ) < ψ ^ (4.5 : ℝ) := Real.rpow_lt_rpow h0 h (by norm_num)
  have d2 : 0 < d ^ 2 := by positivity
  unfold Revil
  fl_eval [fl_rpow_nonneg h0 q, fl_rpow_nonneg hψ q, fl_rpow_nonneg (le_refl (0 : ℝ)) q, fin_lt]
  refine ⟨?_, by gcongr, congrArg fin (by ring)⟩
  rw [Real.zero_rpow (by norm_num)]; norm_num

/-- C66: with grain sizes in micrometres Revil's permeability in millidarcy (a thousand to the square
micrometre) is `d²/(24 F³)` with Archie's formation factor `F = φ^(-3/2)`. -/
theorem C66_revil_archie {φ : ℝ} (h0 : 0 < φ) (d : ℝ) :
    ∃ k : ℝ, Revil (fin φ) (fin d) = fin k ∧
      k / 1000 = d ^ 2 / (24 * (φ ^ (-(3 / 2) : ℝ)) ^ 3) := by
  refine ⟨1000 * d ^ 2 * φ ^ (4.5 : ℝ) / 24, ?_, ?_⟩
  · unfold Revil
    fl_eval [fl_rpow_nonneg h0.le (show (0 : ℝ) ≤ 4.5 by norm_num)]
  · have e : (φ ^ (-(3 / 2) : ℝ)) ^ 3 = (φ ^ (4.5 : ℝ))⁻¹ := by
      rw [← Real.rpow_natCast, ← Real.rpow_mul h0.le, ← Real.rpow_neg h0.le]; norm_num
    rw [e]
    have := Real.rpow_pos_of_pos h0 4.5
    field

example : Revil (fin 0.1) (fin 2) < Revil (fin 0.2) (fin 2) :=
  (C66_revil (c := 1) (by norm_num) (by norm_num) (by norm_num)).2.1

/-- C66: Bloch's permeability is positive whenever the sorting is not zero; it is multiplied by
`10^(1.34 x)` when the grains are coarser by `x` and decreases with the sorting coefficient, and
so does the porosity. -/
theorem C66_bloch {S S' C D x : ℝ} (h0 : 0 < S) (h : S < S') :
    (∃ φ k, 0 < k ∧ Bloch (fin S) (fin C) (fin D) = (fin φ, fin k) ∧
      Bloch (fin S) (fin C) (fin (D + x)) = (fin φ, fin (10 ^ (1.34 * x) * k))) ∧
    (Bloch (fin S') (fin C) (fin D)).1 < (Bloch (fin S) (fin C) (fin D)).1 ∧
    (Bloch (fin S') (fin C) (fin D)).2 < (Bloch (fin S) (fin C) (fin D)).2 := by
  have hS' : 0 < S' := by linarith
  have h1 : 9.8 / S' < 9.8 / S := by gcongr
  have h2 : 4.08 / S' < 4.08 / S := by gcongr
  constructor
  · refine ⟨-6.1 + 9.8 / S + 0.17 * C, 10 ^ (-4.67 + 1.34 * D + 4.08 / S + 3.42 * (C / 100)), by positivity, ?_, ?_⟩
    · unfold Bloch
      fl_eval []
    · unfold Bloch
      fl_eval []
      rw [← Real.rpow_add (by norm_num)]
      congr 3
      ring
  · unfold Bloch
    fl_eval [fin_lt]
    refine ⟨by linarith, Real.rpow_lt_rpow_of_exponent_lt (by norm_num) (by linarith)⟩

example : (Bloch (fin 2) (fin 80) (fin 0.3)).2 < (Bloch (fin 1.5) (fin 80) (fin 0.3)).2 :=
  (C66_bloch (x := 0) (by norm_num) (by norm_num)).2.2

end RockPhy.Props
