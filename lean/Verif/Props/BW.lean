import Verif.Model.BW
import Verif.Spec.Gas
import Verif.Props.Fluid

/-! # Properties C53, C54, C55 and C71, C72 (Batzle and Wang fluids) -/

namespace RockPhy.BW

open Fl Spec

theorem dz_dp_eval {T p : ℝ} (hp : 0 < p) (hT : T ≠ 0) :
    dz_dp (fin p) (fin T) = fin (deriv (zFactor T) p) := by
  rw [(zFactor_hasDerivAt hp).deriv]
  unfold dz_dp
  fl_eval []
  exact congrArg fin (by ring_nf)

theorem reduced_rho {P G Ta p Tr : ℝ} (hp : 0 < p) (hT : Tr ≠ 0) (hTa : Ta ≠ 0)
    (hZ : zFactor Tr p ≠ 0) :
    (rho_K_reduced (fin P) (fin G) (fin Ta) (fin p) (fin Tr)).1
      = fin (28.8 * G * P / (zFactor Tr p * 8.3145 * Ta)) := by
  unfold rho_K_reduced
  have hZ' := hZ
  unfold zFactor at hZ' ⊢
  fl_eval []

theorem reduced_eval {P G Ta p Tr : ℝ} (hp : 0 < p) (hT : Tr ≠ 0) (hTa : Ta ≠ 0)
    (hZ : zFactor Tr p ≠ 0) (hK : zFactor Tr p ≠ p * deriv (zFactor Tr) p) :
    rho_K_reduced (fin P) (fin G) (fin Ta) (fin p) (fin Tr)
      = (fin (28.8 * G * P / (zFactor Tr p * 8.3145 * Ta)),
        fin (P / (1 - p * deriv (zFactor Tr) p / zFactor Tr p) * heatRatio p / 1000)) := by
  refine Prod.ext (reduced_rho hp hT hTa hZ) ?_
  have n : 1 - p * deriv (zFactor Tr) p / zFactor Tr p ≠ 0 := by
    rw [one_sub_div hZ]; exact div_ne_zero (sub_ne_zero.mpr hK) hZ
  unfold rho_K_reduced
  dsimp only
  rw [dz_dp_eval hp hT]
  generalize deriv (zFactor Tr) p = z' at *
  unfold heatRatio
  have hZ' := hZ
  unfold zFactor at n hZ' ⊢
  fl_eval []

/-- Density as a function of pressure, its derivative, and the modulus. -/
theorem modulus_eq {P G Ta pc Tr : ℝ} (hP : 0 < P) (hpc : 0 < pc) (hTa : Ta ≠ 0)
    (hZ : zFactor Tr (P / pc) ≠ 0) :
    ∃ ρ', HasDerivAt (gasDensity Tr pc G Ta) ρ' P ∧
      ∀ g, zFactor Tr (P / pc) ≠ P / pc * deriv (zFactor Tr) (P / pc) →
        P / (1 - P / pc * deriv (zFactor Tr) (P / pc) / zFactor Tr (P / pc)) * g * ρ'
          = g * gasDensity Tr pc G Ta P := by
  have hz := zFactor_hasDerivAt (T := Tr) (p := P / pc) (by positivity)
  rw [hz.deriv]
  generalize (0.03 + 0.00527 * (3.5 - Tr) ^ 3)
      + 0.109 * (3.85 - Tr) ^ 2 * (Real.exp (-(0.45 + 8 * (0.56 - 1 / Tr) ^ 2)
          * (P / pc) ^ (1.2 : ℝ) / Tr)
        * (-(0.45 + 8 * (0.56 - 1 / Tr) ^ 2) * (1.2 * (P / pc) ^ (0.2 : ℝ)) / Tr)) = z' at *
  have h0 : HasDerivAt (fun p => zFactor Tr (p / pc)) (z' * (1 / pc)) P :=
    HasDerivAt.comp (h₂ := zFactor Tr) (h := fun p => p / pc) P hz ((hasDerivAt_id P).div_const pc)
  have h1 := (h0.mul_const 8.3145).mul_const Ta
  have n : zFactor Tr (P / pc) * 8.3145 * Ta ≠ 0 := by
    refine mul_ne_zero (mul_ne_zero hZ (by norm_num)) hTa
  have h2 := ((hasDerivAt_id P).const_mul (28.8 * G)).div h1 n
  refine ⟨_, h2, fun g hK => ?_⟩
  unfold gasDensity
  generalize zFactor Tr (P / pc) = Z at *
  have n' : Z - P / pc * z' ≠ 0 := sub_ne_zero.mpr hK
  have n'' : Z * pc - P * z' ≠ 0 := by
    intro h
    refine n' ?_
    have : (Z - P / pc * z') * pc = 0 := by rw [← h]; field
    exact (mul_eq_zero.mp this).resolve_right hpc.ne'
  simp only [id]
  rw [one_sub_div hZ]
  field

end RockPhy.BW

namespace RockPhy.Props

open Fl Spec BW

/-- C53: `dz_dp` is the derivative of the compressibility factor with respect to reduced
pressure. -/
theorem C53_derivative {T p : ℝ} (hp : 0 < p) (hT : T ≠ 0) :
    ∃ d, dz_dp (fin p) (fin T) = fin d ∧ HasDerivAt (zFactor T) d p := by
  refine ⟨_, dz_dp_eval hp hT, ?_⟩
  exact (zFactor_hasDerivAt hp).differentiableAt.hasDerivAt

example : ∃ d, dz_dp (fin 2) (fin 1.5) = fin d ∧ HasDerivAt (zFactor 1.5) d 2 :=
  C53_derivative (by norm_num) (by norm_num)

/-- C53: the density of `rho_K_gas` follows the equation of state `p M = ρ Z R T`, and its bulk
modulus (GPa) is the heat capacity ratio times `ρ dp/dρ` of the very same density. -/
theorem C53_gas {P T G : ℝ} (hP : 0 < P) (hT : -273.15 < T) (hG0 : 0 ≤ G) (hG1 : G < 12)
    (hZ : zFactor ((T + 273.15) / (94.72 + 170.75 * G)) (P / (4.892 - 0.4048 * G)) ≠ 0)
    (hK : zFactor ((T + 273.15) / (94.72 + 170.75 * G)) (P / (4.892 - 0.4048 * G))
      ≠ P / (4.892 - 0.4048 * G) * deriv (zFactor ((T + 273.15) / (94.72 + 170.75 * G)))
        (P / (4.892 - 0.4048 * G))) :
    ∃ (ρ : ℝ → ℝ) (ρ' k : ℝ),
      (∀ p > 0, zFactor ((T + 273.15) / (94.72 + 170.75 * G)) (p / (4.892 - 0.4048 * G)) ≠ 0 →
        (rho_K_gas (fin p) (fin T) (fin G)).1 = fin (ρ p) ∧
        p * (28.8 * G) = ρ p * zFactor ((T + 273.15) / (94.72 + 170.75 * G))
          (p / (4.892 - 0.4048 * G)) * 8.3145 * (T + 273.15)) ∧
      rho_K_gas (fin P) (fin T) (fin G) = (fin (ρ P), fin k) ∧
      HasDerivAt ρ ρ' P ∧
      1000 * k * ρ' = heatRatio (P / (4.892 - 0.4048 * G)) * ρ P := by
  have hTa : 0 < T + 273.15 := by linarith
  have hpc : 0 < 4.892 - 0.4048 * G := by linarith
  have htc : 0 < 94.72 + 170.75 * G := by linarith
  have hTr : 0 < (T + 273.15) / (94.72 + 170.75 * G) := by positivity
  have ev : ∀ p : ℝ, rho_K_gas (fin p) (fin T) (fin G) = rho_K_reduced (fin p) (fin G)
      (fin (T + 273.15)) (fin (p / (4.892 - 0.4048 * G)))
      (fin ((T + 273.15) / (94.72 + 170.75 * G))) := by
    intro p
    unfold rho_K_gas pseudo_p_t
    fl_eval []
  have E := (ev P).trans (reduced_eval (by positivity) hTr.ne' hTa.ne' hZ hK)
  obtain ⟨ρ', hρ', hm⟩ := modulus_eq (G := G) hP hpc hTa.ne' hZ
  refine ⟨gasDensity ((T + 273.15) / (94.72 + 170.75 * G)) (4.892 - 0.4048 * G) G (T + 273.15), ρ',
    _, fun p hp hz => ⟨?_, ?_⟩, E, hρ', ?_⟩
  · rw [ev]
    exact reduced_rho (by positivity) hTr.ne' hTa.ne' hz
  · unfold gasDensity
    field
  · have := hm (heatRatio (P / (4.892 - 0.4048 * G))) hK
    rw [← this]
    ring

/-- C53: the same for `rho_K_co2` with critical pressure 7.4 MPa; the reduced temperature is
referred to 304.6 K, although the critical temperature of 31.1 °C is 304.25 K. -/
theorem C53_co2 {P T G : ℝ} (hP : 0 < P) (hT : -273.15 < T)
    (hZ : zFactor ((T + 273.15) / 304.6) (P / 7.4) ≠ 0)
    (hK : zFactor ((T + 273.15) / 304.6) (P / 7.4)
      ≠ P / 7.4 * deriv (zFactor ((T + 273.15) / 304.6)) (P / 7.4)) :
    ∃ (ρ : ℝ → ℝ) (ρ' k : ℝ),
      (∀ p > 0, zFactor ((T + 273.15) / 304.6) (p / 7.4) ≠ 0 →
        (rho_K_co2 (fin p) (fin T) (fin G)).1 = fin (ρ p) ∧
        p * (28.8 * G) = ρ p * zFactor ((T + 273.15) / 304.6) (p / 7.4) * 8.3145 * (T + 273.15)) ∧
      rho_K_co2 (fin P) (fin T) (fin G) = (fin (ρ P), fin k) ∧
      HasDerivAt ρ ρ' P ∧
      1000 * k * ρ' = heatRatio (P / 7.4) * ρ P := by
  have hTa : 0 < T + 273.15 := by linarith
  have hTr : 0 < (T + 273.15) / 304.6 := by positivity
  have ev : ∀ p : ℝ, rho_K_co2 (fin p) (fin T) (fin G) = rho_K_reduced (fin p) (fin G)
      (fin (T + 273.15)) (fin (p / 7.4)) (fin ((T + 273.15) / 304.6)) := by
    intro p
    have n : (31.1 + 273.5 : ℝ) = 304.6 := by norm_num
    have n' : (304.6 : ℝ) ≠ 0 := by norm_num
    unfold rho_K_co2
    fl_eval [n]
  have E := (ev P).trans (reduced_eval (by positivity) hTr.ne' hTa.ne' hZ hK)
  obtain ⟨ρ', hρ', hm⟩ := modulus_eq (G := G) (pc := 7.4) hP (by norm_num) hTa.ne' hZ
  refine ⟨gasDensity ((T + 273.15) / 304.6) 7.4 G (T + 273.15), ρ',
    _, fun p hp hz => ⟨?_, ?_⟩, E, hρ', ?_⟩
  · rw [ev]
    exact reduced_rho (by positivity) hTr.ne' hTa.ne' hz
  · unfold gasDensity
    field
  · have := hm (heatRatio (P / 7.4)) hK
    rw [← this]
    ring

/-- At the reduced coordinates (1, 1) `Z` and its derivative meet the hypotheses. -/
theorem zFactor_one_one : 0 < zFactor 1 1 ∧ 1 * deriv (zFactor 1) 1 < zFactor 1 1 := by
  rw [(zFactor_hasDerivAt (T := 1) (p := 1) one_pos).deriv]
  unfold zFactor
  have e := Real.exp_pos (-(0.45 + 8 * (0.56 - 1 / (1 : ℝ)) ^ 2) * 1 ^ (1.2 : ℝ) / 1)
  generalize Real.exp (-(0.45 + 8 * (0.56 - 1 / (1 : ℝ)) ^ 2) * 1 ^ (1.2 : ℝ) / 1) = E at *
  rw [Real.one_rpow]
  constructor
  · norm_num; linarith
  · norm_num; linarith

example : ∃ r k, rho_K_co2 (fin 7.4) (fin 31.45) (fin 1.5349) = (fin r, fin k) := by
  obtain ⟨z, d⟩ := zFactor_one_one
  have e1 : ((31.45 : ℝ) + 273.15) / 304.6 = 1 := by norm_num
  have e2 : (7.4 : ℝ) / 7.4 = 1 := by norm_num
  obtain ⟨ρ, ρ', k, -, h, -⟩ := C53_co2 (P := 7.4) (T := 31.45) (G := 1.5349) (by norm_num)
    (by norm_num) (by rw [e1, e2]; exact z.ne') (by rw [e1, e2]; exact d.ne')
  exact ⟨_, _, h⟩

example : ∃ r k, rho_K_gas (fin 4.4872) (fin (-7.68)) (fin 1) = (fin r, fin k) := by
  obtain ⟨z, d⟩ := zFactor_one_one
  have e1 : ((-7.68 : ℝ) + 273.15) / (94.72 + 170.75 * 1) = 1 := by norm_num
  have e2 : (4.4872 : ℝ) / (4.892 - 0.4048 * 1) = 1 := by norm_num
  obtain ⟨ρ, ρ', k, -, h, -⟩ := C53_gas (P := 4.4872) (T := -7.68) (G := 1) (by norm_num)
    (by norm_num) (by norm_num) (by norm_num) (by rw [e1, e2]; exact z.ne')
    (by rw [e1, e2]; exact d.ne')
  exact ⟨_, _, h⟩

theorem v_water_eval (T P : ℝ) : v_water (fin T) (fin P) = fin (waterVelocity T P) := by
  unfold v_water
  have r5 : List.finRange 5 = [0, 1, 2, 3, 4] := by decide
  have r4 : List.finRange 4 = [0, 1, 2, 3] := by decide
  rw [r5, r4]
  simp only [List.flatMap_cons, List.flatMap_nil, List.map_cons, List.map_nil, List.append_nil,
    List.cons_append, List.nil_append]
  unfold waterCoef lsum
  simp only [List.foldr_cons, List.foldr_nil]
  simp only [Matrix.cons_val, Fin.val_zero, Fin.val_one, Fin.val_two]
  fl_eval []
  unfold waterVelocity
  refine congrArg fin ?_
  norm_num
  ring

/-- C54: density and velocity of pure water; the modulus (GPa) is density times velocity
squared. -/
theorem C54_water (T P : ℝ) :
    v_water (fin T) (fin P) = fin (waterVelocity T P) ∧
      rho_K_water (fin T) (fin P)
        = (fin (waterDensity T P), fin (waterDensity T P * 1000 * waterVelocity T P ^ 2 / 10 ^ 9)) := by
  refine ⟨v_water_eval T P, ?_⟩
  unfold rho_K_water
  dsimp only
  rw [v_water_eval]
  unfold waterDensity
  fl_eval []
  refine Prod.ext (congrArg fin ?_) (congrArg fin ?_)
  · ring
  · norm_num; ring

/-- C54: density, velocity and modulus of brine for every salinity that is not negative; a
negative salinity has no velocity and no modulus. -/
theorem C54_brine (T P S : ℝ) :
    (0 ≤ S → v_brine (fin T) (fin P) (fin S) = fin (brineVelocity T P S) ∧
      rho_K_brine (fin T) (fin P) (fin S) = (fin (brineDensity T P S),
        fin (brineDensity T P S * 1000 * brineVelocity T P S ^ 2 / 10 ^ 9))) ∧
    (S < 0 → v_brine (fin T) (fin P) (fin S) = bad ∧
      rho_K_brine (fin T) (fin P) (fin S) = (fin (brineDensity T P S), bad)) := by
  have hv : 0 ≤ S → v_brine (fin T) (fin P) (fin S) = fin (brineVelocity T P S) := by
    intro hS
    have q : (0 : ℝ) ≤ 1.5 := by norm_num
    unfold v_brine
    rw [v_water_eval]
    fl_eval [fl_rpow_nonneg hS q]
    unfold brineVelocity
    exact congrArg fin (by ring)
  have hb : S < 0 → v_brine (fin T) (fin P) (fin S) = bad := by
    intro hS
    have : fin S **. fin 1.5 = bad := by
      refine if_neg ?_
      rintro (h | ⟨h, -⟩ | ⟨-, n, h⟩)
      · linarith
      · linarith
      · have h2 : (3 : ℝ) = ((2 * n : ℤ) : ℝ) := by push_cast; linarith
        have h3 : (3 : ℤ) = 2 * n := by exact_mod_cast h2
        omega
    unfold v_brine
    rw [v_water_eval]
    fl_eval [this]
  have hd : (rho_K_brine (fin T) (fin P) (fin S)).1 = fin (brineDensity T P S) := by
    unfold rho_K_brine
    dsimp only
    rw [(C54_water T P).2]
    fl_eval []
    unfold brineDensity
    exact congrArg fin (by ring)
  refine ⟨fun hS => ⟨hv hS, Prod.ext hd ?_⟩, fun hS => ⟨hb hS, Prod.ext hd ?_⟩⟩
  · have : (rho_K_brine (fin T) (fin P) (fin S)).2
        = (rho_K_brine (fin T) (fin P) (fin S)).1 * (v_brine (fin T) (fin P) (fin S)) ** 2 * 1e-6 :=
      rfl
    rw [this, hd, hv hS]
    fl_eval []
    exact congrArg fin (by norm_num; ring)
  · have : (rho_K_brine (fin T) (fin P) (fin S)).2
        = (rho_K_brine (fin T) (fin P) (fin S)).1 * (v_brine (fin T) (fin P) (fin S)) ** 2 * 1e-6 :=
      rfl
    rw [this, hb hS]
    fl_eval []

/-- C54: brine without salt is water, in all three results. -/
theorem C54_no_salt (T P : ℝ) :
    rho_K_brine (fin T) (fin P) (fin 0) = rho_K_water (fin T) (fin P) ∧
      v_brine (fin T) (fin P) (fin 0) = v_water (fin T) (fin P) := by
  obtain ⟨h1, h2⟩ := (C54_brine T P 0).1 le_rfl
  have e1 : brineDensity T P 0 = waterDensity T P := by unfold brineDensity; ring
  have e2 : brineVelocity T P 0 = waterVelocity T P := by
    unfold brineVelocity; rw [Real.zero_rpow (by norm_num)]; ring
  rw [h1, h2, (C54_water T P).1, (C54_water T P).2, e1, e2]
  exact ⟨rfl, rfl⟩

/-- C72: in the range of the correlation (up to 350 °C and 100 MPa) the density of water strictly
falls with temperature and strictly rises with pressure. -/
theorem C72_water_density {T T' P P' : ℝ} (hT0 : 0 ≤ T) (hP0 : 0 ≤ P) :
    (T < T' → T' ≤ 350 → P ≤ 100 →
      (rho_K_water (fin T') (fin P)).1 < (rho_K_water (fin T) (fin P)).1) ∧
    (P < P' → P' ≤ 100 → T ≤ 350 →
      (rho_K_water (fin T) (fin P)).1 < (rho_K_water (fin T) (fin P')).1) := by
  constructor
  · intro h hT hP
    rw [(C54_water T P).2, (C54_water T' P).2]
    dsimp only
    rw [fin_lt]
    unfold waterDensity
    have key : 0 < (T' - T) * (80 + 3.3 * (T + T') - 0.00175 * (T ^ 2 + T * T' + T' ^ 2) + 2 * P
        - 0.016 * P * (T + T') + 1.3e-5 * P * (T ^ 2 + T * T' + T' ^ 2) + 0.002 * P ^ 2) := by
      apply mul_pos (by linarith)
      have q1 : T ^ 2 + T * T' + T' ^ 2 ≤ 350 * 2 * (T + T') := by nlinarith
      have q2 : P * (T + T') ≤ 100 * (T + T') := by nlinarith
      have q3 : 0 ≤ P * (T ^ 2 + T * T' + T' ^ 2) := by
        have : 0 ≤ T' := by linarith
        positivity
      have q4 : 0 ≤ P ^ 2 := by positivity
      nlinarith
    nlinarith [key]
  · intro h hP hT
    rw [(C54_water T P).2, (C54_water T P').2]
    dsimp only
    rw [fin_lt]
    unfold waterDensity
    have key : 0 < (P' - P) * (489 - 2 * T + 0.016 * T ^ 2 - 1.3e-5 * T ^ 3 - 0.333 * (P + P')
        - 0.002 * T * (P + P')) := by
      apply mul_pos (by linarith)
      have q1 : T ^ 3 ≤ 350 * T ^ 2 := by nlinarith [sq_nonneg T]
      have q2 : T * (P + P') ≤ T * 200 := by nlinarith
      nlinarith [sq_nonneg (T - 100)]
    nlinarith [key]

example : (rho_K_water (fin 80) (fin 20)).1 < (rho_K_water (fin 20) (fin 20)).1 :=
  (C72_water_density (P' := 0) (by norm_num) (by norm_num)).1 (by norm_num) (by norm_num)
    (by norm_num)

/-- The gas model selected by the flag `bw`, at the gravity of CO2. -/
noncomputable def co2Of (bw : Bool) (P T : ℝ) : Fl × Fl :=
  if bw then rho_K_gas (fin P) (fin T) 1.5349 else rho_K_co2 (fin P) (fin T) 1.5349

theorem co2_brine_eq {bw : Bool} {P T S s : ℝ} {b c : Fl × Fl}
    (hb : rho_K_brine (fin T) (fin P) (fin S) = b) (hc : co2Of bw P T = c) (e : Option Fl) :
    co2_brine (fin T) (fin P) (fin S) (fin s) e bw
      = ((1 - fin s) * b.1 + fin s * c.1, match e with
        | none => PyNum.inv ((1 - fin s) / b.2 + fin s / c.2)
        | some e => Fluid.Brie b.2 c.2 (1 - fin s) e) := by
  subst hb hc
  cases e <;> rfl

/-- C55: the density of the mixture is the volume average of the densities of brine and CO2. -/
theorem C55_density {bw : Bool} {P T S s rb rc : ℝ} {kb kc : Fl}
    (hb : rho_K_brine (fin T) (fin P) (fin S) = (fin rb, kb)) (hc : co2Of bw P T = (fin rc, kc))
    (e : Option Fl) :
    (co2_brine (fin T) (fin P) (fin S) (fin s) e bw).1 = fin ((1 - s) * rb + s * rc) := by
  rw [co2_brine_eq hb hc]
  fl_eval []

/-- C55: without CO2 the brine is returned, at full CO2 saturation the CO2, for Wood's law and for
Brie's law with any positive exponent. -/
theorem C55_endpoints {bw : Bool} {P T S rb rc kb kc : ℝ}
    (hb : rho_K_brine (fin T) (fin P) (fin S) = (fin rb, fin kb))
    (hc : co2Of bw P T = (fin rc, fin kc)) (h1 : kb ≠ 0) (h2 : kc ≠ 0) (e : Option ℝ)
    (he : ∀ x, e = some x → 0 < x) :
    co2_brine (fin T) (fin P) (fin S) (fin 0) (e.map fin) bw = (fin rb, fin kb) ∧
      co2_brine (fin T) (fin P) (fin S) (fin 1) (e.map fin) bw = (fin rc, fin kc) := by
  rw [co2_brine_eq hb hc, co2_brine_eq hb hc]
  cases e with
  | none =>
    have n1 : (1 - 0) / kb + 0 / kc ≠ 0 := by simpa using h1
    have n2 : (1 - 1) / kb + 1 / kc ≠ 0 := by simpa using h2
    dsimp only [Option.map]
    fl_eval []
    constructor <;> norm_num
  | some x =>
    obtain ⟨q0, q1⟩ := C25_Brie_endpoints kb kc x (he x rfl)
    have e1 : (1 : Fl) - fin 0 = fin 1 := by fl_eval [sub_zero]
    have e2 : (1 : Fl) - fin 1 = fin 0 := by fl_eval [sub_self]
    dsimp only [Option.map]
    rw [e1, e2, q0, q1]
    fl_eval []
    constructor <;> norm_num

/-- C55: the uniform (Wood) modulus is the harmonic average; it and the Brie modulus for exponents
up to one lie between the moduli of CO2 and brine, and the uniform one is the smaller. -/
theorem C55_order {bw : Bool} {P T S s e rb rc kb kc : ℝ}
    (hb : rho_K_brine (fin T) (fin P) (fin S) = (fin rb, fin kb))
    (hc : co2Of bw P T = (fin rc, fin kc)) (h0 : 0 < kc) (h : kc ≤ kb) (hs0 : 0 ≤ s) (hs1 : s ≤ 1)
    (he0 : 0 < e) (he1 : e ≤ 1) :
    (co2_brine (fin T) (fin P) (fin S) (fin s) none bw).2 = fin (reuss2 (1 - s) kb kc) ∧
      fin kc ≤ (co2_brine (fin T) (fin P) (fin S) (fin s) none bw).2 ∧
      (co2_brine (fin T) (fin P) (fin S) (fin s) none bw).2
        ≤ (co2_brine (fin T) (fin P) (fin S) (fin s) (some (fin e)) bw).2 ∧
      (co2_brine (fin T) (fin P) (fin S) (fin s) (some (fin e)) bw).2 ≤ fin kb := by
  have hkb : 0 < kb := h0.trans_le h
  rw [co2_brine_eq hb hc, co2_brine_eq hb hc]
  dsimp only
  have hs : 0 ≤ 1 - s := by linarith
  have d : 0 < (1 - s) / kb + s / kc := by
    have h1 : (1 - s) / kb + s / kc - 1 / kb = s * (kb - kc) / (kb * kc) := by field
    have h2 : 0 ≤ s * (kb - kc) / (kb * kc) :=
      div_nonneg (mul_nonneg hs0 (by linarith)) (by positivity)
    have h3 : 0 < 1 / kb := by positivity
    linarith
  have w : PyNum.inv ((1 - fin s) / fin kb + fin s / fin kc) = fin (reuss2 (1 - s) kb kc) := by
    fl_eval [d.ne']
    unfold reuss2
    rw [sub_sub_cancel]
  have e1 : (1 : Fl) - fin s = fin (1 - s) := by fl_eval []
  obtain ⟨p1, p2⟩ := C25_Brie_patchy kb kc (1 - s) h0 hkb hs (by linarith)
  have p3 := C25_Brie_exponent kb kc e 1 (1 - s) h he0 he1 hs (by linarith)
  have p4 := (C25_Brie_monotone kb kc e (1 - s) (1 - s) h he0 hs le_rfl (by linarith)).2.2
  rw [w, e1]
  refine ⟨rfl, ?_, ?_, p4⟩
  · rw [fin_le]
    unfold reuss2
    rw [sub_sub_cancel, ← one_div, le_div_iff₀ d]
    have h1 : kc * ((1 - s) / kb + s / kc) = 1 - (1 - s) * (kb - kc) / kb := by field
    rw [h1]
    have h2 : 0 ≤ (1 - s) * (kb - kc) / kb := div_nonneg (mul_nonneg hs (by linarith)) hkb.le
    linarith
  · rw [p1] at p3
    rw [Brie_eval hs he0.le, fin_le] at p3 ⊢
    exact p2.trans p3

/-- The hypotheses of the three theorems hold at 31.45 °C and 7.4 MPa for fresh water and the CO2
equations. -/
theorem co2_point : ∃ rb kb rc kc, rho_K_brine (fin 31.45) (fin 7.4) (fin 0) = (fin rb, fin kb) ∧
    co2Of false 7.4 31.45 = (fin rc, fin kc) ∧ 0 < kc ∧ kc ≤ kb := by
  have e1 : ((31.45 : ℝ) + 273.15) / 304.6 = 1 := by norm_num
  have e2 : (7.4 : ℝ) / 7.4 = 1 := by norm_num
  have n : (31.1 + 273.5 : ℝ) = 304.6 := by norm_num
  have n' : (304.6 : ℝ) ≠ 0 := by norm_num
  have ev : co2Of false 7.4 31.45 = rho_K_reduced (fin 7.4) (fin 1.5349) (fin (31.45 + 273.15))
      (fin 1) (fin 1) := by
    unfold co2Of rho_K_co2
    simp only [Bool.false_eq_true, if_false]
    fl_eval [n]
    rw [e1, e2]
  have hdZ : 0 < zFactor 1 1 ∧ deriv (zFactor 1) 1 ≤ 1 / 2 * zFactor 1 1 := by
    rw [(zFactor_hasDerivAt (T := 1) (p := 1) one_pos).deriv]
    unfold zFactor
    have e := Real.exp_pos (-(0.45 + 8 * (0.56 - 1 / (1 : ℝ)) ^ 2) * 1 ^ (1.2 : ℝ) / 1)
    generalize Real.exp (-(0.45 + 8 * (0.56 - 1 / (1 : ℝ)) ^ 2) * 1 ^ (1.2 : ℝ) / 1) = E at *
    rw [Real.one_rpow]
    constructor
    · norm_num; linarith
    · norm_num; linarith
  obtain ⟨hZ, hd⟩ := hdZ
  have hq : 1 / 2 ≤ 1 - 1 * deriv (zFactor 1) 1 / zFactor 1 1 := by
    rw [one_mul]
    have : deriv (zFactor 1) 1 / zFactor 1 1 ≤ 1 / 2 := by rw [div_le_iff₀ hZ]; exact hd
    linarith
  have E := reduced_eval (P := 7.4) (G := 1.5349) (Ta := 31.45 + 273.15) one_pos one_ne_zero
    (by norm_num) hZ.ne' (by rw [one_mul]; linarith)
  have hr : 0 < heatRatio 1 ∧ heatRatio 1 ≤ 5 := by
    unfold heatRatio
    have p := Real.exp_pos (-0.65 * (1 + 1))
    have q : Real.exp (-0.65 * (1 + 1)) * Real.exp 1.3 = 1 := by
      rw [← Real.exp_add]; norm_num
    have q3 := Real.add_one_le_exp (1.3 : ℝ)
    generalize Real.exp (-0.65 * (1 + 1)) = x at *
    generalize Real.exp 1.3 = y at *
    constructor
    · have : x ≤ 0.4348 := by nlinarith
      norm_num; linarith
    · norm_num; linarith
  refine ⟨_, _, _, _, ((C54_brine 31.45 7.4 0).1 le_rfl).2, ev.trans E, ?_, ?_⟩
  · have : 0 < 1 - 1 * deriv (zFactor 1) 1 / zFactor 1 1 := by linarith
    have := hr.1
    positivity
  · have h1 : 7.4 / (1 - 1 * deriv (zFactor 1) 1 / zFactor 1 1) ≤ 14.8 := by
      rw [div_le_iff₀ (by linarith)]; linarith
    have h2 : 7.4 / (1 - 1 * deriv (zFactor 1) 1 / zFactor 1 1) * heatRatio 1 ≤ 14.8 * 5 :=
      mul_le_mul h1 hr.2 hr.1.le (by norm_num)
    have h3 : (1 : ℝ) ≤ brineDensity 31.45 7.4 0 * 1000 * brineVelocity 31.45 7.4 0 ^ 2 / 10 ^ 9 := by
      unfold brineDensity brineVelocity waterDensity waterVelocity
      rw [Real.zero_rpow (by norm_num)]
      norm_num
    linarith

example : ∃ kc kb, fin kc ≤ (co2_brine (fin 31.45) (fin 7.4) (fin 0) (fin 0.3) none false).2 ∧
    (co2_brine (fin 31.45) (fin 7.4) (fin 0) (fin 0.3) (some (fin 0.5)) false).2 ≤ fin kb := by
  obtain ⟨rb, kb, rc, kc, hb, hc, h0, h⟩ := co2_point
  obtain ⟨-, h1, -, h2⟩ := C55_order (s := 0.3) (e := 0.5) hb hc h0 h (by norm_num) (by norm_num)
    (by norm_num) (by norm_num)
  exact ⟨kc, kb, h1, h2⟩

/-- C71: the density of dead oil strictly rises with pressure (up to 70 MPa) and strictly falls with
temperature. -/
theorem C71_oil_density {P P' T T' d : ℝ} (hP0 : 0 ≤ P) (hT0 : -17.78 < T) (hd : 0 < d)
    (h1 : P ≤ 70) :
    (P < P' → P' ≤ 70 →
      (rho_K_oil (fin P) (fin T) (fin d)).1 < (rho_K_oil (fin P') (fin T) (fin d)).1) ∧
    (T < T' → (rho_K_oil (fin P) (fin T') (fin d)).1 < (rho_K_oil (fin P) (fin T) (fin d)).1) := by
  have den : ∀ {t : ℝ}, -17.78 < t → 0 < 0.972 + 3.81 * 0.0001 * (t + 17.78) ^ (1.175 : ℝ) := by
    intro t ht
    have : 0 < t + 17.78 := by linarith
    positivity
  have ev : ∀ {p t : ℝ}, -17.78 < t → (rho_K_oil (fin p) (fin t) (fin d)).1
      = fin ((d + (0.00277 * p - 1.71 * 0.0000001 * p ^ 3) * (d - 1.15) ^ 2 + 3.49 * 0.0001 * p)
        / (0.972 + 3.81 * 0.0001 * (t + 17.78) ^ (1.175 : ℝ))) := by
    intro p t ht
    have h0 : 0 < t + 17.78 := by linarith
    have h1 := (den ht).ne'
    unfold rho_K_oil
    fl_eval []
  have pos : ∀ {p q : ℝ}, 0 ≤ p → p ≤ 70 → 0 ≤ q → q ≤ 70 →
      0 < 0.00277 - 1.71 * 0.0000001 * (p ^ 2 + p * q + q ^ 2) := by
    intro p q hp hp' hq hq'
    nlinarith
  have hn : ∀ {p : ℝ}, 0 ≤ p → p ≤ 70 → 0 < d + (0.00277 * p - 1.71 * 0.0000001 * p ^ 3)
      * (d - 1.15) ^ 2 + 3.49 * 0.0001 * p := by
    intro p hp hp'
    have h1 := pos hp hp' le_rfl (by norm_num)
    have h2 : 0 ≤ (0.00277 * p - 1.71 * 0.0000001 * p ^ 3) * (d - 1.15) ^ 2 := by
      have : 0.00277 * p - 1.71 * 0.0000001 * p ^ 3
        = p * (0.00277 - 1.71 * 0.0000001 * (p ^ 2 + p * 0 + 0 ^ 2)) := by ring
      rw [this]; positivity
    positivity
  constructor
  · intro h h'
    rw [ev hT0, ev hT0, fin_lt]
    refine div_lt_div_of_pos_right ?_ (den hT0)
    have k := pos hP0 h1 (hP0.trans h.le) h'
    have k2 : 0 ≤ (P' - P) * (0.00277 - 1.71 * 0.0000001 * (P ^ 2 + P * P' + P' ^ 2))
        * (d - 1.15) ^ 2 :=
      mul_nonneg (mul_nonneg (by linarith) k.le) (sq_nonneg _)
    have k3 : (P' - P) * (0.00277 - 1.71 * 0.0000001 * (P ^ 2 + P * P' + P' ^ 2)) * (d - 1.15) ^ 2
        = (0.00277 * P' - 1.71 * 0.0000001 * P' ^ 3) * (d - 1.15) ^ 2
          - (0.00277 * P - 1.71 * 0.0000001 * P ^ 3) * (d - 1.15) ^ 2 := by ring
    linarith
  · intro h
    have hT' : -17.78 < T' := by linarith
    rw [ev hT0, ev hT', fin_lt]
    refine div_lt_div_of_pos_left (hn hP0 h1) (den hT0) ?_
    have : (T + 17.78) ^ (1.175 : ℝ) < (T' + 17.78) ^ (1.175 : ℝ) :=
      Real.rpow_lt_rpow (by linarith) (by linarith) (by norm_num)
    linarith

example : (rho_K_oil (fin 10) (fin 60) (fin 0.8)).1 < (rho_K_oil (fin 30) (fin 60) (fin 0.8)).1 :=
  (C71_oil_density (T' := 0) (by norm_num) (by norm_num) (by norm_num) (by norm_num)).1 (by norm_num)
    (by norm_num)

/-- C71: leaving out the gas-oil ratio of a live oil is the same as passing the ratio of an oil
saturated with gas at that pressure and temperature. -/
theorem C71_live_oil_default {P T d G : ℝ} (hP : 0 < P) (hd : 0 < d) :
    rho_K_go (fin P) (fin T) (fin d) (fin G) none
      = rho_K_go (fin P) (fin T) (fin d) (fin G)
        (some (fin (oilMaxGas d G T P))) := by
  unfold oilMaxGas
  have : 0 < P * Real.exp (4.072 / d - 0.00377 * T) := by positivity
  have e : (0.02123 * fin G * (fin P * PyNum.exp (4.072 / fin d - 0.00377 * fin T)) **. 1.205 : Fl)
      = fin (0.02123 * G * (P * Real.exp (4.072 / d - 0.00377 * T)) ^ (1.205 : ℝ)) := by
    fl_eval []
  unfold rho_K_go
  dsimp only
  rw [e]

/-- C71: density and modulus of a dead oil: the modulus (GPa) belongs to the density and the
velocity. -/
theorem C71_dead_oil {P T d : ℝ} (hT : -17.78 < T) (hd : 0 < d) (hd' : d ≤ 1.08) :
    rho_K_oil (fin P) (fin T) (fin d) = (fin (oilDensity d T P),
      fin (oilDensity d T P * 1000 * oilVelocity d T P ^ 2 / 10 ^ 9)) := by
  have h0 : 0 < T + 17.78 := by linarith
  have h1 : 0.972 + 3.81 * 0.0001 * (T + 17.78) ^ (1.175 : ℝ) ≠ 0 := by positivity
  have h2 : 0 < 2.6 - d := by linarith
  have h3 : 0 < d / (2.6 - d) := by positivity
  have h4 : 0 ≤ 1.08 / d - 1 := by rw [sub_nonneg, le_div_iff₀ hd]; linarith
  have q : (0 : ℝ) ≤ 0.5 := by norm_num
  unfold rho_K_oil oilDensity oilVelocity
  fl_eval [fl_rpow_nonneg h4 q]
  rw [Real.sqrt_eq_rpow, Real.sqrt_eq_rpow]
  refine Prod.ext (congrArg fin ?_) (congrArg fin ?_)
  · norm_num
  · norm_num
    ring

example : ∃ r, (rho_K_oil (fin 20) (fin 60) (fin 0.8)).1 = fin r :=
  ⟨_, by rw [C71_dead_oil (by norm_num) (by norm_num) (by norm_num)]⟩

/-- C71: a live oil.  One litre of oil with its gas takes up `B` litres and weighs as much as the
oil and the gas together (the gas weighs `0.0012 G` per litre); the velocity is that of a dead oil
of the pseudo-density `rp`, one litre of oil blown up to `B (1 + 0.001 Rg)` litres. -/
theorem C71_live_oil {P T d G Rg : ℝ} (hT : -17.8 < T) (hd : 0 < d) (hG : 0 ≤ G) (hR : 0 ≤ Rg)
    (hd' : d ≤ 1.08 * (oilVolume d G Rg T * (1 + 0.001 * Rg))) :
    ∃ B rp r : ℝ, B = oilVolume d G Rg T ∧ rp * (B * (1 + 0.001 * Rg)) = d ∧
      r * B = d + 0.0012 * G * Rg ∧
      rho_K_go (fin P) (fin T) (fin d) (fin G) (some (fin Rg))
        = (fin r, fin (r * 1000 * oilVelocity rp T P ^ 2 / 10 ^ 9)) := by
  have q : (0 : ℝ) ≤ 0.5 := by norm_num
  have hs : √(G / d) = (G / d) ^ (0.5 : ℝ) := by rw [Real.sqrt_eq_rpow]; norm_num
  have g0 : 0 ≤ G / d := by positivity
  have h0 : 0 < 2.4 * Rg * (G / d) ^ (0.5 : ℝ) + T + 17.8 := by
    have : 0 ≤ 2.4 * Rg * (G / d) ^ (0.5 : ℝ) := by positivity
    linarith
  have hB : 0 < oilVolume d G Rg T := by
    unfold oilVolume
    rw [hs]
    positivity
  have h1 : 0 < 1 + 0.001 * Rg := by positivity
  have hrp : 0 < d / (oilVolume d G Rg T * (1 + 0.001 * Rg)) := by positivity
  have hrp' : d / (oilVolume d G Rg T * (1 + 0.001 * Rg)) ≤ 1.08 := by
    rw [div_le_iff₀ (by positivity)]; exact hd'
  refine ⟨_, d / (oilVolume d G Rg T * (1 + 0.001 * Rg)), (d + 0.0012 * G * Rg) / oilVolume d G Rg T,
    rfl, div_mul_cancel₀ _ (by positivity), div_mul_cancel₀ _ hB.ne', ?_⟩
  have eB : (0.972 + 0.00038 * (2.4 * fin Rg * (fin G / fin d) **. 0.5 + fin T + 17.8) **. 1.175
      : Fl) = fin (oilVolume d G Rg T) := by
    unfold oilVolume
    rw [hs]
    fl_eval [fl_rpow_nonneg g0 q]
  have er : (fin d * PyNum.inv (1 + 0.001 * fin Rg) * PyNum.inv (fin (oilVolume d G Rg T)) : Fl)
      = fin (d / (oilVolume d G Rg T * (1 + 0.001 * Rg))) := by
    fl_eval []
    congr 1
    field
  unfold rho_K_go
  dsimp only
  rw [eB, er]
  generalize d / (oilVolume d G Rg T * (1 + 0.001 * Rg)) = rp at *
  generalize oilVolume d G Rg T = B at *
  have h2 : 0 < 2.6 - rp := by linarith
  have h3 : 0 < rp / (2.6 - rp) := by positivity
  have h4 : 0 ≤ 1.08 / rp - 1 := by rw [sub_nonneg, le_div_iff₀ hrp]; linarith
  unfold oilVelocity
  fl_eval [fl_rpow_nonneg h4 q]
  rw [Real.sqrt_eq_rpow, Real.sqrt_eq_rpow]
  refine Prod.ext rfl (congrArg fin ?_)
  norm_num
  ring

example : ∃ r k : ℝ, rho_K_go (fin 20) (fin 60) (fin 0.8) (fin 0.7) (some (fin 50)) = (fin r, fin k) := by
  have h : (0.8 : ℝ) ≤ 1.08 * (oilVolume 0.8 0.7 50 60 * (1 + 0.001 * 50)) := by
    have : (0.972 : ℝ) ≤ oilVolume 0.8 0.7 50 60 := by
      unfold oilVolume
      have : (0 : ℝ) ≤ 0.00038 * (2.4 * 50 * √(0.7 / 0.8) + 60 + 17.8) ^ (1.175 : ℝ) := by positivity
      linarith
    nlinarith
  obtain ⟨_, _, r, _, _, _, e⟩ := C71_live_oil (P := 20) (by norm_num) (by norm_num) (by norm_num)
    (by norm_num) h
  exact ⟨r, _, e⟩

/-- C71: at fixed gas content the density of a live oil strictly falls with temperature. -/
theorem C71_live_oil_density {P T T' d G Rg : ℝ} (hT : -17.8 < T) (h : T < T') (hd : 0 < d)
    (hG : 0 ≤ G) (hR : 0 ≤ Rg) :
    (rho_K_go (fin P) (fin T') (fin d) (fin G) (some (fin Rg))).1
      < (rho_K_go (fin P) (fin T) (fin d) (fin G) (some (fin Rg))).1 := by
  have q : (0 : ℝ) ≤ 0.5 := by norm_num
  have g0 : 0 ≤ G / d := by positivity
  have g1 : 0 ≤ 2.4 * Rg * (G / d) ^ (0.5 : ℝ) := by positivity
  have pos : ∀ {t : ℝ}, -17.8 < t → 0 < 2.4 * Rg * (G / d) ^ (0.5 : ℝ) + t + 17.8 := by
    intro t ht; linarith
  have ev : ∀ {t : ℝ}, -17.8 < t → (rho_K_go (fin P) (fin t) (fin d) (fin G) (some (fin Rg))).1
      = fin ((d + 0.0012 * G * Rg)
        / (0.972 + 0.00038 * (2.4 * Rg * (G / d) ^ (0.5 : ℝ) + t + 17.8) ^ (1.175 : ℝ))) := by
    intro t ht
    have h0 := pos ht
    have h1 : 0.972 + 0.00038 * (2.4 * Rg * (G / d) ^ (0.5 : ℝ) + t + 17.8) ^ (1.175 : ℝ) ≠ 0 := by
      positivity
    unfold rho_K_go
    dsimp only
    fl_eval [fl_rpow_nonneg g0 q]
  rw [ev hT, ev (hT.trans h), fin_lt]
  have h0 := pos hT
  refine div_lt_div_of_pos_left (by positivity) (by positivity) ?_
  have : (2.4 * Rg * (G / d) ^ (0.5 : ℝ) + T + 17.8) ^ (1.175 : ℝ)
      < (2.4 * Rg * (G / d) ^ (0.5 : ℝ) + T' + 17.8) ^ (1.175 : ℝ) :=
    Real.rpow_lt_rpow h0.le (by linarith) (by norm_num)
  linarith

example : (rho_K_go (fin 20) (fin 60) (fin 0.8) (fin 0.7) (some (fin 50))).1
    < (rho_K_go (fin 20) (fin 20) (fin 0.8) (fin 0.7) (some (fin 50))).1 :=
  C71_live_oil_density (by norm_num) (by norm_num) (by norm_num) (by norm_num) (by norm_num)

end RockPhy.Props
