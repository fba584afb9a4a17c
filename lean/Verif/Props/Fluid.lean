import Verif.Model.Fluid
import Verif.Spec.Fluid
import Verif.Spec.Mix

/-! # Properties C25 to C28 and C32 (fluid mixing and isotropic fluid substitution) -/

namespace RockPhy.Fluid

open Fl Spec

/-- Denominator of Gassmann's formula times `K0^2`. -/
noncomputable def gB (Kd K0 Kf φ : ℝ) : ℝ := φ * K0 ^ 2 / Kf + (1 - φ) * K0 - Kd

noncomputable def gK (Kd K0 Kf φ : ℝ) : ℝ := Kd + (K0 - Kd) ^ 2 / gB Kd K0 Kf φ

theorem gB_eq {Kd K0 Kf φ : ℝ} (hf : 0 < Kf) :
    gB Kd K0 Kf φ = K0 - Kd + φ * K0 * (K0 - Kf) / Kf := by
  unfold gB; field

theorem gB_pos {Kd K0 Kf φ : ℝ} (h1 : Kd < K0) (h0 : 0 < K0) (hf : 0 < Kf) (hf' : Kf ≤ K0)
    (hφ : 0 ≤ φ) : 0 < gB Kd K0 Kf φ := by
  rw [gB_eq hf]
  have : 0 ≤ φ * K0 * (K0 - Kf) / Kf := by
    have : 0 ≤ K0 - Kf := by linarith
    positivity
  linarith

theorem Gassmann_eval {Kd K0 Kf φ : ℝ} (h0 : K0 ≠ 0) (hf : Kf ≠ 0)
    (hB : gB Kd K0 Kf φ ≠ 0) (G : Fl) :
    Gassmann (fin Kd) G (fin K0) (fin Kf) (fin φ) = (fin (gK Kd K0 Kf φ), G) := by
  have e : φ / Kf + (1 - φ) / K0 - Kd / K0 ^ 2 = gB Kd K0 Kf φ / K0 ^ 2 := by
    unfold gB; field
  have n : φ / Kf + (1 - φ) / K0 - Kd / K0 ^ 2 ≠ 0 := by rw [e]; positivity
  have p : K0 ^ 2 ≠ 0 := by positivity
  unfold Gassmann
  fl_eval []
  rw [e, gK]
  congr 3
  field

theorem gK_compl {Kd K0 Kf φ : ℝ} (hf : 0 < Kf) (hB : gB Kd K0 Kf φ ≠ 0) :
    K0 - gK Kd K0 Kf φ = (K0 - Kd) * (φ * K0 * (K0 - Kf) / Kf) / gB Kd K0 Kf φ := by
  have e := gB_eq (Kd := Kd) (K0 := K0) (φ := φ) hf
  unfold gK
  generalize gB Kd K0 Kf φ = b at *
  generalize φ * K0 * (K0 - Kf) / Kf = c at *
  rw [eq_div_iff hB, sub_mul, add_mul, div_mul_cancel₀ _ hB]
  linear_combination (K0 - Kd) * e

variable {Kd K0 Kf φ : ℝ}

theorem GassmannRock.mineral_pos (h : GassmannRock Kd K0 Kf φ) : 0 < K0 :=
  h.fluid_pos.trans h.fluid_lt

theorem GassmannRock.gB_pos (h : GassmannRock Kd K0 Kf φ) : 0 < gB Kd K0 Kf φ :=
  Fluid.gB_pos h.dry_lt (mineral_pos h) h.fluid_pos h.fluid_lt.le h.por_pos.le

theorem GassmannRock.gK_lt (h : GassmannRock Kd K0 Kf φ) : gK Kd K0 Kf φ < K0 := by
  have := gK_compl h.fluid_pos (gB_pos h).ne'
  have p : 0 < (K0 - Kd) * (φ * K0 * (K0 - Kf) / Kf) / gB Kd K0 Kf φ := by
    have := h.dry_lt; have := h.fluid_lt; have := h.fluid_pos; have := h.por_pos
    have := mineral_pos h; have := gB_pos h
    have : 0 < K0 - Kd := by linarith
    have : 0 < K0 - Kf := by linarith
    positivity
  linarith

theorem GassmannRock.gK_gt (h : GassmannRock Kd K0 Kf φ) : Kd < gK Kd K0 Kf φ := by
  have := h.dry_lt
  have : 0 < K0 - Kd := by linarith
  have := gB_pos h
  have : 0 < (K0 - Kd) ^ 2 / gB Kd K0 Kf φ := by positivity
  unfold gK; linarith

theorem GassmannRock.gK_eq (h : GassmannRock Kd K0 Kf φ) :
    GassmannEq Kd K0 Kf φ (gK Kd K0 Kf φ) := by
  have c := gK_compl h.fluid_pos (gB_pos h).ne'
  have e := gB_eq (Kd := Kd) (K0 := K0) (φ := φ) h.fluid_pos
  have b := gB_pos h
  have := h.dry_lt; have := h.fluid_lt; have := h.fluid_pos; have hφ := h.por_pos
  have := mineral_pos h
  have d1 : 0 < K0 - Kd := by linarith
  have d2 : 0 < K0 - Kf := by linarith
  unfold GassmannEq
  rw [c]
  have hg : gK Kd K0 Kf φ = (Kd * (φ * K0 * (K0 - Kf) / Kf) + (K0 - Kd) * K0) / gB Kd K0 Kf φ := by
    unfold gK
    rw [eq_div_iff b.ne', add_mul, div_mul_cancel₀ _ b.ne', e]
    ring
  rw [hg, div_div_div_cancel_right₀ b.ne']
  field

/-- `Ksat/(K0-Ksat)` determines `Ksat`. -/
theorem ratio_inj {K0 a b : ℝ} (h0 : K0 ≠ 0) (ha : K0 - a ≠ 0) (hb : K0 - b ≠ 0)
    (h : a / (K0 - a) = b / (K0 - b)) : a = b := by
  rw [div_eq_div_iff ha hb] at h
  have : K0 * (a - b) = 0 := by linear_combination h
  rcases mul_eq_zero.mp this with h | h
  · exact absurd h h0
  · linarith

theorem Gassmann_sub_eval {Ks K1 K2 : ℝ} (hφ : φ ≠ 0) (h1 : K0 - Ks ≠ 0) (h2 : K0 - K1 ≠ 0)
    (h3 : K0 - K2 ≠ 0) :
    Gassmann_sub (fin φ) (fin K0) (fin Ks) (fin K1) (fin K2)
      = fin ((Ks / (K0 - Ks) - K1 / (φ * (K0 - K1)) + K2 / (φ * (K0 - K2))) * K0)
        / fin (1 + (Ks / (K0 - Ks) - K1 / (φ * (K0 - K1)) + K2 / (φ * (K0 - K2)))) := by
  have : φ * (K0 - K1) ≠ 0 := mul_ne_zero hφ h2
  have : φ * (K0 - K2) ≠ 0 := mul_ne_zero hφ h3
  unfold Gassmann_sub
  fl_eval []

/-- `x K0/(1+x)` inverts `K/(K0-K)`. -/
theorem ratio_back {K x : ℝ} (h0 : K0 ≠ 0) (h : K0 - K ≠ 0) (hx : K / (K0 - K) = x) :
    fin (x * K0) / fin (1 + x) = fin K := by
  have e : 1 + x = K0 / (K0 - K) := by rw [← hx]; field
  have n : 1 + x ≠ 0 := by rw [e]; exact div_ne_zero h0 h
  rw [fl_div n, fin_inj, div_eq_iff n, e, ← hx]
  field

/-- A finite result of `Gassmann_sub` satisfies the substitution equation. -/
theorem Gassmann_sub_spec {Ks K1 K2 Km : ℝ} (h0 : K0 ≠ 0) (hφ : φ ≠ 0) (h1 : K0 - Ks ≠ 0)
    (h2 : K0 - K1 ≠ 0) (h3 : K0 - K2 ≠ 0)
    (h : Gassmann_sub (fin φ) (fin K0) (fin Ks) (fin K1) (fin K2) = fin Km) :
    K0 - Km ≠ 0 ∧
      Km / (K0 - Km) = Ks / (K0 - Ks) - K1 / (φ * (K0 - K1)) + K2 / (φ * (K0 - K2)) := by
  rw [Gassmann_sub_eval hφ h1 h2 h3] at h
  generalize Ks / (K0 - Ks) - K1 / (φ * (K0 - K1)) + K2 / (φ * (K0 - K2)) = x at *
  by_cases n : 1 + x = 0
  · rw [n, fl_div_zero] at h; exact absurd h bad_ne_fin
  · rw [fl_div n, fin_inj] at h
    have e : K0 - Km = K0 / (1 + x) := by rw [← h]; field
    have n' : K0 - Km ≠ 0 := by rw [e]; exact div_ne_zero h0 n
    refine ⟨n', ?_⟩
    rw [e, ← h]
    field

end RockPhy.Fluid

namespace RockPhy.Props

open Fl Fluid Spec

/-! ## C25: Brie's mixing law -/

/-- The pure fluids are recovered. -/
theorem C25_Brie_endpoints (Kw Kg e : ℝ) (he : 0 < e) :
    Brie (fin Kw) (fin Kg) (fin 0) (fin e) = fin Kg ∧
    Brie (fin Kw) (fin Kg) (fin 1) (fin e) = fin Kw := by
  unfold Brie
  rw [fl_rpow_zero he.le, fl_rpow one_pos]
  simp only [fl, Real.zero_rpow he.ne', Real.one_rpow]
  norm_num

theorem Brie_eval {Kw Kg S e : ℝ} (hS : 0 ≤ S) (he : 0 ≤ e) :
    Brie (fin Kw) (fin Kg) (fin S) (fin e) = fin ((Kw - Kg) * S ^ e + Kg) := by
  unfold Brie
  rw [fl_rpow_nonneg hS he]
  simp only [fl]

/-- Between the two fluids, and non-decreasing in saturation. -/
theorem C25_Brie_monotone (Kw Kg e S S' : ℝ) (hK : Kg ≤ Kw) (he : 0 < e) (h0 : 0 ≤ S)
    (h : S ≤ S') (h1 : S' ≤ 1) :
    fin Kg ≤ Brie (fin Kw) (fin Kg) (fin S) (fin e) ∧
    Brie (fin Kw) (fin Kg) (fin S) (fin e) ≤ Brie (fin Kw) (fin Kg) (fin S') (fin e) ∧
    Brie (fin Kw) (fin Kg) (fin S') (fin e) ≤ fin Kw := by
  have h0' := h0.trans h
  rw [Brie_eval h0 he.le, Brie_eval h0' he.le]
  simp only [fin_le]
  have d : 0 ≤ Kw - Kg := by linarith
  have a := Real.rpow_nonneg h0 e
  have b := Real.rpow_le_rpow h0 h he.le
  have c := Real.rpow_le_one h0' h1 he.le
  refine ⟨by nlinarith, by nlinarith, by nlinarith⟩

/-- A larger exponent never stiffens the mixture. -/
theorem C25_Brie_exponent (Kw Kg e e' S : ℝ) (hK : Kg ≤ Kw) (he : 0 < e) (h : e ≤ e') (h0 : 0 ≤ S)
    (h1 : S ≤ 1) :
    Brie (fin Kw) (fin Kg) (fin S) (fin e') ≤ Brie (fin Kw) (fin Kg) (fin S) (fin e) := by
  rw [Brie_eval h0 he.le, Brie_eval h0 (he.le.trans h), fin_le]
  have : S ^ e' ≤ S ^ e := by
    rcases h0.eq_or_lt with rfl | p
    · rw [Real.zero_rpow he.ne', Real.zero_rpow (he.trans_le h).ne']
    · exact Real.rpow_le_rpow_of_exponent_ge p h1 h
  nlinarith

/-- Exponent one is the Voigt (patchy) average, which is at least the Reuss (Wood) average. -/
theorem C25_Brie_patchy (Kw Kg S : ℝ) (hg : 0 < Kg) (hw : 0 < Kw) (h0 : 0 ≤ S) (h1 : S ≤ 1) :
    Brie (fin Kw) (fin Kg) (fin S) (fin 1) = fin (voigt2 S Kw Kg) ∧
    reuss2 S Kw Kg ≤ voigt2 S Kw Kg := by
  constructor
  · rw [Brie_eval h0 zero_le_one, Real.rpow_one, voigt2]
    congr 1; ring
  · unfold reuss2 voigt2
    have h1' : 0 ≤ 1 - S := by linarith
    have p : 0 < S / Kw + (1 - S) / Kg := by
      rcases h0.eq_or_lt with rfl | hS
      · simp [hg]
      · have : 0 ≤ (1 - S) / Kg := by positivity
        have : 0 < S / Kw := by positivity
        linarith
    rw [← one_div, div_le_iff₀ p]
    have : (S * Kw + (1 - S) * Kg) * (S / Kw + (1 - S) / Kg)
      = 1 + S * (1 - S) * (Kw - Kg) ^ 2 / (Kw * Kg) := by field
    rw [this]
    have : 0 ≤ S * (1 - S) * (Kw - Kg) ^ 2 / (Kw * Kg) := by positivity
    linarith

example : (0 : ℝ) < 0.05 ∧ (0.05 : ℝ) ≤ 2.2 ∧ (0 : ℝ) < 3 ∧ (0 : ℝ) ≤ 0.4 ∧ (0.4 : ℝ) ≤ 0.7 := by
  norm_num

/-! ## C26: Gassmann's relation -/

/-- The shear modulus passes through unchanged, whatever the other inputs. -/
theorem C26_shear_unchanged (Kd Gd K0 Kf φ : Fl) : (Gassmann Kd Gd K0 Kf φ).2 = Gd := rfl

/-- The saturated bulk modulus is the solution of Gassmann's equation, strictly between the dry
frame and the mineral. -/
theorem C26_Gassmann (Kd Gd K0 Kf φ : ℝ) (h : GassmannRock Kd K0 Kf φ) :
    ∃ Ks : ℝ, Gassmann (fin Kd) (fin Gd) (fin K0) (fin Kf) (fin φ) = (fin Ks, fin Gd) ∧
      GassmannEq Kd K0 Kf φ Ks ∧ Kd < Ks ∧ Ks < K0 ∧
      ∀ K : ℝ, K ≠ K0 → GassmannEq Kd K0 Kf φ K → K = Ks := by
  have h0 := GassmannRock.mineral_pos h
  refine ⟨_, Gassmann_eval h0.ne' h.fluid_pos.ne' (GassmannRock.gB_pos h).ne' _,
    GassmannRock.gK_eq h, GassmannRock.gK_gt h, GassmannRock.gK_lt h, fun K hK hE => ?_⟩
  have e := GassmannRock.gK_eq h
  have l := GassmannRock.gK_lt h
  unfold GassmannEq at e hE
  exact ratio_inj h0.ne' (sub_ne_zero.mpr hK.symm) (by linarith) (hE.trans e.symm)

/-- `K/(K0-K)` is increasing below `K0`. -/
theorem ratio_lt {K0 a b : ℝ} (h0 : 0 < K0) (ha : a < K0) (hb : b < K0) :
    a / (K0 - a) < b / (K0 - b) ↔ a < b := by
  rw [div_lt_div_iff₀ (by linarith) (by linarith)]
  constructor
  · intro h; nlinarith
  · intro h; nlinarith

/-- A stiffer fluid or a stiffer frame gives a stiffer saturated rock; more of the same pore
fluid a softer one. -/
theorem C26_Gassmann_monotone (Kd Kd' G K0 Kf Kf' φ φ' : ℝ) (h : GassmannRock Kd K0 Kf φ)
    (h' : GassmannRock Kd' K0 Kf' φ') (hd : Kd ≤ Kd') (hf : Kf ≤ Kf') (hp : φ' ≤ φ)
    (hs : Kd < Kd' ∨ Kf < Kf' ∨ φ' < φ) :
    (Gassmann (fin Kd) (fin G) (fin K0) (fin Kf) (fin φ)).1
      < (Gassmann (fin Kd') (fin G) (fin K0) (fin Kf') (fin φ')).1 := by
  have h0 := GassmannRock.mineral_pos h
  rw [Gassmann_eval h0.ne' h.fluid_pos.ne' (GassmannRock.gB_pos h).ne',
    Gassmann_eval h0.ne' h'.fluid_pos.ne' (GassmannRock.gB_pos h').ne', fin_lt,
    ← ratio_lt h0 (GassmannRock.gK_lt h) (GassmannRock.gK_lt h')]
  have e1 := GassmannRock.gK_eq h
  have e2 := GassmannRock.gK_eq h'
  unfold GassmannEq at e1 e2
  rw [e1, e2]
  have r1 : Kd < Kd' → Kd / (K0 - Kd) < Kd' / (K0 - Kd') := (ratio_lt h0 h.dry_lt h'.dry_lt).mpr
  have r2 : Kf < Kf' → Kf / (K0 - Kf) < Kf' / (K0 - Kf') := (ratio_lt h0 h.fluid_lt h'.fluid_lt).mpr
  have s1 : Kd / (K0 - Kd) ≤ Kd' / (K0 - Kd') := by
    rcases hd.eq_or_lt with rfl | p
    · exact le_rfl
    · exact (r1 p).le
  have s2 : Kf / (K0 - Kf) ≤ Kf' / (K0 - Kf') := by
    rcases hf.eq_or_lt with rfl | p
    · exact le_rfl
    · exact (r2 p).le
  have pf : 0 < Kf / (K0 - Kf) := div_pos h.fluid_pos (by linarith [h.fluid_lt])
  have hp0 := h.por_pos
  have hp0' := h'.por_pos
  have e : ∀ k p : ℝ, k / (p * (K0 - k)) = k / (K0 - k) / p := fun k p => by
    rw [div_div, mul_comm]
  rw [e, e]
  have s3 : Kf / (K0 - Kf) / φ ≤ Kf' / (K0 - Kf') / φ' := by
    have := pf.le.trans s2
    gcongr
  rcases hs with hs | hs | hs
  · linarith [r1 hs]
  · have : Kf / (K0 - Kf) / φ < Kf' / (K0 - Kf') / φ' :=
      lt_of_lt_of_le (div_lt_div_of_pos_right (r2 hs) hp0) (by gcongr; linarith)
    linarith
  · have : Kf / (K0 - Kf) / φ < Kf' / (K0 - Kf') / φ' :=
      lt_of_lt_of_le (div_lt_div_of_pos_left pf hp0' hs) (by gcongr)
    linarith

/-- Without pores, or with a fluid as stiff as the mineral, the result is the mineral. -/
theorem C26_Gassmann_mineral (Kd G K0 Kf φ : ℝ) (h0 : 0 < K0) (hd : Kd < K0) (hf : 0 < Kf)
    (h : φ = 0 ∨ Kf = K0) :
    Gassmann (fin Kd) (fin G) (fin K0) (fin Kf) (fin φ) = (fin K0, fin G) := by
  have e : gB Kd K0 Kf φ = K0 - Kd := by
    rw [gB_eq hf]; rcases h with rfl | rfl <;> simp
  have d : K0 - Kd ≠ 0 := by linarith
  rw [Gassmann_eval h0.ne' hf.ne' (by rw [e]; exact d), gK, e]
  congr 2
  field

example : GassmannRock 12 37 2.3 0.2 :=
  ⟨by norm_num, by norm_num, by norm_num, by norm_num, by norm_num⟩

/-! ## C27: fluid substitution in the modulus domain -/

/-- Substituting a fluid by itself changes nothing. -/
theorem C27_sub_identity (φ K0 Ks K1 : ℝ) (h0 : K0 ≠ 0) (hφ : φ ≠ 0) (h1 : Ks ≠ K0)
    (h2 : K1 ≠ K0) :
    Gassmann_sub (fin φ) (fin K0) (fin Ks) (fin K1) (fin K1) = fin Ks := by
  rw [Gassmann_sub_eval hφ (sub_ne_zero.mpr h1.symm) (sub_ne_zero.mpr h2.symm)
    (sub_ne_zero.mpr h2.symm)]
  refine ratio_back h0 (sub_ne_zero.mpr h1.symm) (by ring)

/-- Substituting 1 by 2 and then 2 by 3 equals substituting 1 by 3. -/
theorem C27_sub_path (φ K0 Ks K1 K2 K3 Km : ℝ) (h0 : K0 ≠ 0) (hφ : φ ≠ 0) (hs : Ks ≠ K0)
    (h1 : K1 ≠ K0) (h2 : K2 ≠ K0) (h3 : K3 ≠ K0)
    (h : Gassmann_sub (fin φ) (fin K0) (fin Ks) (fin K1) (fin K2) = fin Km) :
    Gassmann_sub (fin φ) (fin K0) (fin Km) (fin K2) (fin K3)
      = Gassmann_sub (fin φ) (fin K0) (fin Ks) (fin K1) (fin K3) := by
  have hs := sub_ne_zero.mpr hs.symm
  have h1 := sub_ne_zero.mpr h1.symm
  have h2 := sub_ne_zero.mpr h2.symm
  have h3 := sub_ne_zero.mpr h3.symm
  obtain ⟨hm, e⟩ := Gassmann_sub_spec h0 hφ hs h1 h2 h
  rw [Gassmann_sub_eval hφ hm h2 h3, Gassmann_sub_eval hφ hs h1 h3, e]
  congr 3 <;> ring

/-- There and back again is the identity. -/
theorem C27_sub_round_trip (φ K0 Ks K1 K2 Km : ℝ) (h0 : K0 ≠ 0) (hφ : φ ≠ 0) (hs : Ks ≠ K0)
    (h1 : K1 ≠ K0) (h2 : K2 ≠ K0)
    (h : Gassmann_sub (fin φ) (fin K0) (fin Ks) (fin K1) (fin K2) = fin Km) :
    Gassmann_sub (fin φ) (fin K0) (fin Km) (fin K2) (fin K1) = fin Ks := by
  rw [C27_sub_path φ K0 Ks K1 K2 K1 Km h0 hφ hs h1 h2 h1 h, C27_sub_identity φ K0 Ks K1 h0 hφ hs h1]

/-- Substitution starting from a rock saturated by Gassmann's formula with fluid 1 gives
Gassmann's formula with fluid 2. -/
theorem C27_sub_Gassmann (Kd G K0 K1 K2 φ : ℝ) (h1 : GassmannRock Kd K0 K1 φ)
    (h2 : GassmannRock Kd K0 K2 φ) :
    Gassmann_sub (fin φ) (fin K0) (Gassmann (fin Kd) (fin G) (fin K0) (fin K1) (fin φ)).1
        (fin K1) (fin K2)
      = (Gassmann (fin Kd) (fin G) (fin K0) (fin K2) (fin φ)).1 := by
  have h0 := GassmannRock.mineral_pos h1
  rw [Gassmann_eval h0.ne' h1.fluid_pos.ne' (GassmannRock.gB_pos h1).ne',
    Gassmann_eval h0.ne' h2.fluid_pos.ne' (GassmannRock.gB_pos h2).ne']
  have l1 := GassmannRock.gK_lt h1
  have l2 := GassmannRock.gK_lt h2
  have e1 := GassmannRock.gK_eq h1
  have e2 := GassmannRock.gK_eq h2
  have m1 := h1.fluid_lt
  have m2 := h2.fluid_lt
  unfold GassmannEq at e1 e2
  dsimp only
  rw [Gassmann_sub_eval h1.por_pos.ne' (by linarith) (by linarith) (by linarith)]
  refine ratio_back h0.ne' (by linarith) ?_
  rw [e1, e2]; ring

/-- Mavko's approximate substitution is the same map applied to P-wave moduli. -/
theorem C27_approx_same_map (Msat M0 Mf1 φ Mf2 : Fl) :
    Gassmann_approx Msat M0 Mf1 φ Mf2 = Gassmann_sub φ M0 Msat Mf1 Mf2 := rfl

example : GassmannRock 12 37 2.3 0.2 ∧ GassmannRock 12 37 0.1 0.2 :=
  ⟨⟨by norm_num, by norm_num, by norm_num, by norm_num, by norm_num⟩,
   ⟨by norm_num, by norm_num, by norm_num, by norm_num, by norm_num⟩⟩

/-! ## C28: fluid substitution in the velocity domain -/

/-- Bulk modulus of a rock with the given velocities. -/
theorem Gassmann_vels_unfold (Vp Vs ρ ρ1 K1 ρ2 K2 K0 φ : ℝ) :
    Gassmann_vels (fin Vp) (fin Vs) (fin ρ) (fin ρ1) (fin K1) (fin ρ2) (fin K2) (fin K0) (fin φ)
      = (PyNum.sqrt ((Gassmann_sub (fin φ) (fin K0) (fin (ρ * Vp ^ 2 - 4 / 3 * (ρ * Vs ^ 2)))
            (fin K1) (fin K2) + fin (4 / 3 * (ρ * Vs ^ 2))) / fin (ρ - φ * ρ1 + φ * ρ2)),
         PyNum.sqrt (fin (ρ * Vs ^ 2) / fin (ρ - φ * ρ1 + φ * ρ2))) := by
  unfold Gassmann_vels
  fl_eval []

/-- With the same fluid the velocities come back unchanged. -/
theorem C28_vels_identity (Vp Vs ρ ρ1 K1 K0 φ : ℝ) (h0 : K0 ≠ 0) (hφ : φ ≠ 0) (hρ : 0 < ρ)
    (hVp : 0 ≤ Vp) (hVs : 0 ≤ Vs) (h1 : ρ * Vp ^ 2 - 4 / 3 * (ρ * Vs ^ 2) ≠ K0) (h2 : K1 ≠ K0) :
    Gassmann_vels (fin Vp) (fin Vs) (fin ρ) (fin ρ1) (fin K1) (fin ρ1) (fin K1) (fin K0) (fin φ)
      = (fin Vp, fin Vs) := by
  rw [Gassmann_vels_unfold, C27_sub_identity φ K0 _ K1 h0 hφ h1 h2]
  have e : ρ - φ * ρ1 + φ * ρ1 = ρ := by ring
  have e1 : (ρ * Vp ^ 2 - 4 / 3 * (ρ * Vs ^ 2) + 4 / 3 * (ρ * Vs ^ 2)) / ρ = Vp ^ 2 := by field
  have e2 : ρ * Vs ^ 2 / ρ = Vs ^ 2 := by field
  rw [e, fl_add, fl_div hρ.ne', fl_div hρ.ne', e1, e2, fl_sqrt (by positivity),
    fl_sqrt (by positivity), Real.sqrt_sq hVp, Real.sqrt_sq hVs]

/-- The shear modulus `rho Vs^2` is the same before and after. -/
theorem C28_vels_shear (Vp Vs ρ ρ1 K1 ρ2 K2 K0 φ : ℝ) (hρ : 0 < ρ)
    (hρ2 : 0 < ρ - φ * ρ1 + φ * ρ2) :
    ∃ Vs2 : ℝ, (Gassmann_vels (fin Vp) (fin Vs) (fin ρ) (fin ρ1) (fin K1) (fin ρ2) (fin K2) (fin K0)
        (fin φ)).2 = fin Vs2 ∧ 0 ≤ Vs2 ∧ (ρ - φ * ρ1 + φ * ρ2) * Vs2 ^ 2 = ρ * Vs ^ 2 := by
  rw [Gassmann_vels_unfold]
  have p : 0 ≤ ρ * Vs ^ 2 / (ρ - φ * ρ1 + φ * ρ2) := by positivity
  refine ⟨√(ρ * Vs ^ 2 / (ρ - φ * ρ1 + φ * ρ2)), ?_, Real.sqrt_nonneg _, ?_⟩
  · rw [fl_div hρ2.ne', fl_sqrt p]
  · rw [Real.sq_sqrt p, mul_div_cancel₀ _ hρ2.ne']

/-- There and back again is the identity, whenever the intermediate velocities are real. -/
theorem C28_vels_round_trip (Vp Vs ρ ρ1 K1 ρ2 K2 K0 φ Vp2 Vs2 : ℝ) (h0 : K0 ≠ 0) (hφ : φ ≠ 0)
    (hρ : 0 < ρ) (hρ2 : 0 < ρ - φ * ρ1 + φ * ρ2) (hVp : 0 ≤ Vp) (hVs : 0 ≤ Vs)
    (hk : ρ * Vp ^ 2 - 4 / 3 * (ρ * Vs ^ 2) ≠ K0) (h1 : K1 ≠ K0) (h2 : K2 ≠ K0)
    (h : Gassmann_vels (fin Vp) (fin Vs) (fin ρ) (fin ρ1) (fin K1) (fin ρ2) (fin K2) (fin K0) (fin φ)
      = (fin Vp2, fin Vs2)) :
    Gassmann_vels (fin Vp2) (fin Vs2) (fin (ρ - φ * ρ1 + φ * ρ2)) (fin ρ2) (fin K2) (fin ρ1) (fin K1)
      (fin K0) (fin φ) = (fin Vp, fin Vs) := by
  rw [Gassmann_vels_unfold, Prod.mk.injEq] at h
  obtain ⟨hp, hs⟩ := h
  cases hsub : Gassmann_sub (fin φ) (fin K0) (fin (ρ * Vp ^ 2 - 4 / 3 * (ρ * Vs ^ 2)))
      (fin K1) (fin K2) with
  | bad => rw [hsub] at hp; simp only [fl] at hp; exact absurd hp bad_ne_fin
  | fin k2 =>
    rw [hsub, fl_add, fl_div hρ2.ne'] at hp
    rw [fl_div hρ2.ne'] at hs
    obtain ⟨p1, e1⟩ := fl_sqrt_eq_fin hp
    obtain ⟨p2, e2⟩ := fl_sqrt_eq_fin hs
    have q1 : (ρ - φ * ρ1 + φ * ρ2) * Vp2 ^ 2 = k2 + 4 / 3 * (ρ * Vs ^ 2) := by
      rw [e1, Real.sq_sqrt p1, mul_div_cancel₀ _ hρ2.ne']
    have q2 : (ρ - φ * ρ1 + φ * ρ2) * Vs2 ^ 2 = ρ * Vs ^ 2 := by
      rw [e2, Real.sq_sqrt p2, mul_div_cancel₀ _ hρ2.ne']
    rw [Gassmann_vels_unfold, q1, q2]
    have e3 : k2 + 4 / 3 * (ρ * Vs ^ 2) - 4 / 3 * (ρ * Vs ^ 2) = k2 := by ring
    have e4 : ρ - φ * ρ1 + φ * ρ2 - φ * ρ2 + φ * ρ1 = ρ := by ring
    rw [e3, e4, C27_sub_round_trip φ K0 _ K1 K2 k2 h0 hφ hk h1 h2 hsub]
    have e5 : (ρ * Vp ^ 2 - 4 / 3 * (ρ * Vs ^ 2) + 4 / 3 * (ρ * Vs ^ 2)) / ρ = Vp ^ 2 := by field
    have e6 : ρ * Vs ^ 2 / ρ = Vs ^ 2 := by field
    rw [fl_add, fl_div hρ.ne', fl_div hρ.ne', e5, e6, fl_sqrt (by positivity),
      fl_sqrt (by positivity), Real.sqrt_sq hVp, Real.sqrt_sq hVs]

/-- Substituting in a rock saturated by `Fluid.vels` with fluid 1 gives `Fluid.vels` with fluid 2.
`Fluid.vels` reports m/s for moduli in GPa and densities in g/cm3, `Fluid.Gassmann_vels` needs
km/s, hence the factor 1000. -/
theorem C28_vels_consistent (Kd G K0 D0 K1 K2 D1 D2 φ : ℝ) (h1 : GassmannRock Kd K0 K1 φ)
    (h2 : GassmannRock Kd K0 K2 φ) (hG : 0 ≤ G) (hφ : φ < 1) (hD0 : 0 < D0) (hD1 : 0 ≤ D1)
    (hD2 : 0 ≤ D2) :
    ∃ vp1 vs1 ρ1 vp2 vs2 ρ2 : ℝ,
      vels (fin Kd) (fin G) (fin K0) (fin D0) (fin K1) (fin D1) (fin φ)
        = (fin (1000 * vp1), fin (1000 * vs1), fin ρ1) ∧
      vels (fin Kd) (fin G) (fin K0) (fin D0) (fin K2) (fin D2) (fin φ)
        = (fin (1000 * vp2), fin (1000 * vs2), fin ρ2) ∧
      Gassmann_vels (fin vp1) (fin vs1) (fin ρ1) (fin D1) (fin K1) (fin D2) (fin K2) (fin K0) (fin φ)
        = (fin vp2, fin vs2) := by
  have h0 := GassmannRock.mineral_pos h1
  have hφ0 := h1.por_pos
  have hφ1 : 0 < 1 - φ := by linarith
  have ev : ∀ K D : ℝ, GassmannRock Kd K0 K φ → 0 ≤ D →
      vels (fin Kd) (fin G) (fin K0) (fin D0) (fin K) (fin D) (fin φ)
        = (fin (1000 * √((gK Kd K0 K φ + 4 / 3 * G) / (D0 * (1 - φ) + D * φ))),
           fin (1000 * √(G / (D0 * (1 - φ) + D * φ))), fin (D0 * (1 - φ) + D * φ)) := by
    intro K D h hD
    have g := GassmannRock.gK_gt h
    have g0 : 0 < gK Kd K0 K φ := lt_of_le_of_lt h.dry_nonneg g
    unfold vels
    rw [Gassmann_eval h0.ne' h.fluid_pos.ne' (GassmannRock.gB_pos h).ne']
    have c : (4. : ℝ) / 3 = 4 / 3 := by norm_num
    have c2 : (1e3 : ℝ) = 1000 := by norm_num
    fl_eval [c, c2]
    simp only [mul_comm (√_)]
  refine ⟨_, _, _, _, _, _, ev K1 D1 h1 hD1, ev K2 D2 h2 hD2, ?_⟩
  have g1 := GassmannRock.gK_gt h1
  have g2 := GassmannRock.gK_gt h2
  have l1 := GassmannRock.gK_lt h1
  have hd := h1.dry_nonneg
  have r1 : 0 < D0 * (1 - φ) + D1 * φ := by positivity
  have r2 : 0 < D0 * (1 - φ) + D2 * φ := by positivity
  have p1 : 0 ≤ (gK Kd K0 K1 φ + 4 / 3 * G) / (D0 * (1 - φ) + D1 * φ) := by
    have : 0 < gK Kd K0 K1 φ := by linarith
    positivity
  have p2 : 0 ≤ (gK Kd K0 K2 φ + 4 / 3 * G) / (D0 * (1 - φ) + D2 * φ) := by
    have : 0 < gK Kd K0 K2 φ := by linarith
    positivity
  have q1 : 0 ≤ G / (D0 * (1 - φ) + D1 * φ) := by positivity
  have q2 : 0 ≤ G / (D0 * (1 - φ) + D2 * φ) := by positivity
  rw [Gassmann_vels_unfold, Real.sq_sqrt p1, Real.sq_sqrt q1, mul_div_cancel₀ _ r1.ne',
    mul_div_cancel₀ _ r1.ne']
  have e1 : gK Kd K0 K1 φ + 4 / 3 * G - 4 / 3 * G = gK Kd K0 K1 φ := by ring
  have e2 : D0 * (1 - φ) + D1 * φ - φ * D1 + φ * D2 = D0 * (1 - φ) + D2 * φ := by ring
  have s := C27_sub_Gassmann Kd G K0 K1 K2 φ h1 h2
  rw [Gassmann_eval h0.ne' h1.fluid_pos.ne' (GassmannRock.gB_pos h1).ne',
    Gassmann_eval h0.ne' h2.fluid_pos.ne' (GassmannRock.gB_pos h2).ne'] at s
  dsimp only at s
  rw [e1, e2, s, fl_add, fl_div r2.ne', fl_div r2.ne', fl_sqrt p2, fl_sqrt q2]

example : GassmannRock 12 37 2.3 0.2 ∧ (0 : ℝ) ≤ 9 ∧ (0.2 : ℝ) < 1 ∧ (0 : ℝ) < 2.65 ∧
    (2 : ℝ) * 3 ^ 2 - 4 / 3 * (2 * 1 ^ 2) ≠ 37 :=
  ⟨⟨by norm_num, by norm_num, by norm_num, by norm_num, by norm_num⟩, by norm_num, by norm_num,
    by norm_num, by norm_num⟩

/-! ## C32: Geertsma-Smit dispersion -/

theorem Geertsma_Smit_LF_eval {V0 Vi f φ ρ κ η : ℝ} (h0 : 0 < V0) (hi : 0 < Vi) (hf : 0 < f)
    (hφ : 0 < φ) (hρ : 0 < ρ) (hκ : 0 < κ) (hη : 0 < η) :
    ∃ c : ℝ, 0 < c ∧ Geertsma_Smit_LF (fin V0) (fin Vi) (fin f) (fin φ) (fin ρ) (fin κ) (fin η)
      = fin √((Vi ^ 4 + V0 ^ 4 * (c / f) ^ 2) / (Vi ^ 2 + V0 ^ 2 * (c / f) ^ 2)) ∧
      c = φ * η / (2 * Real.pi * ρ * κ) := by
  have := Real.pi_pos
  refine ⟨φ * η / (2 * Real.pi * ρ * κ), by positivity, ?_, rfl⟩
  unfold Geertsma_Smit_LF
  fl_eval []

/-- The velocity lies between the low and high frequency limits. -/
theorem C32_between_limits (V0 Vi f φ ρ κ η : ℝ) (h0 : 0 < V0) (hi : V0 ≤ Vi) (hf : 0 < f)
    (hφ : 0 < φ) (hρ : 0 < ρ) (hκ : 0 < κ) (hη : 0 < η) :
    fin V0 ≤ Geertsma_Smit_LF (fin V0) (fin Vi) (fin f) (fin φ) (fin ρ) (fin κ) (fin η) ∧
    Geertsma_Smit_LF (fin V0) (fin Vi) (fin f) (fin φ) (fin ρ) (fin κ) (fin η) ≤ fin Vi := by
  have hi0 := h0.trans_le hi
  obtain ⟨c, hc, e, -⟩ := Geertsma_Smit_LF_eval h0 hi0 hf hφ hρ hκ hη
  rw [e, fin_le, fin_le]
  have hs : V0 ^ 2 ≤ Vi ^ 2 := by gcongr
  constructor
  · apply Real.le_sqrt_of_sq_le
    rw [le_div_iff₀ (by positivity)]
    nlinarith [mul_nonneg (sq_nonneg Vi) (sub_nonneg.mpr hs)]
  · rw [← Real.sqrt_sq hi0.le]
    apply Real.sqrt_le_sqrt
    rw [Real.sqrt_sq hi0.le, div_le_iff₀ (by positivity)]
    have : 0 ≤ V0 ^ 2 * (c / f) ^ 2 * (Vi ^ 2 - V0 ^ 2) :=
      mul_nonneg (by positivity) (by linarith)
    nlinarith

/-- The velocity does not decrease with frequency. -/
theorem C32_monotone (V0 Vi f f' φ ρ κ η : ℝ) (h0 : 0 < V0) (hi : V0 ≤ Vi) (hf : 0 < f)
    (hff : f ≤ f') (hφ : 0 < φ) (hρ : 0 < ρ) (hκ : 0 < κ) (hη : 0 < η) :
    Geertsma_Smit_LF (fin V0) (fin Vi) (fin f) (fin φ) (fin ρ) (fin κ) (fin η)
      ≤ Geertsma_Smit_LF (fin V0) (fin Vi) (fin f') (fin φ) (fin ρ) (fin κ) (fin η) := by
  have hi0 := h0.trans_le hi
  have hf' := hf.trans_le hff
  obtain ⟨c, hc, e, hc'⟩ := Geertsma_Smit_LF_eval h0 hi0 hf hφ hρ hκ hη
  obtain ⟨d, hd, e', hd'⟩ := Geertsma_Smit_LF_eval h0 hi0 hf' hφ hρ hκ hη
  have : d = c := by rw [hc', hd']
  subst this
  rw [e, e', fin_le]
  apply Real.sqrt_le_sqrt
  have hs : V0 ^ 2 ≤ Vi ^ 2 := by gcongr
  have ha : (d / f') ^ 2 ≤ (d / f) ^ 2 := by gcongr
  generalize (d / f) ^ 2 = a at *
  generalize hb : (d / f') ^ 2 = b at *
  have hb0 : 0 ≤ b := by rw [← hb]; positivity
  have ha0 := hb0.trans ha
  rw [div_le_div_iff₀ (by positivity) (by positivity)]
  have : 0 ≤ V0 ^ 2 * Vi ^ 2 * (Vi ^ 2 - V0 ^ 2) * (a - b) :=
    mul_nonneg (mul_nonneg (by positivity) (by linarith)) (by linarith)
  nlinarith

example : (0 : ℝ) < 2500 ∧ (2500 : ℝ) ≤ 3000 ∧ (0 : ℝ) < 0.1 ∧ (0.1 : ℝ) ≤ 10 := by norm_num

end RockPhy.Props
