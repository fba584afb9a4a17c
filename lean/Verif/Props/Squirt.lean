import Verif.Props.Fluid
import Verif.Props.Utils

/-! # Properties C33 and C62 (squirt flow) -/

namespace RockPhy.Spec

/-- Compressibility `S_aabb` of a TI compliance array `[S11 S12 S13 S33 S44]`. -/
def tiBeta (S : Fin 5 → ℝ) : ℝ := 2 * S 0 + 2 * S 1 + 4 * S 2 + S 3

/-- The isotropic array `[S11 S12 S13 S33 S44]` with `S44 = κ (S11 - S12)`: `κ = 2` is the
engineering (Voigt) shear compliance, `κ = 1/2` the tensor component. -/
def isoArr (κ a b : ℝ) : Fin 5 → ℝ := ![a, b, b, a, κ * (a - b)]

end RockPhy.Spec

namespace RockPhy.Fluid

open Fl Spec

/-- `D_Sdry_abab` of the code. -/
noncomputable def sqAbab (d : Fin 5 → ℝ) : ℝ := 2 * d 0 + d 3 + 4 * d 4 + 4 * (d 0 - d 1)

noncomputable def sqAl (d : Fin 5 → ℝ) : ℝ := 0.25 * (sqAbab d - 1)

noncomputable def sqT (d : Fin 5 → ℝ) : ℝ := 1 - 4 * sqAl d

noncomputable def sqG11 (d : Fin 5 → ℝ) : ℝ := d 0 - 4 * sqAl d / sqT d * (d 1 + d 2)
noncomputable def sqG33 (d : Fin 5 → ℝ) : ℝ := d 3 - 8 * sqAl d * d 2 / sqT d
noncomputable def sqG44 (d : Fin 5 → ℝ) : ℝ :=
  d 4 / sqT d - (d 0 + d 2) / (4 * sqT d) + (sqG11 d + sqG33 d) / 4

noncomputable def sqG (d : Fin 5 → ℝ) : Fin 5 → ℝ :=
  ![sqG11 d, d 1 / sqT d, d 2 / sqT d, sqG33 d, sqG44 d]

/-- The normalised difference of the two compliances. -/
noncomputable def sqD (S H : Fin 5 → ℝ) (i : Fin 5) : ℝ := (S i - H i) / (tiBeta S - tiBeta H)

theorem sqT_eq (d : Fin 5 → ℝ) : sqT d = 2 - sqAbab d := by unfold sqT sqAl; norm_num; ring

theorem Squirt_eval {S H : Fin 5 → ℝ} (hb : tiBeta S - tiBeta H ≠ 0) (hT : sqT (sqD S H) ≠ 0) :
    Squirt_anisotropic (fun i => fin (S i)) (fun i => fin (H i))
      = fun i => fin (S i - (tiBeta S - tiBeta H) * sqG (sqD S H) i) := by
  have eb : 2 * (fin (S 0) - fin (H 0)) + 2 * (fin (S 1) - fin (H 1))
      + 4 * (fin (S 2) - fin (H 2)) + (fin (S 3) - fin (H 3)) = fin (tiBeta S - tiBeta H) := by
    simp only [fl, fin_inj, tiBeta]; ring
  have ed : ∀ i, (fin (S i) - fin (H i)) / fin (tiBeta S - tiBeta H) = fin (sqD S H i) := fun i => by
    rw [fl_sub, fl_div hb]; rfl
  unfold Squirt_anisotropic
  simp only [eb, ed]
  generalize sqD S H = d at *
  have ea : (0.25 : Fl) * (2 * fin (d 0) + fin (d 3) + 4 * fin (d 4) + 4 * (fin (d 0) - fin (d 1)) - 1)
      = fin (sqAl d) := by simp only [fl, sqAl, sqAbab]
  rw [ea]
  have eT : 1 - 4 * fin (sqAl d) = fin (sqT d) := by simp only [fl, sqT]
  rw [eT]
  have hT4 : 4 * sqT d ≠ 0 := by positivity
  funext i
  generalize tiBeta S - tiBeta H = b at *
  fin_cases i <;>
    simp only [Fin.zero_eta, Fin.mk_one, Fin.reduceFinMk, sqG, Matrix.cons_val, Matrix.cons_val_zero,
      Matrix.cons_val_one, sqG44, sqG11, sqG33] <;>
    fl_eval []

theorem sqG_beta {d : Fin 5 → ℝ} (hT : sqT d ≠ 0) : tiBeta (sqG d) = tiBeta d := by
  have e : 4 * sqAl d = 1 - sqT d := by unfold sqT; ring
  simp only [tiBeta, sqG, Matrix.cons_val, sqG11, sqG33, Matrix.cons_val_zero, Matrix.cons_val_one]
  have e2 : sqAl d = (1 - sqT d) / 4 := by linarith
  rw [e2]
  generalize sqT d = t at *
  field

theorem tiBeta_sqD {S H : Fin 5 → ℝ} (hb : tiBeta S - tiBeta H ≠ 0) : tiBeta (sqD S H) = 1 := by
  have : tiBeta (sqD S H) = (tiBeta S - tiBeta H) / (tiBeta S - tiBeta H) := by
    have : tiBeta (sqD S H)
        = (2 * (S 0 - H 0) + 2 * (S 1 - H 1) + 4 * (S 2 - H 2) + (S 3 - H 3))
          / (tiBeta S - tiBeta H) := by
      generalize hc : tiBeta S - tiBeta H = c
      simp only [tiBeta, sqD]
      rw [show ((2 * S 0 + 2 * S 1 + 4 * S 2 + S 3) - (2 * H 0 + 2 * H 1 + 4 * H 2 + H 3)) = c from hc]
      ring
    rw [this]
    congr 1
    unfold tiBeta; ring
  rw [this, div_self hb]

theorem sqT_ne {S H : Fin 5 → ℝ} (hb : tiBeta S - tiBeta H ≠ 0)
    (hT : 2 * (tiBeta S - tiBeta H) ≠ 2 * (S 0 - H 0) + (S 3 - H 3) + 4 * (S 4 - H 4)
      + 4 * ((S 0 - H 0) - (S 1 - H 1))) : sqT (sqD S H) ≠ 0 := by
  rw [sqT_eq]
  intro h
  apply hT
  unfold sqAbab sqD at h
  generalize tiBeta S - tiBeta H = c at *
  field_simp at h
  linarith

/-- The shear defect of the output for isotropic compliance changes. -/
theorem sqG_iso {d : Fin 5 → ℝ} (h2 : d 2 = d 1) (h3 : d 3 = d 0) :
    sqG d 0 = d 0 - 2 * (1 - sqT d) / sqT d * d 1 ∧ sqG d 1 = d 1 / sqT d ∧
    sqG d 4 = (d 4 - (d 0 + d 1) / 4) / sqT d + sqG d 0 / 2 := by
  have e2 : sqAl d = (1 - sqT d) / 4 := by unfold sqT; ring
  refine ⟨?_, rfl, ?_⟩
  · show sqG11 d = _
    unfold sqG11
    rw [e2, h2]; ring
  · show sqG44 d = _ + sqG11 d / 2
    unfold sqG44 sqG33 sqG11
    rw [e2, h2, h3]; ring

end RockPhy.Fluid

namespace RockPhy.Props

open Fl Fluid Spec

/-! ## C33 -/

/-- The wet frame has the compressibility of the dry rock at very high stress. `hT` says that the
denominator the code divides by, `2 - S~_abab`, is not zero. -/
theorem C33_bulk (S H : Fin 5 → ℝ) (hb : tiBeta S ≠ tiBeta H)
    (hT : 2 * (tiBeta S - tiBeta H) ≠ 2 * (S 0 - H 0) + (S 3 - H 3) + 4 * (S 4 - H 4)
      + 4 * ((S 0 - H 0) - (S 1 - H 1))) :
    ∃ W : Fin 5 → ℝ,
      Squirt_anisotropic (fun i => fin (S i)) (fun i => fin (H i)) = (fun i => fin (W i)) ∧
      tiBeta W = tiBeta H := by
  have hb' : tiBeta S - tiBeta H ≠ 0 := sub_ne_zero.mpr hb
  have hT' := sqT_ne hb' hT
  refine ⟨_, Squirt_eval hb' hT', ?_⟩
  have h1 := sqG_beta hT'
  rw [tiBeta_sqD hb'] at h1
  generalize hG : sqG (sqD S H) = G at *
  generalize hc : tiBeta S - tiBeta H = c at *
  have : tiBeta (fun i => S i - c * G i) = tiBeta S - c * tiBeta G := by unfold tiBeta; ring
  rw [this, h1]; linarith

/-- Equal compliances give no number at all: the code divides by their difference. -/
theorem C33_equal_compliances (S : Fin 5 → ℝ) (i : Fin 5) :
    Squirt_anisotropic (fun i => fin (S i)) (fun i => fin (S i)) i = bad := by
  unfold Squirt_anisotropic
  simp only [sub_self, fl, mul_zero, add_zero, fl_div_zero]
  fin_cases i <;> simp [fl]

/-- More generally no entry is a number when the two compressibilities agree, or when the
denominator `2 - S~_abab` of `C33_bulk` vanishes: the hypotheses of `C33_bulk` are exact. -/
theorem C33_undefined (S H : Fin 5 → ℝ) (i : Fin 5)
    (h : tiBeta S = tiBeta H ∨ 2 * (tiBeta S - tiBeta H) = 2 * (S 0 - H 0) + (S 3 - H 3)
      + 4 * (S 4 - H 4) + 4 * ((S 0 - H 0) - (S 1 - H 1))) :
    Squirt_anisotropic (fun i => fin (S i)) (fun i => fin (H i)) i = bad := by
  have eb : 2 * (fin (S 0) - fin (H 0)) + 2 * (fin (S 1) - fin (H 1))
      + 4 * (fin (S 2) - fin (H 2)) + (fin (S 3) - fin (H 3)) = fin (tiBeta S - tiBeta H) := by
    simp only [fl, fin_inj, tiBeta]; ring
  by_cases hb : tiBeta S - tiBeta H = 0
  · unfold Squirt_anisotropic
    simp only [eb, hb, fl_div_zero]
    simp only [fl]
    fin_cases i <;> simp [fl]
  · have hT : sqT (sqD S H) = 0 := by
      have h2 := h.resolve_left fun e => hb (sub_eq_zero.mpr e)
      rw [sqT_eq]
      unfold sqAbab sqD
      generalize tiBeta S - tiBeta H = b at *
      field_simp
      linarith
    have ed : ∀ i, (fin (S i) - fin (H i)) / fin (tiBeta S - tiBeta H) = fin (sqD S H i) :=
      fun i => by rw [fl_sub, fl_div hb]; rfl
    unfold Squirt_anisotropic
    simp only [eb, ed]
    generalize sqD S H = d at *
    have ea : (0.25 : Fl) * (2 * fin (d 0) + fin (d 3) + 4 * fin (d 4)
        + 4 * (fin (d 0) - fin (d 1)) - 1) = fin (sqAl d) := by simp only [fl, sqAl, sqAbab]
    rw [ea]
    have eT : 1 - 4 * fin (sqAl d) = fin 0 := by rw [← hT]; simp only [fl, sqT]
    rw [eT]
    simp only [fl, mul_zero, fl_div_zero]
    fin_cases i <;> simp [fl]

example : ∃ S H : Fin 5 → ℝ, tiBeta S ≠ tiBeta H ∧
    2 * (tiBeta S - tiBeta H) = 2 * (S 0 - H 0) + (S 3 - H 3)
      + 4 * (S 4 - H 4) + 4 * ((S 0 - H 0) - (S 1 - H 1)) :=
  ⟨![0, 0, 0, 4, 1], ![0, 0, 0, 0, 0], by simp [tiBeta], by simp [tiBeta]; norm_num⟩

/-- For isotropic compliances the output is isotropic exactly when a certain linear relation
between the two compliance changes holds. -/
theorem C33_isotropic_iff (κ a b a' b' : ℝ) (hb : a + 2 * b ≠ a' + 2 * b')
    (hT : 3 * (a - a') + 12 * (b - b') ≠ 4 * (κ + 1) * ((a - a') - (b - b'))) :
    ∃ W : Fin 5 → ℝ,
      Squirt_anisotropic (fun i => fin (isoArr κ a b i)) (fun i => fin (isoArr κ a' b' i))
        = (fun i => fin (W i)) ∧
      (W 4 = κ * (W 0 - W 1) ↔
        12 * κ * (a - a') - 3 * ((a - a') + (b - b'))
          + (2 - 4 * κ) * (3 * (a - a') + 6 * (b - b') - 4 * (κ + 1) * ((a - a') - (b - b')))
          = 0) := by
  have ec : tiBeta (isoArr κ a b) - tiBeta (isoArr κ a' b') = 3 * (a - a') + 6 * (b - b') := by
    simp [tiBeta, isoArr]; ring
  have hb' : tiBeta (isoArr κ a b) - tiBeta (isoArr κ a' b') ≠ 0 := by
    rw [ec]; intro h; apply hb; linarith
  have hT' := sqT_ne hb' (by
    rw [ec]; simp [isoArr]; intro h; apply hT; linarith)
  refine ⟨_, Squirt_eval hb' hT', ?_⟩
  obtain ⟨g0, g1, g4⟩ := sqG_iso (d := sqD (isoArr κ a b) (isoArr κ a' b')) (by simp [sqD, isoArr])
    (by simp [sqD, isoArr])
  have e0 : sqD (isoArr κ a b) (isoArr κ a' b') 0 = (a - a') / (3 * (a - a') + 6 * (b - b')) := by
    unfold sqD; rw [ec]; simp [isoArr]
  have e1 : sqD (isoArr κ a b) (isoArr κ a' b') 1 = (b - b') / (3 * (a - a') + 6 * (b - b')) := by
    unfold sqD; rw [ec]; simp [isoArr]
  have e3 : sqD (isoArr κ a b) (isoArr κ a' b') 3 = (a - a') / (3 * (a - a') + 6 * (b - b')) := by
    unfold sqD; rw [ec]; simp [isoArr]
  have e4 : sqD (isoArr κ a b) (isoArr κ a' b') 4
      = κ * ((a - a') - (b - b')) / (3 * (a - a') + 6 * (b - b')) := by
    unfold sqD; rw [ec]; simp [isoArr]; congr 1; ring
  have eT : sqT (sqD (isoArr κ a b) (isoArr κ a' b'))
      = (3 * (a - a') + 12 * (b - b') - 4 * (κ + 1) * ((a - a') - (b - b')))
      / (3 * (a - a') + 6 * (b - b')) := by
    rw [sqT_eq]
    rw [ec] at hb'
    unfold sqAbab
    rw [e0, e1, e3, e4, eq_div_iff hb']
    generalize a - a' = x at *
    generalize b - b' = y at *
    generalize hv' : 3 * x + 6 * y = v at *
    field_simp
    subst hv'
    ring
  rw [g0, e0, e1, e4] at g4
  rw [e0, e1] at g0
  rw [e1] at g1
  have hW : ∀ g : Fin 5 → ℝ, ∀ c : ℝ, c ≠ 0 → ((isoArr κ a b 4 - c * g 4
      = κ * (isoArr κ a b 0 - c * g 0 - (isoArr κ a b 1 - c * g 1))) ↔ g 4 = κ * (g 0 - g 1)) := by
    intro g c hc
    have e : isoArr κ a b 4 = κ * (isoArr κ a b 0 - isoArr κ a b 1) := by simp [isoArr]
    rw [e]
    constructor
    · intro h
      apply mul_left_cancel₀ hc
      linarith
    · intro h
      rw [h]; ring
  rw [hW _ _ hb', g4, g0, g1, eT]
  rw [eT] at hT'
  rw [ec] at hb'
  generalize a - a' = x at *
  generalize b - b' = y at *
  have hu : 3 * x + 12 * y - 4 * (κ + 1) * (x - y) ≠ 0 := by
    intro h; rw [h] at hT'; simp at hT'
  have key : ∀ u v : ℝ, u ≠ 0 → v ≠ 0 → u = 3 * x + 12 * y - 4 * (κ + 1) * (x - y) →
      v = 3 * x + 6 * y → (κ * (x - y) / v - (x / v + y / v) / 4) / (u / v)
      + (x / v - 2 * (1 - u / v) / (u / v) * (y / v)) / 2
      - κ * (x / v - 2 * (1 - u / v) / (u / v) * (y / v) - y / v / (u / v))
      = (12 * κ * x - 3 * (x + y) + (2 - 4 * κ) * (3 * x + 6 * y - 4 * (κ + 1) * (x - y)))
        / (12 * u) := by
    intro u v hu hv eu ev
    rw [eq_div_iff (by positivity)]
    field_simp
    subst eu ev
    ring
  rw [← sub_eq_zero, key _ _ hu hb' rfl rfl, div_eq_zero_iff, or_iff_left (by positivity)]

/-- Isotropic input should give isotropic output; it does not. With the engineering shear
compliance, a softer frame `E=10, ν=1/4` and a stiffer one `E=20, ν=1/4` give an anisotropic
result. -/
theorem C33_isotropic_violated :
    ∃ W : Fin 5 → ℝ,
      Squirt_anisotropic (fun i => fin (isoArr 2 (1 / 10) (-1 / 40) i))
        (fun i => fin (isoArr 2 (1 / 20) (-1 / 80) i)) = (fun i => fin (W i)) ∧
      W 4 ≠ 2 * (W 0 - W 1) := by
  obtain ⟨W, e, h⟩ := C33_isotropic_iff 2 (1 / 10) (-1 / 40) (1 / 20) (-1 / 80) (by norm_num)
    (by norm_num)
  refine ⟨W, e, fun hW => ?_⟩
  have := h.mp hW
  norm_num at this

/-- With tensor shear compliances the result is isotropic only if the two frames have the same
shear compliance, that is, if there is no squirt effect at all. -/
theorem C33_isotropic_tensor (a b a' b' : ℝ) (hb : a + 2 * b ≠ a' + 2 * b')
    (hT : a - a' ≠ 6 * (b - b')) :
    ∃ W : Fin 5 → ℝ,
      Squirt_anisotropic (fun i => fin (isoArr (1 / 2) a b i))
        (fun i => fin (isoArr (1 / 2) a' b' i)) = (fun i => fin (W i)) ∧
      (W 4 = 1 / 2 * (W 0 - W 1) ↔ a - b = a' - b') := by
  obtain ⟨W, e, h⟩ := C33_isotropic_iff (1 / 2) a b a' b' hb (fun h => hT (by linarith))
  refine ⟨W, e, h.trans ⟨fun h => by linarith, fun h => by linarith⟩⟩

example : (1 / 10 : ℝ) + 2 * (-1 / 40) ≠ 1 / 20 + 2 * (-1 / 80) ∧
    (1 / 10 : ℝ) - 1 / 20 ≠ 6 * (-1 / 40 - -1 / 80) := by norm_num

/-! ## C62 -/

/-- The bulk modulus is Gassmann's for the high-pressure frame, the shear modulus satisfies the
Mavko-Jizba relation, is at least the dry shear modulus when cracks soften the dry frame, and the
velocities are those of the two moduli at the saturated density. -/
theorem C62_Mavko_Jizba (Kd Gd Kh Gh K0 Kf φ ρ ρf : ℝ) (hρ : 0 < ρ) (hρf : 0 ≤ ρf) (hd : 0 < Kd)
    (hGd : 0 < Gd) (hh : Kd ≤ Kh) (hGh : 0 ≤ Gh) (hg : GassmannRock Kh K0 Kf φ)
    (hpos : 4 / 15 * (1 / Kd - 1 / Kh) < 1 / Gd) :
    ∃ Ks Gs : ℝ,
      Mavko_Jizba (utils.V (fin Kh) (fin Gh) (fin ρ)).1 (utils.V (fin Kh) (fin Gh) (fin ρ)).2
        (utils.V (fin Kd) (fin Gd) (fin ρ)).1 (utils.V (fin Kd) (fin Gd) (fin ρ)).2
        (fin K0) (fin ρ) (fin ρf) (fin Kf) (fin φ)
        = (fin Ks, fin Gs, utils.V (fin Ks) (fin Gs) (fin (ρ + φ * ρf))) ∧
      GassmannEq Kh K0 Kf φ Ks ∧
      1 / Gs = 1 / Gd - 4 / 15 * (1 / Kd - 1 / Kh) ∧ Gd ≤ Gs ∧ (Gs = Gd ↔ Kd = Kh) ∧
      (utils.V (fin Ks) (fin Gs) (fin (ρ + φ * ρf))).1.IsFin ∧
      (utils.V (fin Ks) (fin Gs) (fin (ρ + φ * ρf))).2.IsFin := by
  have hKh : 0 < Kh := hd.trans_le hh
  have h0 := GassmannRock.mineral_pos hg
  have hgK := GassmannRock.gK_gt hg
  set I := 1 / Gd - 4 / 15 * (1 / Kd - 1 / Kh) with hI
  have hIpos : 0 < I := by rw [hI]; linarith
  have hle : I ≤ 1 / Gd := by
    have := one_div_le_one_div_of_le hd hh
    rw [hI]; linarith
  have hGs : 0 < 1 / I := by positivity
  refine ⟨gK Kh K0 Kf φ, 1 / I, ?_, GassmannRock.gK_eq hg, by rw [one_div_one_div], ?_, ?_, ?_⟩
  · unfold Mavko_Jizba
    have e1 := C01_moduli_roundtrip Kd Gd ρ hρ hGd.le (by positivity)
    have e2 := C01_moduli_roundtrip Kh Gh ρ hρ hGh (by positivity)
    dsimp only
    rw [e1, e2]
    dsimp only
    rw [Gassmann_eval h0.ne' hg.fluid_pos.ne' (GassmannRock.gB_pos hg).ne']
    dsimp only
    have e3 : (1 : Fl) / (1 / fin Gd - 4 / 15 * (1 / fin Kd - 1 / fin Kh)) = fin (1 / I) := by
      have e : (1 : Fl) / fin Gd - 4 / 15 * (1 / fin Kd - 1 / fin Kh) = fin I := by
        rw [hI]
        have := hKh.ne'
        fl_eval []
      rw [e, fl_one, fl_div hIpos.ne']
    rw [e3, fl_mul, fl_add]
  · rw [le_div_iff₀ hIpos]
    calc Gd * I ≤ Gd * (1 / Gd) := by gcongr
      _ = 1 := by field
  · constructor
    · intro h
      have : I = 1 / Gd := by rw [← h, one_div_one_div]
      have h2 : 1 / Kd = 1 / Kh := by linarith
      field_simp at h2
      exact h2.symm
    · intro h
      rw [hI, h]; simp
  · have hp := hg.por_pos
    rw [utils.V_eval (by positivity) hGs.le (by linarith [hgK, hGs])]
    exact ⟨⟨_, rfl⟩, ⟨_, rfl⟩⟩

example : GassmannRock 14 37 2.3 0.2 ∧ (4 / 15 * (1 / 10 - 1 / 14) : ℝ) < 1 / 8 :=
  ⟨⟨by norm_num, by norm_num, by norm_num, by norm_num, by norm_num⟩, by norm_num⟩

end RockPhy.Props
