import Verif.Np
import Verif.Props.QI
import Verif.Props.PatchyInterior
import Verif.Props.Emp

/-! # Property C90: the velocities of the constant cement template (`QI`) -/

namespace RockPhy.Props

open Fl Spec QI

/-- `vp` and `vs` (m/s) are the velocities of a rock of dry moduli `Kd`, `G` and mineral modulus
`K0` (GPa) whose pores of volume fraction `φ` hold a fluid of modulus `Kf`, the bulk density of the
whole being `ρ` (g/cm³). -/
def SaturatedVelocities (Kd G K0 Kf φ ρ vp vs : ℝ) : Prop :=
  ∃ Ksat, GassmannEq Kd K0 Kf φ Ksat ∧ Kd < Ksat ∧ Ksat < K0 ∧ 0 < vp ∧ 0 < vs ∧
    ρ * (vp / 1000) ^ 2 = Ksat + 4 / 3 * G ∧ ρ * (vs / 1000) ^ 2 = G

theorem SaturatedVelocities.density {Kd G K0 Kf φ ρ ρ' vp vs : ℝ}
    (h : SaturatedVelocities Kd G K0 Kf φ ρ vp vs) (h' : SaturatedVelocities Kd G K0 Kf φ ρ' vp vs) :
    ρ = ρ' := by
  obtain ⟨_, _, _, _, _, p, _, e⟩ := h
  obtain ⟨_, _, _, _, _, _, _, e'⟩ := h'
  have : (vs / 1000) ^ 2 ≠ 0 := by positivity
  exact mul_right_cancel₀ this (e.trans e'.symm)

theorem SaturatedVelocities.unique {Kd G K0 Kf φ ρ vp vs vp' vs' : ℝ} (hρ : ρ ≠ 0) (hK0 : K0 ≠ 0)
    (h : SaturatedVelocities Kd G K0 Kf φ ρ vp vs)
    (h' : SaturatedVelocities Kd G K0 Kf φ ρ vp' vs') : vp = vp' ∧ vs = vs' := by
  obtain ⟨K, q, _, l, p1, p2, e1, e2⟩ := h
  obtain ⟨K', q', _, l', p1', p2', e1', e2'⟩ := h'
  have eK : K = K' := by
    unfold GassmannEq at q q'
    have := q.trans q'.symm
    rw [div_eq_div_iff (by linarith) (by linarith)] at this
    have k0 : K0 * K = K0 * K' := by linear_combination this
    exact mul_left_cancel₀ hK0 k0
  subst eK
  have s1 := mul_left_cancel₀ hρ (e1.trans e1'.symm)
  have s2 := mul_left_cancel₀ hρ (e2.trans e2'.symm)
  rw [sq_eq_sq₀ (by positivity) (by positivity)] at s1 s2
  constructor <;> linarith

theorem vels_saturated {Kd G K0 Kf D Df φ : ℝ} (h : GassmannRock Kd K0 Kf φ) (hG : 0 < G)
    (hρ : 0 < (1 - φ) * D + φ * Df) :
    ∃ vp vs, Fluid.vels (fin Kd) (fin G) (fin K0) (fin D) (fin Kf) (fin Df) (fin φ)
        = (fin vp, fin vs, fin ((1 - φ) * D + φ * Df)) ∧
      SaturatedVelocities Kd G K0 Kf φ ((1 - φ) * D + φ * Df) vp vs := by
  have g := Fluid.GassmannRock.gK_gt h
  have l := Fluid.GassmannRock.gK_lt h
  have kd := h.dry_nonneg
  have e : D * (1 - φ) + Df * φ = (1 - φ) * D + φ * Df := by ring
  have eq := Fluid.GassmannRock.gK_eq h
  unfold Fluid.vels
  rw [Fluid.Gassmann_eval (Fluid.GassmannRock.mineral_pos h).ne' h.fluid_pos.ne'
    (Fluid.GassmannRock.gB_pos h).ne']
  generalize Fluid.gK Kd K0 Kf φ = K at *
  have c : (4. : ℝ) / 3 = 4 / 3 := by norm_num
  have r : fin D * (1 - fin φ) + fin Df * fin φ = fin ((1 - φ) * D + φ * Df) := by
    simp only [fl]; rw [e]
  dsimp only
  rw [r]
  generalize (1 - φ) * D + φ * Df = ρ at *
  have kp : 0 < K := kd.trans_lt g
  have p1 : 0 < (K + 4 / 3 * G) / ρ := by positivity
  have p2 : 0 < G / ρ := by positivity
  have e1 : PyNum.sqrt ((fin K + 4. / 3 * fin G) / fin ρ) * 1e3
      = fin (1000 * √((K + 4 / 3 * G) / ρ)) := by
    fl_eval [c]; rw [fin_inj]; ring
  have e2 : PyNum.sqrt (fin G / fin ρ) * 1e3 = fin (1000 * √(G / ρ)) := by
    fl_eval []; rw [fin_inj]; ring
  rw [e1, e2]
  refine ⟨_, _, rfl, K, eq, g, l, by positivity, by positivity, ?_, ?_⟩
  · rw [mul_div_cancel_left₀ _ (by norm_num), Real.sq_sqrt p1.le]
    field
  · rw [mul_div_cancel_left₀ _ (by norm_num), Real.sq_sqrt p2.le]
    field

/-- The constant cement line between the mineral and the cemented end member stays below the
mineral. -/
theorem constantcement_rock {K0 G0 φ φb Kb Gb Kf : ℝ} {Kc Gc φc Cn : Fl} {s : Int}
    (hb : GM.contactcement (fin K0) (fin G0) Kc Gc (fin φb) φc Cn s = (fin Kb, fin Gb))
    (hG0 : 0 < G0) (hφ : 0 < φ) (hφb : φ ≤ φb) (hK : 0 < Kb) (hG : 0 < Gb) (hK0 : Kb < K0)
    (hf : 0 < Kf) (hf0 : Kf < K0) :
    ∃ K G, GM.constantcement (fin φb) (fin K0) (fin G0) Kc Gc (fin φ) φc Cn s = (fin K, fin G) ∧
      GassmannRock K K0 Kf φ ∧ 0 < G := by
  have p := hφ.trans_le hφb
  have k0 := hK.trans hK0
  have t0 : 0 < φ / φb := by positivity
  have t1 : φ / φb ≤ 1 := (div_le_one p).mpr hφb
  have z1 : 0 < hsBulk Gb := by unfold hsBulk; positivity
  have z2 := hsShear_pos hK hG
  refine ⟨_, _, GM.constantcement_eval hb k0 hG0 hφ.le hφb p hK hG, ⟨?_, ?_, hf, hf0, hφ⟩, ?_⟩
  · exact le_hsMean t0.le t1 (by linarith) (by linarith) hK.le k0.le
  · refine (hsMean_le_voigt t0.le t1 (by linarith) (by linarith)).trans_lt ?_
    unfold voigt2
    nlinarith [mul_pos t0 (sub_pos.mpr hK0)]
  · exact (lt_min hG hG0).trans_le (le_hsMean t0.le t1 (by linarith) (by linarith)
      (min_le_left _ _) (min_le_right _ _))

theorem hill_pos {v a b : ℝ} (v0 : 0 ≤ v) (v1 : v ≤ 1) (ha : 0 < a) (hb : 0 < b) :
    0 < ((v / a + (1 - v) / b)⁻¹ + (v * a + (1 - v) * b)) / 2 := by
  have w : 0 ≤ 1 - v := by linarith
  have q1 : 0 < v * a + (1 - v) * b := by
    rcases v0.eq_or_lt with rfl | p
    · simpa using hb
    · positivity
  have q2 : 0 ≤ v / a + (1 - v) / b := by positivity
  have := inv_nonneg.mpr q2
  positivity

/-- C90: up to the cemented porosity `phi_b`, `QI.cst_vels` returns the P and S velocities of the
rock whose dry moduli are those of the constant cement model, saturated by Gassmann's relation, and
whose solid density conserves the mass of shale, grains and cement. -/
theorem C90_cst_vels {K0 G0 φ φb φc Kb Gb Kc Gc Cn Kf Df vsh Dsh Dqz Dc D : ℝ} {D0 : Fl} {s : Int}
    (hb : GM.contactcement (fin K0) (fin G0) (fin Kc) (fin Gc) (fin φb) (fin φc) (fin Cn) s
      = (fin Kb, fin Gb))
    (hG0 : 0 < G0) (hφ : 0 < φ) (hφb : φ ≤ φb) (h1 : φb < 1) (hK : 0 < Kb) (hG : 0 < Gb)
    (hK0 : Kb < K0) (hf : 0 < Kf) (hf0 : Kf < K0) (hDf : 0 ≤ Df) (d1 : Dsh ≠ 0) (d2 : Dqz ≠ 0)
    (d3 : Dc ≠ 0) (hD : (1 - φb) * D = vsh * Dsh + (1 - φc - vsh) * Dqz + (φc - φb) * Dc)
    (hD0 : 0 < D) :
    ∃ K G vp vs,
      GM.constantcement (fin φb) (fin K0) (fin G0) (fin Kc) (fin Gc) (fin φ) (fin φc) (fin Cn) s
        = (fin K, fin G) ∧
      cst_vels (fin φb) (fin K0) D0 (fin G0) (fin φ) (fin φc) (fin Cn) (fin Kc) (fin Gc) (fin Df)
        (fin Kf) s (fin vsh) (fin Dsh) (fin Dqz) (fin Dc) = .ok (fin vp, fin vs) ∧
      SaturatedVelocities K G K0 Kf φ ((1 - φ) * D + φ * Df) vp vs := by
  obtain ⟨K, G, e, r, g⟩ := constantcement_rock hb hG0 hφ hφb hK hG hK0 hf hf0
  obtain ⟨d, ed, hd⟩ := C60_mass_balance (vsh := vsh) (c := φc) h1.ne d1 d2 d3
  have dD : d = D := mul_left_cancel₀ (sub_pos.mpr h1).ne' (hd.trans hD.symm)
  subst dD
  have φ1 : 0 < 1 - φ := by linarith
  obtain ⟨vp, vs, ev, sv⟩ := vels_saturated (D := d) (Df := Df) r g (by positivity)
  refine ⟨K, G, vp, vs, e, ?_, sv⟩
  have n : ¬ PyNum.lt (fin φb) (fin φ) = true := fun e => absurd (of_decide_eq_true e) hφb.not_gt
  unfold cst_vels
  rw [e, ed]
  simp only [except_ok_bind]
  rw [ev, if_neg n, if_neg n]
  rfl

/-- C90: beyond the cemented porosity nothing is returned. -/
theorem C90_cst_vels_beyond {φ φb : ℝ} (h : φb < φ) (K0 D0 G0 φc Cn Kc Gc Df Kf : Fl) (s : Int)
    (vsh Dsh Dqz Dc : Fl) :
    cst_vels (fin φb) K0 D0 G0 (fin φ) φc Cn Kc Gc Df Kf s vsh Dsh Dqz Dc = .ok (bad, bad) := by
  have n : PyNum.lt (fin φb) (fin φ) = true := decide_eq_true h
  have nan : (npnan : Fl) = bad := by unfold npnan; rw [fl_zero]; exact fl_div_zero _
  unfold cst_vels
  dsimp only
  simp only [if_pos n, nan]
  rfl

theorem npnan_np : (npnan : Np) = Np.nan := by
  unfold npnan
  show (if ((0 : ℕ) : ℝ) = 0 then Np.infMul ((0 : ℕ) : ℝ) true else _) = Np.nan
  rw [if_pos Nat.cast_zero, Nat.cast_zero]
  exact if_pos rfl

/-- C90: with numpy's floats, what is returned beyond the cemented porosity is `nan` and not an
infinity, whatever the other inputs are. -/
theorem C90_beyond_nan {φ φb : ℝ} (h : φb < φ) (K0 D0 G0 φc Cn Kc Gc Df Kf : Np) (s : Int)
    (vsh Dsh Dqz Dc : Np) :
    cst_vels (Np.fin φb) K0 D0 G0 (Np.fin φ) φc Cn Kc Gc Df Kf s vsh Dsh Dqz Dc
      = .ok (Np.nan, Np.nan) := by
  have n : PyNum.lt (Np.fin φb) (Np.fin φ) = true := decide_eq_true h
  have nan : (npnan : Np) = Np.nan := npnan_np
  unfold cst_vels
  dsimp only
  simp only [if_pos n, nan]
  rfl

/-- C74: with numpy's floats, the cemented branch of a screening plot is `nan` below the cemented
porosity, and the branch sorted from it is `nan` above. -/
theorem C74_masked_nan {b φ : ℝ} (Dqz Kqz Gqz Dsh Ksh Gsh Dc Kc Gc Db Kb c sigma vsh f Cn : Np)
    (scheme : Int) :
    ∃ vp1 vp2 vp3 vs1 vs2 vs3 : Np,
      screening_entry Dqz Kqz Gqz Dsh Ksh Gsh Dc Kc Gc Db Kb (Np.fin b) c sigma vsh scheme f Cn
        (Np.fin φ) = .ok (vp1, vp2, vp3, vs1, vs2, vs3) ∧
      (b < φ → vp2 = Np.nan ∧ vs2 = Np.nan) ∧ (φ < b → vp3 = Np.nan ∧ vs3 = Np.nan) := by
  have nan : (npnan : Np) = Np.nan := npnan_np
  have mm : ∃ x, matrix_modulus vsh c (Np.fin φ) Ksh Kqz Kc = .ok x := by
    unfold matrix_modulus
    dsimp only
    split <;> exact ⟨_, rfl⟩
  obtain ⟨m, hm⟩ := mm
  unfold screening_entry
  rw [hm]
  refine ⟨_, _, _, _, _, _, rfl, ?_, ?_⟩
  · intro h
    have e : PyNum.lt (Np.fin b) (Np.fin φ) = true := decide_eq_true h
    rw [if_pos e, if_pos e]; exact ⟨nan, nan⟩
  · intro h
    have e : PyNum.lt (Np.fin φ) (Np.fin b) = true := decide_eq_true h
    rw [if_pos e, if_pos e]; exact ⟨nan, nan⟩

/-- C90: `QI.cal_v_const` returns the velocities of the constant cement model for the Hill average
of shale and quartz and Murphy's coordination number at the critical porosity, with a solid density
in which `vsh` is the shale fraction of the solid and the cement does not occur. -/
theorem C90_cal_v_const {Kqz Gqz Ksh Gsh K0 G0 φ φb φc Kb Gb Kc Gc Kf Df vsh Dsh Dqz : ℝ}
    {Dc : Fl} {s : Int} (v0 : 0 ≤ vsh) (v1 : vsh ≤ 1) (k1 : 0 < Kqz) (g1 : 0 < Gqz) (k2 : 0 < Ksh)
    (g2 : 0 < Gsh)
    (eK : K0 = ((vsh / Ksh + (1 - vsh) / Kqz)⁻¹ + (vsh * Ksh + (1 - vsh) * Kqz)) / 2)
    (eG : G0 = ((vsh / Gsh + (1 - vsh) / Gqz)⁻¹ + (vsh * Gsh + (1 - vsh) * Gqz)) / 2)
    (hb : GM.contactcement (fin K0) (fin G0) (fin Kc) (fin Gc) (fin φb) (fin φc)
      (fin (20 - 34 * φc + 14 * φc ^ 2)) s = (fin Kb, fin Gb))
    (hφ : 0 < φ) (hφb : φ ≤ φb) (h1 : φb < 1) (hK : 0 < Kb) (hG : 0 < Gb)
    (hK0 : Kb < K0) (hf : 0 < Kf) (hf0 : Kf < K0) (hDf : 0 ≤ Df)
    (hD0 : 0 < vsh * Dsh + (1 - vsh) * Dqz) :
    ∃ K G vp vs,
      GM.constantcement (fin φb) (fin K0) (fin G0) (fin Kc) (fin Gc) (fin φ) (fin φc)
        (fin (20 - 34 * φc + 14 * φc ^ 2)) s = (fin K, fin G) ∧
      cal_v_const (fin Dqz) (fin Kqz) (fin Gqz) (fin Dsh) (fin Ksh) (fin Gsh) Dc (fin Kc) (fin Gc)
        (fin Df) (fin Kf) (fin φb) (fin φc) (fin vsh) (fin φ) s = .ok (fin vp, fin vs) ∧
      SaturatedVelocities K G K0 Kf φ ((1 - φ) * (vsh * Dsh + (1 - vsh) * Dqz) + φ * Df) vp vs := by
  have hG0 : 0 < G0 := eG ▸ hill_pos v0 v1 g2 g1
  obtain ⟨K, G, e, r, g⟩ := constantcement_rock hb hG0 hφ hφb hK hG hK0 hf hf0
  have φ1 : 0 < 1 - φ := by linarith
  obtain ⟨vp, vs, ev, sv⟩ := vels_saturated (D := vsh * Dsh + (1 - vsh) * Dqz) (Df := Df) r g
    (by positivity)
  refine ⟨K, G, vp, vs, e, ?_, sv⟩
  have cp : Empirical.Cp (fin φc) = fin (20 - 34 * φc + 14 * φc ^ 2) := by
    unfold Empirical.Cp; fl_eval []
  have w : (1 : Fl) - fin vsh = fin (1 - vsh) := by simp only [fl]
  have dd : fin Dsh * fin vsh + fin Dqz * fin (1 - vsh) = fin (vsh * Dsh + (1 - vsh) * Dqz) := by
    simp only [fl]; rw [fin_inj]; ring
  unfold cal_v_const
  rw [w, VRH_pair v0 (by linarith) (by ring) k2 k1, VRH_pair v0 (by linarith) (by ring) g2 g1]
  simp only [except_ok_bind]
  rw [← eK, ← eG, cp, e, dd, ev]
  rfl

/-- C90: the two functions agree only when the shale and the cement weigh what the quartz they
replace weighs: for one rock (same effective mineral, same coordination number) they return the same
velocities exactly when `φb·vsh·(Dsh − Dqz) + (φc − φb)·(Dc − Dqz) = 0`. -/
theorem C90_two_densities {Kqz Gqz Ksh Gsh K0 G0 φ φb φc Kb Gb Kc Gc Kf Df vsh Dsh Dqz Dc : ℝ}
    {D0 : Fl} {s : Int} (v0 : 0 ≤ vsh) (v1 : vsh ≤ 1) (k1 : 0 < Kqz) (g1 : 0 < Gqz) (k2 : 0 < Ksh)
    (g2 : 0 < Gsh)
    (eK : K0 = ((vsh / Ksh + (1 - vsh) / Kqz)⁻¹ + (vsh * Ksh + (1 - vsh) * Kqz)) / 2)
    (eG : G0 = ((vsh / Gsh + (1 - vsh) / Gqz)⁻¹ + (vsh * Gsh + (1 - vsh) * Gqz)) / 2)
    (hb : GM.contactcement (fin K0) (fin G0) (fin Kc) (fin Gc) (fin φb) (fin φc)
      (fin (20 - 34 * φc + 14 * φc ^ 2)) s = (fin Kb, fin Gb))
    (hφ : 0 < φ) (hφb : φ ≤ φb) (hbc : φb ≤ φc) (h1 : φc < 1) (hv : vsh ≤ 1 - φc) (hK : 0 < Kb)
    (hG : 0 < Gb) (hK0 : Kb < K0) (hf : 0 < Kf) (hf0 : Kf < K0) (hDf : 0 ≤ Df) (d1 : 0 < Dsh)
    (d2 : 0 < Dqz) (d3 : 0 < Dc) :
    cst_vels (fin φb) (fin K0) D0 (fin G0) (fin φ) (fin φc) (fin (20 - 34 * φc + 14 * φc ^ 2))
        (fin Kc) (fin Gc) (fin Df) (fin Kf) s (fin vsh) (fin Dsh) (fin Dqz) (fin Dc)
      = cal_v_const (fin Dqz) (fin Kqz) (fin Gqz) (fin Dsh) (fin Ksh) (fin Gsh) (fin Dc) (fin Kc)
        (fin Gc) (fin Df) (fin Kf) (fin φb) (fin φc) (fin vsh) (fin φ) s ↔
    φb * vsh * (Dsh - Dqz) + (φc - φb) * (Dc - Dqz) = 0 := by
  have b1 : 0 < 1 - φb := by linarith
  have hG0 : 0 < G0 := eG ▸ hill_pos v0 v1 g2 g1
  have m1 : 0 < vsh * Dsh + (1 - vsh) * Dqz := by
    rcases v0.eq_or_lt with rfl | p
    · simpa using d2
    · have : 0 ≤ 1 - vsh := by linarith
      positivity
  have m2 : 0 < vsh * Dsh + (1 - φc - vsh) * Dqz + (φc - φb) * Dc := by
    have w1 := mul_nonneg (sub_nonneg.mpr hv) d2.le
    have w2 := mul_nonneg (sub_nonneg.mpr hbc) d3.le
    rcases v0.eq_or_lt with rfl | p
    · have := mul_pos (sub_pos.mpr h1) d2
      linarith
    · have := mul_pos p d1
      linarith
  obtain ⟨K, G, vp, vs, e, ev, sv⟩ := C90_cst_vels (D0 := D0) (Df := Df) (vsh := vsh)
    (D := (vsh * Dsh + (1 - φc - vsh) * Dqz + (φc - φb) * Dc) / (1 - φb)) hb hG0 hφ hφb
    (hbc.trans_lt h1) hK hG hK0 hf hf0 hDf d1.ne' d2.ne' d3.ne' (by field) (by positivity)
  obtain ⟨K', G', vp', vs', e', ev', sv'⟩ := C90_cal_v_const (Dc := fin Dc) v0 v1 k1 g1 k2 g2 eK eG
    hb hφ hφb (hbc.trans_lt h1) hK hG hK0 hf hf0 hDf m1
  obtain ⟨rfl, rfl⟩ : K = K' ∧ G = G' := by
    have := e.symm.trans e'
    simpa using this
  rw [ev, ev']
  have φ1 : 0 < 1 - φ := by linarith
  have key : ∀ ρ ρ' : ℝ, ρ = (vsh * Dsh + (1 - φc - vsh) * Dqz + (φc - φb) * Dc) / (1 - φb) →
      ρ' = vsh * Dsh + (1 - vsh) * Dqz →
      ((1 - φ) * ρ + φ * Df = (1 - φ) * ρ' + φ * Df ↔
        φb * vsh * (Dsh - Dqz) + (φc - φb) * (Dc - Dqz) = 0) := by
    rintro ρ ρ' rfl rfl
    rw [add_left_inj, mul_right_inj' φ1.ne', div_eq_iff b1.ne', ← sub_eq_zero]
    constructor <;> intro h <;> linear_combination h
  rw [← key _ _ rfl rfl]
  constructor
  · intro h
    have h2 : vp = vp' ∧ vs = vs' := by simpa using h
    obtain ⟨rfl, rfl⟩ := h2
    exact sv.density sv'
  · intro h
    rw [h] at sv
    obtain ⟨rfl, rfl⟩ := sv.unique (by positivity) (hK.trans hK0).ne' sv'
    rfl

/-- Quartz grains with quartz cement at the critical porosity 0.4 meet the hypotheses. -/
theorem quartz_template : ∃ Kb Gb : ℝ,
    GM.contactcement (fin 36.6) (fin 45) (fin 36.6) (fin 45) (fin 0.3) (fin 0.4)
      (fin (20 - 34 * 0.4 + 14 * 0.4 ^ 2)) 2 = (fin Kb, fin Gb) ∧ 0 < Kb ∧ 0 < Gb ∧ Kb < 36.6 := by
  have hc : CementSystem 36.6 45 36.6 45 0.4 (20 - 34 * 0.4 + 14 * 0.4 ^ 2) :=
    ⟨by norm_num, by norm_num, by norm_num, by norm_num, by norm_num, by norm_num⟩
  have ht : ThinCement (0.4 - 0.1) 0.4 (20 - 34 * 0.4 + 14 * 0.4 ^ 2) 2 := by
    unfold ThinCement; norm_num
  have pos := C63_positive _ _ _ _ (0.4 - 0.1) _ _ 2 hc (by norm_num) ht
  have bd := (cement_bound (Cn := 20 - 34 * 0.4 + 14 * 0.4 ^ 2) (by norm_num) (by norm_num)).1
  have e := GM.contactcement_eval (K0 := 36.6) (G0 := 45) (Kc := 36.6) (Gc := 45) (φ := 0.4 - 0.1)
    (φc := 0.4) (Cn := 20 - 34 * 0.4 + 14 * 0.4 ^ 2) (s := 2) (by norm_num) (by norm_num)
    (by norm_num) (by norm_num) (by norm_num) (by norm_num) (by norm_num)
  rw [e, fl_zero, fin_lt, fin_lt] at pos
  rw [show (0.3 : ℝ) = 0.4 - 0.1 by norm_num]
  exact ⟨_, _, e, pos.1, pos.2, bd.trans_lt (by norm_num)⟩

/-- With a quarter of the solid a heavier shale the two functions disagree. -/
example : ∃ Kb Gb : ℝ,
    GM.contactcement (fin 36.6) (fin 45) (fin 36.6) (fin 45) (fin 0.3) (fin 0.4)
      (fin (20 - 34 * 0.4 + 14 * 0.4 ^ 2)) 2 = (fin Kb, fin Gb) ∧
    cst_vels (fin 0.3) (fin 36.6) (fin 0) (fin 45) (fin 0.2) (fin 0.4)
        (fin (20 - 34 * 0.4 + 14 * 0.4 ^ 2)) (fin 36.6) (fin 45) (fin 1) (fin 2.5) 2 (fin 0.25)
        (fin 2.7) (fin 2.65) (fin 2.65)
      ≠ cal_v_const (fin 2.65) (fin 36.6) (fin 45) (fin 2.7) (fin 36.6) (fin 45) (fin 2.65)
        (fin 36.6) (fin 45) (fin 1) (fin 2.5) (fin 0.3) (fin 0.4) (fin 0.25) (fin 0.2) 2 := by
  obtain ⟨Kb, Gb, e, k, g, l⟩ := quartz_template
  refine ⟨Kb, Gb, e, ?_⟩
  rw [ne_eq, C90_two_densities (K0 := 36.6) (G0 := 45) (Kb := Kb) (Gb := Gb) (by norm_num)
    (by norm_num) (by norm_num) (by norm_num) (by norm_num) (by norm_num) (by norm_num)
    (by norm_num) e (by norm_num) (by norm_num) (by norm_num) (by norm_num) (by norm_num) k g l
    (by norm_num) (by norm_num) (by norm_num) (by norm_num) (by norm_num) (by norm_num)]
  norm_num

end RockPhy.Props
