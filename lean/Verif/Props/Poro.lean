import Verif.Props.BrownKorringa
import Verif.Spec.Poro

/-! C88: fluid substitution derived from linear poroelasticity. -/

namespace RockPhy.Props

open Fl Fluid Spec Matrix

variable {S : Matrix (Fin 6) (Fin 6) ℝ} {K0 φ Kf : ℝ}

/-- The strain per unit pore pressure. -/
noncomputable def poreVec (S : Matrix (Fin 6) (Fin 6) ℝ) (K0 : ℝ) : Fin 6 → ℝ :=
  S.mulVec hydro - (1 / (3 * K0)) • hydro

theorem response_strain (r : PorousResponse S K0 φ) (s : Fin 6 → ℝ) (p : ℝ) :
    r.strain (s, p) = S.mulVec s + p • poreVec S K0 := by
  have e : ((s, p) : (Fin 6 → ℝ) × ℝ) = (s + p • hydro, 0) + (-p • hydro, p) := by
    ext <;> simp
  rw [e, map_add, r.drained, (r.unjacketed p).1, Matrix.mulVec_add, Matrix.mulVec_smul, poreVec]
  ext i
  simp
  ring

theorem response_pore (r : PorousResponse S K0 φ) (s : Fin 6 → ℝ) (p : ℝ) :
    r.pore (s, p) = (s + p • hydro) ⬝ᵥ poreVec S K0 + φ * (-p / K0) := by
  have e : ((s, p) : (Fin 6 → ℝ) × ℝ) = (s + p • hydro, 0) + (-p • hydro, p) := by
    ext <;> simp
  have b := r.betti (0, 1) (s + p • hydro, 0)
  simp only [zero_dotProduct, zero_add, one_mul, zero_mul, add_zero] at b
  rw [response_strain] at b
  rw [e, map_add, (r.unjacketed p).2, b]
  simp

/-- A rock with symmetric drained compliance has such a response. -/
noncomputable def response (hS : S.IsSymm) : PorousResponse S K0 φ where
  strain :=
    { toFun := fun x => S.mulVec x.1 + x.2 • poreVec S K0
      map_add' := fun x y => by
        simp only [Prod.fst_add, Prod.snd_add, Matrix.mulVec_add, add_smul]; abel
      map_smul' := fun c x => by
        simp only [Prod.smul_fst, Prod.smul_snd, Matrix.mulVec_smul, smul_add, smul_smul,
          smul_eq_mul, RingHom.id_apply] }
  pore :=
    { toFun := fun x => (x.1 + x.2 • hydro) ⬝ᵥ poreVec S K0 + φ * (-x.2 / K0)
      map_add' := fun x y => by
        simp only [Prod.fst_add, Prod.snd_add, add_dotProduct, smul_dotProduct, smul_eq_mul]; ring
      map_smul' := fun c x => by
        simp only [Prod.smul_fst, Prod.smul_snd, add_dotProduct, smul_dotProduct, smul_eq_mul,
          RingHom.id_apply]; ring }
  drained := fun s => by simp
  unjacketed := fun p => by
    constructor
    · simp only [LinearMap.coe_mk, AddHom.coe_mk, poreVec, Matrix.mulVec_smul]
      ext i
      simp
      ring
    · simp
  betti := fun x y => by
    simp only [LinearMap.coe_mk, AddHom.coe_mk, dotProduct_add, add_dotProduct, dotProduct_smul,
      smul_dotProduct, smul_eq_mul]
    have : x.1 ⬝ᵥ S.mulVec y.1 = y.1 ⬝ᵥ S.mulVec x.1 := by
      rw [dotProduct_mulVec, ← mulVec_transpose, hS.eq, dotProduct_comm]
    rw [this]
    ring

theorem rRows_eq (hS : S.IsSymm) (j : Fin 6) : rRows S j = S.mulVec hydro j := by
  simp [rRows, Matrix.mulVec, dotProduct, Fin.sum_univ_six, hydro]
  rw [hS.apply 0 j, hS.apply 1 j, hS.apply 2 j]

theorem sP_poreVec (hS : S.IsSymm) (j : Fin 6) : sP K0 S j = poreVec S K0 j := by
  unfold sP poreVec s0
  rw [rRows_eq hS]
  fin_cases j <;> simp [hydro]

theorem hydro_poreVec (hS : S.IsSymm) (hK : K0 ≠ 0) :
    hydro ⬝ᵥ poreVec S K0 = beta S - 1 / K0 := by
  rw [← beta_sP hK, sP_poreVec hS, sP_poreVec hS, sP_poreVec hS]
  simp [dotProduct, Fin.sum_univ_six, hydro]

theorem map_fin_inj {A B : Mat6 ℝ} (h : A.map fin = B.map fin) : A = B := by
  ext i j
  have := congrFun (congrFun h i) j
  simpa using this

theorem bkUp_undrained (hS : S.IsSymm) (hK : K0 ≠ 0) (hf : Kf ≠ 0)
    (hd : cc K0 Kf φ + (beta S - 1 / K0) ≠ 0) :
    IsUndrainedCompliance S K0 φ Kf (bkUp K0 S (cc K0 Kf φ + (beta S - 1 / K0))) := by
  refine ⟨⟨response hS⟩, fun r => ?_⟩
  set d := cc K0 Kf φ + (beta S - 1 / K0) with hd'
  have key : ∀ s p, r.pore (s, p) = φ * (-p / Kf) ↔ p = -(s ⬝ᵥ poreVec S K0) / d := by
    intro s p
    rw [response_pore, add_dotProduct, smul_dotProduct, hydro_poreVec hS hK, eq_div_iff hd, hd', cc,
      smul_eq_mul]
    constructor
    · intro h
      field_simp at h ⊢
      linear_combination h
    · intro h
      field_simp at h ⊢
      linear_combination h
  refine ⟨fun s => ⟨_, (key s _).mpr rfl⟩, fun s p hp => ?_⟩
  rw [response_strain, (key s p).mp hp]
  ext i
  have : (bkUp K0 S d).mulVec s i = S.mulVec s i - sP K0 S i * (∑ j, s j * sP K0 S j) / d := by
    simp only [Matrix.mulVec, dotProduct, bkUp]
    rw [Finset.mul_sum, Finset.sum_div, ← Finset.sum_sub_distrib]
    refine Finset.sum_congr rfl fun j _ => ?_
    ring
  rw [this]
  simp only [Pi.add_apply, Pi.smul_apply, smul_eq_mul, sP_poreVec hS, dotProduct]
  ring

variable {linv : Mat6 Fl → Except PyErr (Mat6 Fl)}

/-- Brown and Korringa's saturated compliance is the undrained compliance. -/
theorem C88_Brown_Korringa_dry2sat (hl : InvOracle linv) (S : Matrix (Fin 6) (Fin 6) ℝ)
    (K0 G0 Kf φ : ℝ) (hS : S.IsSymm) (hK : K0 ≠ 0) (hG : G0 ≠ 0) (hf : Kf ≠ 0)
    (hd : (1 / Kf - 1 / K0) * φ + (beta S - 1 / K0) ≠ 0) :
    ∃ T : Matrix (Fin 6) (Fin 6) ℝ,
      Brown_Korringa_dry2sat linv (S.map fin) (fin K0) (fin G0) (fin Kf) (fin φ)
        = .ok (T.map fin) ∧ IsUndrainedCompliance S K0 φ Kf T :=
  ⟨_, dry2sat_eval hl hK hG hf hd, bkUp_undrained hS hK hf hd⟩

/-- Removing the fluid gives the drained compliance of which the input is the undrained one. -/
theorem C88_Brown_Korringa_sat2dry (hl : InvOracle linv) (T : Matrix (Fin 6) (Fin 6) ℝ)
    (K0 G0 Kf φ : ℝ) (hT : T.IsSymm) (h : BKSat T K0 G0 Kf φ) :
    ∃ S : Matrix (Fin 6) (Fin 6) ℝ,
      Brown_Korringa_sat2dry linv (T.map fin) (fin K0) (fin G0) (fin Kf) (fin φ)
        = .ok (S.map fin) ∧ IsUndrainedCompliance S K0 φ Kf T := by
  obtain ⟨hK, hG, hf, hc, hd⟩ := h
  refine ⟨_, sat2dry_eval hl hK hG hf hd, ?_⟩
  obtain ⟨n, e⟩ := bkUp_bkUp' (c := cc K0 Kf φ) (S := T) hK hc hd
  have sy : (bkUp K0 T (-(cc K0 Kf φ - (beta T - 1 / K0)))).IsSymm := by
    ext i j
    rw [Matrix.transpose_apply]
    unfold bkUp
    rw [hT.apply, mul_comm (sP K0 T j)]
  have := bkUp_undrained sy hK hf n
  rwa [e] at this

/-- Substituting fluids: there is a dry rock of which input and output are the undrained
compliances with the old and the new fluid. -/
theorem C88_Brown_Korringa_sub (hl : InvOracle linv) (C T : Matrix (Fin 6) (Fin 6) ℝ)
    (K0 G0 K1 K2 φ : ℝ) (hCT : C * T = 1) (hT : T.IsSymm) (h : BKSat T K0 G0 K1 φ)
    (C2 T2 : Mat6 ℝ)
    (h2 : Brown_Korringa_sub linv (C.map fin) (fin K0) (fin G0) (fin K1) (fin K2) (fin φ)
      = .ok (C2.map fin, T2.map fin)) (hf2 : K2 ≠ 0) :
    ∃ S : Matrix (Fin 6) (Fin 6) ℝ,
      IsUndrainedCompliance S K0 φ K1 T ∧ IsUndrainedCompliance S K0 φ K2 T2 := by
  obtain ⟨S, e1, e2⟩ := C88_Brown_Korringa_sat2dry hl T K0 G0 K1 φ hT h
  have hS : S.IsSymm := by
    rw [sat2dry_eval hl h.1 h.2.1 h.2.2.1 h.2.2.2.2] at e1
    injection e1 with e1
    have eS := map_fin_inj e1
    rw [← eS]
    ext i j
    rw [Matrix.transpose_apply]
    unfold bkUp
    rw [hT.apply, mul_comm (sP K0 T j)]
  refine ⟨S, e2, ?_⟩
  obtain ⟨hK, hG, -⟩ := h
  unfold Brown_Korringa_sub at h2
  rw [hl C T hCT, except_ok_bind, e1, except_ok_bind] at h2
  cases hs : Brown_Korringa_dry2sat linv (S.map fin) (fin K0) (fin G0) (fin K2) (fin φ) with
  | error e => rw [hs, except_error_bind] at h2; exact absurd h2 (by rintro ⟨⟩)
  | ok X =>
    rw [hs, except_ok_bind] at h2
    cases hx : linv X with
    | error e => rw [hx, except_error_bind] at h2; exact absurd h2 (by rintro ⟨⟩)
    | ok Y =>
      rw [hx, except_ok_bind, except_pure] at h2
      injection h2 with h2
      injection h2 with _ hX
      subst hX
      have hden : cc K0 K2 φ + (beta S - 1 / K0) ≠ 0 := by
        intro hz
        unfold Brown_Korringa_dry2sat at hs
        rw [utils.write_iso_eval, hl _ _ (isoMatrix_mul_isoCompliance hK hG), except_ok_bind] at hs
        have e : (1 / fin K2 - 1 / fin K0) * fin φ + (sum33 (S.map fin) - 1 / fin K0)
            = fin 0 := by
          rw [← hz]
          unfold sum33 cc beta
          fl_eval [rows3_map]
        simp only [e, except_pure, fl_div_zero] at hs
        injection hs with hs
        have := congrFun (congrFun hs 0) 0
        simp only [Matrix.map_apply, fl] at this
        exact absurd this bad_ne_fin
      rw [dry2sat_eval hl hK hG hf2 hden] at hs
      injection hs with hs
      have := bkUp_undrained hS hK hf2 hden
      rwa [map_fin_inj hs] at this

/-- Gassmann's bulk modulus and the dry shear modulus are the undrained moduli of an isotropic
rock. -/
theorem C88_Gassmann (Kd G K0 Kf φ : ℝ) (h : GassmannRock Kd K0 Kf φ) (hd : 0 < Kd) (hG : 0 < G) :
    ∃ Ks : ℝ, Gassmann (fin Kd) (fin G) (fin K0) (fin Kf) (fin φ) = (fin Ks, fin G) ∧
      IsUndrainedCompliance (isoCompliance Kd G) K0 φ Kf (isoCompliance Ks G) := by
  obtain ⟨linv, hl⟩ := InvOracle.exists
  have h0 := GassmannRock.mineral_pos h
  have hf := h.fluid_pos
  have hφ := h.por_pos
  have eb : beta (isoCompliance Kd G) = 1 / Kd := by
    unfold beta
    rw [rows_iso hG.ne', rows_iso hG.ne', rows_iso hG.ne']
    simp [s0]; field
  have dpos : 0 < cc K0 Kf φ + (1 / Kd - 1 / K0) := by
    have h1 : 0 < 1 / Kd - 1 / K0 := sub_pos.mpr (one_div_lt_one_div_of_lt hd h.dry_lt)
    have h2 : 0 < 1 / Kf - 1 / K0 := sub_pos.mpr (one_div_lt_one_div_of_lt hf h.fluid_lt)
    unfold cc; positivity
  have sy : (isoCompliance Kd G).IsSymm := by
    ext i j; fin_cases i <;> fin_cases j <;> rfl
  obtain ⟨Ks, h1, h2⟩ := C30_isotropic_Gassmann hl Kd G K0 1 Kf φ h hd hG one_pos
  obtain ⟨T, h3, h4⟩ := C88_Brown_Korringa_dry2sat hl (isoCompliance Kd G) K0 1 Kf φ sy h0.ne'
    one_ne_zero hf.ne' (by rw [eb]; exact dpos.ne')
  rw [h2] at h3
  injection h3 with h3
  rw [← map_fin_inj h3] at h4
  exact ⟨Ks, h1, h4⟩

/-- Non-vacuity: a sandstone and brine. -/
example : GassmannRock 12 37 2.3 0.2 ∧ (isoCompliance 12 9).IsSymm :=
  ⟨⟨by norm_num, by norm_num, by norm_num, by norm_num, by norm_num⟩, by
    ext i j; fin_cases i <;> fin_cases j <;> rfl⟩

end RockPhy.Props
