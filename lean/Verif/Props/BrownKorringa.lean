import Verif.Props.Fluid
import Verif.Lemmas.Utils
import Verif.Spec.LinAlg
import Mathlib.Algebra.BigOperators.Field

/-! # Properties C29, C30 (anisotropic fluid substitution) -/

namespace RockPhy.Spec

/-- The isotropic compliance with bulk modulus `K` and shear modulus `G`. -/
noncomputable def isoCompliance (K G : ℝ) : Matrix (Fin 6) (Fin 6) ℝ :=
  orthoMatrix (1 / (9 * K) + 1 / (3 * G)) (1 / (9 * K) + 1 / (3 * G)) (1 / (9 * K) + 1 / (3 * G))
    (1 / (9 * K) - 1 / (6 * G)) (1 / (9 * K) - 1 / (6 * G)) (1 / (9 * K) - 1 / (6 * G))
    (1 / G) (1 / G) (1 / G)

/-- Sum of the normal-stress rows of column `j`: dilatation caused by unit stress `j`. -/
def rRows (S : Matrix (Fin 6) (Fin 6) ℝ) (j : Fin 6) : ℝ := S 0 j + S 1 j + S 2 j

/-- Compressibility of a compliance matrix: dilatation caused by unit hydrostatic stress. -/
def beta (S : Matrix (Fin 6) (Fin 6) ℝ) : ℝ := rRows S 0 + rRows S 1 + rRows S 2

theorem isoMatrix_mul_isoCompliance {K G : ℝ} (hK : K ≠ 0) (hG : G ≠ 0) :
    isoMatrix K G * isoCompliance K G = 1 := by
  unfold isoMatrix isoCompliance orthoMatrix
  ext i j
  fin_cases i <;> fin_cases j <;>
    simp [Matrix.mul_apply, Fin.sum_univ_succ] <;> field

end RockPhy.Spec

namespace RockPhy.Fluid

open Fl Spec

/-- The same sums for the mineral. -/
noncomputable def s0 (K0 : ℝ) (j : Fin 6) : ℝ := if j.val < 3 then 1 / (3 * K0) else 0

noncomputable def sP (K0 : ℝ) (S : Mat6 ℝ) (j : Fin 6) : ℝ := rRows S j - s0 K0 j

theorem rows3_map (S : Mat6 ℝ) (j : Fin 6) : rows3 (S.map fin) j = fin (rRows S j) := by
  simp only [rows3, rRows, Matrix.map_apply, fl]

theorem rows_iso {K0 G0 : ℝ} (hG : G0 ≠ 0) (j : Fin 6) :
    rRows (isoCompliance K0 G0) j = s0 K0 j := by
  unfold rRows s0 isoCompliance orthoMatrix
  fin_cases j <;> simp <;> field

theorem beta_sP {K0 : ℝ} (hK : K0 ≠ 0) (S : Mat6 ℝ) :
    sP K0 S 0 + sP K0 S 1 + sP K0 S 2 = beta S - 1 / K0 := by
  simp [sP, s0, beta]
  field

/-- The update `S - s sᵀ / d`. -/
noncomputable def bkUp (K0 : ℝ) (S : Mat6 ℝ) (d : ℝ) : Mat6 ℝ := fun i j =>
  S i j - sP K0 S i * sP K0 S j / d

variable {linv : Mat6 Fl → Except PyErr (Mat6 Fl)} {K0 G0 Kf φ : ℝ} {S : Mat6 ℝ}

/-- `(1/Kf - 1/K0) phi`. -/
noncomputable def cc (K0 Kf φ : ℝ) : ℝ := (1 / Kf - 1 / K0) * φ

theorem dry2sat_eval (hl : InvOracle linv) (hK : K0 ≠ 0) (hG : G0 ≠ 0) (hf : Kf ≠ 0)
    (hd : cc K0 Kf φ + (beta S - 1 / K0) ≠ 0) :
    Brown_Korringa_dry2sat linv (S.map fin) (fin K0) (fin G0) (fin Kf) (fin φ)
      = .ok ((bkUp K0 S (cc K0 Kf φ + (beta S - 1 / K0))).map fin) := by
  unfold Brown_Korringa_dry2sat
  rw [utils.write_iso_eval, hl _ _ (isoMatrix_mul_isoCompliance hK hG), except_ok_bind]
  have e : (1 / fin Kf - 1 / fin K0) * fin φ + (sum33 (S.map fin) - 1 / fin K0)
      = fin (cc K0 Kf φ + (beta S - 1 / K0)) := by
    unfold sum33 cc beta
    fl_eval [rows3_map]
  simp only [e, rows3_map, rows_iso hG, Matrix.map_apply, except_pure]
  congr 1
  funext i j
  simp only [fl, Matrix.map_apply, bkUp, sP]
  rw [fl_div hd, fl_sub]

theorem sat2dry_eval (hl : InvOracle linv) (hK : K0 ≠ 0) (hG : G0 ≠ 0) (hf : Kf ≠ 0)
    (hd : cc K0 Kf φ - (beta S - 1 / K0) ≠ 0) :
    Brown_Korringa_sat2dry linv (S.map fin) (fin K0) (fin G0) (fin Kf) (fin φ)
      = .ok ((bkUp K0 S (-(cc K0 Kf φ - (beta S - 1 / K0)))).map fin) := by
  unfold Brown_Korringa_sat2dry
  rw [utils.write_iso_eval, hl _ _ (isoMatrix_mul_isoCompliance hK hG), except_ok_bind]
  have e : (1 / fin Kf - 1 / fin K0) * fin φ - (sum33 (S.map fin) - 1 / fin K0)
      = fin (cc K0 Kf φ - (beta S - 1 / K0)) := by
    unfold sum33 cc beta
    fl_eval [rows3_map]
  simp only [e, rows3_map, rows_iso hG, Matrix.map_apply, except_pure]
  congr 1
  funext i j
  simp only [fl, Matrix.map_apply, bkUp, sP]
  rw [fl_div hd, fl_add, div_neg, sub_neg_eq_add]

theorem sP_bkUp (hK : K0 ≠ 0) {d : ℝ} (j : Fin 6) :
    sP K0 (bkUp K0 S d) j = sP K0 S j * (1 - (beta S - 1 / K0) / d) := by
  have hb := beta_sP hK S
  have : sP K0 (bkUp K0 S d) j
      = sP K0 S j - (sP K0 S 0 + sP K0 S 1 + sP K0 S 2) * sP K0 S j / d := by
    conv_lhs => unfold sP rRows
    simp only [bkUp]
    have : sP K0 S j = S 0 j + S 1 j + S 2 j - s0 K0 j := rfl
    rw [this]; ring
  rw [this, hb]; ring

theorem beta_bkUp (hK : K0 ≠ 0) {d : ℝ} :
    beta (bkUp K0 S d) - 1 / K0 = (beta S - 1 / K0) * (1 - (beta S - 1 / K0) / d) := by
  rw [← beta_sP hK, sP_bkUp hK, sP_bkUp hK, sP_bkUp hK]
  conv_rhs => rw [← beta_sP hK S]
  rw [beta_sP hK S, ← beta_sP hK S]; ring

/-- Doing the update and then undoing it. -/
theorem bkUp_bkUp (hK : K0 ≠ 0) {c : ℝ} (hc : c ≠ 0) (hd : c + (beta S - 1 / K0) ≠ 0) :
    c - (beta (bkUp K0 S (c + (beta S - 1 / K0))) - 1 / K0) ≠ 0 ∧
    bkUp K0 (bkUp K0 S (c + (beta S - 1 / K0)))
      (-(c - (beta (bkUp K0 S (c + (beta S - 1 / K0))) - 1 / K0))) = S := by
  have e : c - (beta (bkUp K0 S (c + (beta S - 1 / K0))) - 1 / K0)
      = c ^ 2 / (c + (beta S - 1 / K0)) := by
    rw [beta_bkUp hK]
    generalize beta S - 1 / K0 = b at *
    field
  rw [e]
  have n : c ^ 2 / (c + (beta S - 1 / K0)) ≠ 0 := by positivity
  refine ⟨n, ?_⟩
  funext i j
  have u : bkUp K0 (bkUp K0 S (c + (beta S - 1 / K0))) (-(c ^ 2 / (c + (beta S - 1 / K0)))) i j
      = bkUp K0 S (c + (beta S - 1 / K0)) i j - sP K0 (bkUp K0 S (c + (beta S - 1 / K0))) i
        * sP K0 (bkUp K0 S (c + (beta S - 1 / K0))) j / (-(c ^ 2 / (c + (beta S - 1 / K0)))) := rfl
  rw [u, sP_bkUp hK, sP_bkUp hK]
  simp only [bkUp]
  generalize beta S - 1 / K0 = b at *
  generalize sP K0 S i = x
  generalize sP K0 S j = y
  field

/-- The same in the other order. -/
theorem bkUp_bkUp' (hK : K0 ≠ 0) {c : ℝ} (hc : c ≠ 0) (hd : c - (beta S - 1 / K0) ≠ 0) :
    c + (beta (bkUp K0 S (-(c - (beta S - 1 / K0)))) - 1 / K0) ≠ 0 ∧
    bkUp K0 (bkUp K0 S (-(c - (beta S - 1 / K0))))
      (c + (beta (bkUp K0 S (-(c - (beta S - 1 / K0)))) - 1 / K0)) = S := by
  have e : -(c - (beta S - 1 / K0)) = -c + (beta S - 1 / K0) := by ring
  have := bkUp_bkUp (S := S) hK (neg_ne_zero.mpr hc) (by rw [← e]; exact neg_ne_zero.mpr hd)
  rw [← e] at this
  have e2 : -(-c - (beta (bkUp K0 S (-(c - (beta S - 1 / K0)))) - 1 / K0))
      = c + (beta (bkUp K0 S (-(c - (beta S - 1 / K0)))) - 1 / K0) := by ring
  rw [e2] at this
  refine ⟨?_, this.2⟩
  rw [← e2]; exact neg_ne_zero.mpr this.1

end RockPhy.Fluid

namespace RockPhy.Props

open Fl Fluid Spec

variable {linv : Mat6 Fl → Except PyErr (Mat6 Fl)}

/-- The non-singular cases: non-zero mineral moduli, a fluid different from the mineral, pores,
and a non-zero denominator. -/
def BKDry (S : Mat6 ℝ) (K0 G0 Kf φ : ℝ) : Prop :=
  K0 ≠ 0 ∧ G0 ≠ 0 ∧ Kf ≠ 0 ∧ (1 / Kf - 1 / K0) * φ ≠ 0 ∧
    (1 / Kf - 1 / K0) * φ + (beta S - 1 / K0) ≠ 0

def BKSat (S : Mat6 ℝ) (K0 G0 Kf φ : ℝ) : Prop :=
  K0 ≠ 0 ∧ G0 ≠ 0 ∧ Kf ≠ 0 ∧ (1 / Kf - 1 / K0) * φ ≠ 0 ∧
    (1 / Kf - 1 / K0) * φ - (beta S - 1 / K0) ≠ 0

/-! ## C29 -/

/-- Drying a saturated rock recovers the dry rock it was made from. -/
theorem C29_sat2dry_dry2sat (hl : InvOracle linv) (S : Mat6 ℝ) (K0 G0 Kf φ : ℝ)
    (h : BKDry S K0 G0 Kf φ) :
    ∃ S' : Mat6 ℝ,
      Brown_Korringa_dry2sat linv (S.map fin) (fin K0) (fin G0) (fin Kf) (fin φ)
        = .ok (S'.map fin) ∧
      Brown_Korringa_sat2dry linv (S'.map fin) (fin K0) (fin G0) (fin Kf) (fin φ)
        = .ok (S.map fin) := by
  obtain ⟨hK, hG, hf, hc, hd⟩ := h
  refine ⟨_, dry2sat_eval hl hK hG hf hd, ?_⟩
  obtain ⟨n, e⟩ := bkUp_bkUp (c := cc K0 Kf φ) (S := S) hK hc hd
  rw [sat2dry_eval hl hK hG hf n]
  exact congrArg (fun M : Mat6 ℝ => Except.ok (M.map fin)) e

/-- Saturating a dried rock recovers the saturated rock. -/
theorem C29_dry2sat_sat2dry (hl : InvOracle linv) (S : Mat6 ℝ) (K0 G0 Kf φ : ℝ)
    (h : BKSat S K0 G0 Kf φ) :
    ∃ S' : Mat6 ℝ,
      Brown_Korringa_sat2dry linv (S.map fin) (fin K0) (fin G0) (fin Kf) (fin φ)
        = .ok (S'.map fin) ∧
      Brown_Korringa_dry2sat linv (S'.map fin) (fin K0) (fin G0) (fin Kf) (fin φ)
        = .ok (S.map fin) := by
  obtain ⟨hK, hG, hf, hc, hd⟩ := h
  refine ⟨_, sat2dry_eval hl hK hG hf hd, ?_⟩
  obtain ⟨n, e⟩ := bkUp_bkUp' (c := cc K0 Kf φ) (S := S) hK hc hd
  rw [dry2sat_eval hl hK hG hf n]
  exact congrArg (fun M : Mat6 ℝ => Except.ok (M.map fin)) e

/-- Substituting a fluid by itself returns the input stiffness and its inverse. -/
theorem C29_sub_identity (hl : InvOracle linv) (C S : Mat6 ℝ) (K0 G0 Kf φ : ℝ) (hCS : C * S = 1)
    (h : BKSat S K0 G0 Kf φ) :
    Brown_Korringa_sub linv (C.map fin) (fin K0) (fin G0) (fin Kf) (fin Kf) (fin φ)
      = .ok (C.map fin, S.map fin) := by
  obtain ⟨S', e1, e2⟩ := C29_dry2sat_sat2dry hl S K0 G0 Kf φ h
  unfold Brown_Korringa_sub
  rw [hl C S hCS, except_ok_bind, e1, except_ok_bind, e2, except_ok_bind,
    hl S C (mul_eq_one_comm.mp hCS), except_ok_bind, except_pure]

/-- Substituting 1 by 2 and then 2 by 3 gives the same as substituting 1 by 3. -/
theorem C29_sub_path (hl : InvOracle linv) (C S C2 S2 : Mat6 ℝ) (K0 G0 K1 K2 K3 φ : ℝ)
    (hCS : C * S = 1) (hCS2 : C2 * S2 = 1) (h1 : BKSat S K0 G0 K1 φ)
    (h2 : BKSat S2 K0 G0 K2 φ)
    (h12 : Brown_Korringa_sub linv (C.map fin) (fin K0) (fin G0) (fin K1) (fin K2) (fin φ)
      = .ok (C2.map fin, S2.map fin)) :
    Brown_Korringa_sub linv (C2.map fin) (fin K0) (fin G0) (fin K2) (fin K3) (fin φ)
      = Brown_Korringa_sub linv (C.map fin) (fin K0) (fin G0) (fin K1) (fin K3) (fin φ) := by
  obtain ⟨D1, e1, f1⟩ := C29_dry2sat_sat2dry hl S K0 G0 K1 φ h1
  obtain ⟨D2, e2, f2⟩ := C29_dry2sat_sat2dry hl S2 K0 G0 K2 φ h2
  unfold Brown_Korringa_sub at h12 ⊢
  rw [hl C S hCS, except_ok_bind, e1, except_ok_bind] at h12 ⊢
  rw [hl C2 S2 hCS2, except_ok_bind, e2, except_ok_bind]
  suffices D2 = D1 by rw [this]
  -- both dry rocks saturate to `S2` with fluid 2
  cases hs : Brown_Korringa_dry2sat linv (D1.map fin) (fin K0) (fin G0) (fin K2) (fin φ) with
  | error e => rw [hs, except_error_bind] at h12; exact absurd h12 (by rintro ⟨⟩)
  | ok X =>
    rw [hs, except_ok_bind] at h12
    cases hx : linv X with
    | error e => rw [hx, except_error_bind] at h12; exact absurd h12 (by rintro ⟨⟩)
    | ok Y =>
      rw [hx, except_ok_bind, except_pure] at h12
      injection h12 with h12
      injection h12 with _ hX
      subst hX
      obtain ⟨hK, hG, hf2, hc2, hd2⟩ := h2
      -- the denominator for `D1` cannot vanish, because the result is finite
      have hden : cc K0 K2 φ + (beta D1 - 1 / K0) ≠ 0 := by
        intro hz
        unfold Brown_Korringa_dry2sat at hs
        rw [utils.write_iso_eval, hl _ _ (isoMatrix_mul_isoCompliance hK hG), except_ok_bind] at hs
        have e : (1 / fin K2 - 1 / fin K0) * fin φ + (sum33 (D1.map fin) - 1 / fin K0)
            = fin 0 := by
          rw [← hz]
          unfold sum33 cc beta
          fl_eval [rows3_map]
        simp only [e, except_pure, fl_div_zero] at hs
        injection hs with hs
        have := congrFun (congrFun hs 0) 0
        simp only [Matrix.map_apply, fl] at this
        exact absurd this bad_ne_fin
      have hs' := hs
      rw [dry2sat_eval hl hK hG hf2 hden] at hs'
      injection hs' with hs'
      have eS : bkUp K0 D1 (cc K0 K2 φ + (beta D1 - 1 / K0)) = S2 := by
        ext i j
        have := congrFun (congrFun hs' i) j
        simpa using this
      obtain ⟨n, e⟩ := bkUp_bkUp (c := cc K0 K2 φ) (S := D1) hK hc2 hden
      rw [eS] at n e
      rw [sat2dry_eval hl hK hG hf2 n, e] at e2
      injection e2 with e2
      ext i j
      have := congrFun (congrFun e2 i) j
      simpa using this.symm

/-- Shear rows and columns of an orthorhombic (or higher) compliance are untouched. -/
theorem C29_shear_entries (hl : InvOracle linv) (S : Mat6 ℝ) (K0 G0 Kf φ : ℝ)
    (h : BKDry S K0 G0 Kf φ) (ho : ∀ i j : Fin 6, i.val < 3 → 3 ≤ j.val → S i j = 0)
    (i j : Fin 6) (hij : 3 ≤ i.val ∨ 3 ≤ j.val) :
    ∃ S' : Mat6 ℝ,
      Brown_Korringa_dry2sat linv (S.map fin) (fin K0) (fin G0) (fin Kf) (fin φ)
        = .ok (S'.map fin) ∧ S' i j = S i j := by
  obtain ⟨hK, hG, hf, hc, hd⟩ := h
  refine ⟨_, dry2sat_eval hl hK hG hf hd, ?_⟩
  have z : ∀ k : Fin 6, 3 ≤ k.val → sP K0 S k = 0 := fun k hk => by
    unfold sP rRows s0
    rw [ho 0 k (by decide) hk, ho 1 k (by decide) hk, ho 2 k (by decide) hk,
      if_neg (by omega)]
    norm_num
  unfold bkUp
  rcases hij with hk | hk <;> rw [z _ hk] <;> simp

/-- Saturating never makes the rock more compliant (for any loading), if the denominator is
positive; symmetry of the compliance matrix is kept. -/
theorem C29_stiffens (hl : InvOracle linv) (S : Mat6 ℝ) (K0 G0 Kf φ : ℝ)
    (h : BKDry S K0 G0 Kf φ) (hpos : 0 < (1 / Kf - 1 / K0) * φ + (beta S - 1 / K0)) :
    ∃ S' : Mat6 ℝ,
      Brown_Korringa_dry2sat linv (S.map fin) (fin K0) (fin G0) (fin Kf) (fin φ)
        = .ok (S'.map fin) ∧
      (∀ x : Fin 6 → ℝ, ∑ i, ∑ j, x i * S' i j * x j ≤ ∑ i, ∑ j, x i * S i j * x j) ∧
      (S.IsSymm → S'.IsSymm) := by
  obtain ⟨hK, hG, hf, hc, hd⟩ := h
  refine ⟨_, dry2sat_eval hl hK hG hf hd, fun x => ?_, fun hs => ?_⟩
  · have hpos' : 0 < cc K0 Kf φ + (beta S - 1 / K0) := hpos
    have e : ∑ i, ∑ j, x i * bkUp K0 S (cc K0 Kf φ + (beta S - 1 / K0)) i j * x j
        = ∑ i, ∑ j, x i * S i j * x j
          - (∑ i, x i * sP K0 S i) ^ 2 / (cc K0 Kf φ + (beta S - 1 / K0)) := by
      rw [sq, Finset.sum_mul_sum, Finset.sum_div, ← Finset.sum_sub_distrib]
      refine Finset.sum_congr rfl fun i _ => ?_
      rw [Finset.sum_div, ← Finset.sum_sub_distrib]
      refine Finset.sum_congr rfl fun j _ => ?_
      unfold bkUp; ring
    rw [e]
    have : 0 ≤ (∑ i, x i * sP K0 S i) ^ 2 / (cc K0 Kf φ + (beta S - 1 / K0)) := by positivity
    linarith
  · ext i j
    rw [Matrix.transpose_apply]
    unfold bkUp
    rw [hs.apply, mul_comm (sP K0 S j)]

/-! ## C30 -/

/-- For an isotropic rock the result is the isotropic compliance of the Gassmann-saturated
rock. -/
theorem C30_isotropic_Gassmann (hl : InvOracle linv) (Kd G K0 G0 Kf φ : ℝ)
    (h : GassmannRock Kd K0 Kf φ) (hd : 0 < Kd) (hG : 0 < G) (hG0 : 0 < G0) :
    ∃ Ks : ℝ, Gassmann (fin Kd) (fin G) (fin K0) (fin Kf) (fin φ) = (fin Ks, fin G) ∧
      Brown_Korringa_dry2sat linv ((isoCompliance Kd G).map fin) (fin K0) (fin G0) (fin Kf) (fin φ)
        = .ok ((isoCompliance Ks G).map fin) := by
  have h0 := GassmannRock.mineral_pos h
  have hf := h.fluid_pos
  have hlt := h.dry_lt
  have hflt := h.fluid_lt
  have hφ := h.por_pos
  have hB := GassmannRock.gB_pos h
  refine ⟨_, Gassmann_eval h0.ne' hf.ne' hB.ne' _, ?_⟩
  have eb : beta (isoCompliance Kd G) = 1 / Kd := by
    unfold beta
    rw [rows_iso hG.ne', rows_iso hG.ne', rows_iso hG.ne']
    simp [s0]; field
  have dpos : 0 < cc K0 Kf φ + (1 / Kd - 1 / K0) := by
    have h1 : 0 < 1 / Kd - 1 / K0 := sub_pos.mpr (one_div_lt_one_div_of_lt hd hlt)
    have h2 : 0 < 1 / Kf - 1 / K0 := sub_pos.mpr (one_div_lt_one_div_of_lt hf hflt)
    unfold cc; positivity
  rw [dry2sat_eval hl h0.ne' hG0.ne' hf.ne' (by rw [eb]; exact dpos.ne'), eb]
  -- the saturated compressibility
  have key : 1 / (9 * gK Kd K0 Kf φ)
      = 1 / (9 * Kd) - ((1 / Kd - 1 / K0) / 3) ^ 2 / (cc K0 Kf φ + (1 / Kd - 1 / K0)) := by
    have gpos : 0 < gK Kd K0 Kf φ := hd.trans (GassmannRock.gK_gt h)
    have e1 : cc K0 Kf φ + (1 / Kd - 1 / K0)
        = ((K0 - Kd) * K0 * Kf + φ * (K0 - Kf) * K0 * Kd) / (K0 ^ 2 * Kf * Kd) := by
      unfold cc; field
    have hbig : 0 < (K0 - Kd) * K0 * Kf + φ * (K0 - Kf) * K0 * Kd := by
      have : 0 < K0 - Kd := by linarith
      have : 0 < K0 - Kf := by linarith
      positivity
    have e2 : gK Kd K0 Kf φ
        = ((K0 - Kd) * K0 * Kf + φ * (K0 - Kf) * K0 * Kd) / (Kf * gB Kd K0 Kf φ) := by
      have eB := gB_eq (Kd := Kd) (K0 := K0) (φ := φ) hf
      have eB' : Kf * gB Kd K0 Kf φ = Kf * (K0 - Kd) + φ * K0 * (K0 - Kf) := by rw [eB]; field
      unfold gK
      generalize gB Kd K0 Kf φ = b at *
      have hb : (K0 - Kd) ^ 2 / b * (Kf * b) = (K0 - Kd) ^ 2 * Kf := by field
      rw [eq_div_iff (by positivity), add_mul, hb]
      linear_combination Kd * eB'
    have e3 : Kf * gB Kd K0 Kf φ = Kf * (K0 - Kd) + φ * K0 * (K0 - Kf) := by
      rw [gB_eq hf]; field
    rw [e1, e2, e3]
    have hq : 0 < Kf * (K0 - Kd) + φ * K0 * (K0 - Kf) := by rw [← e3]; positivity
    rw [div_div_eq_mul_div, mul_div_assoc', one_div_div]
    rw [eq_sub_iff_add_eq, div_add_div _ _ (by positivity) hbig.ne', div_eq_div_iff
      (by positivity) (by positivity)]
    field
  congr 1
  have s3 : ∀ j : Fin 6, sP K0 (isoCompliance Kd G) j
      = if j.val < 3 then (1 / Kd - 1 / K0) / 3 else 0 := fun j => by
    unfold sP
    rw [rows_iso hG.ne']
    unfold s0
    split
    · field
    · norm_num
  generalize hD : cc K0 Kf φ + (1 / Kd - 1 / K0) = D at *
  ext i j
  simp only [Matrix.map_apply, fin_inj, bkUp, s3]
  unfold isoCompliance orthoMatrix
  rw [key]
  generalize (1 / Kd - 1 / K0) / 3 = x
  fin_cases i <;> fin_cases j <;> simp <;> ring

example : BKDry (isoCompliance 12 9) 37 44 2.3 0.2 ∧ BKSat (isoCompliance 20 9) 37 44 2.3 0.2 := by
  have e : ∀ K : ℝ, beta (isoCompliance K 9) = 1 / (3 * K) + 1 / (3 * K) + 1 / (3 * K) := by
    intro K
    unfold beta
    rw [rows_iso (by norm_num), rows_iso (by norm_num), rows_iso (by norm_num)]
    simp [s0]
  unfold BKDry BKSat
  rw [e, e]
  norm_num

end RockPhy.Props
