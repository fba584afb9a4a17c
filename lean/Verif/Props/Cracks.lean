import Verif.Spec.Cracks
import Verif.Props.Squirt

/-! # C100: squirt flow from the compliance of cracks -/

namespace RockPhy.Props

open Fl Fluid Spec Matrix

/-- The crack that, dry, behaves like `c` filled with trapped fluid. -/
noncomputable def wetCrack (Kf : ℝ) (c : Crack) : Crack :=
  { c with zN := c.zN * c.vol / (Kf * c.zN + c.vol) }

theorem trapped_strain {c : Crack} (h : c.Valid) {Kf : ℝ} (hf : 0 < Kf) {s : Strain} {p : ℝ}
    (ht : c.Trapped Kf s p) : c.strain s p = (wetCrack Kf c).strain s 0 := by
  have hu := h.unit
  have hN := h.zN_nonneg
  have hV := h.vol_nonneg
  unfold Crack.Trapped Crack.jump at ht
  dsimp only at ht
  rw [add_dotProduct, smul_dotProduct, smul_dotProduct, sub_dotProduct, smul_dotProduct, hu] at ht
  simp only [smul_eq_mul, mul_one, sub_self, mul_zero, add_zero] at ht
  unfold Crack.strain Crack.jump wetCrack
  dsimp only
  generalize s *ᵥ c.n ⬝ᵥ c.n = t at *
  have : c.zN * (t + p) = c.zN * c.vol / (Kf * c.zN + c.vol) * (t + 0) := by
    rcases eq_or_lt_of_le hN with h0 | h0
    · rw [← h0]; simp
    · have : 0 < Kf * c.zN + c.vol := by positivity
      field_simp
      linear_combination ht
  rw [this]

theorem trapped_exists (c : Crack) (h : c.Valid) {Kf : ℝ} (hf : 0 < Kf) (s : Strain) :
    ∃ p, c.Trapped Kf s p := by
  have hu := h.unit
  have hN := h.zN_nonneg
  have hV := h.vol_nonneg
  refine ⟨-(Kf * c.zN * (s *ᵥ c.n ⬝ᵥ c.n)) / (Kf * c.zN + c.vol), ?_⟩
  unfold Crack.Trapped Crack.jump
  dsimp only
  rw [add_dotProduct, smul_dotProduct, smul_dotProduct, sub_dotProduct, smul_dotProduct, hu]
  simp only [smul_eq_mul, mul_one, sub_self, mul_zero, add_zero]
  rcases eq_or_lt_of_le hN with h0 | h0
  · rw [← h0]; simp
  · have : 0 < Kf * c.zN + c.vol := by positivity
    field_simp
    ring

theorem wetStrain_iff {m : ℕ} {B : Strain → Strain} {c : Fin m → Crack} (h : ∀ i, (c i).Valid)
    {Kf : ℝ} (hf : 0 < Kf) (s e : Strain) :
    IsWetStrain B c Kf s e ↔ e = dryStrain B (fun i => wetCrack Kf (c i)) s := by
  constructor
  · rintro ⟨p, hp, rfl⟩
    unfold dryStrain
    congr 1
    exact Finset.sum_congr rfl fun i _ => trapped_strain (h i) hf (hp i)
  · rintro rfl
    choose p hp using fun i => trapped_exists (c i) (h i) hf s
    refine ⟨p, hp, ?_⟩
    unfold dryStrain
    congr 1
    exact Finset.sum_congr rfl fun i _ => (trapped_strain (h i) hf (hp i)).symm

/-- The symmetric unit stresses. -/
noncomputable def unitStress (a b : Fin 3) : Strain :=
  (1 / 2 : ℝ) • (Matrix.single a b 1 + Matrix.single b a 1)

theorem unitStress_symm (a b : Fin 3) : (unitStress a b).IsSymm := by
  unfold unitStress Matrix.IsSymm
  rw [transpose_smul, transpose_add, transpose_single, transpose_single, add_comm]

theorem crack_strain_entry (c : Crack) (s : Strain) (i j : Fin 3) :
    c.strain s 0 i j = (1 / 2) * ((c.jump s 0) i * c.n j + c.n i * (c.jump s 0) j) := by
  unfold Crack.strain
  simp [vecMulVec_apply]

theorem jump_entry (c : Crack) (s : Strain) (i : Fin 3) : c.jump s 0 i
    = c.zN * (∑ a, ∑ b, s a b * c.n b * c.n a) * c.n i
      + c.zT * (∑ b, s i b * c.n b - (∑ a, ∑ b, s a b * c.n b * c.n a) * c.n i) := by
  unfold Crack.jump
  simp [mulVec, dotProduct, Finset.sum_mul]

/-- The two invariants of a crack's compliance. -/
theorem crack_traces {c : Crack} (hu : c.n ⬝ᵥ c.n = 1) :
    (c.strain 1 0).trace = c.zN ∧
    ∑ a, ∑ b, c.strain (unitStress a b) 0 a b = c.zN + c.zT := by
  have hu' : c.n 0 ^ 2 + c.n 1 ^ 2 + c.n 2 ^ 2 = 1 := by
    rw [← hu]; simp [dotProduct, Fin.sum_univ_three]; ring
  constructor
  · simp only [Matrix.trace, diag_apply, crack_strain_entry, jump_entry, Fin.sum_univ_three,
      one_apply]
    simp
    linear_combination (c.zN * (c.n 0 ^ 2 + c.n 1 ^ 2 + c.n 2 ^ 2 + 1)
      - c.zT * (c.n 0 ^ 2 + c.n 1 ^ 2 + c.n 2 ^ 2)) * hu'
  · simp only [crack_strain_entry, jump_entry, Fin.sum_univ_three, unitStress]
    simp [Matrix.single, Matrix.of_apply]
    linear_combination (c.zN * (c.n 0 ^ 2 + c.n 1 ^ 2 + c.n 2 ^ 2 + 1)
      - c.zT * (c.n 0 ^ 2 + c.n 1 ^ 2 + c.n 2 ^ 2 - 1)) * hu'

theorem iso_traces {K G : ℝ} : (isoStrain K G 1).trace = 1 / K ∧
    ∑ a, ∑ b, isoStrain K G (unitStress a b) a b = 1 / (3 * K) + 5 / (2 * G) := by
  constructor
  · simp [isoStrain, Matrix.trace]
    ring
  · simp [isoStrain, Matrix.trace, Fin.sum_univ_three, unitStress, Matrix.single, Matrix.of_apply]
    ring

/-- Cracks without preferred direction: what they add to the two compliances. -/
theorem iso_cracks {m : ℕ} {c : Fin m → Crack} (hu : ∀ i, (c i).n ⬝ᵥ (c i).n = 1) {K G Kh Gh : ℝ}
    (hd : ∀ s : Strain, s.IsSymm → dryStrain (isoStrain Kh Gh) c s = isoStrain K G s) :
    1 / K = 1 / Kh + ∑ i, (c i).zN ∧
    1 / G = 1 / Gh + 4 / 15 * ∑ i, (c i).zN + 2 / 5 * ∑ i, (c i).zT := by
  have h1 := congrArg Matrix.trace (hd 1 Matrix.isSymm_one)
  unfold dryStrain at h1
  rw [trace_add, trace_sum, iso_traces.1, iso_traces.1,
    Finset.sum_congr rfl fun i _ => (crack_traces (hu i)).1] at h1
  have h2 : ∑ a, ∑ b, dryStrain (isoStrain Kh Gh) c (unitStress a b) a b
      = ∑ a, ∑ b, isoStrain K G (unitStress a b) a b :=
    Finset.sum_congr rfl fun a _ => Finset.sum_congr rfl fun b _ => by
      rw [hd _ (unitStress_symm a b)]
  have h3 : ∑ a, ∑ b, dryStrain (isoStrain Kh Gh) c (unitStress a b) a b
      = ∑ a, ∑ b, isoStrain Kh Gh (unitStress a b) a b
        + ∑ i, ∑ a, ∑ b, (c i).strain (unitStress a b) 0 a b := by
    have e : ∑ i, ∑ a, ∑ b, (c i).strain (unitStress a b) 0 a b
        = ∑ a, ∑ b, ∑ i, (c i).strain (unitStress a b) 0 a b := by
      rw [Finset.sum_comm]
      exact Finset.sum_congr rfl fun a _ => Finset.sum_comm
    rw [e, ← Finset.sum_add_distrib]
    refine Finset.sum_congr rfl fun a _ => ?_
    rw [← Finset.sum_add_distrib]
    refine Finset.sum_congr rfl fun b _ => ?_
    unfold dryStrain
    rw [Matrix.add_apply, Matrix.sum_apply]
  rw [h3, iso_traces.2, iso_traces.2, Finset.sum_congr rfl fun i _ => (crack_traces (hu i)).2,
    Finset.sum_add_distrib] at h2
  refine ⟨h1.symm, ?_⟩
  have e : ∀ x : ℝ, 1 / (3 * x) = 1 / 3 * (1 / x) := fun x => by ring
  have e' : ∀ x : ℝ, 5 / (2 * x) = 5 / 2 * (1 / x) := fun x => by ring
  rw [e, e, e', e'] at h2
  linarith

/-- **C100.** A rock with cracks in all directions is isotropic dry (`Kd`, `Gd`), with closed cracks
(`Kh`, `Gh`) and with fluid trapped in the cracks (`Kw`, `Gw`).  Given the dry and the high-pressure
velocities, `Fluid.Mavko_Jizba` uses the frame `Kh` for `Kw` and returns for `Gw` the shear modulus
`Gs` of a rock whose cracks slide but do not open.  Both errors come from the compressibility of the
fluid in the cracks, and vanish with the volume of the cracks. -/
theorem C100_isotropic {m : ℕ} (c : Fin m → Crack) (hc : ∀ i, (c i).Valid)
    (Kd Gd Kh Gh Kw Gw K0 Kf φ ρ ρf : ℝ) (hρ : 0 < ρ) (hρf : 0 ≤ ρf) (hKd : 0 < Kd) (hGd : 0 < Gd)
    (hKh : 0 < Kh) (hGh : 0 < Gh) (hg : GassmannRock Kh K0 Kf φ)
    (hd : ∀ s : Strain, s.IsSymm → dryStrain (isoStrain Kh Gh) c s = isoStrain Kd Gd s)
    (hw : ∀ s e : Strain, s.IsSymm → IsWetStrain (isoStrain Kh Gh) c Kf s e → e = isoStrain Kw Gw s) :
    ∃ Ks Gs : ℝ,
      Mavko_Jizba (utils.V (fin Kh) (fin Gh) (fin ρ)).1 (utils.V (fin Kh) (fin Gh) (fin ρ)).2
        (utils.V (fin Kd) (fin Gd) (fin ρ)).1 (utils.V (fin Kd) (fin Gd) (fin ρ)).2
        (fin K0) (fin ρ) (fin ρf) (fin Kf) (fin φ)
        = (fin Ks, fin Gs, utils.V (fin Ks) (fin Gs) (fin (ρ + φ * ρf))) ∧
      GassmannEq Kh K0 Kf φ Ks ∧
      1 / Gs = 1 / Gh + 2 / 5 * ∑ i, (c i).zT ∧
      0 ≤ 1 / Kw - 1 / Kh ∧ 1 / Kw - 1 / Kh ≤ (∑ i, (c i).vol) / Kf ∧
      1 / Gw - 1 / Gs = 4 / 15 * (1 / Kw - 1 / Kh) ∧
      ((∀ i, (c i).vol = 0) → 1 / Kw = 1 / Kh ∧ 1 / Gw = 1 / Gs) := by
  have hf := hg.fluid_pos
  obtain ⟨d1, d2⟩ := iso_cracks (fun i => (hc i).unit) hd
  obtain ⟨w1, w2⟩ := iso_cracks (c := fun i => wetCrack Kf (c i)) (fun i => (hc i).unit)
    fun s hs => hw s _ hs ((wetStrain_iff hc hf s _).mpr rfl)
  have hN : 0 ≤ ∑ i, (c i).zN := Finset.sum_nonneg fun i _ => (hc i).zN_nonneg
  have hT : 0 ≤ ∑ i, (c i).zT := Finset.sum_nonneg fun i _ => (hc i).zT_nonneg
  have hle : Kd ≤ Kh := by
    have : 1 / Kh ≤ 1 / Kd := by linarith
    rwa [one_div_le_one_div hKh hKd] at this
  have hGh' : 0 < 1 / Gh := by positivity
  obtain ⟨Ks, Gs, e, g1, g2, -, -, -, -⟩ := C62_Mavko_Jizba Kd Gd Kh Gh K0 Kf φ ρ ρf hρ hρf hKd hGd hle
    hGh.le hg (by linarith)
  have hwN : ∀ i, 0 ≤ (wetCrack Kf (c i)).zN ∧ (wetCrack Kf (c i)).zN ≤ (c i).vol / Kf := by
    intro i
    have h1 := (hc i).zN_nonneg
    have h2 := (hc i).vol_nonneg
    refine ⟨by unfold wetCrack; positivity, ?_⟩
    show (c i).zN * (c i).vol / (Kf * (c i).zN + (c i).vol) ≤ _
    rcases eq_or_lt_of_le h1 with h0 | h0
    · rw [← h0]; simp; positivity
    · rw [div_le_div_iff₀ (by positivity) hf]
      nlinarith [mul_nonneg h2 h2]
  have b0 : 0 ≤ ∑ i, (wetCrack Kf (c i)).zN := Finset.sum_nonneg fun i _ => (hwN i).1
  have b1 : ∑ i, (wetCrack Kf (c i)).zN ≤ (∑ i, (c i).vol) / Kf := by
    rw [Finset.sum_div]
    exact Finset.sum_le_sum fun i _ => (hwN i).2
  have hwT : ∑ i, (wetCrack Kf (c i)).zT = ∑ i, (c i).zT := rfl
  have g3 : 1 / Gs = 1 / Gh + 2 / 5 * ∑ i, (c i).zT := by linarith
  refine ⟨Ks, Gs, e, g1, g3, by linarith, by linarith, by linarith, fun hv => ?_⟩
  have hz : ∑ i, (wetCrack Kf (c i)).zN = 0 := Finset.sum_eq_zero fun i _ => by
    show (c i).zN * (c i).vol / (Kf * (c i).zN + (c i).vol) = 0
    rw [hv i]; simp
  constructor <;> linarith

/-! ### Vertical symmetry axis -/

/-- Fourth moments of the directions of the cracks, weighted with their normal compliances. -/
def crackMom4 {m : ℕ} (c : Fin m → Crack) (i j k l : Fin 3) : ℝ :=
  ∑ q, (c q).zN * ((c q).n i * (c q).n j * (c q).n k * (c q).n l)

/-- Second moments. -/
def crackMom2 {m : ℕ} (c : Fin m → Crack) (i j : Fin 3) : ℝ := ∑ q, (c q).zN * ((c q).n i * (c q).n j)

theorem crack_sum_entry {m : ℕ} (c : Fin m → Crack) (r : ℝ) (hr : ∀ q, (c q).zT = r * (c q).zN)
    (s : Strain) (a b : Fin 3) : (∑ q, (c q).strain s 0) a b
      = (1 - r) * (∑ k, ∑ l, s k l * crackMom4 c a b k l)
        + r / 2 * ∑ k, (s a k * crackMom2 c k b + s b k * crackMom2 c k a) := by
  rw [Matrix.sum_apply]
  have e1 : ∑ k, ∑ l, s k l * crackMom4 c a b k l
      = ∑ q, ∑ k, ∑ l, s k l * ((c q).zN * ((c q).n a * (c q).n b * (c q).n k * (c q).n l)) := by
    simp only [Fin.sum_univ_three, crackMom4, Finset.mul_sum, Finset.sum_add_distrib]
  have e2 : ∑ k, (s a k * crackMom2 c k b + s b k * crackMom2 c k a)
      = ∑ q, ∑ k, (s a k * ((c q).zN * ((c q).n k * (c q).n b))
        + s b k * ((c q).zN * ((c q).n k * (c q).n a))) := by
    simp only [Fin.sum_univ_three, crackMom2, Finset.mul_sum, Finset.sum_add_distrib]
  rw [e1, e2, Finset.mul_sum, Finset.mul_sum, ← Finset.sum_add_distrib]
  refine Finset.sum_congr rfl fun q _ => ?_
  rw [crack_strain_entry, jump_entry, jump_entry, hr]
  simp only [Fin.sum_univ_three]
  ring

theorem wet_sum_entry {m : ℕ} (c : Fin m → Crack) {Kf : ℝ} (hv : ∀ q, (c q).vol = 0)
    (s : Strain) (a b : Fin 3) : (∑ q, (wetCrack Kf (c q)).strain s 0) a b
      = (∑ q, (c q).strain s 0) a b - ∑ k, ∑ l, s k l * crackMom4 c a b k l := by
  rw [Matrix.sum_apply, Matrix.sum_apply]
  have e1 : ∑ k, ∑ l, s k l * crackMom4 c a b k l
      = ∑ q, ∑ k, ∑ l, s k l * ((c q).zN * ((c q).n a * (c q).n b * (c q).n k * (c q).n l)) := by
    simp only [Fin.sum_univ_three, crackMom4, Finset.mul_sum, Finset.sum_add_distrib]
  rw [e1, ← Finset.sum_sub_distrib]
  refine Finset.sum_congr rfl fun q _ => ?_
  rw [crack_strain_entry, jump_entry, jump_entry, crack_strain_entry, jump_entry, jump_entry]
  have hz : (wetCrack Kf (c q)).zN = 0 := by
    show (c q).zN * (c q).vol / (Kf * (c q).zN + (c q).vol) = 0
    rw [hv q]; simp
  have hn : (wetCrack Kf (c q)).n = (c q).n := rfl
  have ht : (wetCrack Kf (c q)).zT = (c q).zT := rfl
  rw [hz, hn, ht]
  simp only [Fin.sum_univ_three]
  ring

theorem crackMom2_eq {m : ℕ} {c : Fin m → Crack} (hu : ∀ q, (c q).n ⬝ᵥ (c q).n = 1) (a b : Fin 3) :
    crackMom2 c a b = crackMom4 c a b 0 0 + crackMom4 c a b 1 1 + crackMom4 c a b 2 2 := by
  unfold crackMom2 crackMom4
  rw [← Finset.sum_add_distrib, ← Finset.sum_add_distrib]
  refine Finset.sum_congr rfl fun q _ => ?_
  have := hu q
  simp [dotProduct, Fin.sum_univ_three] at this
  linear_combination (-(c q).zN * ((c q).n a * (c q).n b)) * this

/-- The fourth moments of the cracks in a rock with vertical symmetry axis. -/
structure TIMoments {m : ℕ} (c : Fin m → Crack) (r : ℝ) (D : Fin 5 → ℝ) (a b d : ℝ) : Prop where
  m0000 : crackMom4 c 0 0 0 0 = 3 * a
  m1111 : crackMom4 c 1 1 1 1 = 3 * a
  m0011 : crackMom4 c 0 0 1 1 = a
  m0022 : crackMom4 c 0 0 2 2 = b
  m1122 : crackMom4 c 1 1 2 2 = b
  m2222 : crackMom4 c 2 2 2 2 = d
  m0001 : crackMom4 c 0 0 0 1 = 0
  m0002 : crackMom4 c 0 0 0 2 = 0
  m0012 : crackMom4 c 0 0 1 2 = 0
  m0111 : crackMom4 c 0 1 1 1 = 0
  m0112 : crackMom4 c 0 1 1 2 = 0
  m0122 : crackMom4 c 0 1 2 2 = 0
  m0222 : crackMom4 c 0 2 2 2 = 0
  m1112 : crackMom4 c 1 1 1 2 = 0
  m1222 : crackMom4 c 1 2 2 2 = 0
  d0 : D 0 = (1 - r) * (3 * a) + r * (4 * a + b)
  d1 : D 1 = (1 - r) * a
  d2 : D 2 = (1 - r) * b
  d3 : D 3 = (1 - r) * d + r * (2 * b + d)
  d4 : D 4 = (1 - r) * (4 * b) + r * (4 * a + 3 * b + d)

theorem crackMom4_swap {m : ℕ} (c : Fin m → Crack) (i j k l : Fin 3) :
    crackMom4 c i j k l = crackMom4 c j i k l ∧ crackMom4 c i j k l = crackMom4 c i k j l ∧
    crackMom4 c i j k l = crackMom4 c i j l k := by
  refine ⟨?_, ?_, ?_⟩ <;> exact Finset.sum_congr rfl fun q _ => by ring

theorem voigt_add (e e' : Strain) : voigt (e + e') = voigt e + voigt e' := by
  funext i
  fin_cases i <;> simp [voigt] <;> ring

/-- A symmetric stress. -/
def symStress (x y z u v w : ℝ) : Strain := !![x, u, v; u, y, w; v, w, z]

theorem symStress_symm (x y z u v w : ℝ) : (symStress x y z u v w).IsSymm := by
  unfold Matrix.IsSymm
  ext i j
  fin_cases i <;> fin_cases j <;> rfl

theorem symm_eq_symStress {s : Strain} (h : s.IsSymm) :
    s = symStress (s 0 0) (s 1 1) (s 2 2) (s 0 1) (s 0 2) (s 1 2) := by
  ext i j
  have h1 := h.apply 0 1
  have h2 := h.apply 0 2
  have h3 := h.apply 1 2
  fin_cases i <;> fin_cases j <;> simp [symStress, h1, h2, h3]

theorem crack_entries {m : ℕ} {B : Strain → Strain} {c : Fin m → Crack} {S H : Fin 5 → ℝ} {r : ℝ}
    (hr : ∀ q, (c q).zT = r * (c q).zN) (hB : IsTICompliance B H)
    (hd : IsTICompliance (dryStrain B c) S) (x y z u v w : ℝ) :
    let P := fun a b => (1 - r) * (∑ k, ∑ l, symStress x y z u v w k l * crackMom4 c a b k l)
        + r / 2 * ∑ k, (symStress x y z u v w a k * crackMom2 c k b + symStress x y z u v w b k * crackMom2 c k a)
    P 0 0 = (S 0 - H 0) * x + (S 1 - H 1) * y + (S 2 - H 2) * z ∧
    P 1 1 = (S 1 - H 1) * x + (S 0 - H 0) * y + (S 2 - H 2) * z ∧
    P 2 2 = (S 2 - H 2) * x + (S 2 - H 2) * y + (S 3 - H 3) * z ∧
    2 * P 1 2 = (S 4 - H 4) * w ∧ 2 * P 0 2 = (S 4 - H 4) * v ∧
    2 * P 0 1 = 2 * ((S 0 - H 0) - (S 1 - H 1)) * u := by
  intro P
  have hs := symStress_symm x y z u v w
  have e := hd _ hs
  unfold dryStrain at e
  rw [voigt_add, hB _ hs] at e
  have hP : ∀ a b, (∑ q, (c q).strain (symStress x y z u v w) 0) a b = P a b := fun a b =>
    crack_sum_entry c r hr _ a b
  have e0 := congrFun e 0
  have e1 := congrFun e 1
  have e2 := congrFun e 2
  have e3 := congrFun e 3
  have e4 := congrFun e 4
  have e5 := congrFun e 5
  clear e
  generalize hX : ∑ q, (c q).strain (symStress x y z u v w) 0 = X at *
  simp [mulVec, dotProduct, Fin.sum_univ_succ, voigtStress, symStress, voigt] at e0 e1 e2 e3 e4 e5
  rw [← hP, ← hP, ← hP, ← hP, ← hP, ← hP]
  refine ⟨by linarith, by linarith, by linarith, by linarith, by linarith, by linarith⟩

theorem crackMom4_sort {m : ℕ} (c : Fin m → Crack) :
    crackMom4 c 0 0 1 0 = crackMom4 c 0 0 0 1 ∧
    crackMom4 c 0 0 2 0 = crackMom4 c 0 0 0 2 ∧
    crackMom4 c 0 0 2 1 = crackMom4 c 0 0 1 2 ∧
    crackMom4 c 1 1 0 0 = crackMom4 c 0 0 1 1 ∧
    crackMom4 c 1 1 0 1 = crackMom4 c 0 1 1 1 ∧
    crackMom4 c 1 1 0 2 = crackMom4 c 0 1 1 2 ∧
    crackMom4 c 1 1 1 0 = crackMom4 c 0 1 1 1 ∧
    crackMom4 c 1 1 2 0 = crackMom4 c 0 1 1 2 ∧
    crackMom4 c 1 1 2 1 = crackMom4 c 1 1 1 2 ∧
    crackMom4 c 2 2 0 0 = crackMom4 c 0 0 2 2 ∧
    crackMom4 c 2 2 0 1 = crackMom4 c 0 1 2 2 ∧
    crackMom4 c 2 2 0 2 = crackMom4 c 0 2 2 2 ∧
    crackMom4 c 2 2 1 0 = crackMom4 c 0 1 2 2 ∧
    crackMom4 c 2 2 1 1 = crackMom4 c 1 1 2 2 ∧
    crackMom4 c 2 2 1 2 = crackMom4 c 1 2 2 2 ∧
    crackMom4 c 2 2 2 0 = crackMom4 c 0 2 2 2 ∧
    crackMom4 c 2 2 2 1 = crackMom4 c 1 2 2 2 ∧
    crackMom4 c 1 2 0 0 = crackMom4 c 0 0 1 2 ∧
    crackMom4 c 1 2 0 1 = crackMom4 c 0 1 1 2 ∧
    crackMom4 c 1 2 0 2 = crackMom4 c 0 1 2 2 ∧
    crackMom4 c 1 2 1 0 = crackMom4 c 0 1 1 2 ∧
    crackMom4 c 1 2 1 1 = crackMom4 c 1 1 1 2 ∧
    crackMom4 c 1 2 1 2 = crackMom4 c 1 1 2 2 ∧
    crackMom4 c 1 2 2 0 = crackMom4 c 0 1 2 2 ∧
    crackMom4 c 1 2 2 1 = crackMom4 c 1 1 2 2 ∧
    crackMom4 c 0 2 0 0 = crackMom4 c 0 0 0 2 ∧
    crackMom4 c 0 2 0 1 = crackMom4 c 0 0 1 2 ∧
    crackMom4 c 0 2 0 2 = crackMom4 c 0 0 2 2 ∧
    crackMom4 c 0 2 1 0 = crackMom4 c 0 0 1 2 ∧
    crackMom4 c 0 2 1 1 = crackMom4 c 0 1 1 2 ∧
    crackMom4 c 0 2 1 2 = crackMom4 c 0 1 2 2 ∧
    crackMom4 c 0 2 2 0 = crackMom4 c 0 0 2 2 ∧
    crackMom4 c 0 2 2 1 = crackMom4 c 0 1 2 2 ∧
    crackMom4 c 0 1 0 0 = crackMom4 c 0 0 0 1 ∧
    crackMom4 c 0 1 0 1 = crackMom4 c 0 0 1 1 ∧
    crackMom4 c 0 1 0 2 = crackMom4 c 0 0 1 2 ∧
    crackMom4 c 0 1 1 0 = crackMom4 c 0 0 1 1 ∧
    crackMom4 c 0 1 2 0 = crackMom4 c 0 0 1 2 ∧
    crackMom4 c 0 1 2 1 = crackMom4 c 0 1 1 2 := by
  refine ⟨?_, ?_, ?_, ?_, ?_, ?_, ?_, ?_, ?_, ?_, ?_, ?_, ?_, ?_, ?_, ?_, ?_, ?_, ?_, ?_, ?_, ?_, ?_, ?_, ?_, ?_, ?_, ?_, ?_, ?_, ?_, ?_, ?_, ?_, ?_, ?_, ?_, ?_, ?_⟩ <;> exact Finset.sum_congr rfl fun q _ => by ring

theorem crackMom2_sort {m : ℕ} (c : Fin m → Crack) :
    crackMom2 c 1 0 = crackMom2 c 0 1 ∧ crackMom2 c 2 0 = crackMom2 c 0 2 ∧ crackMom2 c 2 1 = crackMom2 c 1 2 := by
  refine ⟨?_, ?_, ?_⟩ <;> exact Finset.sum_congr rfl fun q _ => by ring

theorem ti_moments {m : ℕ} {B : Strain → Strain} {c : Fin m → Crack} {S H : Fin 5 → ℝ} {r : ℝ}
    (hu : ∀ q, (c q).n ⬝ᵥ (c q).n = 1)
    (hr : ∀ q, (c q).zT = r * (c q).zN) (h1 : r ≠ 1) (hB : IsTICompliance B H)
    (hd : IsTICompliance (dryStrain B c) S) :
    TIMoments c r (fun i => S i - H i) (crackMom4 c 0 0 1 1) (crackMom4 c 0 0 2 2) (crackMom4 c 2 2 2 2) := by
  have hr1 : 1 - r ≠ 0 := sub_ne_zero.mpr (Ne.symm h1)
  obtain ⟨s0, s1, s2, s3, s4, s5, s6, s7, s8, s9, s10, s11, s12, s13, s14, s15, s16, s17, s18, s19, s20, s21, s22, s23, s24, s25, s26, s27, s28, s29, s30, s31, s32, s33, s34, s35, s36, s37, s38⟩ := crackMom4_sort c
  obtain ⟨t0, t1, t2⟩ := crackMom2_sort c
  have X := crack_entries hr hB hd 1 0 0 0 0 0
  have Y := crack_entries hr hB hd 0 1 0 0 0 0
  have Z := crack_entries hr hB hd 0 0 1 0 0 0
  have U := crack_entries hr hB hd 0 0 0 1 0 0
  have V := crack_entries hr hB hd 0 0 0 0 1 0
  have W := crack_entries hr hB hd 0 0 0 0 0 1
  simp [Fin.sum_univ_three, symStress, s0, s1, s2, s3, s4, s5, s6, s7, s8, s9, s10, s11, s12, s13, s14, s15, s16, s17, s18, s19, s20, s21, s22, s23, s24, s25, s26, s27, s28, s29, s30, s31, s32, s33, s34, s35, s36, s37, s38, t0, t1, t2] at X Y Z U V W
  obtain ⟨x0, x1, x2, x3, x4, x5⟩ := X
  obtain ⟨-, y1, y2, y3, y4, y5⟩ := Y
  obtain ⟨-, -, z2, z3, z4, z5⟩ := Z
  obtain ⟨-, -, -, -, -, u5⟩ := U
  obtain ⟨-, -, -, -, v4, -⟩ := V
  clear W
  replace x3 := x3.resolve_left hr1
  replace y4 := y4.resolve_left hr1
  replace z5 := z5.resolve_left hr1
  have a00 := crackMom2_eq hu 0 0
  have a11 := crackMom2_eq hu 1 1
  have a22 := crackMom2_eq hu 2 2
  have a01 := crackMom2_eq hu 0 1
  have a02 := crackMom2_eq hu 0 2
  have a12 := crackMom2_eq hu 1 2
  simp only [s3, s9, s13, s17, s21, s25, s29, s33] at a00 a11 a22 a01 a02 a12
  have b01 : crackMom2 c 0 1 = 0 := by rw [z5] at a01; linear_combination (1 - r) * a01 + x5 + y5
  have b02 : crackMom2 c 0 2 = 0 := by rw [y4] at a02; linear_combination (1 - r) * a02 + x4 + z4
  have b12 : crackMom2 c 1 2 = 0 := by rw [x3] at a12; linear_combination (1 - r) * a12 + y3 + z3
  rw [b01, mul_zero, add_zero] at x5 y5
  rw [b02, mul_zero, add_zero] at x4 z4
  rw [b12, mul_zero, add_zero] at y3 z3
  have i5 := (mul_eq_zero.mp x5).resolve_left hr1
  have j5 := (mul_eq_zero.mp y5).resolve_left hr1
  have i4 := (mul_eq_zero.mp x4).resolve_left hr1
  have k4 := (mul_eq_zero.mp z4).resolve_left hr1
  have j3 := (mul_eq_zero.mp y3).resolve_left hr1
  have k3 := (mul_eq_zero.mp z3).resolve_left hr1
  have hb : crackMom4 c 1 1 2 2 = crackMom4 c 0 0 2 2 := by
    apply mul_left_cancel₀ hr1; rw [y2, x2]
  have hF : crackMom2 c 1 1 = crackMom2 c 0 0 := by
    linear_combination (1 - r) * a11 - (1 - r) * a00 + (1 - r) * hb + y1 - x0
  have ha0 : crackMom4 c 0 0 0 0 = 3 * crackMom4 c 0 0 1 1 := by
    apply mul_left_cancel₀ hr1
    linear_combination x0 - u5 - x1 + r / 2 * hF
  have ha1 : crackMom4 c 1 1 1 1 = 3 * crackMom4 c 0 0 1 1 := by
    apply mul_left_cancel₀ hr1
    linear_combination y1 - u5 - x1 - r / 2 * hF
  have f0 : crackMom2 c 0 0 = 4 * crackMom4 c 0 0 1 1 + crackMom4 c 0 0 2 2 := by linarith
  have f2 : crackMom2 c 2 2 = 2 * crackMom4 c 0 0 2 2 + crackMom4 c 2 2 2 2 := by linarith
  exact ⟨ha0, ha1, rfl, rfl, hb, rfl, i5, i4, x3, j5, y4, z5, k4, j3, k3,
    by linear_combination -x0 + (1 - r) * ha0 + r * f0, x1.symm, x2.symm,
    by linear_combination -z2 + r * f2, by linear_combination -v4 + r * f0 + r * f2⟩

theorem _root_.RockPhy.Props.TIMoments.total {m : ℕ} {c : Fin m → Crack} {r a b d : ℝ}
    {S H : Fin 5 → ℝ} (h : TIMoments c r (fun i => S i - H i) a b d) :
    2 * (S 0 - H 0) + 2 * (S 1 - H 1) + 4 * (S 2 - H 2) + (S 3 - H 3) = 8 * a + 4 * b + d := by
  have h0 : S 0 - H 0 = _ := h.d0
  have h1 : S 1 - H 1 = _ := h.d1
  have h2 : S 2 - H 2 = _ := h.d2
  have h3 : S 3 - H 3 = _ := h.d3
  linear_combination 2 * h0 + 2 * h1 + 4 * h2 + h3

theorem mukerjiMavko_eq {m : ℕ} {c : Fin m → Crack} {r a b d : ℝ}
    {S H : Fin 5 → ℝ} (h : TIMoments c r (fun i => S i - H i) a b d) (h1 : r ≠ 1)
    (hZ : 8 * a + 4 * b + d ≠ 0) :
    mukerjiMavko S H = fun i => S i - ![3 * a, a, b, d, 4 * b] i := by
  have hr1 : 1 - r ≠ 0 := sub_ne_zero.mpr (Ne.symm h1)
  have h0 : S 0 - H 0 = _ := h.d0
  have h1 : S 1 - H 1 = _ := h.d1
  have h2 : S 2 - H 2 = _ := h.d2
  have h3 : S 3 - H 3 = _ := h.d3
  have h4 : S 4 - H 4 = _ := h.d4
  unfold mukerjiMavko
  dsimp only
  rw [h.total, h0, h1, h2, h3, h4]
  generalize hz : 8 * a + 4 * b + d = Z at *
  have eα : (2 * (((1 - r) * (3 * a) + r * (4 * a + b)) / Z) + ((1 - r) * d + r * (2 * b + d)) / Z
      + ((1 - r) * (4 * b) + r * (4 * a + 3 * b + d)) / Z
      + (((1 - r) * (3 * a) + r * (4 * a + b)) / Z - (1 - r) * a / Z) - 1) / 4 = r / 4 := by
    field_simp
    rw [← hz]; ring
  rw [eα]
  have e4 : 4 * (r / 4) = r := by ring
  rw [e4]
  funext i
  fin_cases i <;>
    simp only [Fin.zero_eta, Fin.mk_one, Fin.reduceFinMk, Fin.isValue, Matrix.cons_val] <;>
    congr 1 <;> field_simp <;> ring

theorem ti_total {m : ℕ} {c : Fin m → Crack} {r : ℝ} {D : Fin 5 → ℝ} {a b d : ℝ}
    (h : TIMoments c r D a b d) (hu : ∀ q, (c q).n ⬝ᵥ (c q).n = 1) :
    8 * a + 4 * b + d = ∑ q, (c q).zN := by
  have e : ∑ q, (c q).zN = crackMom2 c 0 0 + crackMom2 c 1 1 + crackMom2 c 2 2 := by
    unfold crackMom2
    rw [← Finset.sum_add_distrib, ← Finset.sum_add_distrib]
    refine Finset.sum_congr rfl fun q _ => ?_
    have := hu q
    simp [dotProduct, Fin.sum_univ_three] at this
    linear_combination (-(c q).zN) * this
  have s1 : crackMom4 c 1 1 0 0 = crackMom4 c 0 0 1 1 := Finset.sum_congr rfl fun q _ => by ring
  have s2 : crackMom4 c 2 2 0 0 = crackMom4 c 0 0 2 2 := Finset.sum_congr rfl fun q _ => by ring
  have s3 : crackMom4 c 2 2 1 1 = crackMom4 c 1 1 2 2 := Finset.sum_congr rfl fun q _ => by ring
  rw [e, crackMom2_eq hu, crackMom2_eq hu, crackMom2_eq hu, s1, s2, s3, h.m0000, h.m1111, h.m0011, h.m0022, h.m1122,
    h.m2222]
  ring

theorem moments_pos {m : ℕ} {c : Fin m → Crack} (hc : ∀ i, (c i).Valid) (hZ : ∃ q, (c q).zN ≠ 0) :
    0 < ∑ q, (c q).zN := by
  obtain ⟨q, hq⟩ := hZ
  exact Finset.sum_pos' (fun i _ => (hc i).zN_nonneg)
    ⟨q, Finset.mem_univ q, lt_of_le_of_ne (hc q).zN_nonneg (Ne.symm hq)⟩

/-- **C100.** The published formula gives the compliances of the rock with incompressible fluid (or
no volume) in its cracks, if every crack has the same ratio `r ≠ 1` of tangential to normal
compliance. -/
theorem C100_anisotropic {m : ℕ} (B : Strain → Strain) (c : Fin m → Crack) (hc : ∀ i, (c i).Valid)
    (S H : Fin 5 → ℝ) (r Kf : ℝ) (hr : ∀ q, (c q).zT = r * (c q).zN) (h1 : r ≠ 1)
    (hv : ∀ q, (c q).vol = 0) (hZ : ∃ q, (c q).zN ≠ 0) (hf : 0 < Kf)
    (hB : IsTICompliance B H) (hd : IsTICompliance (dryStrain B c) S)
    (E : Strain → Strain) (hE : ∀ s, s.IsSymm → IsWetStrain B c Kf s (E s)) :
    IsTICompliance E (mukerjiMavko S H) := by
  have M := ti_moments (fun q => (hc q).unit) hr h1 hB hd
  have hZ' := (moments_pos hc hZ).ne'
  rw [mukerjiMavko_eq M h1 (by rw [ti_total M (fun q => (hc q).unit)]; exact hZ')]
  intro s hs
  rw [(wetStrain_iff hc hf s _).mp (hE s hs)]
  have hdry := hd s hs
  have key : dryStrain B (fun q => wetCrack Kf (c q)) s
      = dryStrain B c s + Matrix.of fun i j => -∑ k, ∑ l, s k l * crackMom4 c i j k l := by
    unfold dryStrain
    rw [add_assoc]
    congr 1
    ext i j
    rw [wet_sum_entry c hv, Matrix.add_apply, Matrix.of_apply, sub_eq_add_neg]
  rw [key, voigt_add, hdry]
  obtain ⟨s0, s1, s2, s3, s4, s5, s6, s7, s8, s9, s10, s11, s12, s13, s14, s15, s16, s17, s18, s19, s20, s21, s22, s23, s24, s25, s26, s27, s28, s29, s30, s31, s32, s33, s34, s35, s36, s37, s38⟩ := crackMom4_sort c
  have e1 := hs.apply 0 1
  have e2 := hs.apply 0 2
  have e3 := hs.apply 1 2
  have m1 := M.m0000
  have m2 := M.m1111
  have m3 := M.m1122
  have m4 := M.m0001
  have m5 := M.m0002
  have m6 := M.m0012
  have m7 := M.m0111
  have m8 := M.m0112
  have m9 := M.m0122
  have m10 := M.m0222
  have m11 := M.m1112
  have m12 := M.m1222
  funext i
  fin_cases i <;>
    simp [voigt, mulVec, dotProduct, Fin.sum_univ_succ, Fin.sum_univ_three, voigtStress, e1, e2, e3,
      s0, s1, s2, s3, s4, s5, s6, s7, s8, s9, s10, s11, s12, s13, s14, s15, s16, s17, s18, s19, s20, s21, s22, s23, s24, s25, s26, s27, s28, s29, s30, s31, s32, s33, s34, s35, s36, s37, s38, m1, m2, m3, m4, m5, m6, m7, m8, m9, m10, m11, m12] <;> ring

theorem Squirt_bad {S H : Fin 5 → ℝ} (hb : tiBeta S - tiBeta H ≠ 0) (hT : sqT (sqD S H) = 0) :
    Squirt_anisotropic (fun i => fin (S i)) (fun i => fin (H i)) 1 = bad := by
  have eb : 2 * (fin (S 0) - fin (H 0)) + 2 * (fin (S 1) - fin (H 1))
      + 4 * (fin (S 2) - fin (H 2)) + (fin (S 3) - fin (H 3)) = fin (tiBeta S - tiBeta H) := by
    simp only [fl, fin_inj, tiBeta]; ring
  have ed : ∀ i, (fin (S i) - fin (H i)) / fin (tiBeta S - tiBeta H) = fin (sqD S H i) := fun i => by
    rw [fl_sub, fl_div hb]; rfl
  unfold Squirt_anisotropic
  simp only [eb, ed]
  generalize sqD S H = d at *
  have ea : (0.25 : Fl) * (2 * fin (d 0) + fin (d 3) + 4 * fin (d 4) + 4 * (fin (d 0) - fin (d 1)) - 1)
      = fin (sqAl d) := by simp only [fl, sqAl, sqAbab]
  rw [ea]
  have eT : 1 - 4 * fin (sqAl d) = fin (sqT d) := by simp only [fl, sqT]
  rw [eT, hT]
  simp only [Matrix.cons_val, fl_div_zero, fl]

/-- The array given to `Fluid.Squirt_anisotropic`: its last entry is `k` times the engineering shear
compliance, `k = 1` in the engineering convention and `k = 1/4` for the tensor component. -/
def squirtInput (k : ℝ) (S : Fin 5 → ℝ) : Fin 5 → ℝ := ![S 0, S 1, S 2, S 3, k * S 4]

theorem squirtInput_beta (k : ℝ) (S : Fin 5 → ℝ) : tiBeta (squirtInput k S) = tiBeta S := by
  simp [tiBeta, squirtInput]

/-- Horizontal cracks only. -/
theorem squirt_aligned {S H : Fin 5 → ℝ} {k r Z : ℝ} (hZ : 0 < Z) (h0 : S 0 - H 0 = 0)
    (h1 : S 1 - H 1 = 0) (h2 : S 2 - H 2 = 0) (h3 : S 3 - H 3 = Z) (h4 : S 4 - H 4 = r * Z)
    (hT : 4 * k * r ≠ 1) :
    Squirt_anisotropic (fun i => fin (squirtInput k S i)) (fun i => fin (squirtInput k H i))
      = fun i => fin (![S 0, S 1, S 2, H 3, k * S 4 - Z / (4 * (1 - 4 * k * r))] i) := by
  have hb : tiBeta (squirtInput k S) - tiBeta (squirtInput k H) = Z := by
    rw [squirtInput_beta, squirtInput_beta]
    unfold tiBeta
    linear_combination 2 * h0 + 2 * h1 + 4 * h2 + h3
  have d0 : sqD (squirtInput k S) (squirtInput k H) 0 = 0 := by
    unfold sqD; rw [hb]; simp [squirtInput, h0]
  have d1 : sqD (squirtInput k S) (squirtInput k H) 1 = 0 := by
    unfold sqD; rw [hb]; simp [squirtInput, h1]
  have d2 : sqD (squirtInput k S) (squirtInput k H) 2 = 0 := by
    unfold sqD; rw [hb]; simp [squirtInput, h2]
  have d3 : sqD (squirtInput k S) (squirtInput k H) 3 = 1 := by
    unfold sqD; rw [hb]; simp [squirtInput, h3, hZ.ne']
  have d4 : sqD (squirtInput k S) (squirtInput k H) 4 = k * r := by
    unfold sqD; rw [hb]
    have : squirtInput k S 4 - squirtInput k H 4 = k * r * Z := by
      simp [squirtInput]; linear_combination k * h4
    rw [this]; field
  have eT : sqT (sqD (squirtInput k S) (squirtInput k H)) = 1 - 4 * k * r := by
    rw [sqT_eq, sqAbab, d0, d1, d3, d4]; ring
  have hT' : 1 - 4 * k * r ≠ 0 := sub_ne_zero.mpr (Ne.symm hT)
  rw [Squirt_eval (by rw [hb]; exact hZ.ne') (by rw [eT]; exact hT'), hb]
  generalize sqD (squirtInput k S) (squirtInput k H) = d at *
  funext i
  rw [fin_inj]
  fin_cases i <;>
    simp [sqG, squirtInput, sqG11, sqG33, sqG44, d0, d1, d2, d3, d4, eT]
  · linarith
  · obtain ⟨t, ht⟩ : ∃ t, t = 1 - 4 * k * r := ⟨_, rfl⟩
    have hkr : k * r = (1 - t) / 4 := by rw [ht]; ring
    rw [← ht, hkr]
    rw [← ht] at hT'
    field_simp
    ring

/-- **C100.** For horizontal cracks the shear compliance is wrong, the other four results are right. -/
theorem C100_horizontal {m : ℕ} (B : Strain → Strain) (c : Fin m → Crack) (hc : ∀ i, (c i).Valid)
    (S H : Fin 5 → ℝ) (r k : ℝ) (hr : ∀ q, (c q).zT = r * (c q).zN) (h1 : r ≠ 1)
    (hZ : ∃ q, (c q).zN ≠ 0) (hh : ∀ q, (c q).n = ![0, 0, 1])
    (hB : IsTICompliance B H) (hd : IsTICompliance (dryStrain B c) S) (hT : 4 * k * r ≠ 1) :
    mukerjiMavko S H = ![S 0, S 1, S 2, H 3, S 4] ∧
    Squirt_anisotropic (fun i => fin (squirtInput k S i)) (fun i => fin (squirtInput k H i))
      = fun i => fin (![S 0, S 1, S 2, H 3, k * S 4 - (∑ q, (c q).zN) / (4 * (1 - 4 * k * r))] i) := by
  have M := ti_moments (fun q => (hc q).unit) hr h1 hB hd
  have hp := moments_pos hc hZ
  have a0 : crackMom4 c 0 0 1 1 = 0 := Finset.sum_eq_zero fun q _ => by simp [hh q]
  have b0 : crackMom4 c 0 0 2 2 = 0 := Finset.sum_eq_zero fun q _ => by simp [hh q]
  have hz := ti_total M (fun q => (hc q).unit)
  rw [a0, b0] at M hz
  have hz' : crackMom4 c 2 2 2 2 = ∑ q, (c q).zN := by linarith
  rw [hz'] at M
  have e0 : S 0 - H 0 = _ := M.d0
  have e1 : S 1 - H 1 = _ := M.d1
  have e2 : S 2 - H 2 = _ := M.d2
  have e3 : S 3 - H 3 = _ := M.d3
  have e4 : S 4 - H 4 = _ := M.d4
  constructor
  · rw [mukerjiMavko_eq M h1 (by simpa using hp.ne')]
    funext i
    fin_cases i <;> simp
    linarith
  · exact squirt_aligned hp (by rw [e0]; ring) (by rw [e1]; ring) (by rw [e2]; ring)
      (by rw [e3]; ring) (by rw [e4]; ring) hT

/-- **C100.** Whatever the cracks, and in both conventions for the shear compliance, the array
returned is not that of the wet rock. -/
theorem C100_never_right {m : ℕ} (B : Strain → Strain) (c : Fin m → Crack) (hc : ∀ i, (c i).Valid)
    (S H : Fin 5 → ℝ) (r k : ℝ) (hr : ∀ q, (c q).zT = r * (c q).zN) (h1 : r ≠ 1)
    (hZ : ∃ q, (c q).zN ≠ 0)
    (hB : IsTICompliance B H) (hd : IsTICompliance (dryStrain B c) S) (hk : 1 / 4 ≤ k) :
    Squirt_anisotropic (fun i => fin (squirtInput k S i)) (fun i => fin (squirtInput k H i))
      ≠ fun i => fin (squirtInput k (mukerjiMavko S H) i) := by
  intro heq
  have M := ti_moments (fun q => (hc q).unit) hr h1 hB hd
  have hp := moments_pos hc hZ
  have hz := ti_total M (fun q => (hc q).unit)
  have hr0 : 0 ≤ r := by
    obtain ⟨q, hq⟩ := hZ
    have p1 : 0 < (c q).zN := lt_of_le_of_ne (hc q).zN_nonneg (Ne.symm hq)
    have p2 := (hc q).zT_nonneg
    rw [hr q] at p2
    exact nonneg_of_mul_nonneg_left p2 p1
  have ha : 0 ≤ crackMom4 c 0 0 1 1 := Finset.sum_nonneg fun q _ => by
    have := (hc q).zN_nonneg
    have e : (c q).n 0 * (c q).n 0 * (c q).n 1 * (c q).n 1 = ((c q).n 0 * (c q).n 1) ^ 2 := by ring
    rw [e]; positivity
  have hb : 0 ≤ crackMom4 c 0 0 2 2 := Finset.sum_nonneg fun q _ => by
    have := (hc q).zN_nonneg
    have e : (c q).n 0 * (c q).n 0 * (c q).n 2 * (c q).n 2 = ((c q).n 0 * (c q).n 2) ^ 2 := by ring
    rw [e]; positivity
  have h4 : 0 ≤ 4 * crackMom4 c 0 0 1 1 - crackMom4 c 0 0 2 2 + crackMom4 c 2 2 2 2 := by
    have e : 4 * crackMom4 c 0 0 1 1 - crackMom4 c 0 0 2 2 + crackMom4 c 2 2 2 2
        = ∑ q, (c q).zN * ((c q).n 1 ^ 2 + (c q).n 2 ^ 2 - 4 * ((c q).n 1 ^ 2 * (c q).n 2 ^ 2)) := by
      have f : ∑ q, (c q).zN * ((c q).n 1 ^ 2 + (c q).n 2 ^ 2 - 4 * ((c q).n 1 ^ 2 * (c q).n 2 ^ 2))
          = crackMom2 c 1 1 + crackMom2 c 2 2 - 4 * crackMom4 c 1 1 2 2 := by
        unfold crackMom2 crackMom4
        rw [Finset.mul_sum, ← Finset.sum_add_distrib, ← Finset.sum_sub_distrib]
        exact Finset.sum_congr rfl fun q _ => by ring
      have s1 : crackMom4 c 1 1 0 0 = crackMom4 c 0 0 1 1 := Finset.sum_congr rfl fun q _ => by ring
      have s2 : crackMom4 c 2 2 0 0 = crackMom4 c 0 0 2 2 := Finset.sum_congr rfl fun q _ => by ring
      have s3 : crackMom4 c 2 2 1 1 = crackMom4 c 1 1 2 2 := Finset.sum_congr rfl fun q _ => by ring
      rw [f, crackMom2_eq (fun q => (hc q).unit), crackMom2_eq (fun q => (hc q).unit), s1, s2, s3, M.m1111,
        M.m1122]
      ring
    rw [e]
    refine Finset.sum_nonneg fun q _ => mul_nonneg (hc q).zN_nonneg ?_
    have hu := (hc q).unit
    simp [dotProduct, Fin.sum_univ_three] at hu
    nlinarith [sq_nonneg ((c q).n 1 ^ 2 - (c q).n 2 ^ 2), sq_nonneg ((c q).n 0), sq_nonneg ((c q).n 1),
      sq_nonneg ((c q).n 2), mul_nonneg (sq_nonneg ((c q).n 0)) (sq_nonneg ((c q).n 1)),
      mul_nonneg (sq_nonneg ((c q).n 0)) (sq_nonneg ((c q).n 2))]
  rw [mukerjiMavko_eq M h1 (by rw [hz]; exact hp.ne')] at heq
  have e0 : S 0 - H 0 = _ := M.d0
  have e1 : S 1 - H 1 = _ := M.d1
  have e2 : S 2 - H 2 = _ := M.d2
  have e3 : S 3 - H 3 = _ := M.d3
  have e4 : S 4 - H 4 = _ := M.d4
  have hβ : tiBeta (squirtInput k S) - tiBeta (squirtInput k H) = ∑ q, (c q).zN := by
    rw [squirtInput_beta, squirtInput_beta, ← hz]
    unfold tiBeta
    linear_combination 2 * e0 + 2 * e1 + 4 * e2 + e3
  by_cases hT : sqT (sqD (squirtInput k S) (squirtInput k H)) = 0
  · have := congrFun heq 1
    rw [Squirt_bad (by rw [hβ]; exact hp.ne') hT] at this
    exact absurd this (by simp)
  rw [Squirt_eval (by rw [hβ]; exact hp.ne') hT, hβ] at heq
  have q1 := congrFun heq 1
  rw [fin_inj] at q1
  replace q1 : S 1 - (∑ q, (c q).zN) * (sqD (squirtInput k S) (squirtInput k H) 1
      / sqT (sqD (squirtInput k S) (squirtInput k H))) = S 1 - crackMom4 c 0 0 1 1 := q1
  have hT2 := sqT_eq (sqD (squirtInput k S) (squirtInput k H))
  have x0 : sqD (squirtInput k S) (squirtInput k H) 0 = (S 0 - H 0) / ∑ q, (c q).zN := by
    unfold sqD; rw [hβ]; simp [squirtInput]
  have x1 : sqD (squirtInput k S) (squirtInput k H) 1 = (S 1 - H 1) / ∑ q, (c q).zN := by
    unfold sqD; rw [hβ]; simp [squirtInput]
  have x3 : sqD (squirtInput k S) (squirtInput k H) 3 = (S 3 - H 3) / ∑ q, (c q).zN := by
    unfold sqD; rw [hβ]; simp [squirtInput]
  have x4 : sqD (squirtInput k S) (squirtInput k H) 4 = k * (S 4 - H 4) / ∑ q, (c q).zN := by
    unfold sqD; rw [hβ]; simp [squirtInput]; ring
  rw [sqAbab, x0, x1, x3, x4, e0, e1, e3, e4] at hT2
  rw [x1, e1] at q1
  have hab : crackMom4 c 0 0 1 1 = 0 := by
    by_contra hne
    have hpos : 0 < crackMom4 c 0 0 1 1 := lt_of_le_of_ne ha (Ne.symm hne)
    generalize sqT (sqD (squirtInput k S) (squirtInput k H)) = T at *
    generalize crackMom4 c 0 0 1 1 = a at *
    generalize crackMom4 c 0 0 2 2 = b at *
    generalize crackMom4 c 2 2 2 2 = d at *
    generalize ∑ q, (c q).zN = Z at *
    have t1 : T = 1 - r := by
      have : Z * ((1 - r) * a / Z / T) = a := by linarith
      field_simp at this
      linarith
    rw [t1] at hT2
    field_simp at hT2
    have t2 : (4 * k - 1) * (4 * b + r * (4 * a - b + d)) + 3 * (2 * a + r * (2 * a + b)) = 0 := by
      rw [← hz] at hT2
      linear_combination hT2
    have t3 : 0 ≤ (4 * k - 1) * (4 * b + r * (4 * a - b + d)) :=
      mul_nonneg (by linarith) (by positivity)
    have t4 : 0 ≤ r * (2 * a + b) := by positivity
    linarith
  have n0 : ∀ q, (c q).zN * (c q).n 0 ^ 2 = 0 := by
    have h := M.m0000
    rw [hab, mul_zero] at h
    unfold crackMom4 at h
    have e : ∀ q, (c q).zN * ((c q).n 0 * (c q).n 0 * (c q).n 0 * (c q).n 0) = (c q).zN * (c q).n 0 ^ 4 :=
      fun q => by ring
    simp only [e] at h
    rw [Finset.sum_eq_zero_iff_of_nonneg fun q _ => mul_nonneg (hc q).zN_nonneg (by positivity)] at h
    intro q
    rcases mul_eq_zero.mp (h q (Finset.mem_univ q)) with h' | h'
    · rw [h', zero_mul]
    · rw [pow_eq_zero_iff (by norm_num)] at h'
      rw [h']; simp
  have b0 : crackMom4 c 0 0 2 2 = 0 := Finset.sum_eq_zero fun q _ => by
    linear_combination (c q).n 2 ^ 2 * n0 q
  simp only [hab, b0] at e0 e1 e2 e3 e4 hz heq hT2
  have hd' : crackMom4 c 2 2 2 2 = ∑ q, (c q).zN := by linarith
  rw [hd'] at e3 e4 hT2 heq
  have hT3 : 4 * k * r ≠ 1 := by
    intro hh
    apply hT
    rw [hT2]
    field_simp
    linear_combination (-∑ q, (c q).zN) * hh
  have hal := squirt_aligned (k := k) (r := r) hp (by rw [e0]; ring) (by rw [e1]; ring)
    (by rw [e2]; ring) (by rw [e3]; ring) (by rw [e4]; ring) hT3
  rw [Squirt_eval (by rw [hβ]; exact hp.ne') hT, hβ] at hal
  have q4 := congrFun (heq.symm.trans hal) 4
  rw [fin_inj] at q4
  have q5 : k * (S 4 - 4 * 0) = k * S 4 - (∑ q, (c q).zN) / (4 * (1 - 4 * k * r)) := q4
  have q6 : (∑ q, (c q).zN) / (4 * (1 - 4 * k * r)) = 0 := by linarith
  rcases div_eq_zero_iff.mp q6 with h' | h'
  · exact hp.ne' h'
  · exact hT3 (by linarith)

/-! ### Examples -/

/-- The six diagonals of an icosahedron: `g` is the golden ratio and `h` makes the length one. -/
noncomputable def icoDir (g h : ℝ) : Fin 6 → Fin 3 → ℝ :=
  ![![0, h, g * h], ![0, h, -(g * h)], ![h, g * h, 0], ![h, -(g * h), 0], ![g * h, 0, h],
    ![-(g * h), 0, h]]

/-- Six equal cracks along the faces of an icosahedron are isotropic, dry and wet. -/
theorem ico_iso (g h zN zT Kh Gh : ℝ) (hg : g ^ 2 = g + 1) (hh : h ^ 2 * (1 + g ^ 2) = 1)
    (hK : 0 < Kh) (hG : 0 < Gh) (hN : 0 ≤ zN) (hT : 0 ≤ zT) (v : ℝ) (s : Strain) (hs : s.IsSymm) :
    dryStrain (isoStrain Kh Gh) (fun q => ⟨icoDir g h q, zN, zT, v⟩) s
      = isoStrain (1 / (1 / Kh + 6 * zN)) (1 / (1 / Gh + 4 / 15 * (6 * zN) + 2 / 5 * (6 * zT))) s := by
  have e1 := hs.apply 0 1
  have e2 := hs.apply 0 2
  have e3 := hs.apply 1 2
  have f2 : h ^ 4 * g ^ 2 = 1 / 5 := by
    have : (h ^ 2 * (1 + g ^ 2)) ^ 2 = 1 := by rw [hh]; norm_num
    linear_combination (1 / 5) * this - h ^ 4 * (g ^ 2 + g - 1) / 5 * hg
  have f1 : h ^ 4 * (1 + g ^ 4) = 3 / 5 := by
    have : (h ^ 2 * (1 + g ^ 2)) ^ 2 = 1 := by rw [hh]; norm_num
    linear_combination this - 2 * f2
  have iso : ∀ i j, isoStrain (1 / (1 / Kh + 6 * zN))
      (1 / (1 / Gh + 4 / 15 * (6 * zN) + 2 / 5 * (6 * zT))) s i j
      = isoStrain Kh Gh s i j + (s.trace * (6 * zN) / 9) * (1 : Strain) i j
        + (4 / 15 * (6 * zN) + 2 / 5 * (6 * zT)) / 2 * (s i j - s.trace / 3 * (1 : Strain) i j) := by
    intro i j
    simp only [isoStrain, Matrix.add_apply, Matrix.smul_apply, Matrix.sub_apply, smul_eq_mul]
    have x1 : 1 / Kh + 6 * zN ≠ 0 := by positivity
    have x2 : 1 / Gh + 4 / 15 * (6 * zN) + 2 / 5 * (6 * zT) ≠ 0 := by positivity
    have y1 : s.trace / (9 * (1 / (1 / Kh + 6 * zN))) = s.trace / (9 * Kh) + s.trace * (6 * zN) / 9 := by
      generalize h1 : 1 / Kh + 6 * zN = x at *
      rw [show s.trace / (9 * (1 / x)) = s.trace * x / 9 by field, ← h1]
      ring
    have y2 : 1 / (2 * (1 / (1 / Gh + 4 / 15 * (6 * zN) + 2 / 5 * (6 * zT))))
        = 1 / (2 * Gh) + (4 / 15 * (6 * zN) + 2 / 5 * (6 * zT)) / 2 := by
      generalize h1 : 1 / Gh + 4 / 15 * (6 * zN) + 2 / 5 * (6 * zT) = x at *
      rw [show 1 / (2 * (1 / x)) = x / 2 by field, ← h1]
      ring
    rw [y1, y2]
    ring
  ext i j
  rw [iso]
  unfold dryStrain
  rw [Matrix.add_apply, Matrix.sum_apply, add_assoc]
  congr 1
  simp only [crack_strain_entry, jump_entry, Fin.sum_univ_three, Matrix.trace, Matrix.diag_apply]
  fin_cases i <;> fin_cases j <;>
    simp [icoDir, Fin.sum_univ_succ, e1, e2, e3]
  · linear_combination (zN - zT) * (2 * s 0 0 * f1 + 2 * (s 1 1 + s 2 2) * f2) + 2 * zT * s 0 0 * hh
  · linear_combination (zN - zT) * (4 * s 0 1 * f2) + 2 * zT * s 0 1 * hh
  · linear_combination (zN - zT) * (4 * s 0 2 * f2) + 2 * zT * s 0 2 * hh
  · linear_combination (zN - zT) * (4 * s 0 1 * f2) + 2 * zT * s 0 1 * hh
  · linear_combination (zN - zT) * (2 * s 1 1 * f1 + 2 * (s 0 0 + s 2 2) * f2) + 2 * zT * s 1 1 * hh
  · linear_combination (zN - zT) * (4 * s 1 2 * f2) + 2 * zT * s 1 2 * hh
  · linear_combination (zN - zT) * (4 * s 0 2 * f2) + 2 * zT * s 0 2 * hh
  · linear_combination (zN - zT) * (4 * s 1 2 * f2) + 2 * zT * s 1 2 * hh
  · linear_combination (zN - zT) * (2 * s 2 2 * f1 + 2 * (s 0 0 + s 1 1) * f2) + 2 * zT * s 2 2 * hh

theorem golden : ∃ g h : ℝ, g ^ 2 = g + 1 ∧ h ^ 2 * (1 + g ^ 2) = 1 := by
  refine ⟨(1 + √5) / 2, 1 / √(1 + ((1 + √5) / 2) ^ 2), ?_, ?_⟩
  · have := Real.sq_sqrt (show (0 : ℝ) ≤ 5 by norm_num)
    linear_combination this / 4
  · rw [div_pow, one_pow, Real.sq_sqrt (by positivity)]
    field

theorem ico_valid {g h : ℝ} (hh : h ^ 2 * (1 + g ^ 2) = 1) {zN zT v : ℝ} (hN : 0 ≤ zN) (hT : 0 ≤ zT)
    (hv : 0 ≤ v) (q : Fin 6) : (⟨icoDir g h q, zN, zT, v⟩ : Crack).Valid := by
  refine ⟨?_, hN, hT, hv⟩
  fin_cases q <;> simp [icoDir, dotProduct, Fin.sum_univ_three] <;> linear_combination hh

/-- The hypotheses of `C100_isotropic` hold for six equal cracks in an icosahedral arrangement:
`Kh = 14`, `Gh = 10`, crack compliances 0.001 and 0.002, crack porosities 0.0001, a fluid of bulk
modulus 2.3. -/
example : ∃ (c : Fin 6 → Crack) (Kd Gd Kw Gw : ℝ), (∀ i, (c i).Valid) ∧ 0 < Kd ∧ 0 < Gd ∧ Kd < 14 ∧
    GassmannRock 14 37 2.3 0.2 ∧
    (∀ s : Strain, s.IsSymm → dryStrain (isoStrain 14 10) c s = isoStrain Kd Gd s) ∧
    ∀ s e : Strain, s.IsSymm → IsWetStrain (isoStrain 14 10) c 2.3 s e → e = isoStrain Kw Gw s := by
  obtain ⟨g, h, hg, hh⟩ := golden
  refine ⟨fun q => ⟨icoDir g h q, 0.001, 0.002, 0.0001⟩, _, _,
    1 / (1 / 14 + 6 * (0.001 * 0.0001 / (2.3 * 0.001 + 0.0001))),
    1 / (1 / 10 + 4 / 15 * (6 * (0.001 * 0.0001 / (2.3 * 0.001 + 0.0001))) + 2 / 5 * (6 * 0.002)),
    fun q => ico_valid hh (by norm_num) (by norm_num) (by norm_num) q, ?_, ?_, ?_,
    ⟨by norm_num, by norm_num, by norm_num, by norm_num, by norm_num⟩,
    fun s hs => ico_iso g h 0.001 0.002 14 10 hg hh (by norm_num) (by norm_num) (by norm_num)
      (by norm_num) _ s hs, fun s e hs he => ?_⟩
  · norm_num
  · norm_num
  · norm_num
  · rw [wetStrain_iff (fun q => ico_valid hh (by norm_num) (by norm_num) (by norm_num) q)
      (by norm_num)] at he
    rw [he]
    exact ico_iso g h (0.001 * 0.0001 / (2.3 * 0.001 + 0.0001)) 0.002 14 10 hg hh (by norm_num)
      (by norm_num) (by norm_num) (by norm_num) _ s hs

/-- The hypotheses of `C100_anisotropic`, `C100_horizontal` and `C100_never_right` hold for one set
of horizontal cracks in an isotropic rock. -/
example : ∃ (B : Strain → Strain) (c : Fin 1 → Crack) (S H : Fin 5 → ℝ) (r : ℝ),
    (∀ i, (c i).Valid) ∧ (∀ q, (c q).zT = r * (c q).zN) ∧ r ≠ 1 ∧ (∀ q, (c q).vol = 0) ∧
    (∃ q, (c q).zN ≠ 0) ∧ (∀ q, (c q).n = ![0, 0, 1]) ∧ IsTICompliance B H ∧
    IsTICompliance (dryStrain B c) S ∧ 4 * 1 * r ≠ 1 := by
  refine ⟨isoStrain 14 10, fun _ => ⟨![0, 0, 1], 0.01, 0.02, 0⟩,
    ![1 / 126 + 1 / 30, 1 / 126 - 1 / 60, 1 / 126 - 1 / 60, 1 / 126 + 1 / 30 + 0.01, 1 / 10 + 0.02],
    ![1 / 126 + 1 / 30, 1 / 126 - 1 / 60, 1 / 126 - 1 / 60, 1 / 126 + 1 / 30, 1 / 10], 2, ?_, ?_, ?_,
    fun _ => rfl, ⟨0, by norm_num⟩, fun _ => rfl, ?_, ?_, by norm_num⟩
  · intro i
    exact ⟨by simp [dotProduct, Fin.sum_univ_three], by norm_num, by norm_num, le_rfl⟩
  · intro q; norm_num
  · norm_num
  · intro s hs
    have e1 := hs.apply 0 1
    have e2 := hs.apply 0 2
    have e3 := hs.apply 1 2
    funext i
    fin_cases i <;>
      simp [voigt, isoStrain, mulVec, dotProduct, Fin.sum_univ_succ, voigtStress, Matrix.trace, e1, e2,
        e3] <;> ring
  · intro s hs
    have e1 := hs.apply 0 1
    have e2 := hs.apply 0 2
    have e3 := hs.apply 1 2
    funext i
    fin_cases i <;>
      simp [dryStrain, crack_strain_entry, jump_entry, voigt, isoStrain, mulVec, dotProduct,
        Fin.sum_univ_succ, voigtStress, Matrix.trace, e1, e2, e3] <;> ring

end RockPhy.Props
