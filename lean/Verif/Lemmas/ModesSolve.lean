import Verif.Lemmas.Modes
import Mathlib.LinearAlgebra.FiniteDimensional.Lemmas
import Mathlib.LinearAlgebra.Dimension.Constructions

/-! # Lemmas: waves leaving an interface span all displacements and tractions -/

namespace RockPhy.Scat

open Spec Matrix

variable {C : Matrix (Fin 6) (Fin 6) ℝ} {ρ p1 p2 : ℝ}

namespace Modes

variable (m : Modes C ρ p1 p2)

/-- Traction of a wave. -/
def t (i : Ix) : Fin 3 → ℝ := traction C ![p1, p2, m.q i] (m.u i)

theorem energy {ι : Type*} [Fintype ι] (f : ι → Ix) (hf : Function.Injective f) (c : ι → ℝ) :
    2 * ((∑ i, c i • m.u (f i)) ⬝ᵥ ∑ i, c i • m.t (f i)) = ∑ i, c i ^ 2 * (m.q (f i))⁻¹ := by
  classical
  have h1 : (∑ i, c i • m.u (f i)) ⬝ᵥ ∑ i, c i • m.t (f i)
      = ∑ i, ∑ j, c i * c j * (m.u (f i) ⬝ᵥ m.t (f j)) := by
    rw [sum_dotProduct]
    refine Finset.sum_congr rfl fun i _ => ?_
    rw [dotProduct_sum]
    refine Finset.sum_congr rfl fun j _ => ?_
    rw [smul_dotProduct, dotProduct_smul, smul_eq_mul, smul_eq_mul, mul_assoc]
  have h2 : ∑ i, ∑ j, c i * c j * (m.u (f i) ⬝ᵥ m.t (f j))
      = ∑ i, ∑ j, c i * c j * (m.u (f j) ⬝ᵥ m.t (f i)) := by
    rw [Finset.sum_comm]
    refine Finset.sum_congr rfl fun i _ => Finset.sum_congr rfl fun j _ => ?_
    rw [mul_comm (c j)]
  rw [two_mul, h1]
  nth_rewrite 2 [h2]
  rw [← Finset.sum_add_distrib]
  refine Finset.sum_congr rfl fun i _ => ?_
  rw [← Finset.sum_add_distrib]
  have h3 : ∀ j, c i * c j * (m.u (f i) ⬝ᵥ m.t (f j)) + c i * c j * (m.u (f j) ⬝ᵥ m.t (f i))
      = if i = j then c i ^ 2 * (m.q (f i))⁻¹ else 0 := by
    intro j
    have := m.cross_eq (f i) (f j)
    rw [cross] at this
    rw [← mul_add, t, t, this]
    by_cases h : i = j
    · subst h
      rw [if_pos rfl, if_pos rfl, sq]
    · rw [if_neg h, if_neg (fun e => h (hf e)), mul_zero]
  simp only [h3, Finset.sum_ite_eq, Finset.mem_univ, if_true]

theorem flux_eq (i : Ix) : downFlux C ![p1, p2, m.q i] (m.u i) = (m.q i)⁻¹ / 2 := by
  have := m.cross_eq i i
  rw [cross, if_pos rfl] at this
  rw [downFlux]
  linarith

theorem card_le (σ : ℝ) (_hσ : σ = 1 ∨ σ = -1) : Fintype.card {i // 0 < σ * m.q i} ≤ 3 := by
  let L : ({i // 0 < σ * m.q i} → ℝ) →ₗ[ℝ] (Fin 3 → ℝ) :=
    { toFun := fun c => ∑ i, c i • m.u i.1
      map_add' := fun c d => by
        simp only [Pi.add_apply, add_smul, Finset.sum_add_distrib]
      map_smul' := fun a c => by
        simp only [Pi.smul_apply, smul_eq_mul, mul_smul, Finset.smul_sum, RingHom.id_apply] }
  have hL : Function.Injective L := by
    rw [injective_iff_map_eq_zero]
    intro c hc
    have e := m.energy (fun i : {i // 0 < σ * m.q i} => i.1) Subtype.val_injective c
    have hc' : ∑ i : {i // 0 < σ * m.q i}, c i • m.u i.1 = 0 := hc
    rw [hc', zero_dotProduct, mul_zero] at e
    have e' : ∑ i : {i // 0 < σ * m.q i}, c i ^ 2 * (σ * m.q i.1)⁻¹ = 0 := by
      have : ∀ i : {i // 0 < σ * m.q i}, c i ^ 2 * (σ * m.q i.1)⁻¹ = σ⁻¹ * (c i ^ 2 * (m.q i.1)⁻¹) := by
        intro i; rw [mul_inv]; ring
      simp only [this]
      rw [← Finset.mul_sum, ← e, mul_zero]
    funext i
    have := (Finset.sum_eq_zero_iff_of_nonneg (fun i _ =>
      mul_nonneg (sq_nonneg (c i)) (inv_pos.mpr i.2).le)).mp e' i (Finset.mem_univ i)
    rcases mul_eq_zero.mp this with h | h
    · exact pow_eq_zero_iff (two_ne_zero) |>.mp h
    · exact absurd h (inv_pos.mpr i.2).ne'
  have := LinearMap.finrank_le_finrank_of_injective hL
  simpa using this

theorem card_eq (σ : ℝ) (hσ : σ = 1 ∨ σ = -1) : Fintype.card {i // 0 < σ * m.q i} = 3 := by
  have h1 := m.card_le σ hσ
  have h2 := m.card_le (-σ) (by rcases hσ with rfl | rfl <;> norm_num)
  have h3 : Fintype.card {i // ¬ 0 < σ * m.q i} = 6 - Fintype.card {i // 0 < σ * m.q i} := by
    rw [Fintype.card_subtype_compl]
    rfl
  have h4 : Fintype.card {i // ¬ 0 < σ * m.q i} = Fintype.card {i // 0 < -σ * m.q i} := by
    refine Fintype.card_congr (Equiv.subtypeEquivRight fun i => ?_)
    have hn : σ * m.q i ≠ 0 := mul_ne_zero (by rcases hσ with rfl | rfl <;> norm_num) (m.ne i)
    constructor
    · intro h
      have := lt_of_le_of_ne (not_lt.mp h) hn
      linarith
    · intro h
      linarith
  omega

end Modes

/-- Waves leaving an interface that match across it vanish. -/
theorem solve_inj {C' : Matrix (Fin 6) (Fin 6) ℝ} {ρ' : ℝ} (m : Modes C ρ p1 p2)
    (m' : Modes C' ρ' p1 p2) {a : {i // 0 < -1 * m.q i} → ℝ} {b : {i // 0 < 1 * m'.q i} → ℝ}
    (h1 : ∑ i, b i • m'.u i.1 = ∑ i, a i • m.u i.1) (h2 : ∑ i, b i • m'.t i.1 = ∑ i, a i • m.t i.1) :
    a = 0 ∧ b = 0 := by
  have e1 := m.energy (fun i : {i // 0 < -1 * m.q i} => i.1) Subtype.val_injective a
  have e2 := m'.energy (fun i : {i // 0 < 1 * m'.q i} => i.1) Subtype.val_injective b
  rw [h1, h2, e1] at e2
  have n1 : ∀ i : {i // 0 < -1 * m.q i}, (m.q i.1)⁻¹ < 0 := fun i =>
    inv_lt_zero.mpr (by have := i.2; linarith)
  have n2 : ∀ i : {i // 0 < 1 * m'.q i}, 0 < (m'.q i.1)⁻¹ := fun i =>
    inv_pos.mpr (by have := i.2; linarith)
  have p1 : ∀ i ∈ Finset.univ, a i ^ 2 * (m.q i.1)⁻¹ ≤ 0 := fun i _ =>
    mul_nonpos_of_nonneg_of_nonpos (sq_nonneg _) (n1 i).le
  have p2 : ∀ i ∈ Finset.univ, 0 ≤ b i ^ 2 * (m'.q i.1)⁻¹ := fun i _ =>
    mul_nonneg (sq_nonneg _) (n2 i).le
  have s1 := Finset.sum_nonpos p1
  have s2 := Finset.sum_nonneg p2
  have z1 := (Finset.sum_eq_zero_iff_of_nonpos p1).mp (by linarith)
  have z2 := (Finset.sum_eq_zero_iff_of_nonneg p2).mp (by linarith)
  constructor
  · funext i
    rcases mul_eq_zero.mp (z1 i (Finset.mem_univ i)) with h | h
    · exact pow_eq_zero_iff (two_ne_zero) |>.mp h
    · exact absurd h (n1 i).ne
  · funext i
    rcases mul_eq_zero.mp (z2 i (Finset.mem_univ i)) with h | h
    · exact pow_eq_zero_iff (two_ne_zero) |>.mp h
    · exact absurd h (n2 i).ne'

/-- Any jump of displacement and traction is matched by waves leaving the interface. -/
theorem solve {C' : Matrix (Fin 6) (Fin 6) ℝ} {ρ' : ℝ} (m : Modes C ρ p1 p2) (m' : Modes C' ρ' p1 p2)
    (d τ : Fin 3 → ℝ) :
    ∃ (a : {i // 0 < -1 * m.q i} → ℝ) (b : {i // 0 < 1 * m'.q i} → ℝ),
      d + ∑ i, a i • m.u i.1 = ∑ i, b i • m'.u i.1 ∧ τ + ∑ i, a i • m.t i.1 = ∑ i, b i • m'.t i.1 := by
  let L : (({i // 0 < -1 * m.q i} → ℝ) × ({i // 0 < 1 * m'.q i} → ℝ)) →ₗ[ℝ]
      ((Fin 3 → ℝ) × (Fin 3 → ℝ)) :=
    { toFun := fun z => (∑ i, z.2 i • m'.u i.1 - ∑ i, z.1 i • m.u i.1,
        ∑ i, z.2 i • m'.t i.1 - ∑ i, z.1 i • m.t i.1)
      map_add' := fun c d => by
        refine Prod.ext ?_ ?_ <;>
          simp only [Prod.fst_add, Prod.snd_add, Pi.add_apply, add_smul, Finset.sum_add_distrib] <;> abel
      map_smul' := fun a c => by
        refine Prod.ext ?_ ?_ <;>
          simp only [Prod.smul_fst, Prod.smul_snd, Pi.smul_apply, smul_eq_mul, mul_smul,
            Finset.smul_sum, RingHom.id_apply, smul_sub] }
  have hL : Function.Injective L := by
    rw [injective_iff_map_eq_zero]
    intro z hz
    obtain ⟨e1, e2⟩ := solve_inj m m' (sub_eq_zero.mp (congrArg Prod.fst hz))
      (sub_eq_zero.mp (congrArg Prod.snd hz))
    exact Prod.ext e1 e2
  have hd : Module.finrank ℝ (({i // 0 < -1 * m.q i} → ℝ) × ({i // 0 < 1 * m'.q i} → ℝ))
      = Module.finrank ℝ ((Fin 3 → ℝ) × (Fin 3 → ℝ)) := by
    rw [Module.finrank_prod, Module.finrank_prod, Module.finrank_fintype_fun_eq_card,
      Module.finrank_fintype_fun_eq_card, Module.finrank_fintype_fun_eq_card,
      m.card_eq (-1) (Or.inr rfl), m'.card_eq 1 (Or.inl rfl)]
    rfl
  obtain ⟨z, hz⟩ := (LinearMap.injective_iff_surjective_of_finrank_eq_finrank hd).mp hL (d, τ)
  have h1 : ∑ i, z.2 i • m'.u i.1 - ∑ i, z.1 i • m.u i.1 = d := congrArg Prod.fst hz
  have h2 : ∑ i, z.2 i • m'.t i.1 - ∑ i, z.1 i • m.t i.1 = τ := congrArg Prod.snd hz
  exact ⟨z.1, z.2, by rw [← h1]; abel, by rw [← h2]; abel⟩

end RockPhy.Scat
