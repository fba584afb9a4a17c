import Verif.Lemmas.Mix
import Mathlib.Topology.Order.MonotoneConvergence
import Mathlib.Topology.Algebra.Order.Field
import Mathlib.Topology.Algebra.GroupWithZero
import Mathlib.Topology.Instances.Real.Lemmas

/-! # The self-consistent iteration for spherical pores over the reals -/

namespace RockPhy.EM

open Fl

/-- Bulk update of the self-consistent iteration. -/
noncomputable def kStep (φ Ks K G : ℝ) : ℝ := (1 / Ks + (1 / K + 3 / (4 * G)) * φ)⁻¹

/-- Shear update of the self-consistent iteration, `K` being the updated bulk modulus. -/
noncomputable def gStep (φ Gs K G : ℝ) : ℝ :=
  (1 / Gs + (15 * K + 20 * G) / (9 * K + 8 * G) * φ / G)⁻¹

/-- The real iterates. -/
noncomputable def scSeq (φ Ks Gs : ℝ) : ℕ → ℝ × ℝ
  | 0 => (Ks, Gs)
  | n + 1 =>
    let s := scSeq φ Ks Gs n
    let K := kStep φ Ks s.1 s.2
    (K, gStep φ Gs K s.2)

variable {φ Ks Gs K G K' G' : ℝ}

theorem kStep_pos (hφ : 0 ≤ φ) (hKs : 0 < Ks) (hK : 0 < K) (hG : 0 < G) :
    0 < kStep φ Ks K G := by unfold kStep; positivity

theorem gStep_pos (hφ : 0 ≤ φ) (hGs : 0 < Gs) (hK : 0 < K) (hG : 0 < G) :
    0 < gStep φ Gs K G := by unfold gStep; positivity

theorem kStep_le (hφ : 0 ≤ φ) (hKs : 0 < Ks) (hK : 0 < K) (hG : 0 < G) :
    kStep φ Ks K G ≤ Ks := by
  unfold kStep
  rw [inv_le_comm₀ (by positivity) hKs, one_div]
  have : 0 ≤ (1 / K + 3 / (4 * G)) * φ := by positivity
  linarith

theorem gStep_le (hφ : 0 ≤ φ) (hGs : 0 < Gs) (hK : 0 < K) (hG : 0 < G) :
    gStep φ Gs K G ≤ Gs := by
  unfold gStep
  rw [inv_le_comm₀ (by positivity) hGs, one_div]
  have : 0 ≤ (15 * K + 20 * G) / (9 * K + 8 * G) * φ / G := by positivity
  linarith

theorem kStep_mono (hφ : 0 ≤ φ) (hKs : 0 < Ks) (hK : 0 < K) (hG : 0 < G) (h1 : K ≤ K')
    (h2 : G ≤ G') : kStep φ Ks K G ≤ kStep φ Ks K' G' := by
  unfold kStep
  have hK' := hK.trans_le h1
  have hG' := hG.trans_le h2
  gcongr

theorem shear_factor_anti (hK : 0 < K) (hG : 0 < G) (h1 : K ≤ K') (h2 : G ≤ G') :
    (15 * K' + 20 * G') / (9 * K' + 8 * G') / G' ≤ (15 * K + 20 * G) / (9 * K + 8 * G) / G := by
  have hK' := hK.trans_le h1
  have hG' := hG.trans_le h2
  rw [div_div, div_div, div_le_div_iff₀ (by positivity) (by positivity)]
  obtain ⟨a, ha, rfl⟩ : ∃ a, 0 ≤ a ∧ K' = K + a := ⟨K' - K, by linarith, by ring⟩
  obtain ⟨b, hb, rfl⟩ : ∃ b, 0 ≤ b ∧ G' = G + b := ⟨G' - G, by linarith, by ring⟩
  have : 0 ≤ (15 * K + 20 * G) * ((9 * (K + a) + 8 * (G + b)) * (G + b))
      - (15 * (K + a) + 20 * (G + b)) * ((9 * K + 8 * G) * G) := by
    ring_nf; positivity
  linarith

theorem gStep_mono (hφ : 0 ≤ φ) (hGs : 0 < Gs) (hK : 0 < K) (hG : 0 < G) (h1 : K ≤ K')
    (h2 : G ≤ G') : gStep φ Gs K G ≤ gStep φ Gs K' G' := by
  unfold gStep
  have hK' := hK.trans_le h1
  have hG' := hG.trans_le h2
  rw [inv_le_inv₀ (by positivity) (by positivity), mul_div_right_comm, mul_div_right_comm _ φ G]
  gcongr 1 / Gs + ?_ * φ
  exact shear_factor_anti hK hG h1 h2

theorem scSeq_pos (hφ : 0 ≤ φ) (hKs : 0 < Ks) (hGs : 0 < Gs) (n : ℕ) :
    0 < (scSeq φ Ks Gs n).1 ∧ 0 < (scSeq φ Ks Gs n).2 := by
  induction n with
  | zero => exact ⟨hKs, hGs⟩
  | succ n ih =>
    have h := kStep_pos hφ hKs ih.1 ih.2
    exact ⟨h, gStep_pos hφ hGs h ih.2⟩

theorem scSeq_anti (hφ : 0 ≤ φ) (hKs : 0 < Ks) (hGs : 0 < Gs) (n : ℕ) :
    (scSeq φ Ks Gs (n + 1)).1 ≤ (scSeq φ Ks Gs n).1 ∧
    (scSeq φ Ks Gs (n + 1)).2 ≤ (scSeq φ Ks Gs n).2 := by
  induction n with
  | zero =>
    exact ⟨kStep_le hφ hKs hKs hGs, gStep_le hφ hGs (kStep_pos hφ hKs hKs hGs) hGs⟩
  | succ n ih =>
    have p := scSeq_pos hφ hKs hGs (n + 1)
    have h := kStep_mono (φ := φ) (Ks := Ks) hφ hKs p.1 p.2 ih.1 ih.2
    exact ⟨h, gStep_mono hφ hGs (kStep_pos hφ hKs p.1 p.2) p.2 h ih.2⟩

theorem SC_eval (hφ : 0 ≤ φ) (hKs : 0 < Ks) (hGs : 0 < Gs) (n : ℕ) :
    SC (fin φ) (fin Ks) (fin Gs) n
      = (fin (scSeq φ Ks Gs n).1, fin (scSeq φ Ks Gs n).2) := by
  induction n with
  | zero => rfl
  | succ n ih =>
    unfold SC
    rw [ih]
    obtain ⟨p1, p2⟩ := scSeq_pos hφ hKs hGs n
    have e : scSeq φ Ks Gs (n + 1) = (kStep φ Ks (scSeq φ Ks Gs n).1 (scSeq φ Ks Gs n).2,
      gStep φ Gs (kStep φ Ks (scSeq φ Ks Gs n).1 (scSeq φ Ks Gs n).2) (scSeq φ Ks Gs n).2) := rfl
    rw [e]
    generalize (scSeq φ Ks Gs n).1 = K at *
    generalize (scSeq φ Ks Gs n).2 = G at *
    have q := kStep_pos hφ hKs p1 p2
    have n1 : (0 : ℝ) < 1 / Ks + (1 / K + 3 / (4 * G)) * φ := by positivity
    have ek : inv (1 / fin Ks + (1 / fin K + 3 / (4 * fin G)) * fin φ)
        = fin (kStep φ Ks K G) := by
      fl_eval [kStep]
    unfold SC_step
    dsimp only
    rw [ek]
    generalize kStep φ Ks K G = K2 at *
    have n2 : (0 : ℝ) < 1 / Gs + (15 * K2 + 20 * G) / (9 * K2 + 8 * G) * φ / G := by positivity
    fl_eval [gStep]

end RockPhy.EM
