import Verif.Model.Anisotropy
import Verif.Lemmas.Utils
import Verif.Lemmas.FlAlg

/-! Closed forms of the functions in `Verif/Model/Anisotropy.lean` on finite inputs. -/

namespace RockPhy.Anisotropy

open Fl Spec

/-- The discriminant root of the VTI velocities. -/
noncomputable def vtiR (C11 C33 C13 C44 a : ℝ) : ℝ :=
  Real.sqrt (((C11 - C44) * Real.sin a ^ 2 - (C33 - C44) * Real.cos a ^ 2) ^ 2
    + (C13 + C44) ^ 2 * Real.sin (2 * a) ^ 2)

/-- Trace part of the VTI velocities. -/
noncomputable def vtiS (C11 C33 C44 a : ℝ) : ℝ :=
  C11 * Real.sin a ^ 2 + C33 * Real.cos a ^ 2 + C44

theorem vel_azi_VTI_eval {C : Matrix (Fin 6) (Fin 6) ℝ} {den az a : ℝ}
    (ha : az * (Real.pi / 180) = a) (hden : 0 < den)
    (hv : 0 ≤ vtiS (C 0 0) (C 2 2) (C 3 3) a - vtiR (C 0 0) (C 2 2) (C 0 2) (C 3 3) a)
    (hh : 0 ≤ C 5 5 * Real.sin a ^ 2 + C 3 3 * Real.cos a ^ 2) :
    vel_azi_VTI (C.map fin) (fin den) (fin az) =
      (fin (Real.sqrt (0.5 / den * (vtiS (C 0 0) (C 2 2) (C 3 3) a
          + vtiR (C 0 0) (C 2 2) (C 0 2) (C 3 3) a))),
       fin (Real.sqrt (1 / den * (C 5 5 * Real.sin a ^ 2 + C 3 3 * Real.cos a ^ 2))),
       fin (Real.sqrt (0.5 / den * (vtiS (C 0 0) (C 2 2) (C 3 3) a
          - vtiR (C 0 0) (C 2 2) (C 0 2) (C 3 3) a)))) := by
  have hR : 0 ≤ vtiR (C 0 0) (C 2 2) (C 0 2) (C 3 3) a := Real.sqrt_nonneg _
  have h1 : 0 ≤ vtiS (C 0 0) (C 2 2) (C 3 3) a + vtiR (C 0 0) (C 2 2) (C 0 2) (C 3 3) a := by
    linarith
  have h2 : 0 ≤ 0.5 / den * (vtiS (C 0 0) (C 2 2) (C 3 3) a
      + vtiR (C 0 0) (C 2 2) (C 0 2) (C 3 3) a) := mul_nonneg (by positivity) h1
  have h3 : 0 ≤ 0.5 / den * (vtiS (C 0 0) (C 2 2) (C 3 3) a
      - vtiR (C 0 0) (C 2 2) (C 0 2) (C 3 3) a) := mul_nonneg (by positivity) hv
  have h4 : 0 ≤ 1 / den * (C 5 5 * Real.sin a ^ 2 + C 3 3 * Real.cos a ^ 2) :=
    mul_nonneg (by positivity) hh
  unfold vtiS vtiR at *
  fl_eval [vel_azi_VTI, Matrix.map_apply, ha]

theorem vel_azi_VTI_VP {C : Matrix (Fin 6) (Fin 6) ℝ} {den az a : ℝ}
    (ha : az * (Real.pi / 180) = a) (hden : 0 < den)
    (hv : 0 ≤ vtiS (C 0 0) (C 2 2) (C 3 3) a + vtiR (C 0 0) (C 2 2) (C 0 2) (C 3 3) a) :
    (vel_azi_VTI (C.map fin) (fin den) (fin az)).1 =
      fin (Real.sqrt (0.5 / den * (vtiS (C 0 0) (C 2 2) (C 3 3) a
          + vtiR (C 0 0) (C 2 2) (C 0 2) (C 3 3) a))) := by
  have h2 : 0 ≤ 0.5 / den * (vtiS (C 0 0) (C 2 2) (C 3 3) a
      + vtiR (C 0 0) (C 2 2) (C 0 2) (C 3 3) a) := mul_nonneg (by positivity) hv
  unfold vtiS vtiR at *
  fl_eval [vel_azi_VTI, Matrix.map_apply, ha]

/-- The discriminant root of the HTI velocities. -/
noncomputable def htiR (C11 C33 C12 C55 a : ℝ) : ℝ :=
  Real.sqrt (((C33 - C55) * Real.sin a ^ 2 - (C11 - C55) * Real.cos a ^ 2) ^ 2
    + 4 * (C12 + C55) ^ 2 * Real.sin a ^ 2 * Real.cos a ^ 2)

/-- Trace part of the HTI velocities. -/
noncomputable def htiS (C11 C33 C55 a : ℝ) : ℝ :=
  (C33 + C55) * Real.sin a ^ 2 + (C11 + C55) * Real.cos a ^ 2

theorem vel_azi_HTI_eval {C : Matrix (Fin 6) (Fin 6) ℝ} {den az a : ℝ}
    (ha : az * (Real.pi / 180) = a) (hden : 0 < den)
    (hv : 0 ≤ htiS (C 0 0) (C 2 2) (C 4 4) a - htiR (C 0 0) (C 2 2) (C 0 1) (C 4 4) a)
    (hh : 0 ≤ C 4 4 + (C 3 3 - C 4 4) * Real.sin a ^ 2) :
    vel_azi_HTI (C.map fin) (fin den) (fin az) =
      (fin (Real.sqrt (0.5 / den * (htiS (C 0 0) (C 2 2) (C 4 4) a
          + htiR (C 0 0) (C 2 2) (C 0 1) (C 4 4) a))),
       fin (Real.sqrt (0.5 / den * (htiS (C 0 0) (C 2 2) (C 4 4) a
          - htiR (C 0 0) (C 2 2) (C 0 1) (C 4 4) a))),
       fin (Real.sqrt (1 / den * (C 4 4 + (C 3 3 - C 4 4) * Real.sin a ^ 2)))) := by
  have hR : 0 ≤ htiR (C 0 0) (C 2 2) (C 0 1) (C 4 4) a := Real.sqrt_nonneg _
  have h1 : 0 ≤ htiS (C 0 0) (C 2 2) (C 4 4) a + htiR (C 0 0) (C 2 2) (C 0 1) (C 4 4) a := by
    linarith
  have h2 : 0 ≤ 0.5 / den * (htiS (C 0 0) (C 2 2) (C 4 4) a
      + htiR (C 0 0) (C 2 2) (C 0 1) (C 4 4) a) := mul_nonneg (by positivity) h1
  have h3 : 0 ≤ 0.5 / den * (htiS (C 0 0) (C 2 2) (C 4 4) a
      - htiR (C 0 0) (C 2 2) (C 0 1) (C 4 4) a) := mul_nonneg (by positivity) hv
  have h4 : 0 ≤ 1 / den * (C 4 4 + (C 3 3 - C 4 4) * Real.sin a ^ 2) :=
    mul_nonneg (by positivity) hh
  unfold htiS htiR at *
  fl_eval [vel_azi_HTI, Matrix.map_apply, ha]

theorem Thomsen_eval {C11 C33 C13 C44 C66 den th a : ℝ} (ha : th * (Real.pi / 180) = a)
    (hden : 0 < den) (h33 : 0 < C33) (h44 : 0 < C44) (hne : C33 - C44 ≠ 0) :
    Thomsen (fin C11) (fin C33) (fin C13) (fin C44) (fin C66) (fin den) (fin th) =
      let alpha := Real.sqrt (C33 / den) * 1e3
      let beta := Real.sqrt (C44 / den) * 1e3
      let epsilon := 0.5 * (C11 - C33) / C33
      let gamma := 0.5 * (C66 - C44) / C44
      let delta := ((C13 + C44) ^ 2 - (C33 - C44) ^ 2) / (2 * C33 * (C33 - C44))
      (fin (alpha * (1 + delta * Real.sin a ^ 2 * Real.cos a ^ 2 + epsilon * Real.sin a ^ 4)),
       fin (beta * (1 + alpha ^ 2 / beta ^ 2 * (epsilon - delta) * Real.sin a ^ 2
          * Real.cos a ^ 2)),
       fin (beta * (1 + gamma * Real.sin a ^ 2)), fin epsilon, fin gamma, fin delta) := by
  have h2 : 2 * C33 * (C33 - C44) ≠ 0 := mul_ne_zero (by positivity) hne
  have h3 : (Real.sqrt (C44 / den) * 1e3) ^ 2 ≠ 0 := by positivity
  fl_eval [Thomsen, ha]

theorem Thomsen_Tsvankin_eval {C11 C22 C33 C12 C13 C23 C44 C55 C66 : ℝ}
    (h33 : 0 < C33) (h44 : 0 < C44) (h55 : 0 < C55) (h11 : 0 < C11) (h1 : C33 - C44 ≠ 0)
    (h2 : C33 - C55 ≠ 0) (h3 : C11 - C66 ≠ 0) :
    Thomsen_Tsvankin (fin C11) (fin C22) (fin C33) (fin C12) (fin C13) (fin C23) (fin C44)
      (fin C55) (fin C66) =
      (fin ((C22 - C33) / (2 * C33)),
       fin (((C23 + C44) ^ 2 - (C33 - C44) ^ 2) / (2 * C33 * (C33 - C44))),
       fin ((C66 - C55) / 2 / C55),
       fin ((C11 - C33) / (2 * C33)),
       fin (((C13 + C55) ^ 2 - (C33 - C55) ^ 2) / (2 * C33 * (C33 - C55))),
       fin ((C66 - C44) / 2 / C44),
       fin (((C12 + C66) ^ 2 - (C11 - C66) ^ 2) / 2 / C11 / (C11 - C66))) := by
  have e1 : 2 * C33 * (C33 - C44) ≠ 0 := mul_ne_zero (by positivity) h1
  have e2 : 2 * C33 * (C33 - C55) ≠ 0 := mul_ne_zero (by positivity) h2
  fl_eval [Thomsen_Tsvankin]

end RockPhy.Anisotropy
