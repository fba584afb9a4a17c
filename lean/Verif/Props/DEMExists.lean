import Verif.Props.DEM
import Verif.Lemmas.BerrymanSmooth
import Mathlib.Analysis.Calculus.Deriv.Prod

/-! # Property C82: the differential scheme has exactly one solution -/

namespace RockPhy.Props

open Fl RockPhy.EM RockPhy.Spec Set
open scoped NNReal

/-- The right-hand side that the code integrates is the field of the differential scheme. -/
theorem DEM_field {K G Ki Gi t a : ℝ} (hK : 0 < K) (hG : 0 < G) (hKi : 0 ≤ Ki) (hGi : 0 ≤ Gi)
    (h0 : 0 < a) (h1 : a ≤ 1) (ht : t ≠ 1) :
    DEM (fin K) (fin G) (fin t) (fin Gi) (fin Ki) (fin a)
      = (fin (((1 / (1 - t)) • demField Ki Gi a (K, G)).1),
         fin (((1 / (1 - t)) • demField Ki Gi a (K, G)).2)) := by
  have : 1 - t ≠ 0 := sub_ne_zero.mpr ht.symm
  unfold DEM
  rw [PQ_eval hK hG hKi hGi h0 h1]
  unfold demField facP facQ
  simp only [Prod.smul_mk, smul_eq_mul]
  generalize bP _ _ _ _ _ = P
  generalize bQ _ _ _ _ _ = Q
  fl_eval []
  refine Prod.ext (congrArg fin ?_) (congrArg fin ?_) <;> field

/-- A positive solution of the equations as integrated by the code is a solution of the planar
equation, and conversely. -/
theorem solvesOn_iff {Ki Gi a T Km Gm : ℝ} {k g : ℝ → ℝ} (hKi : 0 ≤ Ki) (hGi : 0 ≤ Gi) (h0 : 0 < a)
    (h1 : a ≤ 1) (hT : T < 1) (hp : ∀ t ∈ Icc 0 T, 0 < k t ∧ 0 < g t) :
    SolvesOn (fun y t => DEM y.1 y.2 t (fin Gi) (fin Ki) (fin a)) T (fin Km, fin Gm) k g ↔
      (k 0 = Km ∧ g 0 = Gm) ∧ ∀ t ∈ Icc 0 T, HasDerivWithinAt (fun t => (k t, g t))
        ((1 / (1 - t)) • demField Ki Gi a (k t, g t)) (Icc 0 T) t := by
  have e : ∀ t ∈ Icc 0 T, DEM (fin (k t)) (fin (g t)) (fin t) (fin Gi) (fin Ki) (fin a)
      = (fin (((1 / (1 - t)) • demField Ki Gi a (k t, g t)).1),
         fin (((1 / (1 - t)) • demField Ki Gi a (k t, g t)).2)) := fun t ht =>
    DEM_field (hp t ht).1 (hp t ht).2 hKi hGi h0 h1 (by linarith [ht.2] : t < 1).ne
  constructor
  · rintro ⟨hi, hs⟩
    injection hi with i1 i2
    rw [fin_inj] at i1 i2
    refine ⟨⟨i1.symm, i2.symm⟩, fun t ht => ?_⟩
    obtain ⟨k', g', e', d1, d2⟩ := hs t ht
    dsimp only at e'
    rw [e t ht] at e'
    injection e' with e1 e2
    rw [fin_inj] at e1 e2
    have := d1.prodMk d2
    rw [← e1, ← e2] at this
    exact this
  · rintro ⟨⟨rfl, rfl⟩, hs⟩
    refine ⟨rfl, fun t ht => ⟨_, _, e t ht, ?_, ?_⟩⟩
    · exact (hs t ht).fst
    · exact (hs t ht).snd

/-- The differential scheme has at most one positive solution. -/
theorem C82_DEM_unique (Ki Gi a T Km Gm : ℝ) (k g k' g' : ℝ → ℝ) (hKi : 0 ≤ Ki) (hGi : 0 ≤ Gi)
    (h0 : 0 < a) (h1 : a ≤ 1) (hT : T < 1)
    (hs : SolvesOn (fun y t => DEM y.1 y.2 t (fin Gi) (fin Ki) (fin a)) T (fin Km, fin Gm) k g)
    (hs' : SolvesOn (fun y t => DEM y.1 y.2 t (fin Gi) (fin Ki) (fin a)) T (fin Km, fin Gm) k' g')
    (hp : ∀ t ∈ Icc 0 T, 0 < k t ∧ 0 < g t) (hp' : ∀ t ∈ Icc 0 T, 0 < k' t ∧ 0 < g' t) :
    ∀ t ∈ Icc 0 T, k t = k' t ∧ g t = g' t := by
  obtain ⟨⟨i1, i2⟩, d⟩ := (solvesOn_iff hKi hGi h0 h1 hT hp).mp hs
  obtain ⟨⟨i1', i2'⟩, d'⟩ := (solvesOn_iff hKi hGi h0 h1 hT hp').mp hs'
  have c : ContinuousOn (fun t => (k t, g t)) (Icc 0 T) := fun t ht => (d t ht).continuousWithinAt
  have c' : ContinuousOn (fun t => (k' t, g' t)) (Icc 0 T) :=
    fun t ht => (d' t ht).continuousWithinAt
  obtain ⟨M, hM⟩ := lipschitz_compact (Φ := demField Ki Gi a)
    ((isCompact_Icc.image_of_continuousOn c).union (isCompact_Icc.image_of_continuousOn c'))
    (by
      rintro p (⟨t, ht, rfl⟩ | ⟨t, ht, rfl⟩)
      · obtain ⟨q1, q2⟩ := hp t ht
        exact (demField_smooth hKi hGi h0 h1 q1.le q2.le (add_pos q1 q2)
          (fun e => absurd e q1.ne') (fun e => absurd e q2.ne')).1
      · obtain ⟨q1, q2⟩ := hp' t ht
        exact (demField_smooth hKi hGi h0 h1 q1.le q2.le (add_pos q1 q2)
          (fun e => absurd e q1.ne') (fun e => absurd e q2.ne')).1)
  have := unique_on hM hT d d' (fun t ht => Or.inl ⟨t, ht, rfl⟩) (fun t ht => Or.inr ⟨t, ht, rfl⟩)
    (by rw [i1, i2, i1', i2'])
  intro t ht
  have e := this ht
  exact ⟨congrArg Prod.fst e, congrArg Prod.snd e⟩

/-- Existence for inclusions that are not voids. -/
theorem DEM_exists_solid {Ki Gi a T Km Gm : ℝ} (hKm : 0 < Km) (hGm : 0 < Gm) (hKi : 0 ≤ Ki)
    (hGi : 0 ≤ Gi) (hi : 0 < Ki + Gi) (h0 : 0 < a) (h1 : a ≤ 1) (hT0 : 0 ≤ T) (hT : T < 1) :
    ∃ k g : ℝ → ℝ,
      SolvesOn (fun y t => DEM y.1 y.2 t (fin Gi) (fin Ki) (fin a)) T (fin Km, fin Gm) k g ∧
      ∀ t ∈ Icc 0 T, 0 < k t ∧ 0 < g t := by
  have a1 : min Ki Km ≤ max Ki Km := (min_le_left _ _).trans (le_max_left _ _)
  have a2 : min Gi Gm ≤ max Gi Gm := (min_le_left _ _).trans (le_max_left _ _)
  have good : ∀ p ∈ Icc (min Ki Km) (max Ki Km) ×ˢ Icc (min Gi Gm) (max Gi Gm),
      ContDiffAt ℝ 1 (demField Ki Gi a) p ∧ 0 ≤ facP Ki Gi a p ∧ 0 ≤ facQ Ki Gi a p ∧
        ContinuousAt (facP Ki Gi a) p ∧ ContinuousAt (facQ Ki Gi a) p := by
    rintro p ⟨⟨l1, -⟩, l2, -⟩
    have n1 : 0 ≤ p.1 := (le_min hKi hKm.le).trans l1
    have n2 : 0 ≤ p.2 := (le_min hGi hGm.le).trans l2
    have z1 : p.1 = 0 → Ki = 0 := fun e => by
      by_contra hne
      have := (lt_min (lt_of_le_of_ne hKi (Ne.symm hne)) hKm).trans_le l1
      linarith
    have z2 : p.2 = 0 → Gi = 0 := fun e => by
      by_contra hne
      have := (lt_min (lt_of_le_of_ne hGi (Ne.symm hne)) hGm).trans_le l2
      linarith
    refine demField_smooth hKi hGi h0 h1 n1 n2 ?_ (fun e => ⟨z1 e, by linarith [z1 e]⟩)
      (fun e => ⟨z2 e, by linarith [z2 e]⟩)
    by_contra hn
    have e1 : p.1 = 0 := by linarith
    have e2 : p.2 = 0 := by linarith
    linarith [z1 e1, z2 e2]
  obtain ⟨M, hM⟩ := lipschitz_compact (Φ := demField Ki Gi a)
    (isCompact_Icc.prod isCompact_Icc) (fun p hp => (good p hp).1)
  obtain ⟨y, y0, hy⟩ := exists_clipped a1 a2 hM hT0 hT (Km, Gm)
  set cl := clip2 (min Ki Km) (max Ki Km) (min Gi Gm) (max Gi Gm) with hcl
  have d1 : ∀ t ∈ Icc 0 T, HasDerivWithinAt (fun t => (y t).1)
      (1 / (1 - t) * ((Ki - (cl (y t)).1) * facP Ki Gi a (cl (y t)))) (Icc 0 T) t :=
    fun t ht => (hy t ht).fst
  have d2 : ∀ t ∈ Icc 0 T, HasDerivWithinAt (fun t => (y t).2)
      (1 / (1 - t) * ((Gi - (cl (y t)).2) * facQ Ki Gi a (cl (y t)))) (Icc 0 T) t :=
    fun t ht => (hy t ht).snd
  have n : ∀ t ∈ Icc 0 T, 0 < 1 / (1 - t) := fun t ht => by
    have : 0 < 1 - t := by linarith [ht.2]
    positivity
  have mem : ∀ t, cl (y t) ∈ Icc (min Ki Km) (max Ki Km) ×ˢ Icc (min Gi Gm) (max Gi Gm) :=
    fun t => clip2_mem a1 a2 _
  have u1 : ∀ t ∈ Icc 0 T, (y t).1 ≤ max Ki Km := barrier_le d1 (fun t ht h => by
    have e : (cl (y t)).1 = max Ki Km := clip_of_gt a1 h
    have := (good _ (mem t)).2.1
    rw [e]
    have : (Ki - max Ki Km) * facP Ki Gi a (cl (y t)) ≤ 0 :=
      mul_nonpos_of_nonpos_of_nonneg (by linarith [le_max_left Ki Km]) this
    exact mul_nonpos_of_nonneg_of_nonpos (n t ht).le this) (by
      rw [y0]
      exact le_max_right _ _)
  have l1 : ∀ t ∈ Icc 0 T, min Ki Km ≤ (y t).1 := barrier_ge d1 (fun t ht h => by
    have e : (cl (y t)).1 = min Ki Km := clip_of_lt a1 h
    have := (good _ (mem t)).2.1
    rw [e]
    have : 0 ≤ (Ki - min Ki Km) * facP Ki Gi a (cl (y t)) :=
      mul_nonneg (by linarith [min_le_left Ki Km]) this
    exact mul_nonneg (n t ht).le this) (by
      rw [y0]
      exact min_le_right _ _)
  have u2 : ∀ t ∈ Icc 0 T, (y t).2 ≤ max Gi Gm := barrier_le d2 (fun t ht h => by
    have e : (cl (y t)).2 = max Gi Gm := clip_of_gt a2 h
    have := (good _ (mem t)).2.2.1
    rw [e]
    have : (Gi - max Gi Gm) * facQ Ki Gi a (cl (y t)) ≤ 0 :=
      mul_nonpos_of_nonpos_of_nonneg (by linarith [le_max_left Gi Gm]) this
    exact mul_nonpos_of_nonneg_of_nonpos (n t ht).le this) (by
      rw [y0]
      exact le_max_right _ _)
  have l2 : ∀ t ∈ Icc 0 T, min Gi Gm ≤ (y t).2 := barrier_ge d2 (fun t ht h => by
    have e : (cl (y t)).2 = min Gi Gm := clip_of_lt a2 h
    have := (good _ (mem t)).2.2.1
    rw [e]
    have : 0 ≤ (Gi - min Gi Gm) * facQ Ki Gi a (cl (y t)) :=
      mul_nonneg (by linarith [min_le_left Gi Gm]) this
    exact mul_nonneg (n t ht).le this) (by
      rw [y0]
      exact min_le_right _ _)
  have fix : ∀ t ∈ Icc 0 T, cl (y t) = y t := fun t ht =>
    Prod.ext (clip_of_mem ⟨l1 t ht, u1 t ht⟩) (clip_of_mem ⟨l2 t ht, u2 t ht⟩)
  have hy' : ∀ t ∈ Icc 0 T,
      HasDerivWithinAt y ((1 / (1 - t)) • demField Ki Gi a (y t)) (Icc 0 T) t := fun t ht => by
    have := hy t ht
    rwa [fix t ht] at this
  have inside : ∀ t ∈ Icc 0 T,
      y t ∈ Icc (min Ki Km) (max Ki Km) ×ˢ Icc (min Gi Gm) (max Gi Gm) := fun t ht =>
    ⟨⟨l1 t ht, u1 t ht⟩, l2 t ht, u2 t ht⟩
  obtain ⟨C1, hC1⟩ := (isCompact_Icc.prod isCompact_Icc).exists_bound_of_continuousOn
    (f := facP Ki Gi a) (fun p hp => (good p hp).2.2.2.1.continuousWithinAt)
  obtain ⟨C2, hC2⟩ := (isCompact_Icc.prod isCompact_Icc).exists_bound_of_continuousOn
    (f := facQ Ki Gi a) (fun p hp => (good p hp).2.2.2.2.continuousWithinAt)
  have rate : ∀ t ∈ Icc 0 T, ∀ F C : ℝ, ‖F‖ ≤ C → 1 / (1 - t) * F ≤ 1 / (1 - T) * C := by
    intro t ht F C h
    have hT' : 0 < 1 - T := by linarith
    have le : 1 / (1 - t) ≤ 1 / (1 - T) := one_div_le_one_div_of_le hT' (by linarith [ht.2])
    have := (le_abs_self F).trans h
    exact (mul_le_mul_of_nonneg_left this (n t ht).le).trans
      (mul_le_mul_of_nonneg_right le ((abs_nonneg _).trans h))
  have pk : ∀ t ∈ Icc 0 T, 0 < (y t).1 := by
    rcases hKi.eq_or_lt with h | h
    · refine decay_pos (c := fun t => 1 / (1 - t) * facP Ki Gi a (y t)) (fun t ht => ?_)
        (fun t ht => rate t ht _ _ (hC1 _ (inside t ht))) (fun t ht => ?_) (by rwa [y0])
      · have := d1 t ht
        rw [fix t ht] at this
        convert this using 1
        rw [← h]
        ring
      · exact (le_min hKi hKm.le).trans (l1 t ht)
    · exact fun t ht => (lt_min h hKm).trans_le (l1 t ht)
  have pg : ∀ t ∈ Icc 0 T, 0 < (y t).2 := by
    rcases hGi.eq_or_lt with h | h
    · refine decay_pos (c := fun t => 1 / (1 - t) * facQ Ki Gi a (y t)) (fun t ht => ?_)
        (fun t ht => rate t ht _ _ (hC2 _ (inside t ht))) (fun t ht => ?_) (by rwa [y0])
      · have := d2 t ht
        rw [fix t ht] at this
        convert this using 1
        rw [← h]
        ring
      · exact (le_min hGi hGm.le).trans (l2 t ht)
    · exact fun t ht => (lt_min h hGm).trans_le (l2 t ht)
  have hp : ∀ t ∈ Icc 0 T, 0 < (y t).1 ∧ 0 < (y t).2 := fun t ht => ⟨pk t ht, pg t ht⟩
  exact ⟨_, _, (solvesOn_iff hKi hGi h0 h1 hT hp).mpr ⟨by rw [y0]; exact ⟨rfl, rfl⟩, hy'⟩, hp⟩

/-- In a medium whose bulk modulus is `w` times its shear modulus. -/
theorem fac_void (a w : ℝ) (K G : ℝ) (hG : 0 < G) (hw : K = w * G) :
    facP 0 0 a (K, G) = bP (-1) 0 (1 / (w + 4 / 3)) (shapeT a) (shapeF a) ∧
    facQ 0 0 a (K, G) = bQ (-1) 0 (1 / (w + 4 / 3)) (shapeT a) (shapeF a) := by
  have e : G / (K + 4 / 3 * G) = 1 / (w + 4 / 3) := by
    have : K + 4 / 3 * G = (w + 4 / 3) * G := by rw [hw]; ring
    rw [this, ← div_div, div_right_comm, div_self hG.ne']
  unfold facP facQ
  simp only [zero_div, zero_sub, sub_zero, e, and_self]

/-- Existence for voids. -/
theorem DEM_exists_void {a T Km Gm : ℝ} (hKm : 0 < Km) (hGm : 0 < Gm) (h0 : 0 < a) (h1 : a ≤ 1)
    (hT0 : 0 ≤ T) (hT : T < 1) :
    ∃ k g : ℝ → ℝ,
      SolvesOn (fun y t => DEM y.1 y.2 t (fin 0) (fin 0) (fin a)) T (fin Km, fin Gm) k g ∧
      ∀ t ∈ Icc 0 T, 0 < k t ∧ 0 < g t := by
  obtain ⟨b1, b2, b3, b4⟩ := shape_bounds h0 h1
  obtain ⟨ε, he, hsoft⟩ := void_soft b1 b2 b3 b4
  obtain ⟨δ, hd, hstiff⟩ := void_stiff b1 b2 b3 b4
  set P : ℝ → ℝ := fun w => bP (-1) 0 (1 / (w + 4 / 3)) (shapeT a) (shapeF a) with hP
  set Q : ℝ → ℝ := fun w => bQ (-1) 0 (1 / (w + 4 / 3)) (shapeT a) (shapeF a) with hQ
  have w0 : 0 < Km / Gm := by positivity
  obtain ⟨hi, hi0, hiQ⟩ : ∃ w, Km / Gm ≤ w ∧ Q w ≤ P w := by
    refine ⟨Km / Gm + 1 / ε, by linarith [one_div_pos.mpr he], hsoft _ (by positivity) ?_ ?_⟩
    · rw [div_lt_iff₀ (by positivity)]
      have : ε * (1 / ε) = 1 := by field
      nlinarith
    · rw [div_lt_iff₀ (by positivity)]
      have : 0 < 1 / ε := by positivity
      linarith
  obtain ⟨lo, lo0, lo1, loQ⟩ : ∃ w, 0 < w ∧ w ≤ Km / Gm ∧ P w ≤ Q w := by
    refine ⟨min (Km / Gm) δ, by positivity, min_le_left _ _, hstiff _ (by positivity) ?_ ?_⟩
    · have l : min (Km / Gm) δ ≤ δ := min_le_right _ _
      have p : 0 < min (Km / Gm) δ := by positivity
      generalize min (Km / Gm) δ = w at *
      rw [lt_div_iff₀ (by positivity)]
      nlinarith
    · have p : 0 < min (Km / Gm) δ := by positivity
      generalize min (Km / Gm) δ = w at *
      rw [div_lt_iff₀ (by positivity)]
      linarith
  have lohi : lo ≤ hi := lo1.trans hi0
  have smooth : ∀ w : ℝ × ℝ, w ∈ Icc (0 : ℝ) 0 ×ˢ Icc lo hi → ContDiffAt ℝ 1
      (fun w : ℝ × ℝ => (-P w.2, w.2 * (Q w.2 - P w.2))) w := by
    rintro w ⟨-, hw, -⟩
    have wp : 0 < w.2 := lo0.trans_le hw
    have den : 0 < w.2 + 4 / 3 := by positivity
    have r0 : 0 < 1 / (w.2 + 4 / 3) := by positivity
    have r1 : 1 / (w.2 + 4 / 3) < 3 / 4 := by
      rw [div_lt_iff₀ den]
      linarith
    obtain ⟨cP, cQ⟩ := bPQ_contDiffAt (A := fun _ : ℝ × ℝ => -1) (B := fun _ => 0)
      (R := fun w => 1 / (w.2 + 4 / 3)) (p := w) (t := shapeT a) (f := shapeF a) contDiffAt_const
      contDiffAt_const (contDiffAt_const.div (by fun_prop) den.ne')
      (bF2_pos le_rfl (by norm_num) r0 r1 b1 b2 b3 b4).ne'
      (bF3_pos le_rfl r0 r1 b2 b3 b4).ne' (bF4_pos le_rfl r0 r1 b1 b2 b3 b4).ne'
    exact cP.neg.prodMk (contDiffAt_snd.mul (cQ.sub cP))
  obtain ⟨M, hM⟩ := lipschitz_compact (isCompact_Icc.prod isCompact_Icc) smooth
  obtain ⟨y, y0, hy⟩ := exists_clipped le_rfl lohi hM hT0 hT (Real.log Km, Km / Gm)
  have d1 : ∀ t ∈ Icc 0 T, HasDerivWithinAt (fun t => (y t).1)
      (1 / (1 - t) * (-P (clip lo hi (y t).2))) (Icc 0 T) t := fun t ht => (hy t ht).fst
  have d2 : ∀ t ∈ Icc 0 T, HasDerivWithinAt (fun t => (y t).2)
      (1 / (1 - t) * (clip lo hi (y t).2 * (Q (clip lo hi (y t).2) - P (clip lo hi (y t).2))))
      (Icc 0 T) t := fun t ht => (hy t ht).snd
  have n : ∀ t ∈ Icc 0 T, 0 < 1 / (1 - t) := fun t ht => by
    have : 0 < 1 - t := by linarith [ht.2]
    positivity
  have u : ∀ t ∈ Icc 0 T, (y t).2 ≤ hi := barrier_le d2 (fun t ht h => by
    rw [clip_of_gt lohi h]
    have : hi * (Q hi - P hi) ≤ 0 :=
      mul_nonpos_of_nonneg_of_nonpos (lo0.le.trans lohi) (by linarith)
    exact mul_nonpos_of_nonneg_of_nonpos (n t ht).le this) (by rw [y0]; exact hi0)
  have l : ∀ t ∈ Icc 0 T, lo ≤ (y t).2 := barrier_ge d2 (fun t ht h => by
    rw [clip_of_lt lohi h]
    have : 0 ≤ lo * (Q lo - P lo) := mul_nonneg lo0.le (by linarith)
    exact mul_nonneg (n t ht).le this) (by rw [y0]; exact lo1)
  have hp : ∀ t ∈ Icc 0 T, 0 < Real.exp (y t).1 ∧ 0 < Real.exp (y t).1 / (y t).2 := fun t ht => by
    have := lo0.trans_le (l t ht)
    constructor <;> positivity
  refine ⟨fun t => Real.exp (y t).1, fun t => Real.exp (y t).1 / (y t).2,
    (solvesOn_iff le_rfl le_rfl h0 h1 hT hp).mpr ⟨⟨?_, ?_⟩, fun t ht => ?_⟩, hp⟩
  · rw [y0]
    exact Real.exp_log hKm
  · rw [y0]
    dsimp only
    rw [Real.exp_log hKm]
    field
  have wp := lo0.trans_le (l t ht)
  have fix := clip_of_mem (a := lo) (b := hi) ⟨l t ht, u t ht⟩
  have e1 := d1 t ht
  have e2 := d2 t ht
  rw [fix] at e1 e2
  have k1 := e1.exp
  have k2 := k1.div e2 wp.ne'
  obtain ⟨f1, f2⟩ := fac_void a (y t).2 (Real.exp (y t).1) (Real.exp (y t).1 / (y t).2) (hp t ht).2
    (by field)
  have := k1.prodMk k2
  convert this using 1
  · rfl
  unfold demField
  simp only [f1, f2, Prod.smul_mk, smul_eq_mul]
  refine Prod.ext ?_ ?_
  · simp only [hP]
    ring
  · simp only [hP, hQ]
    generalize bP _ _ _ _ _ = p
    generalize bQ _ _ _ _ _ = q
    field

/-- The equations integrated by `Berryman_DEM` have a solution on every range of inclusion fractions
below one, for every host with positive moduli and every inclusion with non-negative moduli, a void
or a fluid included; its moduli stay positive, and there is no other solution. -/
theorem C82_DEM_exists_unique (Ki Gi a T Km Gm : ℝ) (hKm : 0 < Km) (hGm : 0 < Gm) (hKi : 0 ≤ Ki)
    (hGi : 0 ≤ Gi) (h0 : 0 < a) (h1 : a ≤ 1) (hT0 : 0 ≤ T) (hT : T < 1) :
    ∃ k g : ℝ → ℝ,
      SolvesOn (fun y t => DEM y.1 y.2 t (fin Gi) (fin Ki) (fin a)) T (fin Km, fin Gm) k g ∧
      (∀ t ∈ Icc 0 T, 0 < k t ∧ 0 < g t) ∧
      ∀ k' g' : ℝ → ℝ,
        SolvesOn (fun y t => DEM y.1 y.2 t (fin Gi) (fin Ki) (fin a)) T (fin Km, fin Gm) k' g' →
        ∀ t ∈ Icc 0 T, k' t = k t ∧ g' t = g t := by
  obtain ⟨k, g, hs, hp⟩ : ∃ k g : ℝ → ℝ,
      SolvesOn (fun y t => DEM y.1 y.2 t (fin Gi) (fin Ki) (fin a)) T (fin Km, fin Gm) k g ∧
      ∀ t ∈ Icc 0 T, 0 < k t ∧ 0 < g t := by
    rcases (add_nonneg hKi hGi).eq_or_lt with h | h
    · have e1 : Ki = 0 := by linarith
      have e2 : Gi = 0 := by linarith
      subst e1 e2
      exact DEM_exists_void hKm hGm h0 h1 hT0 hT
    · exact DEM_exists_solid hKm hGm hKi hGi h h0 h1 hT0 hT
  refine ⟨k, g, hs, hp, fun k' g' hs' => ?_⟩
  have ck : ContinuousOn k (Icc 0 T) := fun t ht => by
    obtain ⟨_, _, -, d, -⟩ := hs.2 t ht
    exact d.continuousWithinAt
  have cg : ContinuousOn g (Icc 0 T) := fun t ht => by
    obtain ⟨_, _, -, -, d⟩ := hs.2 t ht
    exact d.continuousWithinAt
  have ck' : ContinuousOn k' (Icc 0 T) := fun t ht => by
    obtain ⟨_, _, -, d, -⟩ := hs'.2 t ht
    exact d.continuousWithinAt
  have cg' : ContinuousOn g' (Icc 0 T) := fun t ht => by
    obtain ⟨_, _, -, -, d⟩ := hs'.2 t ht
    exact d.continuousWithinAt
  have i0 : k' 0 = Km ∧ g' 0 = Gm := by
    obtain ⟨hi, -⟩ := hs'
    injection hi with i1 i2
    rw [fin_inj] at i1 i2
    exact ⟨i1.symm, i2.symm⟩
  have hp' : ∀ t ∈ Icc 0 T, 0 < k' t ∧ 0 < g' t := by
    by_contra hn
    push Not at hn
    obtain ⟨t, ht, hn⟩ := hn
    have bad : min (k' t) (g' t) ≤ 0 := by
      by_cases c : 0 < k' t
      · exact (min_le_right _ _).trans (hn c)
      · exact (min_le_left _ _).trans (not_lt.mp c)
    have cm : ContinuousOn (fun t => min (k' t) (g' t)) (Icc 0 T) := ck'.inf cg'
    have cl : IsCompact (Icc 0 T ∩ (fun t => min (k' t) (g' t)) ⁻¹' Iic 0) :=
      isCompact_Icc.of_isClosed_subset
        (cm.preimage_isClosed_of_isClosed isClosed_Icc isClosed_Iic) inter_subset_left
    obtain ⟨s, ⟨hsm, hs0⟩, hmin⟩ := cl.exists_isLeast ⟨t, ht, bad⟩
    have before : ∀ r ∈ Ico 0 s, 0 < k' r ∧ 0 < g' r := by
      intro r hr
      by_contra hc
      have : min (k' r) (g' r) ≤ 0 := by
        by_cases c : 0 < k' r
        · exact (min_le_right _ _).trans (not_lt.mp fun c' => hc ⟨c, c'⟩)
        · exact (min_le_left _ _).trans (not_lt.mp c)
      have := hmin ⟨⟨hr.1, hr.2.le.trans hsm.2⟩, this⟩
      linarith [hr.2]
    have spos : 0 < s := by
      rcases hsm.1.eq_or_lt with h | h
      · rw [← h] at hs0
        have : min (k' 0) (g' 0) ≤ 0 := hs0
        rw [i0.1, i0.2] at this
        have := lt_min hKm hGm
        linarith
      · exact h
    have same : ∀ r ∈ Ico 0 s, k' r = k r ∧ g' r = g r := by
      intro r hr
      have rT : r ≤ T := hr.2.le.trans hsm.2
      exact C82_DEM_unique Ki Gi a r Km Gm k' g' k g hKi hGi h0 h1 (rT.trans_lt hT)
        (hs'.mono rT) (hs.mono rT)
        (fun q hq => before q ⟨hq.1, hq.2.trans_lt hr.2⟩)
        (fun q hq => hp q ⟨hq.1, hq.2.trans rT⟩) r ⟨hr.1, le_rfl⟩
    have cls : s ∈ closure (Ico 0 s) := by
      rw [closure_Ico spos.ne]
      exact ⟨spos.le, le_rfl⟩
    have sub : Ico 0 s ⊆ Icc 0 T := fun r hr => ⟨hr.1, hr.2.le.trans hsm.2⟩
    have lim : ∀ u v : ℝ → ℝ, ContinuousOn u (Icc 0 T) → ContinuousOn v (Icc 0 T) →
        (∀ r ∈ Ico 0 s, u r = v r) → u s = v s := by
      intro u v cu cv h
      have e : EqOn u v (Ico 0 s) := h
      refine e.of_subset_closure (t := Icc 0 s) (cu.mono (Icc_subset_Icc_right hsm.2))
        (cv.mono (Icc_subset_Icc_right hsm.2)) Ico_subset_Icc_self ?_ ⟨spos.le, le_rfl⟩
      rw [closure_Ico spos.ne]
    have e1 := lim k' k ck' ck fun r hr => (same r hr).1
    have e2 := lim g' g cg' cg fun r hr => (same r hr).2
    have : min (k' s) (g' s) ≤ 0 := hs0
    rw [e1, e2] at this
    have := lt_min (hp s hsm).1 (hp s hsm).2
    linarith
  exact C82_DEM_unique Ki Gi a T Km Gm k' g' k g hKi hGi h0 h1 hT hs' hs hp' hp

/-- Exact integrators exist. -/
theorem exists_exactIntegrator : ∃ odeint, IsExactIntegrator odeint := by
  classical
  refine ⟨fun rhs y0 l =>
    if h : ∃ (T : ℝ) (k g : ℝ → ℝ) (ts : List ℝ), (0 ≤ T ∧ SolvesOn rhs T y0 k g ∧
      (∀ k' g' : ℝ → ℝ, SolvesOn rhs T y0 k' g' → ∀ t ∈ Icc 0 T, k' t = k t ∧ g' t = g t) ∧
      ∀ t ∈ ts, t ∈ Icc 0 T) ∧ l = ts.map fin
    then h.choose_spec.choose_spec.choose_spec.choose.map fun t =>
      (fin (h.choose_spec.choose t), fin (h.choose_spec.choose_spec.choose t))
    else [], ?_⟩
  intro rhs T y0 k g ts hT hs hu ht
  have h : ∃ (T : ℝ) (k g : ℝ → ℝ) (ts' : List ℝ), (0 ≤ T ∧ SolvesOn rhs T y0 k g ∧
      (∀ k' g' : ℝ → ℝ, SolvesOn rhs T y0 k' g' → ∀ t ∈ Icc 0 T, k' t = k t ∧ g' t = g t) ∧
      ∀ t ∈ ts', t ∈ Icc 0 T) ∧ ts.map fin = ts'.map fin := ⟨T, k, g, ts, ⟨hT, hs, hu, ht⟩, rfl⟩
  dsimp only
  rw [dif_pos h]
  obtain ⟨⟨hT', hs', hu', ht'⟩, e⟩ := h.choose_spec.choose_spec.choose_spec.choose_spec
  generalize h.choose_spec.choose_spec.choose_spec.choose = ts' at *
  generalize h.choose_spec.choose_spec.choose = g' at *
  generalize h.choose_spec.choose = k' at *
  generalize h.choose = T' at *
  have e' : ts = ts' := by
    have inj : Function.Injective fin := fun a b h => by simpa [fin_inj] using h
    exact List.map_injective_iff.mpr inj e
  subst e'
  refine List.map_congr_left fun t m => ?_
  rcases le_total T T' with c | c
  · obtain ⟨q1, q2⟩ := hu k' g' (hs'.mono c) t (ht t m)
    rw [q1, q2]
  · obtain ⟨q1, q2⟩ := hu' k g (hs.mono c) t (ht' t m)
    rw [q1, q2]

/-- `Berryman_DEM` with an exact integrator, for every host with positive moduli, every inclusion
with non-negative moduli and every fraction up to 99 percent: it reports the one solution of the
differential scheme at 0, 0.01, 0.02, ...; the moduli start at the host, stay positive, approach
those of the inclusion monotonically and never pass them. -/
theorem C82_Berryman_DEM_exact
    (odeint : (Fl × Fl → Fl → Fl × Fl) → Fl × Fl → List Fl → List (Fl × Fl))
    (hode : IsExactIntegrator odeint)
    (ceil : Fl → ℕ) (hc : ∀ x : ℝ, ceil (fin x) = ⌈x⌉₊) (Km Gm Ki Gi a phi : ℝ)
    (hphi : 0 ≤ phi) (hphi' : phi ≤ 0.99) (hKm : 0 < Km) (hGm : 0 < Gm)
    (hKi : 0 ≤ Ki) (hGi : 0 ≤ Gi) (h0 : 0 < a) (h1 : a ≤ 1) :
    ∃ (n : ℕ) (k g : ℝ → ℝ), n = ⌈phi * 100⌉₊ ∧
    SolvesOn (fun y t => DEM y.1 y.2 t (fin Gi) (fin Ki) (fin a)) (n / 100) (fin Km, fin Gm) k g ∧
    Berryman_DEM odeint ceil (fin Km) (fin Gm) (fin Ki) (fin Gi) (fin a) (fin phi)
      = ((List.range (n + 1)).map (fun i : ℕ => fin (k (i / 100))),
         (List.range (n + 1)).map (fun i : ℕ => fin (g (i / 100))),
         (List.range (n + 1)).map fun i : ℕ => fin ((i : ℝ) / 100)) ∧
    k 0 = Km ∧ g 0 = Gm ∧
    ∀ i j : ℕ, i ≤ j → j ≤ n → 0 < k (j / 100) ∧ 0 < g (j / 100) ∧
      (Ki ≤ Km → Ki ≤ k (j / 100) ∧ k (j / 100) ≤ k (i / 100)) ∧
      (Km ≤ Ki → k (i / 100) ≤ k (j / 100) ∧ k (j / 100) ≤ Ki) ∧
      (Gi ≤ Gm → Gi ≤ g (j / 100) ∧ g (j / 100) ≤ g (i / 100)) ∧
      (Gm ≤ Gi → g (i / 100) ≤ g (j / 100) ∧ g (j / 100) ≤ Gi) := by
  have hT : (⌈phi * 100⌉₊ : ℝ) / 100 < 1 := by
    have : ⌈phi * 100⌉₊ ≤ 99 := Nat.ceil_le.mpr (by norm_num at hphi' ⊢; linarith)
    have : (⌈phi * 100⌉₊ : ℝ) ≤ 99 := by exact_mod_cast this
    linarith
  obtain ⟨k, g, hs, hp, hu⟩ := C82_DEM_exists_unique Ki Gi a (⌈phi * 100⌉₊ / 100) Km Gm hKm hGm hKi
    hGi h0 h1 (by positivity) hT
  have out := hode _ _ _ k g ((List.range (⌈phi * 100⌉₊ + 1)).map fun i : ℕ => (i : ℝ) / 100)
    (by positivity) hs hu (by
      intro t ht
      obtain ⟨i, hi, rfl⟩ := List.mem_map.mp ht
      have : i ≤ ⌈phi * 100⌉₊ := Nat.lt_succ_iff.mp (List.mem_range.mp hi)
      have : (i : ℝ) ≤ ⌈phi * 100⌉₊ := by exact_mod_cast this
      exact ⟨by positivity, by linarith⟩)
  rw [List.map_map, List.map_map] at out
  obtain ⟨r1, r2, r3, r4⟩ := C82_Berryman_DEM odeint ceil hc Km Gm Ki Gi a phi k g _ rfl hphi hphi'
    hKi hGi h0 h1 hs hp out
  refine ⟨_, k, g, rfl, hs, r1, r2, r3, fun i j hij hj => ?_⟩
  have mj : (j : ℝ) / 100 ∈ Icc (0 : ℝ) (⌈phi * 100⌉₊ / 100) := by
    have : (j : ℝ) ≤ ⌈phi * 100⌉₊ := by exact_mod_cast hj
    exact ⟨by positivity, by linarith⟩
  exact ⟨(hp _ mj).1, (hp _ mj).2, r4 i j hij hj⟩

/-- Dry cracks, brine and stiff inclusions in quartz, integrated exactly. -/
example : ∃ odeint, IsExactIntegrator odeint ∧ ∀ Ki Gi : ℝ, 0 ≤ Ki → 0 ≤ Gi →
    ∃ k g : ℝ → ℝ, Berryman_DEM odeint (fun x => match x with | fin r => ⌈r⌉₊ | bad => 0) (fin 37)
      (fin 44) (fin Ki) (fin Gi) (fin 0.01) (fin 0.4)
      = ((List.range 41).map (fun i : ℕ => fin (k (i / 100))),
         (List.range 41).map (fun i : ℕ => fin (g (i / 100))),
         (List.range 41).map fun i : ℕ => fin ((i : ℝ) / 100)) ∧ 0 < k 0.4 ∧ 0 < g 0.4 := by
  obtain ⟨odeint, h⟩ := exists_exactIntegrator
  refine ⟨odeint, h, fun Ki Gi hKi hGi => ?_⟩
  obtain ⟨n, k, g, hn, -, e, -, -, m⟩ := C82_Berryman_DEM_exact odeint h
    (fun x => match x with | fin r => ⌈r⌉₊ | bad => 0) (fun x => rfl) 37 44 Ki Gi 0.01 0.4
    (by norm_num) (by norm_num) (by norm_num) (by norm_num) hKi hGi (by norm_num) (by norm_num)
  have : n = 40 := by
    rw [hn]
    have : (0.4 : ℝ) * 100 = (40 : ℕ) := by norm_num
    rw [this, Nat.ceil_natCast]
  subst this
  have q := m 40 40 le_rfl le_rfl
  have f : ((40 : ℕ) : ℝ) / 100 = 0.4 := by norm_num
  rw [f] at q
  exact ⟨k, g, e, q.1, q.2.1⟩

end RockPhy.Props
