import Mathlib.Analysis.ODE.ExistUnique
import Mathlib.Analysis.Calculus.ContDiff.RCLike
import Mathlib.Analysis.Calculus.Deriv.MeanValue
import Mathlib.Analysis.SpecialFunctions.ExpDeriv

/-! # A planar differential equation on a rectangle -/

namespace RockPhy.Spec

open Set Metric
open scoped NNReal Topology

/-- A quantity that does not grow while above `c` and starts at or below `c` stays there. -/
theorem barrier_le {u d : ℝ → ℝ} {T c : ℝ}
    (hu : ∀ t ∈ Icc 0 T, HasDerivWithinAt u (d t) (Icc 0 T) t)
    (hd : ∀ t ∈ Icc 0 T, c < u t → d t ≤ 0) (h0 : u 0 ≤ c) : ∀ t ∈ Icc 0 T, u t ≤ c := by
  intro t ht
  by_contra hn
  push Not at hn
  have cont : ContinuousOn u (Icc 0 T) := fun t ht => (hu t ht).continuousWithinAt
  have sub : Icc 0 t ⊆ Icc 0 T := Icc_subset_Icc_right ht.2
  have cl : IsCompact (Icc 0 t ∩ u ⁻¹' Iic c) :=
    isCompact_Icc.of_isClosed_subset
      ((cont.mono sub).preimage_isClosed_of_isClosed isClosed_Icc isClosed_Iic) inter_subset_left
  obtain ⟨s, ⟨hs, hsc⟩, hmax⟩ := cl.exists_isGreatest ⟨0, ⟨le_rfl, ht.1⟩, h0⟩
  have sub' : Icc s t ⊆ Icc 0 T := (Icc_subset_Icc_left hs.1).trans sub
  have above : ∀ r ∈ Ioo s t, c < u r := by
    intro r hr
    by_contra hc
    push Not at hc
    have := hmax ⟨⟨hs.1.trans hr.1.le, hr.2.le⟩, hc⟩
    linarith [hr.1]
  have anti : AntitoneOn u (Icc s t) := by
    refine antitoneOn_of_deriv_nonpos (convex_Icc s t) (cont.mono sub') ?_ ?_
    · intro r hr
      rw [interior_Icc] at hr
      have m := sub' (Ioo_subset_Icc_self hr)
      exact ((hu r m).hasDerivAt (Icc_mem_nhds (hs.1.trans_lt hr.1)
        (hr.2.trans_le ht.2))).differentiableAt.differentiableWithinAt
    · intro r hr
      rw [interior_Icc] at hr
      have m := sub' (Ioo_subset_Icc_self hr)
      rw [((hu r m).hasDerivAt (Icc_mem_nhds (hs.1.trans_lt hr.1) (hr.2.trans_le ht.2))).deriv]
      exact hd r m (above r hr)
  have := anti ⟨le_rfl, hs.2⟩ ⟨hs.2, le_rfl⟩ hs.2
  have hsc' : u s ≤ c := hsc
  linarith

theorem barrier_ge {u d : ℝ → ℝ} {T c : ℝ}
    (hu : ∀ t ∈ Icc 0 T, HasDerivWithinAt u (d t) (Icc 0 T) t)
    (hd : ∀ t ∈ Icc 0 T, u t < c → 0 ≤ d t) (h0 : c ≤ u 0) : ∀ t ∈ Icc 0 T, c ≤ u t := by
  intro t ht
  have := barrier_le (u := fun t => -u t) (d := fun t => -d t) (c := -c)
    (fun t ht => (hu t ht).neg) (fun t ht h => by linarith [hd t ht (by linarith)])
    (by linarith) t ht
  linarith

/-- A quantity that decays at a bounded rate never reaches zero. -/
theorem decay_pos {u c : ℝ → ℝ} {T C : ℝ}
    (hu : ∀ t ∈ Icc 0 T, HasDerivWithinAt u (-(c t * u t)) (Icc 0 T) t)
    (hc : ∀ t ∈ Icc 0 T, c t ≤ C) (hn : ∀ t ∈ Icc 0 T, 0 ≤ u t) (h0 : 0 < u 0) :
    ∀ t ∈ Icc 0 T, 0 < u t := by
  intro t ht
  have := barrier_ge (u := fun t => u t * Real.exp (C * t))
    (d := fun t => -(c t * u t) * Real.exp (C * t) + u t * (Real.exp (C * t) * C)) (c := u 0)
    (T := T) (fun s hs => by
      have e : HasDerivAt (fun s => Real.exp (C * s)) (Real.exp (C * s) * C) s := by
        have := ((hasDerivAt_id s).const_mul C).exp
        simpa using this
      exact (hu s hs).mul e.hasDerivWithinAt)
    (fun s hs _ => by
      have : -(c s * u s) * Real.exp (C * s) + u s * (Real.exp (C * s) * C)
          = (C - c s) * u s * Real.exp (C * s) := by ring
      rw [this]
      have := hc s hs
      have := hn s hs
      have : 0 ≤ C - c s := by linarith
      positivity)
    (by simp) t ht
  by_contra hz
  have z : u t = 0 := le_antisymm (not_lt.mp hz) (hn t ht)
  rw [z, zero_mul] at this
  linarith

/-- Nearest point of an interval. -/
noncomputable def clip (a b x : ℝ) : ℝ := max a (min b x)

theorem clip_mem {a b : ℝ} (h : a ≤ b) (x : ℝ) : clip a b x ∈ Icc a b :=
  ⟨le_max_left _ _, max_le h (min_le_left _ _)⟩

theorem clip_of_mem {a b x : ℝ} (h : x ∈ Icc a b) : clip a b x = x := by
  unfold clip
  rw [min_eq_right h.2, max_eq_right h.1]

theorem clip_of_gt {a b x : ℝ} (h : a ≤ b) (hx : b < x) : clip a b x = b := by
  unfold clip
  rw [min_eq_left hx.le, max_eq_right h]

theorem clip_of_lt {a b x : ℝ} (h : a ≤ b) (hx : x < a) : clip a b x = a := by
  unfold clip
  rw [min_eq_right (by linarith), max_eq_left hx.le]

theorem clip_lipschitz (a b : ℝ) : LipschitzWith 1 (clip a b) :=
  (LipschitzWith.id.const_min b).const_max a

/-- Nearest point of a rectangle. -/
noncomputable def clip2 (a b c d : ℝ) (p : ℝ × ℝ) : ℝ × ℝ := (clip a b p.1, clip c d p.2)

theorem clip2_mem {a b c d : ℝ} (h : a ≤ b) (h' : c ≤ d) (p : ℝ × ℝ) :
    clip2 a b c d p ∈ Icc a b ×ˢ Icc c d := ⟨clip_mem h _, clip_mem h' _⟩

theorem clip2_lipschitz (a b c d : ℝ) : LipschitzWith 1 (clip2 a b c d) := by
  have h1 := (clip_lipschitz a b).comp (LipschitzWith.prod_fst (α := ℝ) (β := ℝ))
  have h2 := (clip_lipschitz c d).comp (LipschitzWith.prod_snd (α := ℝ) (β := ℝ))
  have := h1.prodMk h2
  simp only [mul_one, max_self] at this
  exact this

/-- A field that is Lipschitz on a rectangle, continued beyond it by its boundary values and divided
by `1 - t`, has a solution on every interval `[0, T]`, `T < 1`. -/
theorem exists_clipped {Φ : ℝ × ℝ → ℝ × ℝ} {a b c d T : ℝ} {M : ℝ≥0} (h : a ≤ b) (h' : c ≤ d)
    (hΦ : LipschitzOnWith M Φ (Icc a b ×ˢ Icc c d)) (h0 : 0 ≤ T) (h1 : T < 1) (y0 : ℝ × ℝ) :
    ∃ y : ℝ → ℝ × ℝ, y 0 = y0 ∧ ∀ t ∈ Icc 0 T,
      HasDerivWithinAt y ((1 / (1 - t)) • Φ (clip2 a b c d (y t))) (Icc 0 T) t := by
  obtain ⟨C, hC⟩ := (isCompact_Icc.prod isCompact_Icc).exists_bound_of_continuousOn
    hΦ.continuousOn
  have C0 : 0 ≤ C := (norm_nonneg _).trans (hC _ (clip2_mem h h' y0))
  have hlip : LipschitzWith M (fun p => Φ (clip2 a b c d p)) := by
    have := hΦ.comp ((clip2_lipschitz a b c d).lipschitzOnWith (s := univ))
      (fun p _ => clip2_mem h h' p)
    rw [mul_one, lipschitzOnWith_univ] at this
    exact this
  have n : 0 < 1 - T := by linarith
  obtain ⟨q, hq⟩ : ∃ q : ℝ≥0, (q : ℝ) = 1 / (1 - T) :=
    ⟨Real.toNNReal _, Real.coe_toNNReal _ (by positivity)⟩
  obtain ⟨B, hB⟩ : ∃ B : ℝ≥0, (B : ℝ) = C := ⟨Real.toNNReal _, Real.coe_toNNReal _ C0⟩
  obtain ⟨S, hS⟩ : ∃ S : ℝ≥0, (S : ℝ) = T := ⟨Real.toNNReal _, Real.coe_toNNReal _ h0⟩
  have hqt : ∀ t ∈ Icc 0 T, ‖1 / (1 - t)‖ ≤ q := by
    intro t ht
    have : 0 < 1 - t := by linarith [ht.2]
    rw [Real.norm_of_nonneg (by positivity), hq]
    exact one_div_le_one_div_of_le n (by linarith [ht.2])
  have pl : IsPicardLindelof (fun t p => (1 / (1 - t)) • Φ (clip2 a b c d p))
      (⟨0, le_rfl, h0⟩ : Icc 0 T) y0 (q * B * S) 0 (q * B) (q * M) := by
    refine ⟨fun t ht => ?_, fun p _ => ?_, fun t ht p _ => ?_, ?_⟩
    · refine LipschitzOnWith.of_dist_le_mul fun p _ r _ => ?_
      rw [dist_smul₀, NNReal.coe_mul, mul_assoc]
      exact mul_le_mul (hqt t ht) (hlip.dist_le_mul p r) dist_nonneg q.2
    · have : ContinuousOn (fun t : ℝ => 1 / (1 - t)) (Icc 0 T) :=
        continuousOn_const.div (continuousOn_const.sub continuousOn_id) fun t ht => by
          have := ht.2
          change 1 - t ≠ 0
          exact (by linarith : 0 < 1 - t).ne'
      exact this.smul continuousOn_const
    · rw [norm_smul, NNReal.coe_mul, hB]
      exact mul_le_mul (hqt t ht) (hC _ (clip2_mem h h' p)) (norm_nonneg _) q.2
    · simp only [sub_zero, sub_self, max_eq_left h0, NNReal.coe_mul, NNReal.coe_zero, hS, le_refl]
  exact pl.exists_eq_forall_mem_Icc_hasDerivWithinAt₀

/-- Continuously differentiable functions are Lipschitz on compact sets. -/
theorem lipschitz_compact {Φ : ℝ × ℝ → ℝ × ℝ} {s : Set (ℝ × ℝ)} (hs : IsCompact s)
    (h : ∀ p ∈ s, ContDiffAt ℝ 1 Φ p) : ∃ M : ℝ≥0, LipschitzOnWith M Φ s := by
  refine LocallyLipschitzOn.exists_lipschitzOnWith_of_compact hs fun p hp => ?_
  obtain ⟨K, t, ht, hK⟩ := (h p hp).exists_lipschitzOnWith
  exact ⟨K, t, mem_nhdsWithin_of_mem_nhds ht, hK⟩

/-- Two solutions of `y' = Φ y / (1 - t)` that stay in a compact set on which the field is
Lipschitz and start at the same point are the same. -/
theorem unique_on {Φ : ℝ × ℝ → ℝ × ℝ} {s : Set (ℝ × ℝ)} {M : ℝ≥0} {T : ℝ} {y z : ℝ → ℝ × ℝ}
    (hΦ : LipschitzOnWith M Φ s) (h1 : T < 1)
    (hy : ∀ t ∈ Icc 0 T, HasDerivWithinAt y ((1 / (1 - t)) • Φ (y t)) (Icc 0 T) t)
    (hz : ∀ t ∈ Icc 0 T, HasDerivWithinAt z ((1 / (1 - t)) • Φ (z t)) (Icc 0 T) t)
    (hys : ∀ t ∈ Icc 0 T, y t ∈ s) (hzs : ∀ t ∈ Icc 0 T, z t ∈ s) (h : y 0 = z 0) :
    EqOn y z (Icc 0 T) := by
  have n : 0 < 1 - T := by linarith
  obtain ⟨q, hq⟩ : ∃ q : ℝ≥0, (q : ℝ) = 1 / (1 - T) :=
    ⟨Real.toNNReal _, Real.coe_toNNReal _ (by positivity)⟩
  refine ODE_solution_unique_of_mem_Icc_right (v := fun t p => (1 / (1 - t)) • Φ p)
    (s := fun _ => s) (K := q * M) (fun t ht => ?_)
    (fun t ht => (hy t ht).continuousWithinAt)
    (fun t ht => (hy t (Ico_subset_Icc_self ht)).mono_of_mem_nhdsWithin
      (Icc_mem_nhdsGE_of_mem ht))
    (fun t ht => hys t (Ico_subset_Icc_self ht))
    (fun t ht => (hz t ht).continuousWithinAt)
    (fun t ht => (hz t (Ico_subset_Icc_self ht)).mono_of_mem_nhdsWithin
      (Icc_mem_nhdsGE_of_mem ht))
    (fun t ht => hzs t (Ico_subset_Icc_self ht)) h
  refine LipschitzOnWith.of_dist_le_mul fun p hp r hr => ?_
  have m : 0 < 1 - t := by linarith [ht.2]
  rw [dist_smul₀, NNReal.coe_mul, mul_assoc, Real.norm_of_nonneg (by positivity), hq]
  exact mul_le_mul (one_div_le_one_div_of_le n (by linarith [ht.2])) (hΦ.dist_le_mul p hp r hr)
    dist_nonneg (by positivity)

end RockPhy.Spec
