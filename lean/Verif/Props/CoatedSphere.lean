import Verif.Spec.CoatedSphere
import Verif.Props.PeriodicHill
import Mathlib.Analysis.Calculus.MeanValue
import Mathlib.Analysis.Calculus.Deriv.Pow
import Mathlib.Analysis.Calculus.Deriv.Inv

/-! # Property C93: the Hashin-Shtrikman bulk values are attained by a coated sphere -/

namespace RockPhy.Props

open Fl Spec EM Set Filter Topology

/-- The general solution in one shell: `u = A r + B / r²`. -/
theorem radial_solution {K G lo hi : ℝ} {u σ τ : ℝ → ℝ} (hlo : 0 ≤ lo) (hlt : lo < hi)
    (hP : 0 < K + 4 / 3 * G) (h : RadialEquilibrium K G u σ τ lo hi) :
    ∃ A B : ℝ, ∀ r ∈ Ioo lo hi, u r * r ^ 2 = A * r ^ 3 + B ∧
      σ r * r ^ 3 = 3 * K * A * r ^ 3 - 4 * G * B := by
  have pos : ∀ r ∈ Ioo lo hi, 0 < r := fun r hr => hlo.trans_lt hr.1
  have hconv : Convex ℝ (Ioo lo hi) := convex_Ioo lo hi
  have const : ∀ f : ℝ → ℝ, (∀ r ∈ Ioo lo hi, HasDerivAt f 0 r) →
      ∃ c, ∀ r ∈ Ioo lo hi, f r = c := by
    intro f hf
    have hm : (lo + hi) / 2 ∈ Ioo lo hi := ⟨by linarith, by linarith⟩
    refine ⟨f ((lo + hi) / 2), fun r hr => ?_⟩
    refine (isOpen_Ioo.is_const_of_deriv_eq_zero isPreconnected_Ioo
      (fun x hx => (hf x hx).differentiableAt.differentiableWithinAt)
      (fun x hx => ?_) hr hm)
    exact (hf x hx).deriv
  -- the dilatation is constant
  obtain ⟨c, hc⟩ := const (fun r => σ r + 4 * G * (u r / r)) (fun r hr => by
    obtain ⟨e, hu, h1, h2, h3⟩ := h r hr
    have r0 := (pos r hr).ne'
    have d := h3.add ((hu.div (hasDerivAt_id r) r0).const_mul (4 * G))
    refine d.congr_deriv ?_
    rw [h1, h2]
    simp only [id]
    field)
  have hθ : ∀ r ∈ Ioo lo hi, ∃ e, HasDerivAt u e r ∧ e + 2 * (u r / r) = c / (K + 4 / 3 * G) := by
    intro r hr
    obtain ⟨e, hu, h1, h2, h3⟩ := h r hr
    refine ⟨e, hu, ?_⟩
    have := hc r hr
    simp only [h1] at this
    rw [eq_div_iff hP.ne', ← this]
    ring
  obtain ⟨B, hB⟩ := const (fun r => u r * r ^ 2 - c / (K + 4 / 3 * G) / 3 * r ^ 3) (fun r hr => by
    obtain ⟨e, hu, h1⟩ := hθ r hr
    have r0 := (pos r hr).ne'
    have d := (hu.mul ((hasDerivAt_id r).pow 2)).sub
      (((hasDerivAt_id r).pow 3).const_mul (c / (K + 4 / 3 * G) / 3))
    refine d.congr_deriv ?_
    rw [← h1]
    simp only [id, Pi.pow_apply]
    field_simp
    ring)
  refine ⟨c / (K + 4 / 3 * G) / 3, B, fun r hr => ?_⟩
  have hu : u r * r ^ 2 = c / (K + 4 / 3 * G) / 3 * r ^ 3 + B := by
    have := hB r hr
    linarith
  refine ⟨hu, ?_⟩
  have r0 := (pos r hr).ne'
  have hs := hc r hr
  have hs' : σ r = c - 4 * G * (u r / r) := by linarith
  have e : u r / r * r ^ 3 = u r * r ^ 2 := by field
  have : σ r * r ^ 3 = c * r ^ 3 - 4 * G * (u r * r ^ 2) := by rw [hs', ← e]; ring
  rw [this, hu]
  have hP' : c = c / (K + 4 / 3 * G) * (K + 4 / 3 * G) := (div_mul_cancel₀ c hP.ne').symm
  generalize c / (K + 4 / 3 * G) = q at *
  rw [hP']; ring

/-- Every equilibrium of a coated sphere responds like a homogeneous sphere. -/
theorem coated_sphere {Kc Gc Ks Gs a b : ℝ} {u σ τ : ℝ → ℝ} (ha : 0 < a) (hab : a < b)
    (hKc : 0 ≤ Kc) (hPc : 0 < Kc + 4 / 3 * Gc) (hKs : 0 < Ks) (hGs : 0 < Gs)
    (h : CoatedSphere Kc Gc Ks Gs a b u σ τ) :
    RespondsLike (hsMean ((a / b) ^ 3) Kc Ks (hsBulk Gs)) b u σ := by
  have hb : 0 < b := ha.trans hab
  obtain ⟨A, B, hcore⟩ := radial_solution le_rfl ha hPc h.core
  obtain ⟨A', B', hcoat⟩ := radial_solution ha.le hab (by positivity) h.coat
  -- values at the ends of an interval by continuity
  have lim : ∀ {f g : ℝ → ℝ} {s : Set ℝ} {lo hi x : ℝ}, lo < hi → x ∈ Icc lo hi → x ∈ s →
      Ioo lo hi ⊆ s → ContinuousOn f s → Continuous g → (∀ r ∈ Ioo lo hi, f r = g r) →
      f x = g x := by
    intro f g s lo hi x hlt hx hxs hs hf hg he
    have hcl : x ∈ closure (Ioo lo hi) := by rw [closure_Ioo hlt.ne]; exact hx
    have : (𝓝[Ioo lo hi] x).NeBot := mem_closure_iff_nhdsWithin_neBot.mp hcl
    have t1 : Tendsto f (𝓝[Ioo lo hi] x) (𝓝 (f x)) :=
      (hf x hxs).mono_left (nhdsWithin_mono x hs)
    have t2 : Tendsto g (𝓝[Ioo lo hi] x) (𝓝 (g x)) := hg.continuousAt.mono_left nhdsWithin_le_nhds
    refine tendsto_nhds_unique (t1.congr' ?_) t2
    filter_upwards [self_mem_nhdsWithin] with r hr using he r hr
  have cu : ContinuousOn (fun r => u r * r ^ 2) (Icc 0 b) :=
    h.displacement.mul (by fun_prop)
  have cs : ContinuousOn (fun r => σ r * r ^ 3) (Ioc 0 b) := h.traction.mul (by fun_prop)
  have sub1 : Ioo 0 a ⊆ Icc 0 b := fun r hr => ⟨hr.1.le, (hr.2.trans hab).le⟩
  have sub2 : Ioo a b ⊆ Icc 0 b := fun r hr => ⟨(ha.trans hr.1).le, hr.2.le⟩
  have sub3 : Ioo 0 a ⊆ Ioc 0 b := fun r hr => ⟨hr.1, (hr.2.trans hab).le⟩
  have sub4 : Ioo a b ⊆ Ioc 0 b := fun r hr => ⟨ha.trans hr.1, hr.2.le⟩
  have e0 := lim (g := fun r => A * r ^ 3 + B) ha (left_mem_Icc.mpr ha.le)
    (left_mem_Icc.mpr hb.le) sub1 cu (by fun_prop) (fun r hr => (hcore r hr).1)
  have e1 := lim (g := fun r => A * r ^ 3 + B) ha (right_mem_Icc.mpr ha.le)
    (show a ∈ Icc 0 b from ⟨ha.le, hab.le⟩) sub1 cu (by fun_prop) (fun r hr => (hcore r hr).1)
  have e2 := lim (g := fun r => A' * r ^ 3 + B') hab (left_mem_Icc.mpr hab.le)
    (show a ∈ Icc 0 b from ⟨ha.le, hab.le⟩) sub2 cu (by fun_prop) (fun r hr => (hcoat r hr).1)
  have e3 := lim (g := fun r => A' * r ^ 3 + B') hab (right_mem_Icc.mpr hab.le)
    (show b ∈ Icc 0 b from ⟨hb.le, le_rfl⟩) sub2 cu (by fun_prop) (fun r hr => (hcoat r hr).1)
  have s1 := lim (g := fun r => 3 * Kc * A * r ^ 3 - 4 * Gc * B) ha (right_mem_Icc.mpr ha.le)
    (show a ∈ Ioc 0 b from ⟨ha, hab.le⟩) sub3 cs (by fun_prop) (fun r hr => (hcore r hr).2)
  have s2 := lim (g := fun r => 3 * Ks * A' * r ^ 3 - 4 * Gs * B') hab (left_mem_Icc.mpr hab.le)
    (show a ∈ Ioc 0 b from ⟨ha, hab.le⟩) sub4 cs (by fun_prop) (fun r hr => (hcoat r hr).2)
  have s3 := lim (g := fun r => 3 * Ks * A' * r ^ 3 - 4 * Gs * B') hab (right_mem_Icc.mpr hab.le)
    (show b ∈ Ioc 0 b from ⟨hb, le_rfl⟩) sub4 cs (by fun_prop) (fun r hr => (hcoat r hr).2)
  have hB : B = 0 := by rw [h.centre] at e0; linarith
  subst hB
  have c1 : A * a ^ 3 = A' * a ^ 3 + B' := by linarith
  have c2 : 3 * Kc * A * a ^ 3 = 3 * Ks * A' * a ^ 3 - 4 * Gs * B' := by linarith
  have hu : u b / b * b ^ 3 = A' * b ^ 3 + B' := by rw [← e3]; field
  have hx : 0 < Kc + 4 / 3 * Gs := by positivity
  have hy : 0 < Ks + 4 / 3 * Gs := by positivity
  have hm : hsMean ((a / b) ^ 3) Kc Ks (hsBulk Gs)
      * (b ^ 3 * (Kc + 4 / 3 * Gs) + a ^ 3 * (Ks - Kc))
      = (Kc + 4 / 3 * Gs) * (Ks + 4 / 3 * Gs) * b ^ 3
        - 4 / 3 * Gs * (b ^ 3 * (Kc + 4 / 3 * Gs) + a ^ 3 * (Ks - Kc)) := by
    have hz : hsBulk Gs = 4 / 3 * Gs := by unfold hsBulk; ring
    have hden : (a / b) ^ 3 / (Kc + 4 / 3 * Gs) + (1 - (a / b) ^ 3) / (Ks + 4 / 3 * Gs)
        = (b ^ 3 * (Kc + 4 / 3 * Gs) + a ^ 3 * (Ks - Kc))
          / (b ^ 3 * (Kc + 4 / 3 * Gs) * (Ks + 4 / 3 * Gs)) := by
      have e : Ks - Kc = (Ks + 4 / 3 * Gs) - (Kc + 4 / 3 * Gs) := by ring
      rw [e]
      generalize Kc + 4 / 3 * Gs = x at *
      generalize Ks + 4 / 3 * Gs = y at *
      field
    have hpos : 0 < b ^ 3 * (Kc + 4 / 3 * Gs) + a ^ 3 * (Ks - Kc) := by
      have : b ^ 3 * (Kc + 4 / 3 * Gs) + a ^ 3 * (Ks - Kc)
          = (b ^ 3 - a ^ 3) * (Kc + 4 / 3 * Gs) + a ^ 3 * (Ks + 4 / 3 * Gs) := by ring
      rw [this]
      have : 0 < b ^ 3 - a ^ 3 := sub_pos.mpr (pow_lt_pow_left₀ hab ha.le (by norm_num))
      positivity
    unfold hsMean
    rw [hz, hden]
    generalize b ^ 3 * (Kc + 4 / 3 * Gs) + a ^ 3 * (Ks - Kc) = w at *
    generalize Kc + 4 / 3 * Gs = x at *
    generalize Ks + 4 / 3 * Gs = y at *
    field
  have hpos : 0 < b ^ 3 * (Kc + 4 / 3 * Gs) + a ^ 3 * (Ks - Kc) := by
    have : b ^ 3 * (Kc + 4 / 3 * Gs) + a ^ 3 * (Ks - Kc)
        = (b ^ 3 - a ^ 3) * (Kc + 4 / 3 * Gs) + a ^ 3 * (Ks + 4 / 3 * Gs) := by ring
    rw [this]
    have : 0 < b ^ 3 - a ^ 3 := sub_pos.mpr (pow_lt_pow_left₀ hab ha.le (by norm_num))
    positivity
  have hB' : B' * (Kc + 4 / 3 * Gs) = (Ks - Kc) * A' * a ^ 3 := by
    linear_combination (c2 - 3 * Kc * c1) / 3
  unfold RespondsLike
  have b3 : (b ^ 3 * (b ^ 3 * (Kc + 4 / 3 * Gs) + a ^ 3 * (Ks - Kc))) ≠ 0 := by positivity
  refine mul_right_cancel₀ b3 ?_
  generalize hsMean ((a / b) ^ 3) Kc Ks (hsBulk Gs) = M at *
  have l1 : σ b * (b ^ 3 * (b ^ 3 * (Kc + 4 / 3 * Gs) + a ^ 3 * (Ks - Kc)))
      = (3 * Ks * A' * b ^ 3 - 4 * Gs * B')
        * (b ^ 3 * (Kc + 4 / 3 * Gs) + a ^ 3 * (Ks - Kc)) := by
    rw [← s3]; ring
  have l2 : 3 * M * (u b / b) * (b ^ 3 * (b ^ 3 * (Kc + 4 / 3 * Gs) + a ^ 3 * (Ks - Kc)))
      = 3 * (A' * b ^ 3 + B') * (M * (b ^ 3 * (Kc + 4 / 3 * Gs) + a ^ 3 * (Ks - Kc))) := by
    rw [← hu]; ring
  rw [l1, l2, hm]
  have x0 := hx.ne'
  refine mul_right_cancel₀ x0 ?_
  linear_combination (-(4 * Gs) * (b ^ 3 * (Kc + 4 / 3 * Gs) + a ^ 3 * (Ks - Kc)) - 3 * ((Kc + 4 / 3 * Gs) * (Ks + 4 / 3 * Gs) * b ^ 3
        - 4 / 3 * Gs * (b ^ 3 * (Kc + 4 / 3 * Gs) + a ^ 3 * (Ks - Kc)))) * hB'

/-- A coated sphere in equilibrium exists, with a surface that moves. -/
theorem coated_sphere_exists {Kc Gc Ks Gs a b : ℝ} (ha : 0 < a) (hab : a < b) (hKc : 0 < Kc)
    (hKs : 0 < Ks) (hGs : 0 < Gs) :
    ∃ u σ τ, CoatedSphere Kc Gc Ks Gs a b u σ τ ∧ u b ≠ 0 := by
  have hb : 0 < b := ha.trans hab
  set A : ℝ := Kc + 4 / 3 * Gs with hA
  set B : ℝ := (Ks - Kc) * a ^ 3 with hB
  have m : ∀ r : ℝ, max r a ≠ 0 := fun r => (ha.trans_le (le_max_right r a)).ne'
  have c1 : Continuous fun r : ℝ => B / max r a ^ 3 :=
    continuous_const.div (by fun_prop) fun r => pow_ne_zero 3 (m r)
  refine ⟨fun r => (A + B / max r a ^ 3) * r, fun r => 3 * Ks * A - 4 * Gs * (B / max r a ^ 3),
    fun r => if r < a then 3 * Ks * A - 4 * Gs * (B / a ^ 3) else 3 * Ks * A + 2 * Gs * (B / r ^ 3),
    ⟨fun r hr => ?_, fun r hr => ?_, ?_, ?_, ?_⟩, ?_⟩
  · have ev : ∀ᶠ x in 𝓝 r, max x a = a := by
      filter_upwards [isOpen_Iio.mem_nhds hr.2] with x hx using max_eq_right (le_of_lt hx)
    have er : max r a = a := max_eq_right hr.2.le
    have a0 := ha.ne'
    have r0 := hr.1.ne'
    have key : B / a ^ 3 = Ks - Kc := by rw [hB]; field
    refine ⟨A + B / a ^ 3, ?_, ?_, ?_, ?_⟩
    · refine HasDerivAt.congr_of_eventuallyEq (f := fun x => (A + B / a ^ 3) * x) ?_ ?_
      · simpa using (hasDerivAt_id r).const_mul (A + B / a ^ 3)
      · filter_upwards [ev] with x hx
        rw [hx]
    · simp only [er, key, hA]; field
    · simp only [er, key, hA, if_pos hr.2]; field
    · simp only [er, if_pos hr.2, sub_self, mul_zero, zero_div]
      refine HasDerivAt.congr_of_eventuallyEq (f := fun x => 3 * Ks * A - 4 * Gs * (B / a ^ 3))
        (hasDerivAt_const _ _) ?_
      filter_upwards [ev] with x hx
      rw [hx]
  · have ev : ∀ᶠ x in 𝓝 r, max x a = x := by
      filter_upwards [isOpen_Ioi.mem_nhds hr.1] with x hx using max_eq_left (le_of_lt hx)
    have er : max r a = r := max_eq_left hr.1.le
    have r0 : r ≠ 0 := (ha.trans hr.1).ne'
    have d3 : HasDerivAt (fun x : ℝ => B / x ^ 3) (-3 * B / r ^ 4) r := by
      have := (hasDerivAt_const r B).div ((hasDerivAt_id r).pow 3) (pow_ne_zero 3 r0)
      refine this.congr_deriv ?_
      simp only [id, Pi.pow_apply]
      field
    refine ⟨A - 2 * B / r ^ 3, ?_, ?_, ?_, ?_⟩
    · refine HasDerivAt.congr_of_eventuallyEq (f := fun x => (A + B / x ^ 3) * x) ?_ ?_
      · refine ((d3.const_add A).mul (hasDerivAt_id r)).congr_deriv ?_
        simp only [id]
        field
      · filter_upwards [ev] with x hx
        rw [hx]
    · simp only [er]; field
    · simp only [er, if_neg (not_lt.mpr hr.1.le)]; field
    · simp only [er, if_neg (not_lt.mpr hr.1.le)]
      refine HasDerivAt.congr_of_eventuallyEq (f := fun x => 3 * Ks * A - 4 * Gs * (B / x ^ 3)) ?_ ?_
      · refine ((d3.const_mul (4 * Gs)).const_sub (3 * Ks * A)).congr_deriv ?_
        field
      · filter_upwards [ev] with x hx
        rw [hx]
  · simp
  · exact ((continuous_const.add c1).mul continuous_id).continuousOn
  · exact (continuous_const.sub (continuous_const.mul c1)).continuousOn
  · have eb : max b a = b := max_eq_left hab.le
    simp only [eb]
    refine (mul_pos ?_ hb).ne'
    have hx : 0 < A := by positivity
    rcases le_total Kc Ks with h | h
    · have : 0 ≤ B := mul_nonneg (by linarith) (by positivity)
      positivity
    · have q : a ^ 3 / b ^ 3 ≤ 1 :=
        (div_le_one (by positivity)).mpr (pow_le_pow_left₀ ha.le hab.le 3)
      have q0 : 0 ≤ a ^ 3 / b ^ 3 := by positivity
      have : B / b ^ 3 = (Ks - Kc) * (a ^ 3 / b ^ 3) := by rw [hB]; ring
      rw [this, hA]
      nlinarith

/-- C93, upper value: it is the exact bulk modulus of a sphere of phase 2 coated with phase 1, in the
volume fractions given to `EM.HS`. -/
theorem C93_upper {K1 K2 G1 G2 a b : ℝ} (ha : 0 < a) (hab : a < b) (hK1 : 0 < K1) (hK2 : 0 < K2)
    (hG1 : 0 < G1) (hG2 : 0 ≤ G2) (hK : K1 ≠ K2) :
    ∃ k : ℝ, (HS (fin (1 - (a / b) ^ 3)) (fin K1) (fin K2) (fin G1) (fin G2) "upper").1 = fin k ∧
      (∀ u σ τ, CoatedSphere K2 G2 K1 G1 a b u σ τ → RespondsLike k b u σ) ∧
      ∃ u σ τ, CoatedSphere K2 G2 K1 G1 a b u σ τ ∧ u b ≠ 0 := by
  have hb : 0 < b := ha.trans hab
  have q1 : (a / b) ^ 3 ≤ 1 := pow_le_one₀ (by positivity) ((div_le_one hb).mpr hab.le)
  have q0 : 0 ≤ (a / b) ^ 3 := by positivity
  refine ⟨_, HS_upper_bulk (by linarith) (by linarith) hK1 hK2 hG1 hK, fun u σ τ h => ?_,
    coated_sphere_exists ha hab hK2 hK1 hG1⟩
  rw [hsMean_swap]
  exact coated_sphere ha hab hK2.le (by positivity) hK1 hG1 h

/-- C93, lower value: it is the exact bulk modulus of a sphere of phase 1 coated with phase 2. -/
theorem C93_lower {K1 K2 G1 G2 a b : ℝ} (ha : 0 < a) (hab : a < b) (hK1 : 0 < K1) (hK2 : 0 < K2)
    (hG1 : 0 ≤ G1) (hG2 : 0 < G2) (hK : K1 ≠ K2) {bound : String} (hbd : bound ≠ "upper") :
    ∃ k : ℝ, (HS (fin ((a / b) ^ 3)) (fin K1) (fin K2) (fin G1) (fin G2) bound).1 = fin k ∧
      (∀ u σ τ, CoatedSphere K1 G1 K2 G2 a b u σ τ → RespondsLike k b u σ) ∧
      ∃ u σ τ, CoatedSphere K1 G1 K2 G2 a b u σ τ ∧ u b ≠ 0 := by
  have hb : 0 < b := ha.trans hab
  have q1 : (a / b) ^ 3 ≤ 1 := pow_le_one₀ (by positivity) ((div_le_one hb).mpr hab.le)
  have q0 : 0 ≤ (a / b) ^ 3 := by positivity
  exact ⟨_, HS_lower_bulk hbd q0 q1 hK1 hK2 hG2 hK,
    fun u σ τ h => coated_sphere ha hab hK1.le (by positivity) hK2 hG2 h,
    coated_sphere_exists ha hab hK1 hK2 hG2⟩

/-- C93, Mori-Tanaka average with phase 2 as the background: same coated sphere as the lower value,
for any order of the moduli and for a fluid core. -/
theorem C93_MT_average {K1 K2 G1 G2 a b : ℝ} (ha : 0 < a) (hab : a < b) (hK1 : 0 < K1)
    (hK2 : 0 < K2) (hG1 : 0 ≤ G1) (hG2 : 0 < G2) :
    ∃ k : ℝ, (MT_average (fin ((a / b) ^ 3)) (fin K2) (fin G2) (fin K1) (fin G1) (fin K2)
        (fin G2)).1 = fin k ∧
      (∀ u σ τ, CoatedSphere K1 G1 K2 G2 a b u σ τ → RespondsLike k b u σ) ∧
      ∃ u σ τ, CoatedSphere K1 G1 K2 G2 a b u σ τ ∧ u b ≠ 0 := by
  have hb : 0 < b := ha.trans hab
  have q1 : (a / b) ^ 3 ≤ 1 := pow_le_one₀ (by positivity) ((div_le_one hb).mpr hab.le)
  have q0 : 0 ≤ (a / b) ^ 3 := by positivity
  exact ⟨_, congrArg Prod.fst (MT_average_eval q0 q1 hK2 hG2 hK1.le hK2.le hG1 hG2.le),
    fun u σ τ h => coated_sphere ha hab hK1.le (by positivity) hK2 hG2 h,
    coated_sphere_exists ha hab hK1 hK2 hG2⟩

example : ∃ k : ℝ,
    (HS (fin (1 - (1 / 2) ^ 3)) (fin 37) (fin 21) (fin 44) (fin 7) "upper").1 = fin k ∧
      (∀ u σ τ, CoatedSphere 21 7 37 44 1 2 u σ τ → RespondsLike k 2 u σ) ∧
      ∃ u σ τ, CoatedSphere 21 7 37 44 1 2 u σ τ ∧ u 2 ≠ 0 :=
  C93_upper (by norm_num) (by norm_num) (by norm_num) (by norm_num) (by norm_num) (by norm_num)
    (by norm_num)

end RockPhy.Props
