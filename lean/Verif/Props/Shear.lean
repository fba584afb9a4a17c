import Verif.Props.Weak

/-! # Properties C51 and C78, shear and converted waves -/

namespace RockPhy.AVO

open Fl Spec Filter Topology

/-- Exponents of the S velocity and the density in the four impedances other than PP, for the angle
`t` and the S angle `j`. -/
noncomputable def exps (S t j : ℝ) : Fin 4 → ℝ × ℝ
  | 0 => (Real.sin t / Real.sqrt (1 - S ^ 2 * Real.sin t ^ 2)
        * (4 * Real.sin t ^ 2 * S ^ 2 - 4 * S * Real.cos t * Real.sqrt (1 - S ^ 2 * Real.sin t ^ 2)),
      -Real.sin t / Real.sqrt (1 - S ^ 2 * Real.sin t ^ 2)
        * (1 - 2 * Real.sin t ^ 2 * S ^ 2 + 2 * S * Real.cos t * Real.sqrt (1 - S ^ 2 * Real.sin t ^ 2)))
  | 1 => (Real.sin j / Real.sqrt (1 - 1 / S ^ 2 * Real.sin j ^ 2)
        * (4 * Real.sin j ^ 2 - 4 * S * Real.cos j * Real.sqrt (1 - 1 / S ^ 2 * Real.sin j ^ 2)),
      -Real.sin j / Real.sqrt (1 - 1 / S ^ 2 * Real.sin j ^ 2)
        * (1 - 2 * Real.sin j ^ 2 + 2 * S * Real.cos j * Real.sqrt (1 - 1 / S ^ 2 * Real.sin j ^ 2)))
  | 2 => (-1 / Real.cos j ^ 2 + 8 * Real.sin j ^ 2, -1 + 4 * Real.sin j ^ 2)
  | 3 => (-1 + Real.tan j ^ 2, -1)

noncomputable def power (e : ℝ × ℝ) (b r : ℝ) : ℝ := b ^ e.1 * r ^ e.2

theorem ei_shear_eval {ip is mp ms mr a b r S θ : ℝ} (norm : Bool) (hmp : 0 < mp) (hms : 0 < ms)
    (hmr : 0 < mr) (ha : 0 < a) (hb : 0 < b) (hr : 0 < r) (hS : 0 < S) (hS1 : S < 1)
    (hbS : b = S * a) (hθ : 0 < Real.cos (θ * (Real.pi / 180))) :
    let t := θ * (Real.pi / 180)
    let j := Real.arcsin (S * Real.sin t)
    let b' := if norm then b / ms else b
    let r' := if norm then r / mr else r
    (EI_ref_entry (fin ip) (fin is) (fin mp) (fin ms) (fin mr) norm (fin a) (fin b)
        (fin r) (fin θ) (fin S)).2
      = (fin (ip * power (exps S t j 0) b' r'), fin (is * power (exps S t j 1) b' r'),
        fin (is * power (exps S t j 2) b' r'), fin (is * power (exps S t j 3) b' r')) := by
  dsimp only
  unfold EI_ref_entry power exps
  dsimp only
  rw [fl_deg2rad]
  generalize θ * (Real.pi / 180) = t at *
  have hbm : 0 < b / ms := by positivity
  have ham : 0 < a / mp := by positivity
  have hrm : 0 < r / mr := by positivity
  have hs := Real.abs_sin_le_one t
  have hs2 : Real.sin t ^ 2 < 1 := by rw [Real.sin_sq]; nlinarith
  have w1 : 0 < 1 - S ^ 2 * Real.sin t ^ 2 := by nlinarith [sq_nonneg (Real.sin t)]
  have sj : |S * Real.sin t| ≤ 1 := by rw [abs_mul, abs_of_pos hS]; nlinarith
  have e1 : Real.sin t / a * b = S * Real.sin t := by rw [hbS]; field
  have ej : PyNum.arcsin (fin (Real.sin t) / fin a * fin b)
      = fin (Real.arcsin (S * Real.sin t)) := by
    rw [fl_div ha.ne', fl_mul, e1]; exact fl_arcsin (abs_le.mp sj)
  have sinj : Real.sin (Real.arcsin (S * Real.sin t)) = S * Real.sin t :=
    Real.sin_arcsin (abs_le.mp sj).1 (abs_le.mp sj).2
  have cj : 0 < Real.cos (Real.arcsin (S * Real.sin t)) := by
    rw [Real.cos_arcsin]; apply Real.sqrt_pos.mpr; rw [mul_pow]; exact w1
  rw [fl_sin, ej]
  have w2 : 0 < 1 - 1 / S ^ 2 * Real.sin (Real.arcsin (S * Real.sin t)) ^ 2 := by
    rw [sinj, show 1 / S ^ 2 * (S * Real.sin t) ^ 2 = Real.sin t ^ 2 by field]; linarith
  generalize Real.arcsin (S * Real.sin t) = j at *
  have q1 := (Real.sqrt_pos.mpr w1).ne'
  have q2 := (Real.sqrt_pos.mpr w2).ne'
  have w1' := w1.le
  have w2' := w2.le
  have cj2 : Real.cos j ^ 2 ≠ 0 := by positivity
  have m1 : (-1 : Fl) = fin (-1) := by rw [fl_one, fl_neg]
  cases norm
  · simp only [Bool.false_eq_true, if_false]
    fl_eval [fl_tan cj.ne', m1]
    simp only [Real.rpow_neg_one]
    refine Prod.ext (congrArg fin ?_) (Prod.ext (congrArg fin ?_) (Prod.ext (congrArg fin ?_)
      (congrArg fin ?_))) <;> ring
  · simp only [if_true]
    fl_eval [fl_tan cj.ne', m1]
    simp only [Real.rpow_neg_one]
    refine Prod.ext (congrArg fin ?_) (Prod.ext (congrArg fin ?_) (Prod.ext (congrArg fin ?_)
      (congrArg fin ?_))) <;> ring

end RockPhy.AVO

namespace RockPhy.AVO

open Fl Spec Filter Topology

theorem exps_spec {S t a b r db dr : ℝ} (ha : 0 < a) (hb : b = S * a) (hS : 0 < S) (hS1 : S < 1)
    (ht : 0 < Real.cos t) :
    let j := Real.arcsin (S * Real.sin t)
    (exps S t j 0).1 * (db / b) + (exps S t j 0).2 * (dr / r)
        = 2 * akiRichardsPS a b r db dr (Real.sin t / a) (Real.cos t) (Real.cos j) ∧
    (exps S t j 1).1 * (db / b) + (exps S t j 1).2 * (dr / r)
        = 2 * akiRichardsSP a b r db dr (Real.sin t / a) (Real.cos t) (Real.cos j) ∧
    (exps S t j 2).1 * (db / b) + (exps S t j 2).2 * (dr / r) = 2 * akiRichardsSS b r db dr j ∧
    (exps S t j 3).1 * (db / b) + (exps S t j 3).2 * (dr / r) = 2 * firstOrderSH b r db dr j := by
  dsimp only
  have hs2 : Real.sin t ^ 2 < 1 := by rw [Real.sin_sq]; nlinarith
  have hs := Real.abs_sin_le_one t
  have w1 : 0 < 1 - S ^ 2 * Real.sin t ^ 2 := by nlinarith [sq_nonneg (Real.sin t)]
  have sj : |S * Real.sin t| ≤ 1 := by rw [abs_mul, abs_of_pos hS]; nlinarith
  have sinj : Real.sin (Real.arcsin (S * Real.sin t)) = S * Real.sin t :=
    Real.sin_arcsin (abs_le.mp sj).1 (abs_le.mp sj).2
  have cosj : Real.sqrt (1 - S ^ 2 * Real.sin t ^ 2) = Real.cos (Real.arcsin (S * Real.sin t)) := by
    rw [Real.cos_arcsin, mul_pow]
  have cj : 0 < Real.cos (Real.arcsin (S * Real.sin t)) := by
    rw [← cosj]; exact Real.sqrt_pos.mpr w1
  have cost : Real.sqrt (1 - 1 / S ^ 2 * Real.sin (Real.arcsin (S * Real.sin t)) ^ 2)
      = Real.cos t := by
    rw [sinj, show 1 / S ^ 2 * (S * Real.sin t) ^ 2 = Real.sin t ^ 2 by field, ← Real.cos_sq',
      Real.sqrt_sq ht.le]
  unfold exps
  dsimp only
  rw [cosj, cost]
  unfold akiRichardsSP akiRichardsPS akiRichardsSS firstOrderSH
  rw [sinj]
  generalize Real.tan (Real.arcsin (S * Real.sin t)) = u
  generalize Real.cos (Real.arcsin (S * Real.sin t)) = w at *
  generalize Real.cos t = c at *
  generalize Real.sin t = s at *
  have hb0 : 0 < b := by rw [hb]; positivity
  have e : b / a = S := by rw [hb]; field
  rw [hb]
  generalize dr / r = y
  refine ⟨?_, ?_, ?_, ?_⟩
  · field
  · field
  · field
  · field

end RockPhy.AVO

namespace RockPhy.Props

open Fl Spec AVO Filter Topology

/-- C51: the converted and shear elastic impedances of a log with the constant velocity ratio `S`
are `k Vs^B ρ^C`, with exponents and a positive constant (one without normalisation) common to all
samples, and the logarithmic change `B Δβ/β + C Δρ/ρ` is twice the first-order reflectivity: P to S,
S to P, SV and SH, in this order. -/
theorem C51_shear {Vp Vs rho : List ℝ} {S θ : ℝ} (n1 : Vp ≠ []) (n2 : Vs ≠ [])
    (n3 : rho ≠ []) (h1 : ∀ x ∈ Vp, 0 < x) (h2 : ∀ x ∈ Vs, 0 < x) (h3 : ∀ x ∈ rho, 0 < x)
    (hS : 0 < S) (hS1 : S < 1) (hr : ∀ s ∈ samples Vp Vs rho, s.2.1 = S * s.1)
    (hθ0 : -90 < θ) (hθ1 : θ < 90) (norm : Bool) :
    ∃ k B C : Fin 4 → ℝ, (∀ i, 0 < k i) ∧ (norm = false → ∀ i, k i = 1) ∧
      (EI_ref (Vp.map fin) (Vs.map fin) (rho.map fin) (fin θ) (fin S) norm).map Prod.snd
        = (samples Vp Vs rho).map (fun s =>
          (fin (k 0 * (s.2.1 ^ B 0 * s.2.2 ^ C 0)), fin (k 1 * (s.2.1 ^ B 1 * s.2.2 ^ C 1)),
            fin (k 2 * (s.2.1 ^ B 2 * s.2.2 ^ C 2)), fin (k 3 * (s.2.1 ^ B 3 * s.2.2 ^ C 3)))) ∧
      ∀ a b r db dr : ℝ, 0 < a → b = S * a →
        let t := θ * (Real.pi / 180)
        let j := Real.arcsin (S * Real.sin t)
        B 0 * (db / b) + C 0 * (dr / r)
            = 2 * akiRichardsPS a b r db dr (Real.sin t / a) (Real.cos t) (Real.cos j) ∧
        B 1 * (db / b) + C 1 * (dr / r)
            = 2 * akiRichardsSP a b r db dr (Real.sin t / a) (Real.cos t) (Real.cos j) ∧
        B 2 * (db / b) + C 2 * (dr / r) = 2 * akiRichardsSS b r db dr j ∧
        B 3 * (db / b) + C 3 * (dr / r) = 2 * firstOrderSH b r db dr j := by
  have c := cos_deg_pos hθ0 hθ1
  obtain ⟨mp, hmp, ep⟩ := mean_eval n1 h1
  obtain ⟨ms, hms, es⟩ := mean_eval n2 h2
  obtain ⟨mr, hmr, er⟩ := mean_eval n3 h3
  let t := θ * (Real.pi / 180)
  let j := Real.arcsin (S * Real.sin t)
  have sp : ∀ a b r db dr : ℝ, 0 < a → b = S * a → _ := fun a b r db dr ha hb =>
    exps_spec (r := r) (db := db) (dr := dr) ha hb hS hS1 c
  rw [ei_ref_map, ep, es, er, List.map_map]
  cases norm
  · refine ⟨fun _ => 1, fun i => (exps S t j i).1, fun i => (exps S t j i).2, fun _ => one_pos,
      fun _ _ => rfl, List.map_congr_left ?_, sp⟩
    intro s hs
    obtain ⟨p1, p2, p3⟩ := samples_pos h1 h2 h3 s hs
    rw [Function.comp]
    simp only [Bool.false_eq_true, if_false, fl_one]
    rw [ei_shear_eval false hmp hms hmr p1 p2 p3 hS hS1 (hr s hs) c]
    simp only [Bool.false_eq_true, if_false]
    rfl
  · refine ⟨fun i => (if i = 0 then mp * mr else ms * mr) / power (exps S t j i) ms mr,
      fun i => (exps S t j i).1, fun i => (exps S t j i).2, fun i => ?_,
      fun h => absurd h (by simp), List.map_congr_left ?_, sp⟩
    · unfold power; dsimp only; split_ifs <;> positivity
    intro s hs
    obtain ⟨p1, p2, p3⟩ := samples_pos h1 h2 h3 s hs
    rw [Function.comp]
    simp only [if_true, fl_mul]
    rw [ei_shear_eval true hmp hms hmr p1 p2 p3 hS hS1 (hr s hs) c]
    have e : ∀ (m : ℝ) (x : ℝ × ℝ), m * power x (s.2.1 / ms) (s.2.2 / mr)
        = m / power x ms mr * (s.2.1 ^ x.1 * s.2.2 ^ x.2) := by
      intro m x
      unfold power
      rw [Real.div_rpow p2.le hms.le, Real.div_rpow p3.le hmr.le]
      have q2 : 0 < ms ^ x.1 := by positivity
      have q3 : 0 < mr ^ x.2 := by positivity
      field
    simp only [if_true, e]
    rfl

example : ∃ k B C : Fin 4 → ℝ, (∀ i, 0 < k i) ∧
    (EI_ref ([3, 4].map fin) ([1.5, 2].map fin) ([2.2, 2.4].map fin) (fin 30) (fin 0.5) true).map
      Prod.snd = (samples [3, 4] [1.5, 2] [2.2, 2.4]).map (fun s =>
          (fin (k 0 * (s.2.1 ^ B 0 * s.2.2 ^ C 0)), fin (k 1 * (s.2.1 ^ B 1 * s.2.2 ^ C 1)),
            fin (k 2 * (s.2.1 ^ B 2 * s.2.2 ^ C 2)), fin (k 3 * (s.2.1 ^ B 3 * s.2.2 ^ C 3)))) := by
  obtain ⟨k, B, C, h, -, e, -⟩ := C51_shear (Vp := [3, 4]) (Vs := [1.5, 2]) (rho := [2.2, 2.4])
    (S := 0.5) (θ := 30) (by simp) (by simp)
    (by simp) (by simp) (by simp; norm_num) (by simp; norm_num) (by norm_num) (by norm_num)
    (by simp [samples]; norm_num) (by norm_num) (by norm_num) true
  exact ⟨k, B, C, h, e⟩

/-- C78: the first-order SH reflectivity used by the last impedance is the first order of the exact
SH reflection coefficient. -/
theorem C78_sh {b r db dr j : ℝ} (hb : 0 < b) (hr : 0 < r) (h0 : -(Real.pi / 2) < j)
    (h1 : j < Real.pi / 2) :
    let I := fun t => IsReflectionSH (b - t * db / 2) (r - t * dr / 2) (b + t * db / 2)
      (r + t * dr / 2) j (Real.arcsin (Real.sin j / (b - t * db / 2) * (b + t * db / 2)))
    (∀ᶠ t in 𝓝 (0 : ℝ), ∃ R, I t R) ∧
    ∀ R : ℝ → ℝ, (∀ᶠ t in 𝓝 (0 : ℝ), I t (R t)) → HasDerivAt R (firstOrderSH b r db dr j) 0 := by
  dsimp only
  have cj := Real.cos_pos_of_mem_Ioo ⟨h0, h1⟩
  have hs : |Real.sin j / b * b| < 1 := by
    rw [div_mul_cancel₀ _ hb.ne', ← sq_lt_one_iff_abs_lt_one, Real.sin_sq]; nlinarith
  have c0 : Real.cos (Real.arcsin (Real.sin j / b * b)) = Real.cos j := by
    rw [div_mul_cancel₀ _ hb.ne', Real.cos_arcsin, ← Real.cos_sq', Real.sqrt_sq cj.le]
  have b0 : b - 0 * db / 2 = b := by ring
  have b0' : b + 0 * db / 2 = b := by ring
  have r0 : r - 0 * dr / 2 = r := by ring
  have r0' : r + 0 * dr / 2 = r := by ring
  have hz1 : HasDerivAt (fun t : ℝ => (r - t * dr / 2) * (b - t * db / 2) * Real.cos j) _ 0 :=
    ((lin r dr).mul (lin b db)).mul_const _
  have hz2 : HasDerivAt (fun t : ℝ => (r + t * dr / 2) * (b + t * db / 2)
      * Real.cos (Real.arcsin (Real.sin j / (b - t * db / 2) * (b + t * db / 2)))) _ 0 :=
    ((lin' r dr).mul (lin' b db)).mul (cos_refracted (d := db) (e := db) hb hs)
  have n0 : (fun t : ℝ => (r - t * dr / 2) * (b - t * db / 2) * Real.cos j
      + (r + t * dr / 2) * (b + t * db / 2)
      * Real.cos (Real.arcsin (Real.sin j / (b - t * db / 2) * (b + t * db / 2)))) 0 ≠ 0 := by
    simp only [b0, b0', r0, r0', c0]
    positivity
  have ev := (hz1.add hz2).continuousAt.eventually_ne n0
  have sol : ∀ᶠ t in 𝓝 (0 : ℝ), ∀ R, IsReflectionSH (b - t * db / 2) (r - t * dr / 2)
      (b + t * db / 2) (r + t * dr / 2) j
      (Real.arcsin (Real.sin j / (b - t * db / 2) * (b + t * db / 2))) R ↔
      R = ((r - t * dr / 2) * (b - t * db / 2) * Real.cos j - (r + t * dr / 2) * (b + t * db / 2)
          * Real.cos (Real.arcsin (Real.sin j / (b - t * db / 2) * (b + t * db / 2))))
        / ((r - t * dr / 2) * (b - t * db / 2) * Real.cos j + (r + t * dr / 2) * (b + t * db / 2)
          * Real.cos (Real.arcsin (Real.sin j / (b - t * db / 2) * (b + t * db / 2)))) := by
    filter_upwards [ev] with t ht R
    simp only [Pi.add_apply] at ht
    rw [eq_div_iff ht]
    constructor
    · rintro ⟨T, e1, e2⟩
      rw [← e1] at e2
      linarith
    · intro e
      exact ⟨1 + R, rfl, by linarith⟩
  refine ⟨sol.mono fun t h => ⟨_, (h _).mpr rfl⟩, fun R h => ?_⟩
  have d := (hz1.sub hz2).div (hz1.add hz2) n0
  refine (d.congr_deriv ?_).congr_of_eventuallyEq ((sol.and h).mono fun t h => (h.1 _).mp h.2)
  simp only [Pi.sub_apply, Pi.add_apply, Pi.mul_apply, b0, b0', r0, r0', c0]
  unfold firstOrderSH
  rw [Real.tan_eq_sin_div_cos]
  generalize Real.cos j = c at *
  generalize Real.sin j = s at *
  field

end RockPhy.Props
