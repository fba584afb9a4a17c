import Verif.Props.Emp
import Verif.Props.Patchy
import Verif.Model.Perm
import Verif.Spec.Fraction
import Mathlib.Analysis.Complex.ExponentialBounds

/-!
# C114: porosity estimates and their units

Where the estimates of porosity are fractions, where they are percentages, and the range of depths in
which they are porosities at all.
-/

namespace RockPhy.Props

open Spec Fl

theorem fraction_fin {r : ℝ} : Fraction (fin r) ↔ 0 ≤ r ∧ r ≤ 1 :=
  ⟨fun ⟨_, e, h⟩ => by cases e; exact h, fun h => ⟨r, rfl, h⟩⟩

theorem percent_fin {r : ℝ} : Percent (fin r) ↔ 0 ≤ r ∧ r ≤ 100 :=
  ⟨fun ⟨_, e, h⟩ => by cases e; exact h, fun h => ⟨r, rfl, h⟩⟩

/-! ## Compaction trends -/

/-- Above 5208.66 m. -/
theorem C114_ehrenberg (z : ℝ) (h : 0 ≤ z) :
    Fraction (Empirical.ehrenberg (fin z)) ↔ z ≤ 480242200000 / 92200747 := by
  have e : Empirical.ehrenberg (fin z) = fin (-0.092200747 * (z / 1000) + 0.4802422) := by
    fl_eval [Empirical.ehrenberg]
  rw [e, fraction_fin]
  constructor
  · rintro ⟨a, _⟩
    rw [le_div_iff₀ (by norm_num)]
    norm_num at a ⊢; linarith
  · intro a
    rw [le_div_iff₀ (by norm_num)] at a
    constructor <;> norm_num at a ⊢ <;> linarith

/-- The depth is documented in kilometres.  Such a depth changes nothing: to ten kilometres the
porosity is 48 percent to within a thousandth. -/
theorem C114_ehrenberg_km_violated (z : ℝ) (h : 0 ≤ z) (k : z ≤ 10) :
    ∃ r : ℝ, Empirical.ehrenberg (fin z) = fin r ∧ |r - 0.48| ≤ 0.001 := by
  refine ⟨-0.092200747 * (z / 1000) + 0.4802422, by fl_eval [Empirical.ehrenberg], ?_⟩
  rw [abs_le]
  constructor <;> norm_num <;> linarith

/-- Above 5458.8 m in the Halten area, above 6188.4 m elsewhere. -/
theorem C114_ramm (z : ℝ) (h : 0 ≤ z) :
    (Fraction (Empirical.ramm_porosity (fin z) true) ↔ z ≤ 464000 / 85)
    ∧ (Fraction (Empirical.ramm_porosity (fin z) false) ↔ z ≤ 427000 / 69) := by
  have e1 : Empirical.ramm_porosity (fin z) true = fin ((46.4 - 0.0085 * z) / 100) := by
    simp only [Empirical.ramm_porosity, if_true]; fl_eval []
  have e2 : Empirical.ramm_porosity (fin z) false = fin ((42.7 - 0.0069 * z) / 100) := by
    simp only [Empirical.ramm_porosity, Bool.false_eq_true, if_false]; fl_eval []
  rw [e1, e2, fraction_fin, fraction_fin]
  constructor
  · constructor
    · rintro ⟨a, _⟩; norm_num at a ⊢; linarith
    · intro a; constructor <;> norm_num at a ⊢ <;> linarith
  · constructor
    · rintro ⟨a, _⟩; norm_num at a ⊢; linarith
    · intro a; constructor <;> norm_num at a ⊢ <;> linarith

/-- The segmented trend of the same authors is in percent: a log of depths gives percentages exactly
when all depths are above 4423.08 m. -/
theorem C114_ramm_segment (Z : List ℝ) (h : ∀ z ∈ Z, 0 ≤ z) :
    ∃ phi : List Fl, Empirical.ramm_porosity_segment (Z.map fin) = .ok phi
      ∧ ((∀ p ∈ phi, Percent p) ↔ ∀ z ∈ Z, z ≤ 57500 / 13) := by
  refine ⟨_, C56_min Z, ?_⟩
  simp only [List.forall_mem_map, percent_fin]
  refine forall₂_congr fun z hz => ?_
  have h0 := h z hz
  have m : 0 < mechPor z := by unfold mechPor; positivity
  have m1 : mechPor z ≤ 45 := by
    unfold mechPor
    have : Real.exp (-0.00025 * z) ≤ 1 := Real.exp_le_one_iff.mpr (by norm_num; linarith)
    linarith
  have c : 0 ≤ chemPor z ↔ z ≤ 57500 / 13 := by
    unfold chemPor; constructor <;> intro a <;> norm_num at a ⊢ <;> linarith
  rw [← c]
  constructor
  · rintro ⟨a, _⟩; exact a.trans (min_le_right _ _)
  · intro a; exact ⟨le_min m.le a, (min_le_left _ _).trans (by linarith)⟩

/-- As fractions, like those of `ramm_porosity`, they are impossible above 4346 m. -/
theorem C114_ramm_segment_violated (z : ℝ) (k : z ≤ 4346) :
    ∃ p : Fl, Empirical.ramm_porosity_segment [fin z] = .ok [p] ∧ ¬Fraction p := by
  refine ⟨_, C56_min [z], ?_⟩
  rw [fraction_fin, not_and, not_le]
  intro _
  refine lt_min ?_ ?_
  · unfold mechPor
    have : -(2 : ℝ) ≤ -0.00025 * z := by norm_num; linarith
    have a : (1 / 9 : ℝ) ≤ Real.exp (-2) := by
      have : Real.exp 2 ≤ 9 := by
        have e : Real.exp 2 = Real.exp 1 ^ 2 := by rw [← Real.exp_nat_mul]; norm_num
        rw [e]
        have := Real.exp_one_lt_d9
        have p := Real.exp_pos 1
        nlinarith
      rw [Real.exp_neg, one_div]
      exact inv_anti₀ (Real.exp_pos 2) this
    have b := Real.exp_le_exp.mpr this
    linarith
  · unfold chemPor; norm_num; linarith

/-! ## Porosity before drilling -/

section bloch
variable (S C D : ℝ) (hS : 0 < S)
include hS

theorem bloch_phi : (Permeability.Bloch (fin S) (fin C) (fin D)).1
    = fin (-6.1 + 9.8 / S + 0.17 * C) := by
  fl_eval [Permeability.Bloch]

/-- With a rigid grain content in percent the porosity is in percent, whenever it is not negative. -/
theorem C114_Bloch (h1 : 1 ≤ S) (c1 : C ≤ 100) :
    Percent (Permeability.Bloch (fin S) (fin C) (fin D)).1 ↔ 6.1 ≤ 9.8 / S + 0.17 * C := by
  rw [bloch_phi S C D hS, percent_fin]
  have : 9.8 / S ≤ 9.8 := by rw [div_le_iff₀ hS]; nlinarith
  constructor
  · rintro ⟨a, _⟩; linarith
  · intro a; constructor
    · linarith
    · norm_num at this ⊢; linarith

/-- The documentation asks for the rigid grain content as a fraction and promises a fraction.  Well
sorted sands then have a porosity above one, poorly sorted sands a negative one. -/
theorem C114_Bloch_violated (c0 : 0 ≤ C) (c1 : C ≤ 1) (h : S ≤ 1.38 ∨ 1.66 ≤ S) :
    ¬Fraction (Permeability.Bloch (fin S) (fin C) (fin D)).1 := by
  rw [bloch_phi S C D hS, fraction_fin]
  rintro ⟨a, b⟩
  rcases h with h | h
  · have : 7.1 < 9.8 / S := by rw [lt_div_iff₀ hS]; norm_num at h ⊢; linarith
    norm_num at this b; linarith
  · have : 9.8 / S < 5.92 := by rw [div_lt_iff₀ hS]; norm_num at h ⊢; linarith
    norm_num at this a; linarith

end bloch

/-! ## Shale in sand, cracks -/

theorem C114_ThomasStieber (s sh v : ℝ) (s0 : 0 ≤ s) (s1 : s ≤ 1) (h0 : 0 ≤ sh) (h1 : sh ≤ 1)
    (v0 : 0 ≤ v) (v1 : v ≤ 1) :
    Fraction (GM.ThomasStieber (fin s) (fin sh) (fin v)).1
    ∧ Fraction (GM.ThomasStieber (fin s) (fin sh) (fin v)).2 := by
  obtain ⟨d, l, e, -, -, hl, d0, dl⟩ := C44_dispersed s sh v s0 s1 h0 v0 v1
  have : l ≤ 1 := by rw [hl]; nlinarith
  rw [e]
  exact ⟨⟨d, rfl, d0, dl.trans this⟩, ⟨l, rfl, d0.trans dl, this⟩⟩

theorem C114_crack_por (crd al : ℝ) (h0 : 0 ≤ crd) (h1 : 0 ≤ al) :
    Fraction (utils.crack_por (fin crd) (fin al)) ↔ al * crd ≤ 3 / (4 * Real.pi) := by
  have e : utils.crack_por (fin crd) (fin al) = fin (4 * Real.pi * al * crd / 3) := by
    fl_eval [utils.crack_por]
  have := Real.pi_pos
  have q : al * crd ≤ 3 / (4 * Real.pi) ↔ al * crd * (4 * Real.pi) ≤ 3 :=
    le_div_iff₀ (by positivity)
  rw [e, fraction_fin, q]
  constructor
  · rintro ⟨_, a⟩; linarith
  · intro a; exact ⟨by positivity, by linarith⟩

/-- The velocities of the St. Peter sandstone are documented in kilometres per second; they are in
metres per second. -/
theorem C114_StPeter_violated (P : ℝ) (h : 0 ≤ P) (sample : Int) (hs : sample = 1 ∨ sample = 2) :
    ∃ vp vs : ℝ, Empirical.empirical_StPeter (fin P) sample = .ok (fin vp, fin vs)
      ∧ 1700 < vs ∧ 3400 < vp := by
  have e (a : ℝ) (ha : a ≤ 0) : Real.exp (a * P) ≤ 1 :=
    Real.exp_le_one_iff.mpr (mul_nonpos_of_nonpos_of_nonneg ha h)
  rcases hs with rfl | rfl
  · refine ⟨(4.21 + 0.187 * P - 0.746 * Real.exp (-24 * P)) * 1000,
      (2.58 + 0.160 * P - 0.781 * Real.exp (-20 * P)) * 1000, ?_, ?_, ?_⟩
    · unfold Empirical.empirical_StPeter
      rw [if_pos rfl]
      simp only [fl]
    · have := e (-20) (by norm_num)
      generalize Real.exp (-20 * P) = x at this ⊢
      norm_num; linarith
    · have := e (-24) (by norm_num)
      generalize Real.exp (-24 * P) = x at this ⊢
      norm_num; linarith
  · refine ⟨(4.55 + 0.298 * P - 0.8 * Real.exp (-19 * P)) * 1000,
      (2.83 + 0.195 * P - 0.741 * Real.exp (-16 * P)) * 1000, ?_, ?_, ?_⟩
    · unfold Empirical.empirical_StPeter
      rw [if_neg (by decide), if_pos rfl]
      simp only [fl]
    · have := e (-16) (by norm_num)
      generalize Real.exp (-16 * P) = x at this ⊢
      norm_num; linarith
    · have := e (-19) (by norm_num)
      generalize Real.exp (-19 * P) = x at this ⊢
      norm_num; linarith

/-- The transit time trend is documented for kilometres and km/s.  A depth in kilometres changes the
result by less than two parts in a thousand, and the velocity is in metres per second. -/
theorem C114_Hillis_km_violated (z : ℝ) (h : 0 ≤ z) (k : z ≤ 10) :
    ∃ v : ℝ, Empirical.Hillis (fin z) = fin v ∧ 2242 < v ∧ v < 2247 := by
  have d : 0 < 135.9 - 20.22 * z / 1000 := by norm_num; linarith
  refine ⟨304.8 * 1000 / (135.9 - 20.22 * z / 1000), ?_, ?_, ?_⟩
  · have := d.ne'
    fl_eval [Empirical.Hillis]
  · rw [lt_div_iff₀ d]; norm_num; linarith
  · rw [div_lt_iff₀ d]; norm_num; linarith

/-- The two formulas of Panda and Lake are both documented in millidarcy for a grain size in
micrometres.  For grains of one size the first is at least 240 times smaller than the second at every
tortuosity from 1: it is in square micrometres. -/
theorem C114_Panda_Lake_violated (d S tau phi : ℝ) (hd : 0 < d) (ht : 1 ≤ tau) (h0 : 0 < phi)
    (h1 : phi < 1) :
    ∃ k kc : ℝ, Permeability.Panda_Lake (fin d) (fin 0) (fin S) (fin tau) (fin phi) = fin k
      ∧ Permeability.Panda_Lake_cem (fin phi) (fin d) = fin kc ∧ 0 < k ∧ 240 * k ≤ kc := by
  have p : 0 < 1 - phi := sub_pos.mpr h1
  have t : 0 < tau := one_pos.trans_le ht
  refine ⟨d ^ 2 * phi ^ 3 / (72 * tau * (1 - phi) ^ 2), 3.34 * d ^ 2 * (phi ^ 3 / (1 - phi) ^ 2),
    ?_, ?_, by positivity, ?_⟩
  · simp only [Permeability.Panda_Lake, fl]
    rw [fl_div (by positivity)]
    congr 1
    norm_num
  · have := p.ne'
    fl_eval [Permeability.Panda_Lake_cem]
  · have q : 0 < d ^ 2 * phi ^ 3 / (1 - phi) ^ 2 := by positivity
    have e : 240 * (d ^ 2 * phi ^ 3 / (72 * tau * (1 - phi) ^ 2))
        = 240 / 72 * (1 / tau) * (d ^ 2 * phi ^ 3 / (1 - phi) ^ 2) := by
      field_simp
    have g : 3.34 * d ^ 2 * (phi ^ 3 / (1 - phi) ^ 2)
        = 3.34 * (d ^ 2 * phi ^ 3 / (1 - phi) ^ 2) := by ring
    have u : 1 / tau ≤ 1 := by rw [div_le_one t]; exact ht
    rw [e, g]
    refine mul_le_mul_of_nonneg_right ?_ q.le
    norm_num at u ⊢; linarith

/-! ## Cases that meet the hypotheses -/

/-- Two and a half kilometres. -/
example : Fraction (Empirical.ehrenberg (fin 2500))
    ∧ Fraction (Empirical.ramm_porosity (fin 2500) true) :=
  ⟨(C114_ehrenberg 2500 (by norm_num)).mpr (by norm_num),
    (C114_ramm 2500 (by norm_num)).1.mpr (by norm_num)⟩

/-- A moderately sorted sand with 80 percent rigid grains. -/
example : Percent (Permeability.Bloch (fin 1.5) (fin 80) (fin 0.3)).1 :=
  (C114_Bloch 1.5 80 0.3 (by norm_num) (by norm_num) (by norm_num)).mpr (by norm_num)

end RockPhy.Props
