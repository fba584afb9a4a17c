import Verif.Props.GM
import Verif.Spec.Roots
import Mathlib.Topology.Order.IntermediateValue
import Mathlib.Topology.Algebra.Polynomial

/-! # Property C46 (Digby's model) -/

namespace RockPhy.Props

open Fl GM Spec

/-- Digby's equation for the normalised contact radius `d`: `d³ + 3/2 a² d = c` with
`c = 3 π (1-ν) σ / (2 Cn (1-φ) G)`, stress `σ` in GPa. -/
def DigbyRadius (K0 G0 φ Cn σ a d : ℝ) : Prop :=
  0 ≤ d ∧ d ^ 3 + 3 / 2 * a ^ 2 * d
    = 3 * Real.pi * (1 - nu K0 G0) * (σ / 1000) / (2 * Cn * (1 - φ) * G0)

/-- Digby's effective moduli for contact radius `d`. -/
noncomputable def digbyK (K0 G0 φ Cn a d : ℝ) : ℝ :=
  Cn * (1 - φ) * G0 * Real.sqrt (d ^ 2 + a ^ 2) / (3 * Real.pi * (1 - nu K0 G0))

noncomputable def digbyG (K0 G0 φ Cn a d : ℝ) : ℝ :=
  3 / 5 * digbyK K0 G0 φ Cn a d + 3 * Cn * (1 - φ) * G0 * a / (5 * Real.pi * (2 - nu K0 G0))

section cubic

variable {p c : ℝ}

theorem cubic_exists (hp : 0 ≤ p) (hc : 0 < c) : ∃ r : ℝ, 0 < r ∧ r ^ 3 + p * r = c := by
  have hcont : ContinuousOn (fun r : ℝ => r ^ 3 + p * r) (Set.Icc 0 (c + 1)) := by fun_prop
  have h := intermediate_value_Icc (by linarith : (0 : ℝ) ≤ c + 1) hcont
  have hm : c ∈ Set.Icc ((0 : ℝ) ^ 3 + p * 0) ((c + 1) ^ 3 + p * (c + 1)) := by
    constructor
    · simp only [ne_eq, OfNat.ofNat_ne_zero, not_false_eq_true, zero_pow, mul_zero, add_zero]
      exact hc.le
    · have : 0 ≤ p * (c + 1) := by positivity
      nlinarith [sq_nonneg c, mul_pos hc hc, mul_pos (mul_pos hc hc) hc]
  obtain ⟨r, ⟨hr0, -⟩, hr⟩ := h hm
  refine ⟨r, lt_of_le_of_ne hr0 ?_, hr⟩
  rintro rfl
  simp at hr
  exact hc.ne hr

theorem cubic_unique {r r' : ℝ} (hp : 0 ≤ p) (hr : 0 ≤ r) (hr' : 0 ≤ r')
    (h : r ^ 3 + p * r = c) (h' : r' ^ 3 + p * r' = c) : r = r' := by
  rcases lt_trichotomy r r' with hl | hl | hl
  · have : r ^ 3 < r' ^ 3 := by gcongr
    have : p * r ≤ p * r' := by gcongr
    linarith
  · exact hl
  · have : r' ^ 3 < r ^ 3 := by gcongr
    have : p * r' ≤ p * r := by gcongr
    linarith

/-- The two roots beside the positive real one have negative real part. -/
theorem other_roots {r : ℝ} {z w : ℂ} (hp : 0 ≤ p) (hr : 0 < r) (hs : z + w = -r)
    (hm : z * w = p + r ^ 2) : z.re < 0 ∧ w.re < 0 := by
  have h1 := congrArg Complex.re hs
  have h2 := congrArg Complex.im hs
  have h3 := congrArg Complex.re hm
  have h4 := congrArg Complex.im hm
  simp [← Complex.ofReal_pow] at h1 h2 h3 h4
  have ew : w.re = -r - z.re := by linarith
  have ei : w.im = -z.im := by linarith
  rw [ew, ei] at h3 h4
  -- z.im * (-r - 2 z.re) = 0
  have h5 : z.im * (r + 2 * z.re) = 0 := by linarith
  rcases mul_eq_zero.mp h5 with h0 | h0
  · rw [h0] at h3
    exfalso
    nlinarith [sq_nonneg (z.re + r / 2), mul_pos hr hr]
  · constructor <;> linarith

end cubic

section

variable (K0 G0 φ Cn σ a : ℝ)

/-- One positive-real-part root is selected, and the result is Digby's pair of moduli. -/
theorem digby_eval {roots : Fl → Fl → Fl → Fl → List (Fl × Fl)} (ho : RootsOracle roots)
    (h : Pack K0 G0 φ Cn σ) :
    ∃ d : ℝ, 0 < d ∧ DigbyRadius K0 G0 φ Cn σ a d ∧
      Digby roots (fin K0) (fin G0) (fin φ) (fin Cn) (fin σ) (fin a)
        = ([fin (digbyK K0 G0 φ Cn a d)], [fin (digbyG K0 G0 φ Cn a d)]) := by
  have hK := h.bulk
  have hG := h.shear
  have hC := h.coord
  have hσ := h.stress
  have hφ : 0 < 1 - φ := by linarith [h.por]
  have hν := nu_lt hK hG
  have hν1 : 0 < 1 - nu K0 G0 := by linarith
  have hν2 : 0 < 2 - nu K0 G0 := by linarith
  have hpi := Real.pi_pos
  set c := 3 * Real.pi * (1 - nu K0 G0) * (σ / 1000) / (2 * Cn * (1 - φ) * G0) with hc
  have cpos : 0 < c := by positivity
  have pn : 0 ≤ 3 / 2 * a ^ 2 := by positivity
  obtain ⟨r, r0, hr⟩ := cubic_exists pn cpos
  refine ⟨r, r0, ⟨r0.le, hr⟩, ?_⟩
  have e : (3 * fin K0 - 2 * fin G0) / (6 * fin K0 + 2 * fin G0) = fin (nu K0 G0) := by
    fl_eval [nu]
  have e1 : (-3 : Fl) * pi * (1 - fin (nu K0 G0)) * (fin σ / 1000)
      / (2 * fin Cn * (1 - fin φ) * fin G0) = fin (-c) := by
    fl_eval []
    rw [fin_inj, hc]; ring
  have e2 : (3 / 2 : Fl) * fin a ** 2 = fin (3 / 2 * a ^ 2) := by fl_eval []
  obtain ⟨z₁, z₂, z₃, hz, H⟩ := ho 1 0 (3 / 2 * a ^ 2) (-c) one_ne_zero
  have filt : ([(fin z₁.re, fin z₁.im), (fin z₂.re, fin z₂.im), (fin z₃.re, fin z₃.im)].map
      Prod.fst).filter (fun x => PyNum.le 0 x) = [fin r] := by
    have c0 : (r : ℂ) ^ 3 + ((3 / 2 * a ^ 2 : ℝ) : ℂ) * r = c := by exact_mod_cast hr
    have k0 := H 0
    have k1 := H 1
    have k2 := H (-1)
    have kr := H r
    push_cast at k0 k1 k2 kr c0
    have s1 : z₁ + z₂ + z₃ = 0 := by linear_combination (k1 + k2 - 2 * k0) / (2 : ℂ)
    have s2 : z₁ * z₂ + z₁ * z₃ + z₂ * z₃ = 3 / 2 * (a : ℂ) ^ 2 := by
      linear_combination (k2 - k1) / (2 : ℂ)
    have rz : ((r : ℂ) - z₁) * (r - z₂) * (r - z₃) = 0 := by
      linear_combination c0 - kr
    have key : ∀ {z w : ℂ}, (r : ℂ) + z + w = 0 →
        (r : ℂ) * z + r * w + z * w = 3 / 2 * (a : ℂ) ^ 2 → z.re < 0 ∧ w.re < 0 := by
      intro z w h1 h2
      refine other_roots pn r0 (by linear_combination h1) ?_
      push_cast
      linear_combination h2 - (r : ℂ) * h1
    have neg : ∀ {x : ℝ}, x < 0 → PyNum.le (0 : Fl) (fin x) = false := by
      intro x hx
      rw [Bool.eq_false_iff, fl_zero, ne_eq, fl_le]; linarith
    have posr : PyNum.le (0 : Fl) (fin r) = true := by rw [fl_zero, fl_le]; exact r0.le
    rcases mul_eq_zero.mp rz with rz | rz
    · rcases mul_eq_zero.mp rz with rz | rz
      · obtain rfl : z₁ = r := by linear_combination -rz
        obtain ⟨n1, n2⟩ := key (z := z₂) (w := z₃) s1 s2
        simp [neg n1, neg n2, posr]
      · obtain rfl : z₂ = r := by linear_combination -rz
        obtain ⟨n1, n2⟩ := key (z := z₁) (w := z₃) (by linear_combination s1)
          (by linear_combination s2)
        simp [neg n1, neg n2, posr]
    · obtain rfl : z₃ = r := by linear_combination -rz
      obtain ⟨n1, n2⟩ := key (z := z₁) (w := z₂) (by linear_combination s1)
        (by linear_combination s2)
      simp [neg n1, neg n2, posr]
  unfold Digby
  dsimp only
  rw [e, e1, e2, fl_one, fl_zero, hz, ← fl_zero, filt]
  simp only [List.map_cons, List.map_nil]
  have np : 0 ≤ r ^ 2 + a ^ 2 := by positivity
  have e3 : (12 : Fl) = fin 12 := rfl
  fl_eval []
  refine Prod.ext ?_ ?_
  · simp only [List.cons.injEq, and_true, fin_inj]
    unfold digbyK; field
  · simp only [List.cons.injEq, and_true, fin_inj]
    unfold digbyG digbyK; field

/-- For positive stress exactly one root is selected; it is the only non-negative solution of
Digby's equation and the moduli are Digby's. -/
theorem C46_selects_one {roots : Fl → Fl → Fl → Fl → List (Fl × Fl)} (ho : RootsOracle roots)
    (h : Pack K0 G0 φ Cn σ) :
    ∃! d : ℝ, DigbyRadius K0 G0 φ Cn σ a d ∧
      Digby roots (fin K0) (fin G0) (fin φ) (fin Cn) (fin σ) (fin a)
        = ([fin (digbyK K0 G0 φ Cn a d)], [fin (digbyG K0 G0 φ Cn a d)]) := by
  obtain ⟨d, d0, hd, e⟩ := digby_eval K0 G0 φ Cn σ a ho h
  refine ⟨d, ⟨hd, e⟩, ?_⟩
  rintro d' ⟨hd', -⟩
  exact cubic_unique (p := 3 / 2 * a ^ 2) (by positivity) hd'.1 hd.1 hd'.2 hd.2

/-- Without initial bonding Digby's model is the smooth (frictionless) Hertz-Mindlin model. -/
theorem C46_unbonded {roots : Fl → Fl → Fl → Fl → List (Fl × Fl)} (ho : RootsOracle roots)
    (h : Pack K0 G0 φ Cn σ) :
    Digby roots (fin K0) (fin G0) (fin φ) (fin Cn) (fin σ) (fin 0)
      = ([(hertzmindlin (fin K0) (fin G0) (fin φ) (fin Cn) (fin σ) (fin 0)).1],
         [(hertzmindlin (fin K0) (fin G0) (fin φ) (fin Cn) (fin σ) (fin 0)).2]) := by
  obtain ⟨d, d0, hd, e⟩ := digby_eval K0 G0 φ Cn σ 0 ho h
  have hK := h.bulk
  have hG := h.shear
  have hC := h.coord
  have hσ := h.stress
  have hφ : 0 < 1 - φ := by linarith [h.por]
  have hν := nu_lt hK hG
  have hν1 : 0 < 1 - nu K0 G0 := by linarith
  have hν2 : 0 < 2 - nu K0 G0 := by linarith
  have hpi := Real.pi_pos
  have k0 : 0 ≤ digbyK K0 G0 φ Cn 0 d := by unfold digbyK; positivity
  have k3 : digbyK K0 G0 φ Cn 0 d ^ 3 = hmArg K0 G0 φ Cn σ := by
    have h2 := hd.2
    have : d ^ 3 = 3 * Real.pi * (1 - nu K0 G0) * (σ / 1000) / (2 * Cn * (1 - φ) * G0) := by
      rw [← h2]; ring
    unfold digbyK hmArg
    rw [show d ^ 2 + (0 : ℝ) ^ 2 = d ^ 2 by ring, Real.sqrt_sq d0.le, div_pow, mul_pow, this]
    generalize 1 - nu K0 G0 = n at *
    generalize 1 - φ = f at *
    field
  have ek : digbyK K0 G0 φ Cn 0 d = hmK K0 G0 φ Cn σ := by
    unfold hmK; rw [← k3, pow_cbrt k0]
  rw [e, hertzmindlin_eval hK hG hσ.le, digbyG, ek, hmG]
  have : hmRatio K0 G0 0 = 3 / 5 := by unfold hmRatio; field
  rw [this]
  simp

/-- More stress, or a larger initially bonded area, never softens the pack. -/
theorem C46_monotone (σ' a' : ℝ) {roots : Fl → Fl → Fl → Fl → List (Fl × Fl)}
    (ho : RootsOracle roots) (h : Pack K0 G0 φ Cn σ) (hσ : σ ≤ σ') (ha : 0 ≤ a) (haa : a ≤ a') :
    ∃ K G K' G' : ℝ,
      Digby roots (fin K0) (fin G0) (fin φ) (fin Cn) (fin σ) (fin a) = ([fin K], [fin G]) ∧
      Digby roots (fin K0) (fin G0) (fin φ) (fin Cn) (fin σ') (fin a') = ([fin K'], [fin G']) ∧
      0 < K ∧ 0 < G ∧ K ≤ K' ∧ G ≤ G' := by
  have h' : Pack K0 G0 φ Cn σ' := { h with stress := h.stress.trans_le hσ }
  have ha' := ha.trans haa
  obtain ⟨d, d0, hd, e⟩ := digby_eval K0 G0 φ Cn σ a ho h
  obtain ⟨d', d0', hd', e'⟩ := digby_eval K0 G0 φ Cn σ' a' ho h'
  have hG := h.shear
  have hC := h.coord
  have hφ : 0 < 1 - φ := by linarith [h.por]
  have hν := nu_lt h.bulk hG
  have hν1 : 0 < 1 - nu K0 G0 := by linarith
  have hν2 : 0 < 2 - nu K0 G0 := by linarith
  have hpi := Real.pi_pos
  have hc : d ^ 3 + 3 / 2 * a ^ 2 * d ≤ d' ^ 3 + 3 / 2 * a' ^ 2 * d' := by
    rw [hd.2, hd'.2]; gcongr
  have hb : d ^ 2 + a ^ 2 ≤ d' ^ 2 + a' ^ 2 := by
    have haa2 : a ^ 2 ≤ a' ^ 2 := by gcongr
    by_contra hn
    have hn := not_le.mp hn
    have hdd : d' ^ 2 < d ^ 2 := by linarith
    have hdd' : d' < d := lt_of_pow_lt_pow_left₀ 2 d0.le hdd
    have h1 : d' * a' ^ 2 < d' * (d ^ 2 + a ^ 2 - d' ^ 2) :=
      mul_lt_mul_of_pos_left (by linarith) d0'
    have h2 : 0 ≤ (d - d') ^ 2 * (d + d' / 2) := by positivity
    have h3 : 0 ≤ a ^ 2 * (d - d') := mul_nonneg (sq_nonneg a) (by linarith)
    nlinarith
  have hs : Real.sqrt (d ^ 2 + a ^ 2) ≤ Real.sqrt (d' ^ 2 + a' ^ 2) := Real.sqrt_le_sqrt hb
  have hs0 : 0 < Real.sqrt (d ^ 2 + a ^ 2) := Real.sqrt_pos.mpr (by positivity)
  have kk : digbyK K0 G0 φ Cn a d ≤ digbyK K0 G0 φ Cn a' d' := by unfold digbyK; gcongr
  have kp : 0 < digbyK K0 G0 φ Cn a d := by unfold digbyK; positivity
  refine ⟨_, _, _, _, e, e', kp, ?_, kk, ?_⟩
  · unfold digbyG; positivity
  · unfold digbyG; gcongr

/-- At zero stress the bonded pack keeps all three roots, so the function returns three (equal)
values instead of one. -/
theorem C46_zero_stress {roots : Fl → Fl → Fl → Fl → List (Fl × Fl)} (ho : RootsOracle roots)
    (hK : 0 < K0) (hG : 0 < G0) (hφ : φ < 1) (hC : 0 < Cn) :
    Digby roots (fin K0) (fin G0) (fin φ) (fin Cn) (fin 0) (fin a)
      = (List.replicate 3 (fin (digbyK K0 G0 φ Cn a 0)),
         List.replicate 3 (fin (digbyG K0 G0 φ Cn a 0))) := by
  have hφ : 0 < 1 - φ := by linarith
  have hν := nu_lt hK hG
  have hν1 : 0 < 1 - nu K0 G0 := by linarith
  have hν2 : 0 < 2 - nu K0 G0 := by linarith
  have hpi := Real.pi_pos
  have e : (3 * fin K0 - 2 * fin G0) / (6 * fin K0 + 2 * fin G0) = fin (nu K0 G0) := by
    fl_eval [nu]
  have e1 : (-3 : Fl) * pi * (1 - fin (nu K0 G0)) * (fin 0 / 1000)
      / (2 * fin Cn * (1 - fin φ) * fin G0) = fin 0 := by
    fl_eval []
    rw [fin_inj]; ring
  have e2 : (3 / 2 : Fl) * fin a ** 2 = fin (3 / 2 * a ^ 2) := by fl_eval []
  obtain ⟨z₁, z₂, z₃, hz, H⟩ := ho 1 0 (3 / 2 * a ^ 2) 0 one_ne_zero
  have re0 : ∀ z : ℂ, z = z₁ ∨ z = z₂ ∨ z = z₃ → z.re = 0 := by
    intro z h
    have k := H z
    have : (z - z₁) * (z - z₂) * (z - z₃) = 0 := by
      rcases h with rfl | rfl | rfl <;> ring
    rw [this] at k
    push_cast at k
    have k' : z * (z ^ 2 + 3 / 2 * (a : ℂ) ^ 2) = 0 := by linear_combination k
    rcases mul_eq_zero.mp k' with h0 | h0
    · rw [h0]; rfl
    · have h1 := congrArg Complex.re h0
      have h2 := congrArg Complex.im h0
      rw [show (3 / 2 * (a : ℂ) ^ 2) = ((3 / 2 * a ^ 2 : ℝ) : ℂ) by push_cast; ring] at h1 h2
      simp only [sq, Complex.add_re, Complex.add_im, Complex.mul_re, Complex.mul_im,
        Complex.ofReal_re, Complex.ofReal_im, Complex.zero_re, Complex.zero_im, add_zero] at h1 h2
      by_contra hne
      have : z.im = 0 := by
        have : z.re * z.im = 0 := by linarith
        exact (mul_eq_zero.mp this).resolve_left hne
      rw [this] at h1
      have : 0 < z.re * z.re := mul_self_pos.mpr hne
      nlinarith [mul_self_nonneg a]
  have r1 := re0 z₁ (Or.inl rfl)
  have r2 := re0 z₂ (Or.inr (Or.inl rfl))
  have r3 := re0 z₃ (Or.inr (Or.inr rfl))
  have np : (0 : ℝ) ≤ 0 ^ 2 + a ^ 2 := by positivity
  have p0 : PyNum.le (fin 0) (fin 0) = true := by rw [fl_le]
  unfold Digby
  dsimp only
  rw [e, e1, e2, fl_one, fl_zero, hz, r1, r2, r3]
  simp only [List.map_cons, List.map_nil, List.filter_cons, List.filter_nil, p0, if_true]
  fl_eval []
  have x1 : Cn * (1 - φ) * (4 * G0 * Real.sqrt (0 ^ 2 + a ^ 2) / (1 - nu K0 G0)) / 12 / Real.pi
      = digbyK K0 G0 φ Cn a 0 := by unfold digbyK; field
  have x2 : Cn * (1 - φ) * (4 * G0 * Real.sqrt (0 ^ 2 + a ^ 2) / (1 - nu K0 G0)
      + 1.5 * (8 * G0 * a / (2 - nu K0 G0))) / 20 / Real.pi
      = digbyG K0 G0 φ Cn a 0 := by unfold digbyG digbyK; field
  rw [x1, x2]
  rfl

end

/-- The hypotheses are met: an exact root finder exists and the reference pack is admissible. -/
example : (∃ roots, RootsOracle roots) ∧ Pack 36.6 45 0.4 8.6 20 ∧ (0 : ℝ) ≤ 0.05 ∧
    (0.05 : ℝ) ≤ 0.1 :=
  ⟨exists_rootsOracle, ⟨by norm_num, by norm_num, by norm_num, by norm_num, by norm_num⟩,
    by norm_num, by norm_num⟩

end RockPhy.Props
