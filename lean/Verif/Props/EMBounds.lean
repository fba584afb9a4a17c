import Verif.Lemmas.Mix
import Verif.Np

/-! # Properties C05 to C11 (`EM.VRH`, `EM.cripor`, `EM.HS`, `EM.MT_average`) -/

namespace RockPhy.EM

open Fl Spec

theorem map_inv_fin {M : List ℝ} (hM : ∀ m ∈ M, 0 < m) :
    (M.map fin).map (fun m => (1 : Fl) / m) = (M.map fun m => 1 / m).map fin := by
  induction M with
  | nil => rfl
  | cons m M ih =>
    have h := hM m List.mem_cons_self
    rw [List.map_cons, List.map_cons, List.map_cons, List.map_cons,
      ih fun m h => hM m (List.mem_cons_of_mem _ h), fl_one, fl_div h.ne']

theorem rdot_inv_pos {v M : List ℝ} (hl : v.length = M.length) (hv : ∀ a ∈ v, 0 ≤ a)
    (hs : v.sum = 1) (hM : ∀ m ∈ M, 0 < m) : 0 < rdot v (M.map fun m => 1 / m) := by
  have cs := sq_sum_le_rdot_mul_rdot_inv hl hv hM
  have h0 : 0 ≤ rdot v (M.map fun m => 1 / m) := rdot_nonneg hv (by
    intro b hb
    obtain ⟨m, hm, rfl⟩ := List.mem_map.mp hb
    have := hM m hm
    positivity)
  rcases h0.eq_or_lt with h | h
  · rw [← h, hs] at cs; norm_num at cs
  · exact h

theorem VRH_eval {v M : List ℝ} (hl : v.length = M.length) (hv : ∀ a ∈ v, 0 ≤ a)
    (hs : v.sum = 1) (hM : ∀ m ∈ M, 0 < m) :
    VRH (v.map fin) (M.map fin) = .ok (fin (rdot v M), fin (rdot v (M.map fun m => 1 / m))⁻¹,
      fin (0.5 * ((rdot v (M.map fun m => 1 / m))⁻¹ + rdot v M))) := by
  have hp := (rdot_inv_pos hl hv hs hM).ne'
  unfold VRH
  rw [map_inv_fin hM, dot_map_fin hl, dot_map_fin (by simpa using hl)]
  simp only [fl_inv hp, fl]

end RockPhy.EM

namespace RockPhy.Props

open Fl Spec EM

/-! ## C05: Voigt, Reuss and Hill averages are ordered -/

/-- Reuss <= Hill <= Voigt, for any number of phases. -/
theorem C05_VRH_ordered (v M : List ℝ) (hl : v.length = M.length) (hv : ∀ a ∈ v, 0 ≤ a)
    (hs : v.sum = 1) (hM : ∀ m ∈ M, 0 < m) :
    ∃ Mv Mr Mh : ℝ, VRH (v.map fin) (M.map fin) = .ok (fin Mv, fin Mr, fin Mh) ∧
      0 < Mr ∧ Mr ≤ Mh ∧ Mh ≤ Mv ∧ Mh = (Mr + Mv) / 2 := by
  have hp := rdot_inv_pos hl hv hs hM
  have cs := sq_sum_le_rdot_mul_rdot_inv hl hv hM
  refine ⟨_, _, _, VRH_eval hl hv hs hM, inv_pos.mpr hp, ?_⟩
  have : (rdot v (M.map fun m => 1 / m))⁻¹ ≤ rdot v M := by
    rw [inv_le_iff_one_le_mul₀ hp]
    rw [hs] at cs; linarith
  generalize (rdot v (M.map fun m => 1 / m))⁻¹ = r at *
  refine ⟨?_, ?_, ?_⟩ <;> norm_num <;> linarith

/-- All three averages stay between any lower and upper limit of the moduli. -/
theorem C05_VRH_between (v M : List ℝ) (lo hi : ℝ) (hl : v.length = M.length)
    (hv : ∀ a ∈ v, 0 ≤ a) (hs : v.sum = 1) (hlo : 0 < lo) (h1 : ∀ m ∈ M, lo ≤ m)
    (h2 : ∀ m ∈ M, m ≤ hi) :
    ∃ Mv Mr Mh : Fl, VRH (v.map fin) (M.map fin) = .ok (Mv, Mr, Mh) ∧
      fin lo ≤ Mr ∧ Mv ≤ fin hi := by
  have hM : ∀ m ∈ M, 0 < m := fun m h => hlo.trans_le (h1 m h)
  have hp := rdot_inv_pos hl hv hs hM
  refine ⟨_, _, _, VRH_eval hl hv hs hM, ?_, ?_⟩
  · rw [fin_le, le_inv_comm₀ hlo hp]
    have := rdot_le_mul (x := v) (y := M.map fun m => 1 / m) (c := lo⁻¹) (by simpa using hl) hv (by
      intro b hb
      obtain ⟨m, hm, rfl⟩ := List.mem_map.mp hb
      rw [one_div]
      exact inv_anti₀ hlo (h1 m hm))
    rw [hs, mul_one] at this
    exact this
  · rw [fin_le]
    have := rdot_le_mul (c := hi) hl hv h2
    rw [hs, mul_one] at this
    exact this

example : ([0.25, 0.25, 0.5] : List ℝ).sum = 1 ∧ (∀ a ∈ ([0.25, 0.25, 0.5] : List ℝ), 0 ≤ a) ∧
    (∀ m ∈ ([36.6, 20.9, 69] : List ℝ), 20 ≤ m) := by norm_num

/-! ## C06: VRH does not see phase order or splitting -/

/-- Permuting the phases changes nothing, for all inputs, defined or not. -/
theorem C06_VRH_perm (ps qs : List (Fl × Fl)) (h : ps.Perm qs) :
    VRH (ps.map Prod.fst) (ps.map Prod.snd) = VRH (qs.map Prod.fst) (qs.map Prod.snd) := by
  have e : ∀ ps : List (Fl × Fl), dot (ps.map Prod.fst) (ps.map Prod.snd)
      = .ok (lsum (ps.map fun p => p.1 * p.2)) := fun ps => by
    have := dot_pairs ps id
    simpa using this
  unfold VRH
  rw [e, e, dot_pairs, dot_pairs, lsum_perm (h.map _), lsum_perm (h.map fun p => p.1 * (1 / p.2))]

/-- Splitting a phase anywhere in the list into two phases with the same modulus changes
nothing. -/
theorem C06_VRH_split (ps qs : List (Fl × Fl)) (v1 v2 m : Fl) :
    VRH ((ps ++ (v1 + v2, m) :: qs).map Prod.fst) ((ps ++ (v1 + v2, m) :: qs).map Prod.snd)
      = VRH ((ps ++ (v1, m) :: (v2, m) :: qs).map Prod.fst)
          ((ps ++ (v1, m) :: (v2, m) :: qs).map Prod.snd) := by
  have e : ∀ ps : List (Fl × Fl), dot (ps.map Prod.fst) (ps.map Prod.snd)
      = .ok (lsum (ps.map fun p => p.1 * p.2)) := fun ps => by
    have := dot_pairs ps id
    simpa using this
  have s : ∀ g : Fl × Fl → Fl, g (v1 + v2, m) = g (v1, m) + g (v2, m) →
      lsum ((ps ++ (v1 + v2, m) :: qs).map g)
        = lsum ((ps ++ (v1, m) :: (v2, m) :: qs).map g) := fun g hg => by
    induction ps with
    | nil => simp only [List.nil_append, List.map_cons, lsum_cons, hg, Fl.add_assoc']
    | cons p ps ih => simp only [List.cons_append, List.map_cons, lsum_cons, ih]
  unfold VRH
  rw [e, e, dot_pairs, dot_pairs, s _ (Fl.add_mul' _ _ _), s _ (Fl.add_mul' _ _ _)]

/-- Phases that all have the modulus `m` average to `m`. -/
theorem C06_VRH_identical (v : List ℝ) (m : ℝ) (hv : ∀ a ∈ v, 0 ≤ a) (hs : v.sum = 1)
    (hm : 0 < m) :
    VRH (v.map fin) (v.map fun _ => fin m) = .ok (fin m, fin m, fin m) := by
  have e : v.map (fun _ => fin m) = (v.map fun _ => m).map fin := by rw [List.map_map]; rfl
  have d : ∀ (c : ℝ) (v : List ℝ), rdot v (v.map fun _ => c) = c * v.sum := fun c v => by
    induction v with
    | nil => simp
    | cons a v ih => rw [List.map_cons, rdot_cons, ih, List.sum_cons]; ring
  rw [e, VRH_eval (by simp) hv hs (by simp; intro _; exact hm), List.map_map, d]
  have : ((fun m : ℝ => 1 / m) ∘ fun _ : ℝ => m) = fun _ => 1 / m := rfl
  rw [this, d, hs]
  norm_num
  ring

/-- A length mismatch is an error, never a value. -/
theorem C06_VRH_mismatch (v M : List Fl) (h : v.length ≠ M.length) :
    VRH v M = .error .ValueError := by
  unfold VRH dot
  rw [if_neg h]; rfl

example : ([0.3, 0.7] : List ℝ).sum = 1 ∧ (∀ a ∈ ([0.3, 0.7] : List ℝ), 0 ≤ a) := by norm_num

/-! ## C07: critical porosity model -/

/-- Mineral moduli at zero porosity, nothing left at the critical porosity. -/
theorem C07_cripor_endpoints (K0 G0 phic : ℝ) (hc : 0 < phic) :
    cripor (fin K0) (fin G0) (fin 0) (fin phic) = (fin K0, fin G0) ∧
    cripor (fin K0) (fin G0) (fin phic) (fin phic) = (fin 0, fin 0) := by
  unfold cripor
  constructor <;> fl_eval [zero_div, div_self hc.ne', sub_zero, sub_self, mul_one, mul_zero]

/-- Both moduli fall strictly with porosity, their ratio stays that of the mineral. -/
theorem C07_cripor_decreasing (K0 G0 phic phi1 phi2 : ℝ) (hK : 0 < K0) (hG : 0 < G0)
    (hc : 0 < phic) (h12 : phi1 < phi2) :
    (cripor (fin K0) (fin G0) (fin phi2) (fin phic)).1
      < (cripor (fin K0) (fin G0) (fin phi1) (fin phic)).1 ∧
    (cripor (fin K0) (fin G0) (fin phi2) (fin phic)).2
      < (cripor (fin K0) (fin G0) (fin phi1) (fin phic)).2 ∧
    (cripor (fin K0) (fin G0) (fin phi1) (fin phic)).1 * fin G0
      = (cripor (fin K0) (fin G0) (fin phi1) (fin phic)).2 * fin K0 := by
  have h : phi1 / phic < phi2 / phic := div_lt_div_of_pos_right h12 hc
  unfold cripor
  fl_eval [fin_lt, fin_inj]
  refine ⟨?_, ?_, by ring⟩
  · apply mul_lt_mul_of_pos_left _ hK; linarith
  · apply mul_lt_mul_of_pos_left _ hG; linarith

/-- Above the critical porosity both moduli are negative: the model does not guard its
domain. -/
theorem C07_cripor_beyond (K0 G0 phic phi : ℝ) (hK : 0 < K0) (hG : 0 < G0) (hc : 0 < phic)
    (h : phic < phi) :
    (cripor (fin K0) (fin G0) (fin phi) (fin phic)).1 < fin 0 ∧
    (cripor (fin K0) (fin G0) (fin phi) (fin phic)).2 < fin 0 := by
  have h : 1 < phi / phic := by rwa [one_lt_div hc]
  unfold cripor
  fl_eval [fin_lt]
  constructor <;> nlinarith

theorem VRH_two {f a b : ℝ} (hf0 : 0 ≤ f) (hf1 : f ≤ 1) (ha : 0 < a) (hb : 0 < b) :
    VRH [fin f, fin (1 - f)] [fin a, fin b] = .ok (fin (voigt2 f a b), fin (reuss2 f a b),
      fin (0.5 * (reuss2 f a b + voigt2 f a b))) := by
  have h := VRH_eval (v := [f, 1 - f]) (M := [a, b]) rfl (by simp [hf0, hf1]) (by simp)
    (by simp [ha, hb])
  have e1 : rdot [f, 1 - f] [a, b] = voigt2 f a b := by simp [rdot, voigt2]
  have e2 : (rdot [f, 1 - f] ([a, b].map fun m => 1 / m))⁻¹ = reuss2 f a b := by
    simp [rdot, reuss2, div_eq_mul_inv]
  rw [e1, e2] at h
  exact h

/-- `cripor_reuss` is the Reuss average of solid and fluid at the critical porosity (or, with
`den=True`, the volume average used for density); it returns the solid at `phic = 0` and the
fluid at `phic = 1`. -/
theorem C07_cripor_reuss (M0 Mf phic : ℝ) (h0 : 0 < M0) (hf : 0 < Mf) (hc0 : 0 ≤ phic)
    (hc1 : phic ≤ 1) :
    cripor_reuss (fin M0) (fin Mf) (fin phic) false
      = .ok (fin ((1 - phic) / M0 + phic / Mf)⁻¹) ∧
    cripor_reuss (fin M0) (fin Mf) (fin phic) true
      = .ok (fin ((1 - phic) * M0 + phic * Mf)) := by
  have h := VRH_two (f := 1 - phic) (by linarith) (by linarith) h0 hf
  rw [sub_sub_cancel] at h
  have e : (1 : Fl) - fin phic = fin (1 - phic) := by simp only [fl]
  unfold cripor_reuss
  rw [e, h]
  simp only [fl, voigt2, reuss2, sub_sub_cancel, if_true]
  exact ⟨trivial, rfl⟩

example : (0 : ℝ) < 36.6 ∧ (0 : ℝ) < 2.2 ∧ (0 : ℝ) ≤ 0.4 ∧ (0.4 : ℝ) ≤ 1 ∧ (0.1 : ℝ) < 0.2 := by
  norm_num

/-! ## C08: Hashin-Shtrikman bounds are ordered and inside Voigt-Reuss -/

/-- Reuss <= lower <= upper <= Voigt for bulk and shear modulus, when phase 1 is stiffer in
both moduli. -/
theorem C08_HS_ordered (f K1 K2 G1 G2 : ℝ) (hf0 : 0 ≤ f) (hf1 : f ≤ 1) (hK2 : 0 < K2)
    (hG2 : 0 < G2) (hK : K2 < K1) (hG : G2 < G1) :
    ∃ Kv Kr Kh Gv Gr Gh : Fl,
      VRH [fin f, fin (1 - f)] [fin K1, fin K2] = .ok (Kv, Kr, Kh) ∧
      VRH [fin f, fin (1 - f)] [fin G1, fin G2] = .ok (Gv, Gr, Gh) ∧
      Kr ≤ (HS (fin f) (fin K1) (fin K2) (fin G1) (fin G2) "lower").1 ∧
      (HS (fin f) (fin K1) (fin K2) (fin G1) (fin G2) "lower").1
        ≤ (HS (fin f) (fin K1) (fin K2) (fin G1) (fin G2) "upper").1 ∧
      (HS (fin f) (fin K1) (fin K2) (fin G1) (fin G2) "upper").1 ≤ Kv ∧
      Gr ≤ (HS (fin f) (fin K1) (fin K2) (fin G1) (fin G2) "lower").2 ∧
      (HS (fin f) (fin K1) (fin K2) (fin G1) (fin G2) "lower").2
        ≤ (HS (fin f) (fin K1) (fin K2) (fin G1) (fin G2) "upper").2 ∧
      (HS (fin f) (fin K1) (fin K2) (fin G1) (fin G2) "upper").2 ≤ Gv := by
  have hK1 : 0 < K1 := hK2.trans hK
  have hG1 : 0 < G1 := hG2.trans hG
  have b1 := hsBulk_pos hG1
  have b2 := hsBulk_pos hG2
  have s1 := hsShear_pos hK1 hG1
  have s2 := hsShear_pos hK2 hG2
  refine ⟨_, _, _, _, _, _, VRH_two hf0 hf1 hK1 hK2, VRH_two hf0 hf1 hG1 hG2, ?_⟩
  rw [HS_upper_eval hf0 hf1 hK1 hK2 hG1 hG2 hK.ne' hG.ne',
    HS_lower_eval (by decide) hf0 hf1 hK1 hK2 hG1 hG2 hK.ne' hG.ne']
  simp only [fin_le]
  refine ⟨reuss_le_hsMean hf0 hf1 hK1 hK2 b2.le,
    hsMean_mono hf0 hf1 (by linarith) (by linarith) (by unfold hsBulk; linarith),
    hsMean_le_voigt hf0 hf1 (by linarith) (by linarith),
    reuss_le_hsMean hf0 hf1 hG1 hG2 s2.le,
    hsMean_mono hf0 hf1 (by linarith) (by linarith) (hsShear_mono hK2 hG2 hK.le hG.le),
    hsMean_le_voigt hf0 hf1 (by linarith) (by linarith)⟩

example : (0 : ℝ) ≤ 0.3 ∧ (0.3 : ℝ) ≤ 1 ∧ (0 : ℝ) < 20.9 ∧ (0 : ℝ) < 6.9 ∧ (20.9 : ℝ) < 36.6 ∧
    (6.9 : ℝ) < 45 := by norm_num

/-- If phase 1 has the larger bulk but the smaller shear modulus (calcite against quartz), the
bulk results are reversed: `'upper'` is strictly below `'lower'`. -/
theorem C08_HS_mixed_order_reversed (f K1 K2 G1 G2 : ℝ) (hf0 : 0 < f) (hf1 : f < 1)
    (hK2 : 0 < K2) (hG1 : 0 < G1) (hK : K2 < K1) (hG : G1 < G2) :
    (HS (fin f) (fin K1) (fin K2) (fin G1) (fin G2) "upper").1
      < (HS (fin f) (fin K1) (fin K2) (fin G1) (fin G2) "lower").1 := by
  have hK1 : 0 < K1 := hK2.trans hK
  have hG2 : 0 < G2 := hG1.trans hG
  have b1 := hsBulk_pos hG1
  rw [HS_upper_eval hf0.le hf1.le hK1 hK2 hG1 hG2 hK.ne' hG.ne,
    HS_lower_eval (by decide) hf0.le hf1.le hK1 hK2 hG1 hG2 hK.ne' hG.ne, fin_lt]
  exact hsMean_strictMono hf0 hf1 hK.ne' (by linarith) (by linarith)
    (by unfold hsBulk; linarith)

example : (36.6 : ℝ) < 70.2 ∧ (29 : ℝ) < 45 := by norm_num

/-- Either bound is non-decreasing in the fraction of the stiffer phase. -/
theorem C08_HS_mono_fraction (f f' K1 K2 G1 G2 : ℝ) (bound : String) (hf0 : 0 ≤ f) (hff : f ≤ f')
    (hf1 : f' ≤ 1) (hK2 : 0 < K2) (hG2 : 0 < G2) (hK : K2 < K1) (hG : G2 < G1) :
    (HS (fin f) (fin K1) (fin K2) (fin G1) (fin G2) bound).1
      ≤ (HS (fin f') (fin K1) (fin K2) (fin G1) (fin G2) bound).1 ∧
    (HS (fin f) (fin K1) (fin K2) (fin G1) (fin G2) bound).2
      ≤ (HS (fin f') (fin K1) (fin K2) (fin G1) (fin G2) bound).2 := by
  have hK1 : 0 < K1 := hK2.trans hK
  have hG1 : 0 < G1 := hG2.trans hG
  have b1 := hsBulk_pos hG1
  have b2 := hsBulk_pos hG2
  have s1 := hsShear_pos hK1 hG1
  have s2 := hsShear_pos hK2 hG2
  by_cases hb : bound = "upper"
  · rw [hb, HS_upper_eval hf0 (by linarith) hK1 hK2 hG1 hG2 hK.ne' hG.ne',
      HS_upper_eval (by linarith) hf1 hK1 hK2 hG1 hG2 hK.ne' hG.ne']
    simp only [fin_le]
    exact ⟨hsMean_mono_f hf0 hf1 hff (by linarith) (by linarith) hK.le,
      hsMean_mono_f hf0 hf1 hff (by linarith) (by linarith) hG.le⟩
  · rw [HS_lower_eval hb hf0 (by linarith) hK1 hK2 hG1 hG2 hK.ne' hG.ne',
      HS_lower_eval hb (by linarith) hf1 hK1 hK2 hG1 hG2 hK.ne' hG.ne']
    simp only [fin_le]
    exact ⟨hsMean_mono_f hf0 hf1 hff (by linarith) (by linarith) hK.le,
      hsMean_mono_f hf0 hf1 hff (by linarith) (by linarith) hG.le⟩

/-! ## C09: Hashin-Shtrikman end points and symmetry -/

/-- Pure phases are returned at the ends, for either bound. -/
theorem C09_HS_endpoints (K1 K2 G1 G2 : ℝ) (bound : String) (hK1 : 0 < K1) (hK2 : 0 < K2)
    (hG1 : 0 < G1) (hG2 : 0 < G2) (hK : K1 ≠ K2) (hG : G1 ≠ G2) :
    HS (fin 1) (fin K1) (fin K2) (fin G1) (fin G2) bound = (fin K1, fin G1) ∧
    HS (fin 0) (fin K1) (fin K2) (fin G1) (fin G2) bound = (fin K2, fin G2) := by
  by_cases hb : bound = "upper"
  · rw [hb, HS_upper_eval zero_le_one le_rfl hK1 hK2 hG1 hG2 hK hG,
      HS_upper_eval le_rfl zero_le_one hK1 hK2 hG1 hG2 hK hG]
    simp only [hsMean_one, hsMean_f0, and_self]
  · rw [HS_lower_eval hb zero_le_one le_rfl hK1 hK2 hG1 hG2 hK hG,
      HS_lower_eval hb le_rfl zero_le_one hK1 hK2 hG1 hG2 hK hG]
    simp only [hsMean_one, hsMean_f0, and_self]

/-- Exchanging the phases exchanges the bounds, for every real input (also where the result is
undefined) and every bound name other than `'upper'`. -/
theorem C09_HS_swap (f K1 K2 G1 G2 : ℝ) (bound : String) (hb : bound ≠ "upper") :
    HS (fin f) (fin K1) (fin K2) (fin G1) (fin G2) bound
      = HS (fin (1 - f)) (fin K2) (fin K1) (fin G2) (fin G1) "upper" :=
  HS_lower_eq_upper hb f K1 K2 G1 G2

/-- The effective moduli stay between the moduli of the two phases. -/
theorem C09_HS_between (f K1 K2 G1 G2 : ℝ) (bound : String) (hf0 : 0 ≤ f) (hf1 : f ≤ 1)
    (hK1 : 0 < K1) (hK2 : 0 < K2) (hG1 : 0 < G1) (hG2 : 0 < G2) (hK : K1 ≠ K2) (hG : G1 ≠ G2) :
    fin (min K1 K2) ≤ (HS (fin f) (fin K1) (fin K2) (fin G1) (fin G2) bound).1 ∧
    (HS (fin f) (fin K1) (fin K2) (fin G1) (fin G2) bound).1 ≤ fin (max K1 K2) ∧
    fin (min G1 G2) ≤ (HS (fin f) (fin K1) (fin K2) (fin G1) (fin G2) bound).2 ∧
    (HS (fin f) (fin K1) (fin K2) (fin G1) (fin G2) bound).2 ≤ fin (max G1 G2) := by
  have b1 := hsBulk_pos hG1
  have b2 := hsBulk_pos hG2
  have s1 := hsShear_pos hK1 hG1
  have s2 := hsShear_pos hK2 hG2
  have go : ∀ z s : ℝ, 0 < z → 0 < s →
      fin (min K1 K2) ≤ fin (hsMean f K1 K2 z) ∧ fin (hsMean f K1 K2 z) ≤ fin (max K1 K2) ∧
      fin (min G1 G2) ≤ fin (hsMean f G1 G2 s) ∧ fin (hsMean f G1 G2 s) ≤ fin (max G1 G2) := by
    intro z s hz hs
    simp only [fin_le]
    exact ⟨le_hsMean hf0 hf1 (by linarith) (by linarith) (min_le_left _ _) (min_le_right _ _),
      hsMean_le hf0 hf1 (by linarith) (by linarith) (le_max_left _ _) (le_max_right _ _),
      le_hsMean hf0 hf1 (by linarith) (by linarith) (min_le_left _ _) (min_le_right _ _),
      hsMean_le hf0 hf1 (by linarith) (by linarith) (le_max_left _ _) (le_max_right _ _)⟩
  by_cases hb : bound = "upper"
  · rw [hb, HS_upper_eval hf0 hf1 hK1 hK2 hG1 hG2 hK hG]; exact go _ _ b1 s1
  · rw [HS_lower_eval hb hf0 hf1 hK1 hK2 hG1 hG2 hK hG]; exact go _ _ b2 s2

example : (0 : ℝ) < 36.6 ∧ (0 : ℝ) < 70.2 ∧ (36.6 : ℝ) ≠ 70.2 ∧ (45 : ℝ) ≠ 29 := by norm_num

/-! ## C10: two phases sharing a modulus -/

/-- With Python floats the code divides by zero as soon as the bulk (shear) moduli agree, for
either bound: the shared modulus is never returned. -/
theorem C10_HS_same_modulus_undefined (f K1 K2 G1 G2 : ℝ) (bound : String) :
    (K1 = K2 → (HS (fin f) (fin K1) (fin K2) (fin G1) (fin G2) bound).1 = bad) ∧
    (G1 = G2 → (HS (fin f) (fin K1) (fin K2) (fin G1) (fin G2) bound).2 = bad) := by
  unfold HS
  constructor <;> rintro rfl <;> split <;> simp only [fl, sub_self, fl_inv_zero]

/-- With numpy floats the same expression yields `inf` in the denominator and the shared
modulus comes back, provided the shared phase is positive. -/
theorem C10_HS_same_modulus_numpy (f K G1 G2 : ℝ) (bound : String) (hK : 0 < K) (hG1 : 0 < G1)
    (hG2 : 0 < G2) :
    (HS (Np.fin f) (Np.fin K) (Np.fin K) (Np.fin G1) (Np.fin G2) bound).1 = Np.fin K := by
  unfold HS
  split <;>
  simp (disch := first | assumption | positivity) only [np, sub_self, add_zero]

theorem C10_HS_same_shear_numpy (f K1 K2 G : ℝ) (bound : String) (hK1 : 0 < K1) (hK2 : 0 < K2)
    (hG : 0 < G) :
    (HS (Np.fin f) (Np.fin K1) (Np.fin K2) (Np.fin G) (Np.fin G) bound).2 = Np.fin G := by
  unfold HS
  split <;>
  simp (disch := first | assumption | positivity) only [np, sub_self, add_zero]

/-! ## C11: Mori-Tanaka average -/

/-- With the first (second) phase as matrix the Mori-Tanaka average is the `'upper'`
(`'lower'`) Hashin-Shtrikman result. -/
theorem C11_MT_is_HS (f K1 K2 G1 G2 : ℝ) (hf0 : 0 ≤ f) (hf1 : f ≤ 1) (hK1 : 0 < K1)
    (hK2 : 0 < K2) (hG1 : 0 < G1) (hG2 : 0 < G2) (hK : K1 ≠ K2) (hG : G1 ≠ G2) :
    MT_average (fin f) (fin K1) (fin G1) (fin K1) (fin G1) (fin K2) (fin G2)
      = HS (fin f) (fin K1) (fin K2) (fin G1) (fin G2) "upper" ∧
    MT_average (fin f) (fin K2) (fin G2) (fin K1) (fin G1) (fin K2) (fin G2)
      = HS (fin f) (fin K1) (fin K2) (fin G1) (fin G2) "lower" := by
  rw [MT_average_eval hf0 hf1 hK1 hG1 hK1.le hK2.le hG1.le hG2.le,
    MT_average_eval hf0 hf1 hK2 hG2 hK1.le hK2.le hG1.le hG2.le,
    HS_upper_eval hf0 hf1 hK1 hK2 hG1 hG2 hK hG,
    HS_lower_eval (by decide) hf0 hf1 hK1 hK2 hG1 hG2 hK hG]
  exact ⟨rfl, rfl⟩

/-- For any matrix: pure phases at the ends, mixtures of a phase with itself unchanged, and the
average between the phases. -/
theorem C11_MT_properties (f Km Gm K1 K2 G1 G2 : ℝ) (hf0 : 0 ≤ f) (hf1 : f ≤ 1) (hKm : 0 < Km)
    (hGm : 0 < Gm) (hK1 : 0 < K1) (hK2 : 0 < K2) (hG1 : 0 < G1) (hG2 : 0 < G2) :
    MT_average (fin 1) (fin Km) (fin Gm) (fin K1) (fin G1) (fin K2) (fin G2) = (fin K1, fin G1) ∧
    MT_average (fin 0) (fin Km) (fin Gm) (fin K1) (fin G1) (fin K2) (fin G2) = (fin K2, fin G2) ∧
    MT_average (fin f) (fin Km) (fin Gm) (fin K1) (fin G1) (fin K1) (fin G1) = (fin K1, fin G1) ∧
    ∃ K G : ℝ, MT_average (fin f) (fin Km) (fin Gm) (fin K1) (fin G1) (fin K2) (fin G2)
        = (fin K, fin G) ∧
      min K1 K2 ≤ K ∧ K ≤ max K1 K2 ∧ min G1 G2 ≤ G ∧ G ≤ max G1 G2 := by
  have b := hsBulk_pos hGm
  have s := hsShear_pos hKm hGm
  rw [MT_average_eval zero_le_one le_rfl hKm hGm hK1.le hK2.le hG1.le hG2.le,
    MT_average_eval le_rfl zero_le_one hKm hGm hK1.le hK2.le hG1.le hG2.le,
    MT_average_eval hf0 hf1 hKm hGm hK1.le hK1.le hG1.le hG1.le]
  simp only [hsMean_one, hsMean_f0, hsMean_same, true_and]
  refine ⟨_, _, MT_average_eval hf0 hf1 hKm hGm hK1.le hK2.le hG1.le hG2.le, ?_⟩
  exact ⟨le_hsMean hf0 hf1 (by linarith) (by linarith) (min_le_left _ _) (min_le_right _ _),
    hsMean_le hf0 hf1 (by linarith) (by linarith) (le_max_left _ _) (le_max_right _ _),
    le_hsMean hf0 hf1 (by linarith) (by linarith) (min_le_left _ _) (min_le_right _ _),
    hsMean_le hf0 hf1 (by linarith) (by linarith) (le_max_left _ _) (le_max_right _ _)⟩

/-- A stiffer comparison matrix never lowers the average. -/
theorem C11_MT_mono_matrix (f Km Gm Km' Gm' K1 K2 G1 G2 : ℝ) (hf0 : 0 ≤ f) (hf1 : f ≤ 1)
    (hKm : 0 < Km) (hGm : 0 < Gm) (hKK : Km ≤ Km') (hGG : Gm ≤ Gm') (hK1 : 0 < K1) (hK2 : 0 < K2)
    (hG1 : 0 < G1) (hG2 : 0 < G2) :
    (MT_average (fin f) (fin Km) (fin Gm) (fin K1) (fin G1) (fin K2) (fin G2)).1
      ≤ (MT_average (fin f) (fin Km') (fin Gm') (fin K1) (fin G1) (fin K2) (fin G2)).1 ∧
    (MT_average (fin f) (fin Km) (fin Gm) (fin K1) (fin G1) (fin K2) (fin G2)).2
      ≤ (MT_average (fin f) (fin Km') (fin Gm') (fin K1) (fin G1) (fin K2) (fin G2)).2 := by
  have b := hsBulk_pos hGm
  have s := hsShear_pos hKm hGm
  rw [MT_average_eval hf0 hf1 hKm hGm hK1.le hK2.le hG1.le hG2.le,
    MT_average_eval hf0 hf1 (by linarith) (by linarith) hK1.le hK2.le hG1.le hG2.le]
  simp only [fin_le]
  exact ⟨hsMean_mono hf0 hf1 (by linarith) (by linarith) (by unfold hsBulk; linarith),
    hsMean_mono hf0 hf1 (by linarith) (by linarith) (hsShear_mono hKm hGm hKK hGG)⟩

example : (0 : ℝ) ≤ 0.3 ∧ (0.3 : ℝ) ≤ 1 ∧ (0 : ℝ) < 36.6 ∧ (0 : ℝ) < 45 ∧ (36.6 : ℝ) ≠ 20.9 ∧
    (45 : ℝ) ≠ 6.9 := by norm_num

end RockPhy.Props
