import Verif.Lemmas.SelfConsistent
import Mathlib.Data.Rat.Sqrt

/-!
# C107: the self-consistent iteration `EM.SC_flex`
-/

namespace RockPhy.Props

open EM Fl Spec Filter Topology

/-- Two phases have one pair of self-consistent moduli. -/
theorem C107_exists_unique {f Km Ki Gm Gi : ℝ} (hf0 : 0 ≤ f) (hf1 : f ≤ 1)
    (hKm : 0 < Km) (hGm : 0 < Gm) (hKi : 0 < Ki) (hGi : 0 < Gi) :
    ∃! s : ℝ × ℝ, 0 < s.1 ∧ 0 < s.2 ∧ SelfConsistent2 f Ki Gi Km Gm s.1 s.2 := by
  obtain ⟨K, G, hK, hG, e⟩ := hsNext_fixed hf0 hf1 hKm hGm hKi hGi
  have hK : 0 < K := (lt_min hKi hKm).trans_le hK
  have hG : 0 < G := (lt_min hGi hGm).trans_le hG
  have e1 : K = hsMean f Ki Km (hsBulk G) := (congrArg Prod.fst e).symm
  have e2 : G = hsMean f Gi Gm (hsShear K G) := (congrArg Prod.snd e).symm
  refine ⟨(K, G), ⟨hK, hG, (selfConsistent2_hsMean hf0 hf1 hKm hGm hK hG hKi.le hGi.le).mpr ⟨e1, e2⟩⟩, ?_⟩
  rintro ⟨K', G'⟩ ⟨hK', hG', h⟩
  obtain ⟨e1', e2'⟩ := (selfConsistent2_hsMean hf0 hf1 hKm hGm hK' hG' hKi.le hGi.le).mp h
  have a := selfConsistent2_le hf0 hf1 hKm hGm hKi.le hGi.le
    (mean_pos hf0 hf1 hKi hKm) (mean_pos hf0 hf1 hGi hGm) hK hG hK' hG' e1 e2 e1' e2'
  have b := selfConsistent2_le hf0 hf1 hKm hGm hKi.le hGi.le
    (mean_pos hf0 hf1 hKi hKm) (mean_pos hf0 hf1 hGi hGm) hK' hG' hK hG e1' e2' e1 e2
  exact Prod.ext (le_antisymm b.1 a.1) (le_antisymm b.2 a.2)

/-- They do not depend on which phase is called the inclusion. -/
theorem C107_swap (f Km Ki Gm Gi K G : ℝ) :
    SelfConsistent2 (1 - f) Km Gm Ki Gi K G ↔ SelfConsistent2 f Ki Gi Km Gm K G := by
  unfold SelfConsistent2
  rw [sub_sub_cancel]
  constructor <;> rintro ⟨a, b⟩ <;> exact ⟨by linarith, by linarith⟩

/-- They lie between the averages `EM.HS` of the same phases. -/
theorem C107_bounds {f Km Ki Gm Gi K G : ℝ} (hf0 : 0 ≤ f) (hf1 : f ≤ 1)
    (hKm : 0 < Km) (hGm : 0 < Gm) (hKi : Km < Ki) (hGi : Gm < Gi) (hK : 0 < K) (hG : 0 < G)
    (h : SelfConsistent2 f Ki Gi Km Gm K G) :
    ∃ kl gl ku gu,
      HS (fin f) (fin Ki) (fin Km) (fin Gi) (fin Gm) "lower" = (fin kl, fin gl) ∧
      HS (fin f) (fin Ki) (fin Km) (fin Gi) (fin Gm) "upper" = (fin ku, fin gu) ∧
      kl ≤ K ∧ K ≤ ku ∧ gl ≤ G ∧ G ≤ gu := by
  have hKi' := hKm.trans hKi
  have hGi' := hGm.trans hGi
  obtain ⟨e1, e2⟩ := (selfConsistent2_hsMean hf0 hf1 hKm hGm hK hG hKi'.le hGi'.le).mp h
  have z := hsBulk_pos hG
  have s := hsShear_pos hK hG
  have zl := hsBulk_pos hGm
  have sl := hsShear_pos hKm hGm
  have k1 : Km ≤ K := e1 ▸ le_hsMean hf0 hf1 (by linarith) (by linarith) hKi.le le_rfl
  have k2 : K ≤ Ki := e1 ▸ hsMean_le hf0 hf1 (by linarith) (by linarith) le_rfl hKi.le
  have g1 : Gm ≤ G := e2 ▸ le_hsMean hf0 hf1 (by linarith) (by linarith) hGi.le le_rfl
  have g2 : G ≤ Gi := e2 ▸ hsMean_le hf0 hf1 (by linarith) (by linarith) le_rfl hGi.le
  refine ⟨_, _, _, _, HS_lower_eval (by decide) hf0 hf1 hKi' hKm hGi' hGm hKi.ne' hGi.ne',
    HS_upper_eval hf0 hf1 hKi' hKm hGi' hGm hKi.ne' hGi.ne', ?_, ?_, ?_, ?_⟩
  · conv_rhs => rw [e1]
    exact hsMean_mono hf0 hf1 (by linarith) (by linarith) (by unfold hsBulk; linarith)
  · conv_lhs => rw [e1]
    exact hsMean_mono hf0 hf1 (by linarith) (by linarith) (by unfold hsBulk; linarith)
  · conv_rhs => rw [e2]
    exact hsMean_mono hf0 hf1 (by linarith) (by linarith) (hsShear_mono hKm hGm k1 g1)
  · conv_lhs => rw [e2]
    exact hsMean_mono hf0 hf1 (by linarith) (by linarith) (hsShear_mono hK hG k2 g2)

/-- The iteration stands still exactly at self-consistent moduli. -/
theorem C107_fixed {f Km Ki Gm Gi K G : ℝ} (n : ℕ) (hKm : 0 < Km) (hGm : 0 < Gm) (hK : 0 < K)
    (hG : 0 < G) (hKi : 0 < Ki) (hGi : 0 < Gi) (h1 : K ≠ Ki) (h2 : G ≠ Gi)
    (hn : SC_flex (fin f) n (fin Km) (fin Ki) (fin Gm) (fin Gi) = (fin K, fin G)) :
    SC_flex (fin f) (n + 1) (fin Km) (fin Ki) (fin Gm) (fin Gi) = (fin K, fin G) ↔
      SelfConsistent2 f Ki Gi Km Gm K G := by
  rw [SC_flex, hn, scFlex_eval hKm hGm hK hG hKi.le hGi.le h1 h2, ← scFlex_fixed hKm hGm hK hG hKi.le hGi.le]
  simp only [fin_inj, Prod.ext_iff]

/-- With the stiffer phase as inclusion the result approaches the self-consistent moduli at a
geometric rate. -/
theorem C107_converges {f Km Ki Gm Gi : ℝ} (hf0 : 0 ≤ f) (hf1 : f ≤ 1)
    (hKm : 0 < Km) (hGm : 0 < Gm) (hKi : Km < Ki) (hGi : Gm < Gi) (hKG : Km < Gi) :
    ∃ K G, 0 < K ∧ 0 < G ∧ SelfConsistent2 f Ki Gi Km Gm K G ∧ ∀ n, ∃ k g,
      SC_flex (fin f) n (fin Km) (fin Ki) (fin Gm) (fin Gi) = (fin k, fin g) ∧
      |k - K| ≤ (1 + Km / Gm) * (1 - min (Km / Ki) (Gm / Gi)) ^ n * K ∧
      |g - G| ≤ (1 + Km / Gm) * (1 - min (Km / Ki) (Gm / Gi)) ^ n * G := by
  have hKi' := hKm.trans hKi
  have hGi' := hGm.trans hGi
  obtain ⟨⟨K, G⟩, ⟨hK, hG, h⟩, -⟩ := C107_exists_unique hf0 hf1 hKm hGm hKi' hGi'
  dsimp only at hK hG h
  refine ⟨K, G, hK, hG, h, ?_⟩
  obtain ⟨e1, e2⟩ := (selfConsistent2_hsMean hf0 hf1 hKm hGm hK hG hKi'.le hGi'.le).mp h
  have hfix := (scFlex_fixed hKm hGm hK hG hKi'.le hGi'.le).mpr h
  have f1 : scMap f Km Ki K (hsBulk G) = K := congrArg Prod.fst hfix
  have f2 : scMap f Gm Gi G (hsShear K G) = G := congrArg Prod.snd hfix
  have z := hsBulk_pos hG
  have s := hsShear_pos hK hG
  have k1 : Km ≤ K := e1 ▸ le_hsMean hf0 hf1 (by linarith) (by linarith) hKi.le le_rfl
  have k2 : K ≤ Ki := e1 ▸ hsMean_le hf0 hf1 (by linarith) (by linarith) le_rfl hKi.le
  have g1 : Gm ≤ G := e2 ▸ le_hsMean hf0 hf1 (by linarith) (by linarith) hGi.le le_rfl
  have g2 : G ≤ Gi := e2 ▸ hsMean_le hf0 hf1 (by linarith) (by linarith) le_rfl hGi.le
  set c := min (Km / Ki) (Gm / Gi) with hc
  have c1 : c ≤ 1 := (min_le_left _ _).trans (by rw [div_le_one hKi']; exact hKi.le)
  have c0 : 0 < c := lt_min (by positivity) (by positivity)
  have cK : c * K ≤ Km := by
    have : c * Ki ≤ Km := by rw [← le_div_iff₀ hKi']; exact min_le_left _ _
    nlinarith
  have cG : c * G ≤ Gm := by
    have : c * Gi ≤ Gm := by rw [← le_div_iff₀ hGi']; exact min_le_right _ _
    nlinarith
  have D0 : 0 < 1 + Km / Gm := by positivity
  have key : ∀ n, ∃ k g, SC_flex (fin f) n (fin Km) (fin Ki) (fin Gm) (fin Gi) = (fin k, fin g) ∧
      0 < k ∧ 0 < g ∧ k < Ki ∧ g < Gi ∧
      (1 - (1 + Km / Gm) * (1 - c) ^ n) * K ≤ k ∧ k ≤ (1 + (1 + Km / Gm) * (1 - c) ^ n) * K ∧
      (1 - (1 + Km / Gm) * (1 - c) ^ n) * G ≤ g ∧ g ≤ (1 + (1 + Km / Gm) * (1 - c) ^ n) * G := by
    intro n
    induction n with
    | zero =>
      have q : 0 ≤ Km / Gm := by positivity
      have : Km ≤ Km / Gm * G := by
        rw [div_mul_eq_mul_div, le_div_iff₀ hGm]; nlinarith
      refine ⟨Km, Km, rfl, hKm, hKm, hKi, hKG, ?_, ?_, ?_, ?_⟩ <;> rw [pow_zero] <;> nlinarith
    | succ n ih =>
      obtain ⟨k, g, e, hk, hg, hki, hgi, a1, a2, b1, b2⟩ := ih
      set d := (1 + Km / Gm) * (1 - c) ^ n with hd
      have d0 : 0 ≤ d := mul_nonneg D0.le (pow_nonneg (by linarith) n)
      have dn : (1 + Km / Gm) * (1 - c) ^ (n + 1) = d * (1 - c) := by rw [pow_succ]; ring
      have z' := hsBulk_pos hg
      have s' := hsShear_pos hk hg
      have zl : (1 - d) * hsBulk G ≤ hsBulk g := by unfold hsBulk; linarith
      have zu : hsBulk g ≤ (1 + d) * hsBulk G := by unfold hsBulk; linarith
      have sl : (1 - d) * hsShear K G ≤ hsShear k g := by
        rcases lt_or_ge d 1 with h1 | h1
        · have t : 0 < 1 - d := by linarith
          rw [← hsShear_scale _ _ _ t.ne']
          exact hsShear_mono (mul_pos t hK) (mul_pos t hG) a1 b1
        · nlinarith
      have su : hsShear k g ≤ (1 + d) * hsShear K G := by
        rw [← hsShear_scale _ _ _ (by linarith)]
        exact hsShear_mono hk hg a2 b2
      refine ⟨_, _, (congrArg (SC_flex_step _ _ _ _ _) e).trans
        (scFlex_eval hKm hGm hk hg hKi'.le hGi'.le hki.ne hgi.ne), ?_, ?_, ?_, ?_, ?_, ?_, ?_, ?_⟩
      all_goals simp only [scFlex, dn]
      · exact hKm.trans_le (scMap_ge hf0 hKi.le hKi' hk.le z'.le)
      · exact hGm.trans_le (scMap_ge hf0 hGi.le hGi' hg.le s'.le)
      · exact scMap_lt hf1 hKi hKi' hk.le hki z'.le
      · exact scMap_lt hf1 hGi hGi' hg.le hgi s'.le
      · exact scMap_below hf0 hKi.le hKm hK z f1 cK c1 d0 hk.le hki.le z'.le a1 zl
      · exact scMap_above hf0 hKi.le hKm hK z f1 cK d0 hki.le z'.le a2 zu
      · exact scMap_below hf0 hGi.le hGm hG s f2 cG c1 d0 hg.le hgi.le s'.le b1 sl
      · exact scMap_above hf0 hGi.le hGm hG s f2 cG d0 hgi.le s'.le b2 su
  intro n
  obtain ⟨k, g, e, -, -, -, -, a1, a2, b1, b2⟩ := key n
  refine ⟨k, g, e, ?_, ?_⟩ <;> rw [abs_le] <;> constructor <;> linarith

/-- The rate is below one. -/
theorem C107_rate {Km Ki Gm Gi : ℝ} (hKm : 0 < Km) (hGm : 0 < Gm) (hKi : Km < Ki) (hGi : Gm < Gi) :
    Tendsto (fun n : ℕ => (1 + Km / Gm) * (1 - min (Km / Ki) (Gm / Gi)) ^ n) atTop (𝓝 0) := by
  have hKi' := hKm.trans hKi
  have hGi' := hGm.trans hGi
  have c1 : min (Km / Ki) (Gm / Gi) ≤ 1 :=
    (min_le_left _ _).trans (by rw [div_le_one hKi']; exact hKi.le)
  have c0 : 0 < min (Km / Ki) (Gm / Gi) := lt_min (by positivity) (by positivity)
  have := (tendsto_pow_atTop_nhds_zero_of_lt_one (by linarith : 0 ≤ 1 - min (Km / Ki) (Gm / Gi))
    (by linarith)).const_mul (1 + Km / Gm)
  rwa [mul_zero] at this

/-- Whatever the order of the phases, a limit of the results is self-consistent. -/
theorem C107_limit {f Km Ki Gm Gi K G : ℝ} {k g : ℕ → ℝ} (hKm : 0 < Km) (hGm : 0 < Gm)
    (hK : 0 < K) (hG : 0 < G) (hKi : 0 ≤ Ki) (hGi : 0 ≤ Gi) (h1 : K ≠ Ki) (h2 : G ≠ Gi)
    (hs : ∀ n, SC_flex (fin f) n (fin Km) (fin Ki) (fin Gm) (fin Gi) = (fin (k n), fin (g n)))
    (hk : Tendsto k atTop (𝓝 K)) (hg : Tendsto g atTop (𝓝 G)) :
    SelfConsistent2 f Ki Gi Km Gm K G := by
  rw [← scFlex_fixed hKm hGm hK hG hKi hGi]
  have c : Tendsto (fun n => (k n, g n)) atTop (𝓝 (K, G)) := hk.prodMk_nhds hg
  have z := hsBulk_pos hG
  have s := hsShear_pos hK hG
  have cont : ContinuousAt (scFlex f Km Ki Gm Gi) (K, G) := by
    have n1 : Ki + 4 * G / 3 ≠ 0 := by positivity
    have n2 : Gi + hsShear K G ≠ 0 := by positivity
    have n3 : K + 2 * G ≠ 0 := by positivity
    have cs : ContinuousAt (fun s : ℝ × ℝ => hsShear s.1 s.2) (K, G) := by
      unfold hsShear
      exact ContinuousAt.mul (by fun_prop) (ContinuousAt.div (by fun_prop) (by fun_prop) n3)
    unfold scFlex scMap
    refine ContinuousAt.prodMk ?_ ?_
    · unfold hsBulk
      exact continuousAt_const.add (continuousAt_const.mul
        (ContinuousAt.div (by fun_prop) (by fun_prop) n1))
    · exact continuousAt_const.add (continuousAt_const.mul
        (ContinuousAt.div (continuousAt_snd.add cs) (continuousAt_const.add cs) n2))
  have c1 := cont.tendsto.comp c
  have c2 : Tendsto (fun n => (k (n + 1), g (n + 1))) atTop (𝓝 (K, G)) :=
    c.comp (tendsto_add_atTop_nat 1)
  refine tendsto_nhds_unique (c1.congr' ?_) c2
  filter_upwards [hk.eventually (eventually_gt_nhds hK), hg.eventually (eventually_gt_nhds hG), hk.eventually_ne h1,
    hg.eventually_ne h2] with n a1 a2 a3 a4
  have e := hs (n + 1)
  rw [SC_flex, hs n, scFlex_eval hKm hGm a1 a2 hKi hGi a3 a4] at e
  simp only [Prod.mk.injEq, fin_inj] at e
  exact Prod.ext e.1 e.2

/-- For empty inclusions this is what `EM.SC` solves. -/
theorem C107_void (f Km Gm K G : ℝ) (hKm : 0 < Km) (hGm : 0 < Gm) (hK : 0 < K) (hG : 0 < G) :
    SelfConsistent2 f 0 0 Km Gm K G ↔ SelfConsistent f Km Gm K G := by
  unfold SelfConsistent2 SelfConsistent sphereP sphereQ
  refine and_congr ?_ ?_
  · have e : f * (0 - K) * ((K + 4 / 3 * G) / (0 + 4 / 3 * G))
        + (1 - f) * (Km - K) * ((K + 4 / 3 * G) / (Km + 4 / 3 * G))
        = (1 / K - (1 / Km + (1 / K + 3 / (4 * G)) * f)) * (K * Km * (K + 4 / 3 * G) / (Km + 4 / 3 * G)) := by
      field
    have p : K * Km * (K + 4 / 3 * G) / (Km + 4 / 3 * G) ≠ 0 := by positivity
    rw [e, mul_eq_zero, sub_eq_zero]
    simp [p]
  · have e : f * (0 - G) * ((G + G / 6 * ((9 * K + 8 * G) / (K + 2 * G)))
          / (0 + G / 6 * ((9 * K + 8 * G) / (K + 2 * G))))
        + (1 - f) * (Gm - G) * ((G + G / 6 * ((9 * K + 8 * G) / (K + 2 * G)))
          / (Gm + G / 6 * ((9 * K + 8 * G) / (K + 2 * G))))
        = (1 / G - (1 / Gm + (15 * K + 20 * G) / (9 * K + 8 * G) * f / G))
          * (G * Gm * (G + G / 6 * ((9 * K + 8 * G) / (K + 2 * G)))
            / (Gm + G / 6 * ((9 * K + 8 * G) / (K + 2 * G)))) := by
      have p1 : 0 < G * (9 * K + 8 * G) + Gm * (6 * (K + 2 * G)) := by positivity
      field
    have p : G * Gm * (G + G / 6 * ((9 * K + 8 * G) / (K + 2 * G)))
            / (Gm + G / 6 * ((9 * K + 8 * G) / (K + 2 * G))) ≠ 0 := by positivity
    rw [e, mul_eq_zero, sub_eq_zero]
    simp [p]

/-- So the limit of `EM.SC` is the only solution. -/
theorem C107_void_unique {f Km Gm K G K' G' : ℝ} (hf0 : 0 ≤ f) (hf1 : f < 1)
    (hKm : 0 < Km) (hGm : 0 < Gm) (hK : 0 < K) (hG : 0 < G) (hK' : 0 < K') (hG' : 0 < G')
    (h : SelfConsistent f Km Gm K G) (h' : SelfConsistent f Km Gm K' G') : K = K' ∧ G = G' := by
  rw [← C107_void f Km Gm K G hKm hGm hK hG] at h
  rw [← C107_void f Km Gm K' G' hKm hGm hK' hG'] at h'
  obtain ⟨e1, e2⟩ := (selfConsistent2_hsMean hf0 hf1.le hKm hGm hK hG le_rfl le_rfl).mp h
  obtain ⟨e1', e2'⟩ := (selfConsistent2_hsMean hf0 hf1.le hKm hGm hK' hG' le_rfl le_rfl).mp h'
  have q : 0 < 1 - f := by linarith
  have pK : 0 < f * 0 + (1 - f) * Km := by rw [mul_zero, zero_add]; positivity
  have pG : 0 < f * 0 + (1 - f) * Gm := by rw [mul_zero, zero_add]; positivity
  have a := selfConsistent2_le hf0 hf1.le hKm hGm le_rfl le_rfl pK pG hK hG hK' hG' e1 e2 e1' e2'
  have b := selfConsistent2_le hf0 hf1.le hKm hGm le_rfl le_rfl pK pG hK' hG' hK hG e1' e2' e1 e2
  exact ⟨le_antisymm a.1 b.1, le_antisymm a.2 b.2⟩

/-- With empty inclusions the first iteration already leaves the physical range at large `f`, also
where `EM.SC` converges to positive moduli (`f < 1/2`, `C21_SC_limit`). -/
theorem C107_void_negative {f Km Gm : ℝ} (hKm : 0 < Km) (hGm : 0 < Gm) (hf : 17 / 35 < f) :
    ∃ k g, SC_flex (fin f) 1 (fin Km) (fin 0) (fin Gm) (fin 0) = (fin k, fin g) ∧ g < 0 := by
  refine ⟨_, _, scFlex_eval hKm hGm hKm hKm le_rfl le_rfl hKm.ne' hKm.ne', ?_⟩
  have e : (scFlex f Km 0 Gm 0 (Km, Km)).2 = (1 - f * (35 / 17)) * Gm := by
    unfold scFlex scMap hsShear; field
  rw [e]
  nlinarith

/-- The ratio of the moduli during the iteration, for a mineral of Poisson ratio 1/5 and `f = 1/3`. -/
theorem void_ratio {Km : ℝ} (hKm : 0 < Km) (n : ℕ) {k g : ℝ}
    (h : SC_flex (fin (1 / 3)) n (fin Km) (fin 0) (fin (3 / 4 * Km)) (fin 0) = (fin k, fin g)) :
    ∃ q : ℚ, 3 * k / (4 * g) = q ∧ q ≠ 1 ∧ q ≠ -1 := by
  induction n generalizing k g with
  | zero =>
    simp only [SC_flex, Prod.mk.injEq, fin_inj] at h
    refine ⟨3 / 4, ?_, by norm_num, by norm_num⟩
    rw [← h.1, ← h.2]; push_cast; field
  | succ n ih =>
    obtain ⟨a, b, e, ha, hb, -, h2, rfl, rfl⟩ := SC_flex_step_void hKm.ne' (by positivity) h
    obtain ⟨q, hq, q1, q2⟩ := ih e
    have e1 : (3 * a + 4 * b) / (4 * b) = q + 1 := by rw [← hq]; field_simp
    have hq' : 3 * a = 4 * b * q := by rw [← hq]; field_simp
    have hq2 : (3 * (q : ℝ) + 2) ≠ 0 := by
      intro h0
      apply h2
      linear_combination 3 * hq' + 4 * b * h0
    have e2 : 5 * (3 * a + 4 * b) / (9 * a + 8 * b) = 5 * (q + 1) / (3 * q + 2) := by
      rw [div_eq_div_iff h2 hq2]; linear_combination 5 * (3 * (q : ℝ) + 2 - 3 * (q + 1)) * hq'
    refine ⟨(2 - q) * (3 * q + 2) / (4 * q + 1), ?_, ?_, ?_⟩
    · rw [e1, e2]
      push_cast
      have : 1 - 1 / 3 * (5 * ((q : ℝ) + 1) / (3 * q + 2)) = (4 * q + 1) / (3 * (3 * q + 2)) := by
        field_simp; ring
      rw [this]
      rcases eq_or_ne (4 * (q : ℝ) + 1) 0 with h0 | h0
      · rw [h0]; simp
      · field_simp; ring
    · rcases eq_or_ne (4 * q + 1) 0 with h0 | h0
      · rw [h0]; norm_num
      · rw [Ne, div_eq_one_iff_eq h0]
        intro h
        have : (q - 1) * (q + 1) = 0 := by linear_combination -(1 / 3) * h
        rcases mul_eq_zero.mp this with h | h
        · exact q1 (by linarith)
        · exact q2 (by linarith)
    · rcases eq_or_ne (4 * q + 1) 0 with h0 | h0
      · rw [h0]; norm_num
      · rw [Ne, div_eq_iff h0]
        intro h
        have : IsSquare (31 : ℚ) := ⟨3 * q - 4, by linear_combination 3 * h⟩
        revert this
        decide +kernel

/-- Empty inclusions of fraction 1/3 in a mineral of Poisson ratio 1/5: the self-consistent moduli
are a third of those of the mineral, and the results do not stay within a fifth of them. -/
theorem C107_void_no_limit {Km : ℝ} (hKm : 0 < Km) :
    SelfConsistent (1 / 3) Km (3 / 4 * Km) (Km / 3) (Km / 4) ∧
    ∀ N, ∃ n ≥ N, ∀ k g,
      SC_flex (fin (1 / 3)) n (fin Km) (fin 0) (fin (3 / 4 * Km)) (fin 0) = (fin k, fin g) →
      ¬ (|k - Km / 3| ≤ Km / 3 / 5 ∧ |g - Km / 4| ≤ Km / 4 / 5) := by
  refine ⟨⟨by field_simp; norm_num, by field_simp; norm_num⟩, fun N => ?_⟩
  by_contra hcon
  push Not at hcon
  choose! k g hs hk hg using hcon
  have near : ∀ n ≥ N, |3 * k n / (4 * g n) - 1| ≤ 1 / 2 := by
    intro n hn
    have a := abs_le.mp (hk n hn)
    have b := abs_le.mp (hg n hn)
    have gp : 0 < 4 * g n := by linarith
    rw [abs_le, le_sub_iff_add_le, sub_le_iff_le_add, le_div_iff₀ gp, div_le_iff₀ gp]
    constructor <;> linarith
  have grow : ∀ n ≥ N, 15 / 14 * |3 * k n / (4 * g n) - 1| ≤ |3 * k (n + 1) / (4 * g (n + 1)) - 1| := by
    intro n hn
    have e := hs (n + 1) (by omega)
    rw [SC_flex, hs n hn] at e
    obtain ⟨a, b, e0, ha, hb, -, h2, e1, e2⟩ := SC_flex_step_void hKm.ne' (by positivity) e
    simp only [Prod.mk.injEq, fin_inj] at e0
    obtain ⟨rfl, rfl⟩ := e0
    have hn1 := abs_le.mp (near n hn)
    set u := 3 * k n / (4 * g n) with hu
    have hu' : 3 * k n = 4 * g n * u := by rw [hu]; field_simp
    have e3 : (3 * k n + 4 * g n) / (4 * g n) = u + 1 := by rw [hu]; field_simp
    have p1 : 0 < 3 * u + 2 := by linarith
    have p2 : 0 < 4 * u + 1 := by linarith
    have e4 : 5 * (3 * k n + 4 * g n) / (9 * k n + 8 * g n) = 5 * (u + 1) / (3 * u + 2) := by
      rw [div_eq_div_iff h2 p1.ne']; linear_combination 5 * (3 * u + 2 - 3 * (u + 1)) * hu'
    have e5 : 3 * k (n + 1) / (4 * g (n + 1)) - 1 = -(u - 1) * (3 * (u + 1) / (4 * u + 1)) := by
      rw [e1, e2, e3, e4]
      clear_value u
      have : 1 - 1 / 3 * (5 * (u + 1) / (3 * u + 2)) = (4 * u + 1) / (3 * (3 * u + 2)) := by
        field_simp; ring
      rw [this]
      have q1 := p1.ne'
      have q2 := p2.ne'
      have : 3 * ((1 - 1 / 3 * (u + 1)) * Km) / (4 * ((4 * u + 1) / (3 * (3 * u + 2)) * (3 / 4 * Km)))
          = (2 - u) * (3 * u + 2) / (4 * u + 1) := by field_simp; ring
      rw [this, ← mul_div_assoc, eq_div_iff q2, sub_mul, div_mul_cancel₀ _ q2]
      ring
    rw [e5, abs_mul, abs_neg, abs_of_pos (a := 3 * (u + 1) / (4 * u + 1)) (by
      have : 0 < u + 1 := by linarith
      positivity), mul_comm]
    refine mul_le_mul_of_nonneg_left ?_ (abs_nonneg _)
    rw [div_le_div_iff₀ (by norm_num) p2]
    linarith
  obtain ⟨q, hq, q1, -⟩ := void_ratio hKm N (hs N le_rfl)
  have pos : 0 < |3 * k N / (4 * g N) - 1| := by
    rw [abs_pos, hq, sub_ne_zero]
    exact_mod_cast q1
  have all : ∀ j, (15 / 14) ^ j * |3 * k N / (4 * g N) - 1|
      ≤ |3 * k (N + j) / (4 * g (N + j)) - 1| := by
    intro j
    induction j with
    | zero => simp
    | succ j ih =>
      refine le_trans ?_ (grow (N + j) (by omega))
      rw [pow_succ]
      linarith
  obtain ⟨j, hj⟩ := ((tendsto_pow_atTop_atTop_of_one_lt (by norm_num : (1 : ℝ) < 15 / 14)).atTop_mul_const
    pos).eventually_gt_atTop (1 / 2) |>.exists
  have := (all j).trans (near (N + j) (by omega))
  linarith

/-- Quartz grains in clay. -/
example : (0 : ℝ) ≤ 0.3 ∧ (0.3 : ℝ) ≤ 1 ∧ (0 : ℝ) < 21 ∧ (0 : ℝ) < 7 ∧ (21 : ℝ) < 37 ∧ (7 : ℝ) < 44 ∧
    (21 : ℝ) < 44 := by norm_num

/-- A pair of self-consistent moduli: equal parts of two phases of Poisson ratio 1/5. -/
example : SelfConsistent2 (1 / 2) 36 27 4 3 12 9 := by
  norm_num [SelfConsistent2, sphereP, sphereQ]

/-- `EM.SC` has a limit where the first iteration of `EM.SC_flex` is negative. -/
example : (17 : ℝ) / 35 < 0.49 ∧ (0.49 : ℝ) < 1 / 2 := by norm_num

end RockPhy.Props
