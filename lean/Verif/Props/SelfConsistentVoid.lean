import Verif.Props.SelfConsistent

/-!
# C107: `EM.SC_flex` on empty inclusions, where it converges and where it does not

With `r` the ratio of the moduli the iteration is `r ↦ (Km / Gm) a(r) / b(r)` with
`a = 1 - f (1 + 3 r / 4)` and `b = 1 - 5 f (3 r + 4) / (9 r + 8)`.
-/

namespace RockPhy.Props

open EM Fl Spec Filter Topology

/-- The bulk modulus relative to the mineral. -/
noncomputable def voidA (f r : ℝ) : ℝ := 1 - f * (1 + 3 * r / 4)

/-- The shear modulus relative to the mineral. -/
noncomputable def voidB (f r : ℝ) : ℝ := 1 - f * (5 * (3 * r + 4) / (9 * r + 8))

/-- The factor by which an iteration shrinks the error of the ratio of the moduli. -/
noncomputable def voidRate (f Km Gm : ℝ) : ℝ :=
  Km / Gm * (3 * f / 4 / (1 - 5 * f / 2) + 15 * f * (1 - f) / 16 / (1 - 5 * f / 2) ^ 2)

theorem scFlex_void {f Km Gm K G : ℝ} (hK : 0 < K) (hG : 0 < G) :
    scFlex f Km 0 Gm 0 (K, G) = (voidA f (K / G) * Km, voidB f (K / G) * Gm) := by
  unfold scFlex scMap hsBulk hsShear voidA voidB
  have e : 5 * (3 * (K / G) + 4) / (9 * (K / G) + 8) = 5 * (3 * K + 4 * G) / (9 * K + 8 * G) := by
    rw [div_eq_div_iff (by positivity) (by positivity)]; field_simp
  have e2 : (G + G / 6 * ((9 * K + 8 * G) / (K + 2 * G))) / (0 + G / 6 * ((9 * K + 8 * G) / (K + 2 * G)))
      = 5 * (3 * K + 4 * G) / (9 * K + 8 * G) := by
    rw [div_eq_div_iff (by positivity) (by positivity)]; field_simp; ring
  refine Prod.ext ?_ ?_
  · show Km + f * (0 - Km) * ((K + 4 * G / 3) / (0 + 4 * G / 3)) = _
    field_simp; ring
  · show Gm + f * (0 - Gm) * (_ / _) = _
    rw [e2, e]; ring

theorem voidB_ge {f r : ℝ} (hf : 0 ≤ f) (hr : 0 ≤ r) : 1 - 5 * f / 2 ≤ voidB f r := by
  have : 5 * (3 * r + 4) / (9 * r + 8) ≤ 5 / 2 := by
    rw [div_le_div_iff₀ (by positivity) (by norm_num)]; linarith
  unfold voidB
  nlinarith

theorem voidB_sub {f r s : ℝ} (hf : 0 ≤ f) (hr : 0 ≤ r) (hs : 0 ≤ s) :
    |voidB f r - voidB f s| ≤ 15 / 16 * f * |r - s| := by
  have e : voidB f r - voidB f s = f * 60 / ((9 * r + 8) * (9 * s + 8)) * (r - s) := by
    unfold voidB; field_simp; ring
  rw [e, abs_mul, abs_of_nonneg (by positivity)]
  refine mul_le_mul_of_nonneg_right ?_ (abs_nonneg _)
  rw [div_le_iff₀ (by positivity)]
  nlinarith [mul_nonneg hr hs, mul_nonneg hf hr, mul_nonneg hf hs,
    mul_nonneg hf (mul_nonneg hr hs)]

theorem voidA_sub {f r s : ℝ} (hf : 0 ≤ f) : |voidA f r - voidA f s| = 3 / 4 * f * |r - s| := by
  have e : voidA f r - voidA f s = -(3 / 4 * f) * (r - s) := by unfold voidA; ring
  rw [e, abs_mul, abs_neg, abs_of_nonneg (by positivity)]

/-- Empty inclusions: if the factor `voidRate` is below one, as it is for small porosities, the
results of `EM.SC_flex` are positive and converge to the self-consistent moduli, their errors
shrinking by this factor in each iteration. -/
theorem C107_void_converges {f Km Gm K G : ℝ} (hf0 : 0 ≤ f) (hf1 : f < 2 / 5)
    (hKm : 0 < Km) (hGm : 0 < Gm) (hq : voidRate f Km Gm < 1)
    (hK : 0 < K) (hG : 0 < G) (h : SelfConsistent f Km Gm K G) (n : ℕ) :
    ∃ k g, SC_flex (fin f) (n + 1) (fin Km) (fin 0) (fin Gm) (fin 0) = (fin k, fin g) ∧
      0 < k ∧ 0 < g ∧
      |k - K| ≤ 3 / 4 * f * Km * (voidRate f Km Gm ^ n * |1 - K / G|) ∧
      |g - G| ≤ 15 / 16 * f * Gm * (voidRate f Km Gm ^ n * |1 - K / G|) := by
  have hb0 : 0 < 1 - 5 * f / 2 := by linarith
  have hfix := (scFlex_fixed (f := f) hKm hGm hK hG le_rfl le_rfl).mpr
    ((C107_void f Km Gm K G hKm hGm hK hG).mpr h)
  rw [scFlex_void hK hG, Prod.mk.injEq] at hfix
  obtain ⟨fK, fG⟩ := hfix
  set R := K / G with hR
  have hR0 : 0 < R := by positivity
  have hAR : 0 < voidA f R := by
    have : 0 < voidA f R * Km := by rw [fK]; exact hK
    exact (pos_iff_pos_of_mul_pos this).mpr hKm
  have hBR := voidB_ge hf0 hR0.le
  have RR : R = Km / Gm * (voidA f R / voidB f R) := by
    have e : R = voidA f R * Km / (voidB f R * Gm) := by rw [fK, fG]
    have := hb0.trans_le hBR
    rw [div_mul_div_comm, mul_comm Km, mul_comm Gm]
    exact e
  have q0 : 0 ≤ voidRate f Km Gm := by
    have : 0 < 1 - f := by linarith
    unfold voidRate; positivity
  -- one step of the ratio
  have step : ∀ r, 0 < r → 0 < voidA f r →
      0 < Km / Gm * (voidA f r / voidB f r) ∧ 0 < voidA f (Km / Gm * (voidA f r / voidB f r)) ∧
      |Km / Gm * (voidA f r / voidB f r) - R| ≤ voidRate f Km Gm * |r - R| := by
    intro r hr ha
    have hB := voidB_ge hf0 hr.le
    have hB0 := hb0.trans_le hB
    refine ⟨by positivity, ?_, ?_⟩
    · have a1 : voidA f r ≤ 1 - f := by
        unfold voidA; nlinarith [mul_nonneg hf0 hr.le]
      have f1 : 0 ≤ 1 - f := by linarith
      have d : voidA f r / voidB f r ≤ (1 - f) / (1 - 5 * f / 2) := by gcongr
      have q1 : Km / Gm * (15 * f * (1 - f) / 16 / (1 - 5 * f / 2) ^ 2) < 1 := by
        refine lt_of_le_of_lt ?_ hq
        unfold voidRate
        refine mul_le_mul_of_nonneg_left ?_ (by positivity)
        have : 0 ≤ 3 * f / 4 / (1 - 5 * f / 2) := by positivity
        linarith
      have q2 : f * (Km / Gm * ((1 - f) / (1 - 5 * f / 2))) < 16 / 15 * (1 - 5 * f / 2) := by
        have e : Km / Gm * (15 * f * (1 - f) / 16 / (1 - 5 * f / 2) ^ 2)
            = 15 / 16 * (f * (Km / Gm * ((1 - f) / (1 - 5 * f / 2)))) / (1 - 5 * f / 2) := by
          field_simp
        rw [e, div_lt_one hb0] at q1
        linarith
      have q3 : f * (Km / Gm * (voidA f r / voidB f r))
          ≤ f * (Km / Gm * ((1 - f) / (1 - 5 * f / 2))) := by gcongr
      have : voidA f (Km / Gm * (voidA f r / voidB f r))
          = 1 - f - 3 / 4 * (f * (Km / Gm * (voidA f r / voidB f r))) := by
        unfold voidA; ring
      rw [this]
      linarith
    · conv_lhs => rw [RR]
      rw [← mul_sub, abs_mul, abs_of_pos (by positivity : 0 < Km / Gm)]
      unfold voidRate
      rw [mul_assoc]
      refine mul_le_mul_of_nonneg_left ?_ (by positivity)
      have hBR0 := hb0.trans_le hBR
      have e : voidA f r / voidB f r - voidA f R / voidB f R
          = (voidA f r - voidA f R) / voidB f r
            + voidA f R * (voidB f R - voidB f r) / (voidB f r * voidB f R) := by
        field_simp; ring
      rw [e, add_mul]
      refine (abs_add_le _ _).trans (add_le_add ?_ ?_)
      · rw [abs_div, voidA_sub hf0, abs_of_pos hB0, div_mul_eq_mul_div (3 * f / 4)]
        refine div_le_div₀ (by positivity) (le_of_eq (by ring)) hb0 hB
      · rw [abs_div, abs_mul, abs_of_pos hAR, abs_of_pos (mul_pos hB0 hBR0), abs_sub_comm,
          div_mul_eq_mul_div (15 * f * (1 - f) / 16)]
        have a1 : voidA f R ≤ 1 - f := by
          unfold voidA; nlinarith [mul_nonneg hf0 hR0.le]
        have f1 : 0 ≤ 1 - f := by linarith
        refine div_le_div₀ (by positivity) ?_ (by positivity) ?_
        · calc voidA f R * |voidB f r - voidB f R| ≤ (1 - f) * (15 / 16 * f * |r - R|) :=
              mul_le_mul a1 (voidB_sub hf0 hr.le hR0.le) (abs_nonneg _) f1
            _ = _ := by ring
        · rw [sq]; gcongr
  have all : ∀ n, ∃ k g, SC_flex (fin f) n (fin Km) (fin 0) (fin Gm) (fin 0) = (fin k, fin g) ∧
      0 < k ∧ 0 < g ∧ 0 < voidA f (k / g) ∧ |k / g - R| ≤ voidRate f Km Gm ^ n * |1 - R| := by
    intro n
    induction n with
    | zero =>
      refine ⟨Km, Km, rfl, hKm, hKm, ?_, ?_⟩
      · rw [div_self hKm.ne']; unfold voidA; linarith
      · rw [div_self hKm.ne']; simp
    | succ n ih =>
      obtain ⟨k, g, e, hk, hg, ha, hd⟩ := ih
      refine ⟨_, _, by rw [SC_flex, e, scFlex_eval hKm hGm hk hg le_rfl le_rfl hk.ne' hg.ne'],
        ?_, ?_, ?_, ?_⟩ <;> rw [scFlex_void hk hg] <;> simp only
      · positivity
      · have := hb0.trans_le (voidB_ge hf0 (by positivity : 0 ≤ k / g)); positivity
      all_goals rw [show voidA f (k / g) * Km / (voidB f (k / g) * Gm)
        = Km / Gm * (voidA f (k / g) / voidB f (k / g)) by
          rw [div_mul_div_comm, mul_comm Km, mul_comm Gm]]
      · exact (step _ (by positivity) ha).2.1
      · refine (step _ (by positivity) ha).2.2.trans ?_
        rw [pow_succ, mul_comm _ (voidRate f Km Gm), mul_assoc]
        gcongr
  obtain ⟨k, g, e, hk, hg, ha, hd⟩ := all n
  have hr : 0 ≤ k / g := by positivity
  refine ⟨_, _, by rw [SC_flex, e, scFlex_eval hKm hGm hk hg le_rfl le_rfl hk.ne' hg.ne'],
    ?_, ?_, ?_, ?_⟩ <;> rw [scFlex_void hk hg] <;> simp only
  · positivity
  · have := hb0.trans_le (voidB_ge hf0 hr); positivity
  · rw [← fK, ← sub_mul, abs_mul, abs_of_pos hKm, voidA_sub hf0, mul_right_comm]
    gcongr
  · rw [← fG, ← sub_mul, abs_mul, abs_of_pos hGm, mul_right_comm _ Gm]
    gcongr
    exact (voidB_sub hf0 hr hR0.le).trans (by gcongr)

/-- In particular up to a porosity of a fifth when the mineral has no larger bulk than shear modulus
(quartz), and up to a tenth when the bulk modulus is less than four times the shear modulus. -/
theorem C107_void_small {f Km Gm : ℝ} (hf0 : 0 ≤ f) (hKm : 0 < Km) (hGm : 0 < Gm)
    (h : f ≤ 1 / 5 ∧ Km ≤ Gm ∨ f ≤ 1 / 10 ∧ Km < 4 * Gm) : f < 2 / 5 ∧ voidRate f Km Gm < 1 := by
  have key : ∀ {F : ℝ}, F < 2 / 5 → f ≤ F →
      voidRate f Km Gm
        ≤ Km / Gm * (3 * F / 4 / (1 - 5 * F / 2) + 15 * (F * (1 - F)) / 16 / (1 - 5 * F / 2) ^ 2) := by
    intro F h1 h2
    have : 0 < 1 - 5 * F / 2 := by linarith
    have : 0 < 1 - 5 * f / 2 := by linarith
    have : f * (1 - f) ≤ F * (1 - F) := by nlinarith
    have : 0 ≤ 1 - F := by linarith
    have : 0 ≤ F := by linarith
    unfold voidRate
    rw [mul_assoc 15 f]
    gcongr
  rcases h with ⟨h1, h2⟩ | ⟨h1, h2⟩
  · refine ⟨by linarith, (key (F := 1 / 5) (by norm_num) h1).trans_lt ?_⟩
    have : Km / Gm ≤ 1 := (div_le_one hGm).mpr h2
    norm_num
    linarith
  · refine ⟨by linarith, (key (F := 1 / 10) (by norm_num) h1).trans_lt ?_⟩
    have : Km / Gm < 4 := (div_lt_iff₀ hGm).mpr h2
    norm_num
    linarith

/-- The iteration of `EM.SC_flex` and that of `EM.SC` then have the same limits. -/
theorem C107_void_same_limit {f Km Gm : ℝ} (hf0 : 0 ≤ f) (hf1 : f < 2 / 5)
    (hKm : 0 < Km) (hGm : 0 < Gm) (hq : voidRate f Km Gm < 1) :
    ∃ (k g k' g' : ℕ → ℝ) (K G : ℝ), 0 < K ∧ 0 < G ∧
      (∀ n, SC_flex (fin f) (n + 1) (fin Km) (fin 0) (fin Gm) (fin 0) = (fin (k n), fin (g n))) ∧
      (∀ n, SC (fin f) (fin Km) (fin Gm) n = (fin (k' n), fin (g' n))) ∧
      Tendsto k atTop (𝓝 K) ∧ Tendsto g atTop (𝓝 G) ∧
      Tendsto k' atTop (𝓝 K) ∧ Tendsto g' atTop (𝓝 G) := by
  obtain ⟨k', g', K, G, hs, t1, t2, hlow, -⟩ := C21_SC_limit f Km Gm hf0 hKm hGm
  obtain ⟨hK, hG, h⟩ := hlow (by linarith)
  choose k g e hk hg dk dg using C107_void_converges hf0 hf1 hKm hGm hq hK hG h
  have q0 : 0 ≤ voidRate f Km Gm := by
    have : 0 < 1 - f := by linarith
    have : 0 < 1 - 5 * f / 2 := by linarith
    unfold voidRate; positivity
  have z := (tendsto_pow_atTop_nhds_zero_of_lt_one q0 hq).mul_const |1 - K / G|
  rw [zero_mul] at z
  refine ⟨k, g, k', g', K, G, hK, hG, e, hs, ?_, ?_, t1, t2⟩
  · rw [tendsto_iff_norm_sub_tendsto_zero]
    refine squeeze_zero (fun _ => norm_nonneg _) dk ?_
    simpa using z.const_mul (3 / 4 * f * Km)
  · rw [tendsto_iff_norm_sub_tendsto_zero]
    refine squeeze_zero (fun _ => norm_nonneg _) dg ?_
    simpa using z.const_mul (15 / 16 * f * Gm)

/-- A mineral of Poisson ratio 1/5 with a porosity between 5/16 and 1/2: the self-consistent moduli
exist (those of the mineral times `1 - 2f`), but `EM.SC_flex` converges to them only if some iteration
hits them exactly. -/
theorem C107_void_unstable {f Km : ℝ} {k g : ℕ → ℝ} (hf0 : 5 / 16 < f) (hf1 : f < 1 / 2)
    (hKm : 0 < Km)
    (hs : ∀ n, SC_flex (fin f) n (fin Km) (fin 0) (fin (3 / 4 * Km)) (fin 0) = (fin (k n), fin (g n))) :
    SelfConsistent f Km (3 / 4 * Km) ((1 - 2 * f) * Km) ((1 - 2 * f) * (3 / 4 * Km)) ∧
    (Tendsto k atTop (𝓝 ((1 - 2 * f) * Km)) → Tendsto g atTop (𝓝 ((1 - 2 * f) * (3 / 4 * Km))) →
      ∃ N, ∀ n ≥ N, k n = (1 - 2 * f) * Km ∧ g n = (1 - 2 * f) * (3 / 4 * Km)) := by
  have q : 0 < 1 - 2 * f := by linarith
  refine ⟨⟨by field_simp; ring, by field_simp; ring⟩, fun tk tg => ?_⟩
  have tu : Tendsto (fun n => 3 * k n / (4 * g n)) atTop (𝓝 1) := by
    have := (tk.const_mul 3).div (tg.const_mul 4) (by positivity)
    rwa [show 3 * ((1 - 2 * f) * Km) / (4 * ((1 - 2 * f) * (3 / 4 * Km))) = 1 by field] at this
  have t1 := ((tu.add_const 1).const_mul (3 * f)).sub
    ((tu.const_mul (3 - 5 * f)).add_const (2 - 5 * f))
  have t2 := (tu.const_mul (3 - 5 * f)).add_const (2 - 5 * f)
  have ev := (tu.eventually (lt_mem_nhds (by norm_num : (0 : ℝ) < 1))).and
    ((t1.eventually (lt_mem_nhds (by linarith : (0 : ℝ) < _))).and
    (t2.eventually (lt_mem_nhds (by linarith : (0 : ℝ) < _))))
  obtain ⟨N, hN⟩ := eventually_atTop.mp ev
  -- one step
  have st : ∀ n ≥ N, k (n + 1) = (1 - f * (3 * k n / (4 * g n) + 1)) * Km ∧
      g (n + 1) = (1 - f * (5 * (3 * k n / (4 * g n) + 1) / (3 * (3 * k n / (4 * g n)) + 2)))
        * (3 / 4 * Km) ∧
      |3 * k n / (4 * g n) - 1| ≤ |3 * k (n + 1) / (4 * g (n + 1)) - 1| := by
    intro n hn
    have e := hs (n + 1)
    rw [SC_flex, hs n] at e
    obtain ⟨a, b, e0, ha, hb, -, h2, e1, e2⟩ := SC_flex_step_void hKm.ne' (by positivity) e
    simp only [Prod.mk.injEq, fin_inj] at e0
    obtain ⟨rfl, rfl⟩ := e0
    obtain ⟨u0, u1, u2⟩ := hN n hn
    set u := 3 * k n / (4 * g n) with hu
    have hu' : 3 * k n = 4 * g n * u := by rw [hu]; field_simp
    have e3 : (3 * k n + 4 * g n) / (4 * g n) = u + 1 := by rw [hu]; field_simp
    have p1 : 0 < 3 * u + 2 := by linarith
    have e4 : 5 * (3 * k n + 4 * g n) / (9 * k n + 8 * g n) = 5 * (u + 1) / (3 * u + 2) := by
      rw [div_eq_div_iff h2 p1.ne']; linear_combination 5 * (3 * u + 2 - 3 * (u + 1)) * hu'
    rw [e3] at e1
    rw [e4] at e2
    refine ⟨e1, e2, ?_⟩
    clear_value u
    have e5 : 3 * k (n + 1) / (4 * g (n + 1)) - 1
        = -(u - 1) * (3 * f * (u + 1) / ((3 - 5 * f) * u + (2 - 5 * f))) := by
      rw [e1, e2]
      have : 1 - f * (5 * (u + 1) / (3 * u + 2)) = ((3 - 5 * f) * u + (2 - 5 * f)) / (3 * u + 2) := by
        field_simp; ring
      rw [this]
      generalize hD : (3 - 5 * f) * u + (2 - 5 * f) = D at u2
      have : 3 * ((1 - f * (u + 1)) * Km) / (4 * (D / (3 * u + 2) * (3 / 4 * Km)))
          = (1 - f * (u + 1)) * (3 * u + 2) / D := by field_simp
      rw [this, ← mul_div_assoc, eq_div_iff u2.ne', sub_mul, div_mul_cancel₀ _ u2.ne', ← hD]
      ring
    rw [e5, abs_mul, abs_neg]
    refine le_mul_of_one_le_right (abs_nonneg _) (le_trans ?_ (le_abs_self _))
    rw [le_div_iff₀ u2]
    linarith
  have flat : ∀ n ≥ N, 3 * k n / (4 * g n) = 1 := by
    intro n hn
    have m : ∀ j, |3 * k n / (4 * g n) - 1| ≤ |3 * k (n + j) / (4 * g (n + j)) - 1| := by
      intro j
      induction j with
      | zero => simp
      | succ j ih => exact ih.trans (st (n + j) (by omega)).2.2
    have t := (tu.sub_const 1).abs
    rw [sub_self, abs_zero] at t
    have t' : Tendsto (fun j => |3 * k (n + j) / (4 * g (n + j)) - 1|) atTop (𝓝 0) := by
      have := t.comp (tendsto_add_atTop_nat n)
      refine this.congr fun j => ?_
      simp only [Function.comp, Nat.add_comm]
    have := ge_of_tendsto' t' m
    have := abs_nonpos_iff.mp this
    linarith
  refine ⟨N + 1, fun n hn => ?_⟩
  obtain ⟨m, rfl⟩ : ∃ m, n = m + 1 := ⟨n - 1, by omega⟩
  obtain ⟨e1, e2, -⟩ := st m (by omega)
  rw [flat m (by omega)] at e1 e2
  rw [e1, e2]
  constructor <;> ring

/-- Quartz with a fifth of pores, calcite with a tenth. -/
example : ((1 / 5 : ℝ) ≤ 1 / 5 ∧ (37 : ℝ) ≤ 44) ∧ ((1 / 10 : ℝ) ≤ 1 / 10 ∧ (76.8 : ℝ) < 4 * 32) := by
  norm_num

/-- A mineral with pores and its self-consistent moduli. -/
example : SelfConsistent (1 / 5) 4 3 (12 / 5) (9 / 5) := by norm_num [SelfConsistent]

end RockPhy.Props
