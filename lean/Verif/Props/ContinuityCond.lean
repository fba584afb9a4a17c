import Verif.Props.Continuity
import Verif.Props.Prolate
import Verif.Props.Emp

/-!
# C109: functions that are continuous under a condition, and functions that jump
-/

namespace RockPhy.Props

open Spec Spec.Vary Fl Filter Topology

variable {X : Type} [TopologicalSpace X]

/-! ## `Brie` and `co2_brine`: zero to the power zero -/

theorem C109_Fluid_Brie {Kw Kgas Sw e : X → Fl} (hKw : Varies Kw) (hKgas : Varies Kgas)
    (hSw : Varies Sw) (he : Varies e) (h : ∀ x, Sw x = fin 0 → e x ≠ fin 0) :
    Varies fun x => Fluid.Brie (Kw x) (Kgas x) (Sw x) (e x) := by
  unfold Fluid.Brie
  exact add (mul (sub hKw hKgas) (rpow' hSw he h)) hKgas

/-- Without water, the mixture has the modulus of water at exponent zero and that of gas at any
exponent above zero, however small. -/
theorem C109_Fluid_Brie_jump : ¬ IsContinuous (Fluid.Brie (α := Fl)) := by
  intro h
  have c := h ℝ (fun _ => fin 2) (fl_const _) (fun _ => fin 1) (fl_const _) (fun _ => fin 0)
    (fl_const _) (fun t => fin t) (of_continuous continuous_id)
  have v0 : Fluid.Brie (fin 2) (fin 1) (fin 0) (fin 0) = fin 2 := by
    unfold Fluid.Brie
    rw [fl_rpow_zero le_rfl]
    simp only [fl]; norm_num
  have v : ∀ t > 0, Fluid.Brie (fin 2) (fin 1) (fin 0) (fin t) = fin 1 := by
    intro t ht
    unfold Fluid.Brie
    rw [fl_rpow_zero ht.le, Real.zero_rpow ht.ne']
    simp only [fl]; norm_num
  have ev := c 0 2 v0 1 one_pos
  obtain ⟨δ, hδ, hb⟩ := Metric.eventually_nhds_iff.mp ev
  have := hb (y := δ / 2) (by rw [Real.dist_eq, sub_zero, abs_of_pos (by linarith)]; linarith) 1
    (v _ (by linarith))
  norm_num at this

theorem C109_BW_co2_brine_Wood {T P S Sco2 : X → Fl} (hT : Varies T) (hP : Varies P) (hS : Varies S)
    (hc : Varies Sco2) (bw : Bool) :
    Varies fun x => BW.co2_brine (T x) (P x) (S x) (Sco2 x) none bw := by
  unfold BW.co2_brine
  dsimp only
  vary [C109_BW_rho_K_gas, C109_BW_rho_K_co2, C109_BW_rho_K_brine]

theorem C109_BW_co2_brine_Brie {T P S Sco2 e : X → Fl} (hT : Varies T) (hP : Varies P) (hS : Varies S)
    (hc : Varies Sco2) (he : Varies e) (h : ∀ x, Sco2 x = fin 1 → e x ≠ fin 0) (bw : Bool) :
    Varies fun x => BW.co2_brine (T x) (P x) (S x) (Sco2 x) (some (e x)) bw := by
  have b := C109_BW_rho_K_brine X _ hT _ hP _ hS
  have c : Varies fun x => if bw then BW.rho_K_gas (P x) (T x) 1.5349
      else BW.rho_K_co2 (P x) (T x) 1.5349 := by
    vary [C109_BW_rho_K_gas, C109_BW_rho_K_co2]
  refine ⟨add (mul (sub (fl_const _) hc) b.1) (mul hc c.1), ?_⟩
  refine C109_Fluid_Brie b.2 c.2 (sub (fl_const _) hc) he fun x hx => h x ?_
  cases e1 : Sco2 x with
  | bad => rw [e1] at hx; exact absurd hx (by simp only [fl]; exact bad_ne_fin)
  | fin s =>
    rw [e1] at hx
    simp only [fl, fin_inj] at hx
    rw [show s = 1 by linarith]

/-! ## The patchy cement models: continuous across the critical cement volume -/

theorem glue' (p k t k0 : Fl)
    (h : -t + inv ((p / p) / (k + t) + (1 - p / p) / (k0 + t)) ≠ bad) :
    -t + inv ((p / p) / (k + t) + (1 - p / p) / (k0 + t)) = k := by
  cases p with
  | bad => simp only [fl, ne_eq, not_true_eq_false] at h
  | fin p =>
  cases k with
  | bad => simp only [fl, ne_eq, not_true_eq_false] at h
  | fin k =>
  cases t with
  | bad => simp only [fl, ne_eq, not_true_eq_false] at h
  | fin t =>
  cases k0 with
  | bad => simp only [fl, ne_eq, not_true_eq_false] at h
  | fin k0 =>
  by_cases hp : p = 0
  · simp only [hp, fl, fl_div_zero, ne_eq, not_true_eq_false] at h
  by_cases hk : k + t = 0
  · simp only [fl, hk, fl_div_zero, ne_eq, not_true_eq_false] at h
  by_cases h0 : k0 + t = 0
  · simp only [fl, h0, fl_div_zero, ne_eq, not_true_eq_false] at h
  have i : 1 / (k + t) ≠ 0 := one_div_ne_zero hk
  rw [fl_div hp, div_self hp]
  simp only [fl]
  rw [fl_div hk, fl_div h0]
  simp only [fl, sub_self, zero_div, add_zero]
  rw [fl_inv i]
  simp only [fl, one_div, inv_inv, fin_inj]
  ring

theorem glue (p k g k0 : Fl)
    (h : -4 / 3 * g + inv ((p / p) / (k + 4 / 3 * g) + (1 - p / p) / (k0 + 4 / 3 * g)) ≠ bad) :
    -4 / 3 * g + inv ((p / p) / (k + 4 / 3 * g) + (1 - p / p) / (k0 + 4 / 3 * g)) = k := by
  have e : -4 / 3 * g = -(4 / 3 * g) := by
    cases g with
    | bad => simp only [fl]
    | fin a => simp only [fl]; rw [fl_div (by norm_num), fl_div (by norm_num)]; simp only [fl, fin_inj]; ring
  rw [e] at h ⊢
  exact glue' p k _ k0 h

theorem MUHS_at_threshold (K0 G0 Kc Gc p phic Cn : Fl) (scheme : Int)
    (h : (GM.MUHS K0 G0 Kc Gc p p phic Cn scheme).1 ≠ bad ∧
      (GM.MUHS K0 G0 Kc Gc p p phic Cn scheme).2 ≠ bad) :
    GM.MUHS K0 G0 Kc Gc p p phic Cn scheme = GM.contactcement K0 G0 Kc Gc p phic Cn scheme :=
  Prod.ext (glue _ _ _ _ h.1) (glue' _ _ _ _ h.2)

theorem contactcement_undefined (K0 G0 Kc Gc phic Cn : Fl) (scheme : Int) :
    GM.contactcement K0 G0 Kc Gc bad phic Cn scheme = (bad, bad) := by
  unfold GM.contactcement
  dsimp only
  split <;> simp only [fl]

theorem MUHS_undefined (K0 G0 Kc Gc phi phi_b phic Cn : Fl) (scheme : Int)
    (h : phi = bad ∨ phi_b = bad) : GM.MUHS K0 G0 Kc Gc phi phi_b phic Cn scheme = (bad, bad) := by
  unfold GM.MUHS
  rcases h with rfl | rfl <;> simp only [fl]

theorem cont_GM_cemented {K0 G0 phic v_cem v_ci Kc Gc Cn : X → Fl} (hK0 : Varies K0)
    (hG0 : Varies G0) (hphic : Varies phic) (hv : Varies v_cem) (hvi : Varies v_ci) (hKc : Varies Kc)
    (hGc : Varies Gc) (hCn : Varies Cn) (scheme : Int)
    (h : ∀ x, v_cem x = v_ci x → v_cem x ≠ bad →
      (GM.MUHS (K0 x) (G0 x) (Kc x) (Gc x) (phic x - v_cem x) (phic x - v_ci x) (phic x) (Cn x)
        scheme).1 ≠ bad ∧
      (GM.MUHS (K0 x) (G0 x) (Kc x) (Gc x) (phic x - v_cem x) (phic x - v_ci x) (phic x) (Cn x)
        scheme).2 ≠ bad) :
    Varies fun x => GM.cemented (K0 x) (G0 x) (phic x) (v_cem x) (v_ci x) (Kc x) (Gc x) (Cn x)
      scheme := by
  have c : Varies fun x => GM.contactcement (K0 x) (G0 x) (Kc x) (Gc x) (phic x - v_cem x) (phic x)
      (Cn x) scheme := by vary [C109_GM_contactcement]
  have m : Varies fun x => GM.MUHS (K0 x) (G0 x) (Kc x) (Gc x) (phic x - v_cem x) (phic x - v_ci x)
      (phic x) (Cn x) scheme := by vary [C109_GM_MUHS]
  have u : ∀ x, v_cem x = bad ∨ v_ci x = bad → GM.MUHS (K0 x) (G0 x) (Kc x) (Gc x)
      (phic x - v_cem x) (phic x - v_ci x) (phic x) (Cn x) scheme = (bad, bad) := by
    intro x hx
    refine MUHS_undefined _ _ _ _ _ _ _ _ _ ?_
    rcases hx with e | e <;> rw [e]
    · exact Or.inl (fl_sub_bad _)
    · exact Or.inr (fl_sub_bad _)
  have g : ∀ x, v_cem x ≠ bad → v_cem x = v_ci x → GM.contactcement (K0 x) (G0 x) (Kc x) (Gc x)
      (phic x - v_cem x) (phic x) (Cn x) scheme = GM.MUHS (K0 x) (G0 x) (Kc x) (Gc x)
      (phic x - v_cem x) (phic x - v_ci x) (phic x) (Cn x) scheme := by
    intro x hb e
    have := h x e hb
    rw [← e] at this ⊢
    exact (MUHS_at_threshold _ _ _ _ _ _ _ _ this).symm
  unfold GM.cemented
  refine ⟨?_, ?_⟩
  · simp only [apply_ite Prod.fst]
    exact ite_le hv hvi c.1 m.1 (fun x hx => by rw [u x hx]) fun x h1 h2 => by rw [g x h1 h2]
  · simp only [apply_ite Prod.snd]
    exact ite_le hv hvi c.2 m.2 (fun x hx => by rw [u x hx]) fun x h1 h2 => by rw [g x h1 h2]

/-- `pcm` is continuous, also where the cement volume passes the critical one: there the two cement
models give the same moduli, if the increasing-cement model is defined. -/
theorem C109_GM_pcm {f sigma K0 G0 phi phic v_cem v_ci Kc Gc Cn f_ : X → Fl} (hf : Varies f)
    (hs : Varies sigma) (hK0 : Varies K0) (hG0 : Varies G0) (hphi : Varies phi) (hphic : Varies phic)
    (hv : Varies v_cem) (hvi : Varies v_ci) (hKc : Varies Kc) (hGc : Varies Gc) (hCn : Varies Cn)
    (hf_ : Varies f_) (mode : String) (scheme : Int)
    (h : ∀ x, v_cem x = v_ci x → v_cem x ≠ bad →
      (GM.MUHS (K0 x) (G0 x) (Kc x) (Gc x) (phic x - v_cem x) (phic x - v_ci x) (phic x) (Cn x)
        scheme).1 ≠ bad ∧
      (GM.MUHS (K0 x) (G0 x) (Kc x) (Gc x) (phic x - v_cem x) (phic x - v_ci x) (phic x) (Cn x)
        scheme).2 ≠ bad) :
    Varies fun x => GM.pcm (f x) (sigma x) (K0 x) (G0 x) (phi x) (phic x) (v_cem x) (v_ci x) (Kc x)
      (Gc x) (Cn x) mode scheme (f_ x) := by
  unfold GM.pcm
  vary [C109_GM_hertzmindlin, cont_GM_patchyStiff, cont_GM_patchySoft, cont_GM_patchyHS]
  exact cont_GM_cemented hK0 hG0 hphic hv hvi hKc hGc hCn scheme h

theorem C109_GM_vpcm {alpha f sigma K0 G0 phi phic v_cem v_ci Kc Gc Cn f_ : X → Fl}
    (ha : Varies alpha) (hf : Varies f)
    (hs : Varies sigma) (hK0 : Varies K0) (hG0 : Varies G0) (hphi : Varies phi) (hphic : Varies phic)
    (hv : Varies v_cem) (hvi : Varies v_ci) (hKc : Varies Kc) (hGc : Varies Gc) (hCn : Varies Cn)
    (hf_ : Varies f_) (scheme : Int)
    (h : ∀ x, v_cem x = v_ci x → v_cem x ≠ bad →
      (GM.MUHS (K0 x) (G0 x) (Kc x) (Gc x) (phic x - v_cem x) (phic x - v_ci x) (phic x) (Cn x)
        scheme).1 ≠ bad ∧
      (GM.MUHS (K0 x) (G0 x) (Kc x) (Gc x) (phic x - v_cem x) (phic x - v_ci x) (phic x) (Cn x)
        scheme).2 ≠ bad) :
    Varies fun x => GM.vpcm (alpha x) (f x) (sigma x) (K0 x) (G0 x) (phi x) (phic x) (v_cem x)
      (v_ci x) (Kc x) (Gc x) (Cn x) scheme (f_ x) := by
  unfold GM.vpcm
  vary [C109_GM_hertzmindlin, cont_GM_patchyStiff, cont_GM_patchySoft, cont_GM_patchyHS]
  exact cont_GM_cemented hK0 hG0 hphic hv hvi hKc hGc hCn scheme h

/-! ## Crushing of cement: `diluting` -/

open Classical in
theorem shape_continuous {m : ℝ} (hm : 0 < m) : Continuous fun u : ℝ =>
    if 0 < u ∨ (u = 0 ∧ 0 ≤ m) ∨ (u < 0 ∧ ∃ n : ℤ, m = n) then u ^ m else 0 := by
  by_cases hi : ∃ n : ℤ, m = n
  · refine (Real.continuous_rpow_const hm.le).congr fun u => ?_
    rw [if_pos]
    rcases lt_trichotomy u 0 with h | h | h
    · exact Or.inr (Or.inr ⟨h, hi⟩)
    · exact Or.inr (Or.inl ⟨h, hm.le⟩)
    · exact Or.inl h
  · refine ((Real.continuous_rpow_const hm.le).comp (continuous_id.max continuous_const)).congr
      (f := fun u : ℝ => (max u 0) ^ m) fun u => ?_
    rcases lt_or_ge u 0 with h | h
    · rw [if_neg, max_eq_right h.le, Real.zero_rpow hm.ne']
      rintro (h' | h' | h')
      · linarith
      · linarith [h'.1]
      · exact hi h'.2
    · rw [if_pos, max_eq_left h]
      rcases h.eq_or_lt with h' | h'
      · exact Or.inr (Or.inl ⟨h'.symm, hm.le⟩)
      · exact Or.inl h'

open Classical in
theorem C109_GM_diluting {isnan : Fl → Bool} (h0 : ∀ r, isnan (fin r) = false) (h1 : isnan bad = true)
    {k sigma0 sigma : X → ℝ} (hk : Continuous k) (hs0 : Continuous sigma0) (hs : Continuous sigma)
    (pos : ∀ x, 0 < sigma0 x) {m : ℝ} (hm : 0 < m) :
    Varies fun x => GM.diluting isnan (fin (k x)) (fin (sigma0 x)) (fin (sigma x)) (fin m) := by
  have e : ∀ x, GM.diluting isnan (fin (k x)) (fin (sigma0 x)) (fin (sigma x)) (fin m)
      = fin (k x * if 0 < 1 - sigma x / sigma0 x ∨ (1 - sigma x / sigma0 x = 0 ∧ 0 ≤ m)
        ∨ (1 - sigma x / sigma0 x < 0 ∧ ∃ n : ℤ, m = n) then (1 - sigma x / sigma0 x) ^ m else 0) := by
    intro x
    unfold GM.diluting
    dsimp only
    rw [fl_div (pos x).ne']
    simp only [fl]
    by_cases c : 0 < 1 - sigma x / sigma0 x ∨ (1 - sigma x / sigma0 x = 0 ∧ 0 ≤ m)
        ∨ (1 - sigma x / sigma0 x < 0 ∧ ∃ n : ℤ, m = n)
    · have r : fin (1 - sigma x / sigma0 x) **. fin m = fin ((1 - sigma x / sigma0 x) ^ m) := if_pos c
      rw [r, if_pos c]
      simp only [fl, h0, Bool.false_eq_true, if_false]
    · have r : fin (1 - sigma x / sigma0 x) **. fin m = bad := if_neg c
      rw [r, if_neg c]
      simp only [fl, h1, if_true, mul_zero]
  simp only [e]
  refine of_continuous (hk.mul ((shape_continuous hm).comp (f := fun x => 1 - sigma x / sigma0 x) ?_))
  exact continuous_const.sub (hs.div hs0 fun x => (pos x).ne')

/-- Above the crushing stress the factor jumps with the exponent: at exponent two it grows again, at an
exponent close to two it is zero. -/
theorem C109_GM_diluting_jump {isnan : Fl → Bool} (h0 : ∀ r, isnan (fin r) = false)
    (h1 : isnan bad = true) : ¬ Varies fun m : ℝ => GM.diluting isnan (fin 1) (fin 1) (fin 2) (fin m) := by
  intro c
  have v0 : GM.diluting isnan (fin 1) (fin 1) (fin 2) (fin 2) = fin 1 := by
    unfold GM.diluting
    dsimp only
    rw [fl_div one_ne_zero]
    have r : fin (1 - 2 / 1) **. fin 2 = fin ((1 - 2 / 1 : ℝ) ^ (2 : ℝ)) :=
      if_pos (Or.inr (Or.inr ⟨by norm_num, 2, by norm_num⟩))
    simp only [fl]
    rw [r]
    simp only [fl, h0, Bool.false_eq_true, if_false, fin_inj]
    norm_num
  have v : ∀ m : ℝ, 2 < m → m < 3 → GM.diluting isnan (fin 1) (fin 1) (fin 2) (fin m) = fin 0 := by
    intro m l u
    unfold GM.diluting
    dsimp only
    rw [fl_div one_ne_zero]
    have r : fin (1 - 2 / 1) **. fin m = bad := by
      refine if_neg ?_
      rintro (h | h | ⟨-, n, rfl⟩)
      · norm_num at h
      · norm_num at h
      · have l' : (2 : ℤ) < n := by exact_mod_cast l
        have u' : n < (3 : ℤ) := by exact_mod_cast u
        omega
    simp only [fl]
    rw [r]
    simp only [fl, h1, if_true]
  obtain ⟨δ, hδ, hb⟩ := Metric.eventually_nhds_iff.mp (c 2 1 v0 1 one_pos)
  have d : 0 < min δ 1 / 2 := by positivity
  have d1 : min δ 1 / 2 < δ := by have := min_le_left δ 1; linarith
  have d2 : min δ 1 / 2 < 1 := by have := min_le_right δ 1; linarith
  have := hb (y := 2 + min δ 1 / 2) (by
    rw [Real.dist_eq, add_sub_cancel_left, abs_of_pos d]; exact d1) 0 (v _ (by linarith) (by linarith))
  norm_num at this

/-! ## Aspect ratios -/

theorem C109_EM_PQ_oblate {Km Gm Ki Gi alpha : X → Fl} (hKm : Varies Km) (hGm : Varies Gm)
    (hKi : Varies Ki) (hGi : Varies Gi) (ha : Varies alpha) (h : ∀ x, ∃ a : ℝ, a < 1 ∧ alpha x = fin a) :
    Varies fun x => EM.PQ (Km x) (Gm x) (Ki x) (Gi x) (alpha x) := by
  have e : ∀ x, EM.PQ (Km x) (Gm x) (Ki x) (Gi x) (alpha x) = EM.PQ_core (Km x) (Gm x) (Ki x) (Gi x)
      (alpha x) (alpha x / (1.0 - alpha x ** 2) **. (3.0 / 2.0)
        * (arccos (alpha x) - alpha x * sqrt (1.0 - alpha x ** 2))) := by
    intro x
    obtain ⟨a, h1, h2⟩ := h x
    unfold EM.PQ EM.PQ_theta
    rw [h2, if_neg (by simp only [fl]; exact h1.ne), if_pos (by simp only [fl]; exact h1)]
  simp only [e]
  vary [cont_EM_PQ_core]

theorem C109_EM_PQ_prolate {Km Gm Ki Gi alpha : X → Fl} (hKm : Varies Km) (hGm : Varies Gm)
    (hKi : Varies Ki) (hGi : Varies Gi) (ha : Varies alpha) (h : ∀ x, ∃ a : ℝ, 1 < a ∧ alpha x = fin a) :
    Varies fun x => EM.PQ (Km x) (Gm x) (Ki x) (Gi x) (alpha x) := by
  have e : ∀ x, EM.PQ (Km x) (Gm x) (Ki x) (Gi x) (alpha x) = EM.PQ_core (Km x) (Gm x) (Ki x) (Gi x)
      (alpha x) (alpha x / (alpha x ** 2 - 1) **. (3.0 / 2.0)
        * (alpha x * (alpha x ** 2 - 1) **. 0.5 - inv (cosh (alpha x)))) := by
    intro x
    obtain ⟨a, h1, h2⟩ := h x
    unfold EM.PQ EM.PQ_theta
    rw [h2, if_neg (by simp only [fl]; exact h1.ne'), if_neg (by simp only [fl]; exact h1.le.not_gt)]
  simp only [e]
  vary [cont_EM_PQ_core]

/-- The factors jump at aspect ratio one: they are those of a sphere there, and near zero for slightly
elongated inclusions. -/
theorem C109_EM_PQ_jump : ¬ IsContinuous (EM.PQ (α := Fl)) := by
  intro h
  have c := (h ℝ (fun _ => fin 37) (fl_const _) (fun _ => fin 44) (fl_const _) (fun _ => fin 2)
    (fl_const _) (fun _ => fin 0) (fl_const _) (fun t => fin t) (of_continuous continuous_id)).1
  have v := EM.PQ_sphere_eval (Km := 37) (Gm := 44) (Ki := 2) (Gi := 0) (by norm_num) (by norm_num)
    (by norm_num) le_rfl
  obtain ⟨P, Q, e, hP, -⟩ := C79_prolate_limit (K := 37) (G := 44) (Ki := 2) (Gi := 0) (by norm_num)
    (by norm_num) (by norm_num) (by norm_num)
  have ev := c 1 _ (congrArg Prod.fst v) (1 / 2) (by norm_num)
  have ev2 := (ev.filter_mono (nhdsWithin_le_nhds : 𝓝[>] (1 : ℝ) ≤ 𝓝 1)).and
    (e.and (hP.eventually (gt_mem_nhds (show (0 : ℝ) < 1 / 2 by norm_num))))
  obtain ⟨a, h1, h2, h3⟩ := ev2.exists
  have := (abs_lt.mp (h1 (P a) (congrArg Prod.fst h2))).1
  norm_num at this
  linarith

theorem C109_EM_DEM_oblate {K_eff G_eff t Gi Ki alpha : X → Fl} (hK : Varies K_eff)
    (hG : Varies G_eff) (ht : Varies t) (hGi : Varies Gi) (hKi : Varies Ki) (ha : Varies alpha)
    (h : ∀ x, ∃ a : ℝ, a < 1 ∧ alpha x = fin a) :
    Varies fun x => EM.DEM (K_eff x) (G_eff x) (t x) (Gi x) (Ki x) (alpha x) := by
  have p := C109_EM_PQ_oblate hK hG hKi hGi ha h
  exact ⟨mul (mul (div (fl_const _) (sub (fl_const _) ht)) (sub hKi hK)) p.1,
    mul (mul (div (fl_const _) (sub (fl_const _) ht)) (sub hGi hG)) p.2⟩

/-! ## Trends of velocity against depth -/

/-- The trend of `yu_segment_trend` jumps by 0.43 m/s at 2630 m. -/
theorem C109_Empirical_yu_jump : ¬ IsContinuous (Empirical.yu_segment_trend (α := Fl)) := by
  intro h
  obtain ⟨Gs, h1, h2⟩ := h ℝ (fun t => [fin t]) (cons (of_continuous continuous_id) nil)
  have e : ∀ t : ℝ, Empirical.yu_segment_trend [fin t] = [fin (yuTrend t)] := by
    intro t
    have := Empirical.yu_eval [t]
    rw [List.map_singleton] at this
    rw [this]
    by_cases l : t ≤ 2630 <;> simp [l]
  beta_reduce at h2
  simp only [e] at h2
  match Gs, h1, h2 with
  | [G], h1, h2 =>
    have c := h1 G (by simp)
    have g : ∀ t, G t = fin (yuTrend t) := fun t => by simpa using (h2 t).symm
    obtain ⟨δ, hδ, hb⟩ := Metric.eventually_nhds_iff.mp (c 2630 _ (g _) 0.4 (by norm_num))
    have := hb (y := 2630 + δ / 2) (by
      rw [Real.dist_eq, add_sub_cancel_left, abs_of_pos (by linarith)]; linarith) _ (g _)
    unfold yuTrend at this
    rw [if_neg (by linarith), if_pos le_rfl, abs_lt] at this
    norm_num at this
    linarith [this.2]
  | [], _, h2 => exact absurd (h2 0) (by simp)
  | _ :: _ :: _, _, h2 => exact absurd (h2 0) (by simp)

/-- The trend of `Japsen` jumps by 0.2 m/s at 1393 m. -/
theorem C109_Empirical_Japsen_jump : ¬ IsContinuous (Empirical.Japsen (α := Fl)) := by
  intro h
  have e : ∀ t : ℝ, t < 2000 → Empirical.Japsen [fin t] = [fin (japsenTrend t)] := by
    intro t ht
    have := Empirical.japsen_eval [t]
    rw [List.map_singleton] at this
    rw [this]
    unfold Empirical.japsenOrder
    have a : ¬ 2000 ≤ t := not_le.mpr ht
    have b : ¬ 3500 ≤ t := by intro; linarith
    by_cases l : t < 1393
    · have l' : ¬ 1393 ≤ t := not_le.mpr l
      simp [l, l', a, b]
    · have l' : 1393 ≤ t := not_lt.mp l
      simp [l, l', a, b, ht]
  obtain ⟨Gs, h1, h2⟩ := h {t : ℝ // t < 2000} (fun t => [fin t.1])
    (cons (of_continuous continuous_subtype_val) nil)
  beta_reduce at h2
  have h2' : ∀ t : {t : ℝ // t < 2000}, [fin (japsenTrend t.1)] = Gs.map (· t) := fun t => by
    rw [← e t.1 t.2]; exact h2 t
  match Gs, h1, h2' with
  | [G], h1, h2 =>
    have c := h1 G (by simp)
    have g : ∀ t, G t = fin (japsenTrend t.1) := fun t => by simpa using (h2 t).symm
    obtain ⟨δ, hδ, hb⟩ := Metric.eventually_nhds_iff.mp (c ⟨1393, by norm_num⟩ _ (g _) 0.1 (by norm_num))
    have := hb (y := ⟨1393 - δ / 2, by linarith⟩) (by
      rw [Subtype.dist_eq, Real.dist_eq, sub_sub_cancel_left, abs_neg, abs_of_pos (by linarith)]
      linarith) _ (g _)
    unfold japsenTrend at this
    rw [if_pos (by linarith), if_neg (by norm_num), if_pos (by norm_num), abs_lt] at this
    norm_num at this
    linarith [this.1]
  | [], _, h2 => exact absurd (h2 ⟨0, by norm_num⟩) (by simp)
  | _ :: _ :: _, _, h2 => exact absurd (h2 ⟨0, by norm_num⟩) (by simp)

/-! ## Mixed minerals without shale -/

/-- Leaving out the shale when there is none does not change the Hill average. -/
theorem matrix_modulus_eq (vsh phi_c phi_0 M_g M_c : Fl) {m : ℝ} (hm : m ≠ 0) :
    QI.matrix_modulus vsh phi_c phi_0 (fin m) M_g M_c
    = (do
        let r ← EM.VRH [vsh / (1 - phi_0), (1 - phi_c - vsh) / (1 - phi_0), (phi_c - phi_0) / (1 - phi_0)]
          [fin m, M_g, M_c]
        return r.2.2) := by
  unfold QI.matrix_modulus
  dsimp only
  split
  · rename_i h
    cases vsh with
    | bad => simp [fl] at h
    | fin v =>
    simp only [fl] at h
    subst h
    have z : (fin 0 : Fl) / (1 - phi_0) = fin 0 ∨ (1 - phi_0 = bad ∨ 1 - phi_0 = fin 0) := by
      cases hh : (1 - phi_0 : Fl) with
      | bad => exact .inr (.inl rfl)
      | fin d =>
        by_cases hd : d = 0
        · subst hd; exact .inr (.inr rfl)
        · left; fl_eval [hd, zero_div]
    have i : (1 : Fl) / fin m = fin (1 / m) := by fl_eval [hm]
    have a0 : ∀ a : Fl, a * bad = bad := by intro a; cases a <;> rfl
    have a1 : ∀ a : Fl, bad * a = bad := by intro a; cases a <;> rfl
    have a2 : ∀ a : Fl, bad + a = bad := by intro a; cases a <;> rfl
    have a3 : ∀ a : Fl, a + bad = bad := by intro a; cases a <;> rfl
    have s : ∀ a : Fl, a - fin 0 = a := by intro a; cases a <;> fl_eval [sub_zero]
    have p : ∀ a : Fl, fin 0 + a = a := by intro a; cases a <;> fl_eval [zero_add]
    have mm : ∀ r : ℝ, fin 0 * fin r = fin 0 := by intro r; fl_eval [zero_mul]
    rcases z with z | z
    · simp [EM.VRH, dot, lsum, z, i, s, p, mm, Bind.bind, Except.bind, pure, Except.pure]
    · have q : ∀ a : Fl, a / (1 - phi_0) = bad := by
        intro a; rcases z with z | z <;> rw [z]
        · exact fl_div_bad a
        · exact fl_div_zero a
      simp [EM.VRH, dot, lsum, q, a0, a1, a2, a3, Bind.bind, Except.bind, pure, Except.pure]
  · rfl

theorem C109_QI_matrix_modulus {vsh phi_c phi_0 M_sh M_g M_c : X → Fl} (hv : Varies vsh)
    (hc : Varies phi_c) (h0 : Varies phi_0) (hs : Varies M_sh) (hg : Varies M_g) (hM : Varies M_c)
    (h : ∀ x, ∃ m : ℝ, m ≠ 0 ∧ M_sh x = fin m) :
    Varies fun x => QI.matrix_modulus (vsh x) (phi_c x) (phi_0 x) (M_sh x) (M_g x) (M_c x) := by
  have e : ∀ x, QI.matrix_modulus (vsh x) (phi_c x) (phi_0 x) (M_sh x) (M_g x) (M_c x)
    = (do
        let r ← EM.VRH [vsh x / (1 - phi_0 x), (1 - phi_c x - vsh x) / (1 - phi_0 x),
          (phi_c x - phi_0 x) / (1 - phi_0 x)] [M_sh x, M_g x, M_c x]
        return r.2.2) := by
    intro x
    obtain ⟨m, hm, e⟩ := h x
    rw [e]
    exact matrix_modulus_eq _ _ _ _ _ hm
  simp only [e]
  vary [C109_EM_VRH]

theorem cont_QI_screening_entry
    {Dqz Kqz Gqz Dsh Ksh Gsh Dc Kc Gc Db Kb phib_p phi_c sigma vsh f Cn phi : X → Fl}
    (_ : Varies Dqz) (_ : Varies Kqz) (_ : Varies Gqz) (_ : Varies Dsh) (hs : Varies Ksh)
    (_ : Varies Gsh) (_ : Varies Dc) (_ : Varies Kc) (_ : Varies Gc) (_ : Varies Db) (_ : Varies Kb)
    (_ : Varies phib_p) (_ : Varies phi_c) (_ : Varies sigma) (_ : Varies vsh) (_ : Varies f)
    (_ : Varies Cn) (_ : Varies phi) (scheme : Int) (h : ∀ x, ∃ m : ℝ, m ≠ 0 ∧ Ksh x = fin m) :
    Varies fun x => QI.screening_entry (Dqz x) (Kqz x) (Gqz x) (Dsh x) (Ksh x) (Gsh x) (Dc x) (Kc x)
      (Gc x) (Db x) (Kb x) (phib_p x) (phi_c x) (sigma x) (vsh x) scheme (f x) (Cn x) (phi x) := by
  have mm : Varies fun x => QI.matrix_modulus (vsh x) (phi_c x) (phi x) (Ksh x) (Kqz x) (Kc x) :=
    C109_QI_matrix_modulus ‹_› ‹_› ‹_› ‹_› ‹_› ‹_› h
  unfold QI.screening_entry
  vary [C109_EM_VRH, C109_GM_softsand, C109_GM_contactcement, C109_QI_den_matrix, C109_Fluid_Gassmann,
    C109_utils_V, C109_GM_MUHS]
  all_goals first
    | exact mm
    | exact cut npnan_bad (by vary [])

theorem C109_QI_screening
    {Dqz Kqz Gqz Dsh Ksh Gsh Dc Kc Gc Db Kb phib_p phi_c sigma vsh f Cn : X → Fl}
    (_ : Varies Dqz) (_ : Varies Kqz) (_ : Varies Gqz) (_ : Varies Dsh) (hs : Varies Ksh)
    (_ : Varies Gsh) (_ : Varies Dc) (_ : Varies Kc) (_ : Varies Gc) (_ : Varies Db) (_ : Varies Kb)
    (_ : Varies phib_p) (_ : Varies phi_c) (_ : Varies sigma) (_ : Varies vsh) (_ : Varies f)
    (_ : Varies Cn) (scheme : Int) (h : ∀ x, ∃ m : ℝ, m ≠ 0 ∧ Ksh x = fin m) :
    Varies fun x => QI.screening (Dqz x) (Kqz x) (Gqz x) (Dsh x) (Ksh x) (Gsh x) (Dc x) (Kc x)
      (Gc x) (Db x) (Kb x) (phib_p x) (phi_c x) (sigma x) (vsh x) scheme (f x) (Cn x) := by
  unfold QI.screening
  refine mapM' (fun phi hphi => ?_) ?_
  · refine bind (cont_QI_screening_entry ‹_› ‹_› ‹_› ‹_› hs ‹_› ‹_› ‹_› ‹_› ‹_› ‹_› ‹_› ‹_› ‹_› ‹_› ‹_› ‹_›
      hphi scheme h) fun v hv => ?_
    exact ok (pair hphi hv)
  · vary [cont_QI_linspace]

/-! ## Anisotropic fluid substitution -/

theorem rows3_varies {S : X → Mat6 Fl} (hS : Varies S) (j : Fin 6) :
    Varies fun x => Fluid.rows3 (S x) j := add (add (hS 0 j) (hS 1 j)) (hS 2 j)

theorem cont_Fluid_sum33 {S : X → Mat6 Fl} (hS : Varies S) : Varies fun x => Fluid.sum33 (S x) :=
  add (add (rows3_varies hS 0) (rows3_varies hS 1)) (rows3_varies hS 2)

/-- Wherever the compliance of the mineral varies continuously with the parameter, so does the
saturated compliance. -/
theorem C109_Fluid_Brown_Korringa_dry2sat {linv : Mat6 Fl → Except PyErr (Mat6 Fl)}
    {S : X → Mat6 Fl} {K0 G0 Kfl phi : X → Fl} (hS : Varies S) (hK : Varies K0)
    (hKf : Varies Kfl) (hp : Varies phi) (h : Varies fun x => linv (utils.write_iso (K0 x) (G0 x))) :
    Varies fun x => Fluid.Brown_Korringa_dry2sat linv (S x) (K0 x) (G0 x) (Kfl x) (phi x) := by
  unfold Fluid.Brown_Korringa_dry2sat
  refine bind h fun S0 hS0 => ok fun i j => ?_
  refine sub (hS i j) (div (mul (sub (rows3_varies hS i) (rows3_varies hS0 i))
    (sub (rows3_varies hS j) (rows3_varies hS0 j))) ?_)
  have := cont_Fluid_sum33 hS
  exact add (mul (sub (div (fl_const _) hKf) (div (fl_const _) hK)) hp)
    (sub this (div (fl_const _) hK))

theorem C109_Fluid_Brown_Korringa_sat2dry {linv : Mat6 Fl → Except PyErr (Mat6 Fl)}
    {S : X → Mat6 Fl} {K0 G0 Kfl phi : X → Fl} (hS : Varies S) (hK : Varies K0)
    (hKf : Varies Kfl) (hp : Varies phi) (h : Varies fun x => linv (utils.write_iso (K0 x) (G0 x))) :
    Varies fun x => Fluid.Brown_Korringa_sat2dry linv (S x) (K0 x) (G0 x) (Kfl x) (phi x) := by
  unfold Fluid.Brown_Korringa_sat2dry
  refine bind h fun S0 hS0 => ok fun i j => ?_
  refine add (hS i j) (div (mul (sub (rows3_varies hS i) (rows3_varies hS0 i))
    (sub (rows3_varies hS j) (rows3_varies hS0 j))) ?_)
  have := cont_Fluid_sum33 hS
  exact sub (mul (sub (div (fl_const _) hKf) (div (fl_const _) hK)) hp)
    (sub this (div (fl_const _) hK))

/-! ## Elastic impedance -/

theorem base_ne_zero (norm : Bool) {a : Fl} (h : a ≠ fin 0) (b : Fl) :
    (if norm = true then a / b else a) ≠ fin 0 := by
  split
  · exact quotient_ne_zero h b
  · exact h

theorem cont_AVO_EI_ref_entry {ipn isn mVp mVs mrho Vp Vs rho theta SP : X → Fl} (_ : Varies ipn)
    (_ : Varies isn) (_ : Varies mVp) (_ : Varies mVs) (_ : Varies mrho) (_ : Varies Vp) (_ : Varies Vs)
    (_ : Varies rho) (_ : Varies theta) (_ : Varies SP) (norm : Bool) (h1 : ∀ x, Vp x ≠ fin 0)
    (h2 : ∀ x, Vs x ≠ fin 0) (h3 : ∀ x, rho x ≠ fin 0) :
    Varies fun x => AVO.EI_ref_entry (ipn x) (isn x) (mVp x) (mVs x) (mrho x) norm (Vp x) (Vs x) (rho x)
      (theta x) (SP x) := by
  unfold AVO.EI_ref_entry
  dsimp only
  vary []
  all_goals
    rename_i x hx
    first
      | exact absurd hx (base_ne_zero norm (h1 x) _)
      | exact absurd hx (base_ne_zero norm (h2 x) _)
      | exact absurd hx (base_ne_zero norm (h3 x) _)

/-- `EI_ref` on logs without a zero. -/
theorem C109_AVO_EI_ref {Vp Vs rho : X → List Fl} {theta SP : X → Fl} (hVp : Varies Vp)
    (hVs : Varies Vs) (hr : Varies rho) (ht : Varies theta) (hSP : Varies SP) (norm : Bool)
    (h1 : ∀ x, fin 0 ∉ Vp x) (h2 : ∀ x, fin 0 ∉ Vs x) (h3 : ∀ x, fin 0 ∉ rho x) :
    Varies fun x => AVO.EI_ref (Vp x) (Vs x) (rho x) (theta x) (SP x) norm := by
  have m1 := cont_AVO_mean X _ hVp
  have m2 := cont_AVO_mean X _ hVs
  have m3 := cont_AVO_mean X _ hr
  have i1 : Varies fun x => if norm then AVO.mean (Vp x) * AVO.mean (rho x) else 1 :=
    cond_const (mul m1 m3) (fl_const _)
  have i2 : Varies fun x => if norm then AVO.mean (Vs x) * AVO.mean (rho x) else 1 :=
    cond_const (mul m2 m3) (fl_const _)
  unfold AVO.EI_ref
  refine map_mem (zip' hVp (zip' hVs hr)) fun G hG hv => ?_
  have mem : ∀ x, (G x).1 ∈ Vp x ∧ (G x).2.1 ∈ Vs x ∧ (G x).2.2 ∈ rho x := by
    intro x
    obtain ⟨a, b⟩ := List.of_mem_zip (hG x)
    obtain ⟨c, d⟩ := List.of_mem_zip b
    exact ⟨a, c, d⟩
  exact cont_AVO_EI_ref_entry i1 i2 m1 m2 m3 hv.1 hv.2.1 hv.2.2 ht hSP norm
    (fun x e => h1 x (e ▸ (mem x).1)) (fun x e => h2 x (e ▸ (mem x).2.1))
    (fun x e => h3 x (e ▸ (mem x).2.2))

/-! ## Families that meet the conditions -/

/-- Saturation from 0 to 1 at the exponent 3. -/
example : Varies fun t : ℝ => Fluid.Brie (fin 2.5) (fin 0.1) (fin t) (fin 3) :=
  C109_Fluid_Brie (fl_const _) (fl_const _) (of_continuous continuous_id) (fl_const _)
    fun _ _ h => by rw [fin_inj] at h; norm_num at h

/-- A shale content that goes through zero. -/
example : Varies fun t : ℝ => QI.matrix_modulus (fin t) (fin 0.4) (fin 0.3) (fin 21) (fin 37) (fin 37) :=
  C109_QI_matrix_modulus (of_continuous continuous_id) (fl_const _) (fl_const _) (fl_const _)
    (fl_const _) (fl_const _) fun _ => ⟨21, by norm_num, rfl⟩

/-- A fluid modulus that changes, in a mineral that does not, with any inverse. -/
example (linv : Mat6 Fl → Except PyErr (Mat6 Fl)) (S : Mat6 Fl) : Varies fun t : ℝ =>
    Fluid.Brown_Korringa_dry2sat linv S (fin 37) (fin 44) (fin t) (fin 0.2) := by
  refine C109_Fluid_Brown_Korringa_dry2sat (fun i j => fl_const _) (fl_const _)
    (of_continuous continuous_id) (fl_const _) ?_
  cases h : linv (utils.write_iso (fin 37) (fin 44)) with
  | error e => exact .inl ⟨e, fun _ => rfl⟩
  | ok M => exact .inr ⟨fun _ => M, fun i j => fl_const _, fun _ => rfl⟩

/-- A log in which one sample changes. -/
example : Varies fun t : ℝ => AVO.EI_ref [fin 3000, fin (3000 + t ^ 2)] [fin 1500, fin 1600]
    [fin 2.2, fin 2.3] (fin 20) (fin 4) true := by
  refine C109_AVO_EI_ref
    ⟨[fun _ => fin 3000, fun t => fin (3000 + t ^ 2)], ?_, fun _ => rfl⟩
    ⟨[fun _ => fin 1500, fun _ => fin 1600], ?_, fun _ => rfl⟩
    ⟨[fun _ => fin 2.2, fun _ => fin 2.3], ?_, fun _ => rfl⟩ (fl_const _) (fl_const _) true ?_ ?_ ?_
  · intro G hG
    simp only [List.mem_cons, List.not_mem_nil, or_false] at hG
    rcases hG with rfl | rfl
    · exact fl_const _
    · exact of_continuous (by fun_prop)
  · intro G hG
    simp only [List.mem_cons, List.not_mem_nil, or_false] at hG
    rcases hG with rfl | rfl <;> exact fl_const _
  · intro G hG
    simp only [List.mem_cons, List.not_mem_nil, or_false] at hG
    rcases hG with rfl | rfl <;> exact fl_const _
  · intro t h
    have h : fin 0 ∈ [fin 3000, fin (3000 + t ^ 2)] := h
    simp only [List.mem_cons, List.not_mem_nil, or_false, fin_inj] at h
    have := sq_nonneg t
    rcases h with h | h <;> linarith
  · intro t h
    norm_num [fin_inj] at h
  · intro t h
    norm_num [fin_inj] at h

/-- A pore that closes, and one that opens towards a sphere from below. -/
example : Varies fun t : {t : ℝ // 0 < t ∧ t < 1} => EM.PQ (fin 37) (fin 44) (fin 2.2) (fin 0) (fin t.1) := by
  refine C109_EM_PQ_oblate (fl_const _) (fl_const _) (fl_const _) (fl_const _)
    (of_continuous continuous_subtype_val) fun t => ⟨t.1, t.2.2, rfl⟩

end RockPhy.Props
