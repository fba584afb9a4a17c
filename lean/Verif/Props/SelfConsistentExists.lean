import Verif.Props.DEMExists
import Verif.Lemmas.Miranda

/-! # Property C82: the self-consistent equations have a root -/

namespace RockPhy.Props

open Fl RockPhy.EM RockPhy.Spec Set

/-- The aspect ratio that the code works with. -/
noncomputable def usedRatio (a : ℝ) : ℝ := if a = 1 then 0.999 else a

theorem usedRatio_range {a : ℝ} (h0 : 0 < a) (h1 : a ≤ 1) : 0 < usedRatio a ∧ usedRatio a ≤ 1 := by
  unfold usedRatio
  split
  · norm_num
  · exact ⟨h0, h1⟩

/-- The residuals as functions of the effective moduli. -/
theorem Berryman_func_fac (K G : ℝ) (hK : 0 < K) (hG : 0 < G) (ph : List Phase)
    (h : ∀ p ∈ ph, 0 ≤ p.K ∧ 0 ≤ p.G ∧ 0 < p.a ∧ p.a ≤ 1) :
    Berryman_func (fin K) (fin G) (ph.map fun p => fin p.K) (ph.map fun p => fin p.G)
        (ph.map fun p => fin p.x) (ph.map fun p => fin p.a)
      = .ok (fin (ph.map fun p => p.x * (p.K - K) * facP p.K p.G (usedRatio p.a) (K, G)).sum,
          fin (ph.map fun p => p.x * (p.G - G) * facQ p.K p.G (usedRatio p.a) (K, G)).sum,
          ph.map fun p => fin (usedRatio p.a)) := by
  obtain ⟨c, hc, e⟩ := C82_Berryman_func K G hK hG ph h
  have key : c = ph.map fun p => (facP p.K p.G (usedRatio p.a) (K, G),
      facQ p.K p.G (usedRatio p.a) (K, G)) := by
    clear e
    induction hc with
    | nil => rfl
    | @cons p q ph c hpq _ ih =>
      rw [List.map_cons, ← ih fun p hp => h p (List.mem_cons_of_mem _ hp)]
      congr 1
      obtain ⟨k1, k2, k3, k4⟩ := h p List.mem_cons_self
      obtain ⟨r0, r1⟩ := usedRatio_range k3 k4
      obtain ⟨-, -, con⟩ := hpq
      obtain ⟨P, Q, e, -, -, con'⟩ := C79_oblate K G p.K p.G _ hK hG k1 k2 r0 r1
      obtain ⟨e1, e2⟩ := con.unique con'
      rw [PQ_eval hK hG k1 k2 r0 r1] at e
      injection e with e3 e4
      rw [fin_inj] at e3 e4
      exact Prod.ext (e1.trans e3.symm) (e2.trans e4.symm)
  rw [e, key]
  have z : ∀ F : Phase → ℝ × ℝ → ℝ, ∀ w : Phase → ℝ × ℝ,
      List.zipWith F ph (ph.map w) = ph.map fun p => F p (w p) := by
    intro F w
    rw [List.zipWith_map_right, List.zipWith_self]
  rw [z, z]
  rfl

/-- Phases with positive moduli have effective moduli in the self-consistent sense: the equations
solved by `Berryman_sc` have a root with positive moduli, for any number of phases, any aspect ratios
and any fractions. -/
theorem C82_Berryman_sc_exists (ph : List Phase)
    (h : ∀ p ∈ ph, 0 < p.K ∧ 0 < p.G ∧ 0 < p.a ∧ p.a ≤ 1) (hx : ∀ p ∈ ph, 0 ≤ p.x)
    (hx' : ∃ p ∈ ph, 0 < p.x) :
    ∃ K G : ℝ, 0 < K ∧ 0 < G ∧
      Berryman_func (fin K) (fin G) (ph.map fun p => fin p.K) (ph.map fun p => fin p.G)
          (ph.map fun p => fin p.x) (ph.map fun p => fin p.a)
        = .ok (fin 0, fin 0, ph.map fun p => fin (if p.a = 1 then 0.999 else p.a)) := by
  have box : ∀ y : Phase → ℝ, (∀ p ∈ ph, 0 < y p) → ∃ lo hi : ℝ, 0 < lo ∧ lo ≤ hi ∧
      ∀ p ∈ ph, lo < y p ∧ y p < hi := by
    intro y hy
    clear hx hx' h
    induction ph with
    | nil => exact ⟨1, 1, one_pos, le_rfl, fun p hp => absurd hp List.not_mem_nil⟩
    | cons p ph ih =>
      obtain ⟨lo, hi, l0, lh, b⟩ := ih fun q hq => hy q (List.mem_cons_of_mem _ hq)
      have yp := hy p List.mem_cons_self
      refine ⟨min lo (y p / 2), max hi (y p + 1), lt_min l0 (by linarith),
        (min_le_left _ _).trans (lh.trans (le_max_left _ _)), fun q hq => ?_⟩
      rcases List.mem_cons.mp hq with rfl | hq
      · exact ⟨(min_le_right _ _).trans_lt (by linarith),
          (by linarith : y q < y q + 1).trans_le (le_max_right _ _)⟩
      · exact ⟨(min_le_left _ _).trans_lt (b q hq).1, (b q hq).2.trans_le (le_max_left _ _)⟩
  obtain ⟨kl, kh, k0, k1, kb⟩ := box Phase.K fun p hp => (h p hp).1
  obtain ⟨gl, gh, g0, g1, gb⟩ := box Phase.G fun p hp => (h p hp).2.1
  have h' : ∀ p ∈ ph, 0 ≤ p.K ∧ 0 ≤ p.G ∧ 0 < p.a ∧ p.a ≤ 1 := fun p hp =>
    ⟨(h p hp).1.le, (h p hp).2.1.le, (h p hp).2.2⟩
  have good : ∀ p ∈ ph, ∀ m : ℝ × ℝ, 0 < m.1 → 0 < m.2 →
      0 < facP p.K p.G (usedRatio p.a) m ∧ 0 < facQ p.K p.G (usedRatio p.a) m ∧
      ContinuousAt (facP p.K p.G (usedRatio p.a)) m ∧
      ContinuousAt (facQ p.K p.G (usedRatio p.a)) m := by
    intro p hp m m1 m2
    obtain ⟨q1, q2, q3, q4⟩ := h' p hp
    obtain ⟨r0, r1⟩ := usedRatio_range q3 q4
    obtain ⟨-, -, -, c1, c2⟩ := demField_smooth q1 q2 r0 r1 m1.le m2.le (add_pos m1 m2)
      (fun e => absurd e m1.ne') (fun e => absurd e m2.ne')
    obtain ⟨P, Q, e, hP, hQ, -⟩ := C79_oblate m.1 m.2 p.K p.G _ m1 m2 q1 q2 r0 r1
    rw [PQ_eval m1 m2 q1 q2 r0 r1] at e
    injection e with e3 e4
    rw [fin_inj] at e3 e4
    refine ⟨?_, ?_, c1, c2⟩
    · rw [← e3] at hP
      exact hP
    · rw [← e4] at hQ
      exact hQ
  have pos : ∀ w : Phase → ℝ, (∀ p ∈ ph, 0 < w p) → 0 < (ph.map fun p => p.x * w p).sum := by
    intro w hw
    obtain ⟨p0, hp0, hpx⟩ := hx'
    refine lt_of_lt_of_le (mul_pos hpx (hw p0 hp0)) (List.single_le_sum ?_ _ ?_)
    · intro z hz
      obtain ⟨p, hp, rfl⟩ := List.mem_map.mp hz
      exact mul_nonneg (hx p hp) (hw p hp).le
    · exact List.mem_map.mpr ⟨p0, hp0, rfl⟩
  have neg : ∀ w : Phase → ℝ, (∀ p ∈ ph, w p < 0) → (ph.map fun p => p.x * w p).sum < 0 := by
    intro w hw
    have := pos (fun p => -w p) fun p hp => by linarith [hw p hp]
    have e : (ph.map fun p => p.x * -w p) = ph.map fun p => -1 * (p.x * w p) :=
      List.map_congr_left fun p _ => by ring
    rw [e, List.sum_map_mul_left] at this
    linarith
  have cont : ∀ F : Phase → ℝ × ℝ → ℝ, (∀ p ∈ ph, ContinuousOn (F p) (Icc kl kh ×ˢ Icc gl gh)) →
      ContinuousOn (fun m => (ph.map fun p => F p m).sum) (Icc kl kh ×ˢ Icc gl gh) := by
    intro F hF
    clear hx hx' h h' kb gb good pos neg box
    induction ph with
    | nil => exact continuousOn_const
    | cons p ph ih =>
      simp only [List.map_cons, List.sum_cons]
      exact (hF p List.mem_cons_self).add (ih fun q hq => hF q (List.mem_cons_of_mem _ hq))
  obtain ⟨m, hm, z1, z2⟩ := poincare_miranda (a := kl) (b := kh) (c := gl) (d := gh)
    (u := fun m => (ph.map fun p => p.x * ((p.K - m.1) * facP p.K p.G (usedRatio p.a) m)).sum)
    (v := fun m => (ph.map fun p => p.x * ((p.G - m.2) * facQ p.K p.G (usedRatio p.a) m)).sum)
    k1 g1
    (cont _ fun p hp m hm => by
      have := (good p hp m (k0.trans_le hm.1.1) (g0.trans_le hm.2.1)).2.2.1
      exact (continuousAt_const.mul ((continuousAt_const.sub continuousAt_fst).mul
        this)).continuousWithinAt)
    (cont _ fun p hp m hm => by
      have := (good p hp m (k0.trans_le hm.1.1) (g0.trans_le hm.2.1)).2.2.2
      exact (continuousAt_const.mul ((continuousAt_const.sub continuousAt_snd).mul
        this)).continuousWithinAt)
    (fun y hy => pos _ fun p hp => mul_pos (by linarith [(kb p hp).1])
      (good p hp (kl, y) k0 (g0.trans_le hy.1)).1)
    (fun y hy => neg _ fun p hp => mul_neg_of_neg_of_pos (by linarith [(kb p hp).2])
      (good p hp (kh, y) (k0.trans_le k1) (g0.trans_le hy.1)).1)
    (fun x hx => pos _ fun p hp => mul_pos (by linarith [(gb p hp).1])
      (good p hp (x, gl) (k0.trans_le hx.1) g0).2.1)
    (fun x hx => neg _ fun p hp => mul_neg_of_neg_of_pos (by linarith [(gb p hp).2])
      (good p hp (x, gh) (k0.trans_le hx.1) (g0.trans_le g1)).2.1)
  refine ⟨m.1, m.2, k0.trans_le hm.1.1, g0.trans_le hm.2.1, ?_⟩
  rw [Berryman_func_fac m.1 m.2 (k0.trans_le hm.1.1) (g0.trans_le hm.2.1) ph h']
  simp only [mul_assoc]
  rw [z1, z2]
  rfl

/-- With a root finder that finds a root whenever there is one, `Berryman_sc` on phases with positive
moduli solves the equations; if it returns positive moduli, they lie between those of the phases. -/
theorem C82_Berryman_sc (fsolve : (Fl × Fl → Except PyErr (Fl × Fl)) → Fl × Fl → Fl × Fl)
    (hf : FindsRoot fsolve) (ph : List Phase)
    (h : ∀ p ∈ ph, 0 < p.K ∧ 0 < p.G ∧ 0 < p.a ∧ p.a ≤ 1) (hx : ∀ p ∈ ph, 0 ≤ p.x)
    (hx' : ∃ p ∈ ph, 0 < p.x) :
    ∃ K G : Fl, Berryman_sc fsolve (ph.map fun p => fin p.K) (ph.map fun p => fin p.G)
      (ph.map fun p => fin p.x) (ph.map fun p => fin p.a) = (K, G) ∧
    (∃ as', Berryman_func K G (ph.map fun p => fin p.K) (ph.map fun p => fin p.G)
      (ph.map fun p => fin p.x) (ph.map fun p => fin p.a) = .ok (fin 0, fin 0, as')) ∧
    ∀ k g : ℝ, K = fin k → G = fin g → 0 < k → 0 < g →
      (∃ p ∈ ph, p.K ≤ k) ∧ (∃ p ∈ ph, k ≤ p.K) ∧ (∃ p ∈ ph, p.G ≤ g) ∧ ∃ p ∈ ph, g ≤ p.G := by
  obtain ⟨K', G', -, -, hr⟩ := C82_Berryman_sc_exists ph h hx hx'
  have r := hf (fun p => (Berryman_func p.1 p.2 (ph.map fun p => fin p.K) (ph.map fun p => fin p.G)
    (ph.map fun p => fin p.x) (ph.map fun p => fin p.a)).map fun r => (r.1, r.2.1))
    (mean (ph.map fun p => fin p.K), mean (ph.map fun p => fin p.G))
    ⟨(fin K', fin G'), congrArg (Except.map fun r => (r.1, r.2.1)) hr⟩
  refine ⟨_, _, rfl, ?_, fun k g ek eg hk hg => ?_⟩
  · have out : ∀ v : Except PyErr (Fl × Fl × List Fl),
        (v.map fun r => (r.1, r.2.1)) = .ok (fin 0, fin 0) → ∃ as', v = .ok (fin 0, fin 0, as') := by
      intro v r
      match v, r with
      | .ok (v1, v2, v3), r =>
        injection r with r
        injection r with r1 r2
        dsimp only at r1 r2
        exact ⟨v3, by rw [r1, r2]⟩
    exact out _ r
  · exact C82_Berryman_sc_bounds fsolve k g hk hg ph
      (fun p hp => ⟨(h p hp).1.le, (h p hp).2.1.le, (h p hp).2.2⟩) hx hx' hf ⟨_, _, _, hr⟩
      (Prod.ext ek eg)

/-- Quartz, clay and a stiff inclusion. -/
example : ∃ K G : ℝ, 0 < K ∧ 0 < G ∧
    Berryman_func (fin K) (fin G) [fin 37, fin 25, fin 75] [fin 44, fin 9, fin 32]
      [fin 0.6, fin 0.3, fin 0.1] [fin 1, fin 0.1, fin 0.5]
      = .ok (fin 0, fin 0, [fin 0.999, fin 0.1, fin 0.5]) := by
  obtain ⟨K, G, hK, hG, e⟩ := C82_Berryman_sc_exists
    [⟨0.6, 37, 44, 1⟩, ⟨0.3, 25, 9, 0.1⟩, ⟨0.1, 75, 32, 0.5⟩]
    (by
      intro p hp
      fin_cases hp <;> norm_num)
    (by
      intro p hp
      fin_cases hp <;> norm_num)
    ⟨_, List.mem_cons_self, by norm_num⟩
  refine ⟨K, G, hK, hG, e.trans ?_⟩
  simp only [List.map]
  norm_num

end RockPhy.Props
