import Verif.Props.DefinedCond
import Verif.Props.Cement
import Verif.Props.GM

/-!
# C111: physical inputs give numbers, cemented sands

Below the critical porosity and for a cement layer no thicker than the grain radius the contact
cement model gives positive moduli (`C63_positive`), and the models built on it give numbers.
-/

namespace RockPhy.Props

open Spec Fl

theorem pos_of_lt {x : Fl} : 0 < x → Pos x
  | ⟨a, b, ha, hb, h⟩ => by
    rw [fl_zero] at ha; cases ha
    exact ⟨b, h, hb⟩

section cement
variable {K0 G0 Kc Gc pb pc Cn : ℝ} {s : Int} (h : CementSystem K0 G0 Kc Gc pc Cn)
  (hp : pb ≤ pc) (ht : ThinCement pb pc Cn s)
include h hp ht

theorem C111_GM_contactcement_positive :
    Pos (GM.contactcement (fin K0) (fin G0) (fin Kc) (fin Gc) (fin pb) (fin pc) (fin Cn) s).1
    ∧ Pos (GM.contactcement (fin K0) (fin G0) (fin Kc) (fin Gc) (fin pb) (fin pc) (fin Cn) s).2 :=
  (C63_positive K0 G0 Kc Gc pb pc Cn s h hp ht).imp pos_of_lt pos_of_lt

variable {phi : Fl} (h0 : NonNeg phi) (h1 : Below phi (fin pb))
include h0 h1

omit h hp ht in
theorem ratio_below : Pos (fin pb) ∧ NonNeg (phi / fin pb) ∧ Pos (1 - phi / fin pb) := by
  obtain ⟨p, h0, rfl⟩ := h0
  obtain ⟨_, _, h1, e, e'⟩ := h1; cases e; cases e'
  have k : 0 < pb := lt_of_le_of_lt h0 h1
  refine ⟨⟨pb, k, rfl⟩, ⟨p / pb, by positivity, by rw [fl_div k.ne']⟩,
    ⟨1 - p / pb, ?_, by rw [fl_div k.ne', fl_one, fl_sub]⟩⟩
  rw [sub_pos, div_lt_one k]; exact h1

theorem C111_GM_constantcement :
    Number (GM.constantcement (fin pb) (fin K0) (fin G0) (fin Kc) (fin Gc) phi (fin pc) (fin Cn) s).1
    ∧ Number (GM.constantcement (fin pb) (fin K0) (fin G0) (fin Kc) (fin Gc) phi (fin pc)
        (fin Cn) s).2 := by
  obtain ⟨a, b⟩ := C111_GM_contactcement_positive h hp ht
  obtain ⟨c, d, e⟩ := ratio_below h0 h1
  have k : Pos (fin K0) := ⟨K0, by linarith [h.shear, h.poisson], rfl⟩
  have g : Pos (fin G0) := ⟨G0, h.shear, rfl⟩
  simp only [GM.constantcement]
  refine ⟨?_, ?_⟩ <;> num

theorem C111_GM_MUHS :
    Number (GM.MUHS (fin K0) (fin G0) (fin Kc) (fin Gc) phi (fin pb) (fin pc) (fin Cn) s).1
    ∧ Number (GM.MUHS (fin K0) (fin G0) (fin Kc) (fin Gc) phi (fin pb) (fin pc) (fin Cn) s).2 := by
  obtain ⟨a, b⟩ := C111_GM_contactcement_positive h hp ht
  obtain ⟨c, d, e⟩ := ratio_below h0 h1
  have k : Pos (fin K0) := ⟨K0, by linarith [h.shear, h.poisson], rfl⟩
  have g : Pos (fin G0) := ⟨G0, h.shear, rfl⟩
  simp only [GM.MUHS]
  refine ⟨?_, ?_⟩ <;> num

end cement

/-! ## Patchy cement -/

theorem patchyHS_number {K0 G0 phi Kp Gp : Fl} {pc : ℝ} (k : Pos K0) (g : Pos G0) (a : Pos Kp)
    (b : Pos Gp) (h0 : NonNeg phi) (h1 : Below phi (fin pc)) :
    Number (GM.patchyHS K0 G0 phi (fin pc) Kp Gp).1
    ∧ Number (GM.patchyHS K0 G0 phi (fin pc) Kp Gp).2 := by
  obtain ⟨c, d, e⟩ := ratio_below h0 h1
  simp only [GM.patchyHS]
  refine ⟨?_, ?_⟩ <;> num

section patchy
variable {f sigma K0 G0 Kc Gc v vi Cn f_ phi : Fl} {pc : ℝ} (s : Int)
  (k : Pos K0) (g : Pos G0) (hpc : pc < 1) (hC : Pos Cn) (hs : Pos sigma) (q0 : NonNeg f_)
  (q1 : AtMost f_ 1) (f0 : NonNeg f) (f1 : AtMost f 1) (h0 : NonNeg phi) (h1 : Below phi (fin pc))
  (hv : AtMost v vi)
  (hK : Below (GM.hertzmindlin K0 G0 (fin pc) Cn sigma f_).1
    (GM.contactcement K0 G0 Kc Gc (fin pc - v) (fin pc) Cn s).1)
  (hG : Below (GM.hertzmindlin K0 G0 (fin pc) Cn sigma f_).2
    (GM.contactcement K0 G0 Kc Gc (fin pc - v) (fin pc) Cn s).2)
include k g hpc hC hs q0 q1 f0 f1 h0 h1 hv hK hG

/-- Where the cement stiffens the pack, a patchy mixture of the cemented and the loose pack is a
number at every porosity below the critical one, in either mode. -/
theorem C111_GM_pcm (mode : String) :
    Number (GM.pcm f sigma K0 G0 phi (fin pc) v vi Kc Gc Cn mode s f_).1
    ∧ Number (GM.pcm f sigma K0 G0 phi (fin pc) v vi Kc Gc Cn mode s f_).2 := by
  obtain ⟨a, b⟩ := C111_GM_hertzmindlin (phic := fin pc) k g ⟨pc, 1, hpc, rfl, fl_one⟩ hC hs q0 q1
  have hc : GM.cemented K0 G0 (fin pc) v vi Kc Gc Cn s
      = GM.contactcement K0 G0 Kc Gc (fin pc - v) (fin pc) Cn s := by
    obtain ⟨x, y, hv, rfl, rfl⟩ := hv
    exact if_pos (by rw [fl_le]; exact hv)
  simp only [GM.pcm, hc]
  by_cases m : mode = "stiff"
  · rw [if_pos m]
    obtain ⟨x, y⟩ := C111_EM_HS_upper f _ _ _ _ f0 f1 a b hK hG
    exact patchyHS_number k g x y h0 h1
  · rw [if_neg m]
    obtain ⟨x, y⟩ := C111_EM_HS_lower f _ _ _ _ f0 f1 a b hK hG
    exact patchyHS_number k g x y h0 h1

theorem C111_GM_vpcm (al : Fl) (a0 : NonNeg al) (a1 : Below al 1) :
    Number (GM.vpcm al f sigma K0 G0 phi (fin pc) v vi Kc Gc Cn s f_).1
    ∧ Number (GM.vpcm al f sigma K0 G0 phi (fin pc) v vi Kc Gc Cn s f_).2 := by
  obtain ⟨a, b⟩ := C111_GM_hertzmindlin (phic := fin pc) k g ⟨pc, 1, hpc, rfl, fl_one⟩ hC hs q0 q1
  have hc : GM.cemented K0 G0 (fin pc) v vi Kc Gc Cn s
      = GM.contactcement K0 G0 Kc Gc (fin pc - v) (fin pc) Cn s := by
    obtain ⟨x, y, hv, rfl, rfl⟩ := hv
    exact if_pos (by rw [fl_le]; exact hv)
  have u := C111_EM_HS_upper f _ _ _ _ f0 f1 a b hK hG
  have l := C111_EM_HS_lower f _ _ _ _ f0 f1 a b hK hG
  have d := Def.pos_sub a1
  simp only [GM.vpcm, hc]
  have mix {x y : Fl} (hx : Pos x) (hy : Pos y) : Pos (x * (1 - al) + y * al) := by num
  exact patchyHS_number k g (mix u.1 l.1) (mix u.2 l.2) h0 h1

end patchy

/-- The condition on the stress is met: below some stress the cement stiffens every pack. -/
theorem C111_GM_pcm_stress {K0 G0 Kc Gc pc Cn f_ : ℝ} {pb : ℝ} {s : Int}
    (h : CementSystem K0 G0 Kc Gc pc Cn) (hp : pb ≤ pc) (ht : ThinCement pb pc Cn s)
    (hf : 0 ≤ f_) :
    ∃ top : ℝ, 0 < top ∧ ∀ sigma : ℝ, 0 < sigma → sigma < top →
      Below (GM.hertzmindlin (fin K0) (fin G0) (fin pc) (fin Cn) (fin sigma) (fin f_)).1
        (GM.contactcement (fin K0) (fin G0) (fin Kc) (fin Gc) (fin pb) (fin pc) (fin Cn) s).1
      ∧ Below (GM.hertzmindlin (fin K0) (fin G0) (fin pc) (fin Cn) (fin sigma) (fin f_)).2
        (GM.contactcement (fin K0) (fin G0) (fin Kc) (fin Gc) (fin pb) (fin pc) (fin Cn) s).2 := by
  have hpk : Pack K0 G0 pc Cn 1 :=
    ⟨by linarith [h.shear, h.poisson], h.shear, h.por, h.coord, one_pos⟩
  obtain ⟨⟨x, hx, ex⟩, ⟨y, hy, ey⟩⟩ := C111_GM_contactcement_positive h hp ht
  obtain ⟨K, G, e, -⟩ := C39_stress_scaling K0 G0 pc Cn 1 f_ 1 hpk zero_le_one
  have kp := C39_positive K0 G0 pc Cn 1 f_ hpk hf
  rw [e, fl_zero, fin_lt, fin_lt] at kp
  obtain ⟨pK, pG⟩ := kp
  refine ⟨min (x / K) (y / G) ^ 3, by positivity, fun sg h0 h1 => ?_⟩
  set t : ℝ := sg ^ (1 / 3 : ℝ) with ht
  have t0 : 0 ≤ t := Real.rpow_nonneg h0.le _
  have t3 : t ^ 3 = sg := by
    rw [ht, ← Real.rpow_natCast, ← Real.rpow_mul h0.le]; norm_num
  obtain ⟨K', G', e', e3⟩ := C39_stress_scaling K0 G0 pc Cn 1 f_ t hpk t0
  rw [e] at e'
  obtain ⟨rfl, rfl⟩ : K = K' ∧ G = G' := by
    simpa using e'
  rw [mul_one, t3] at e3
  have lt : t < min (x / K) (y / G) := by
    rw [← t3] at h1
    exact lt_of_pow_lt_pow_left₀ 3 (by positivity) h1
  rw [lt_min_iff, lt_div_iff₀ pK, lt_div_iff₀ pG] at lt
  rw [e3, ex, ey]
  exact ⟨⟨_, _, lt.1, rfl, rfl⟩, ⟨_, _, lt.2, rfl, rfl⟩⟩

/-! ## A case that meets the hypotheses -/

/-- Quartz grains with quartz cement, critical porosity 0.4, cement from 0.37. -/
example : Number (GM.constantcement (fin 0.37) (fin 37) (fin 44) (fin 37) (fin 44) (fin 0.3) (fin 0.4)
    (fin 9) 2).1 := by
  have h : CementSystem 37 44 37 44 0.4 9 := by constructor <;> norm_num
  exact (C111_GM_constantcement h (by norm_num)
    (by simp only [ThinCement]; rw [if_neg (by decide)]; norm_num)
    ⟨0.3, by norm_num, rfl⟩ ⟨0.3, 0.37, by norm_num, rfl, rfl⟩).1

end RockPhy.Props
