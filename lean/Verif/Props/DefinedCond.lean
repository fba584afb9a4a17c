import Verif.Props.Defined
import Verif.Np

/-!
# C111: physical inputs give numbers, formulas with differences in a denominator or under a root
-/

namespace RockPhy.Props

open Spec Fl

/-! ## Bounds -/

theorem C111_EM_HS_upper (f K1 K2 G1 G2 : Fl) (h0 : NonNeg f) (hf : AtMost f 1) (hK2 : Pos K2) (hG2 : Pos G2)
    (hK : Below K2 K1) (hG : Below G2 G1) :
    Pos (EM.HS f K1 K2 G1 G2 "upper").1 ∧ Pos (EM.HS f K1 K2 G1 G2 "upper").2 := by
  obtain ⟨f, h0, rfl⟩ := h0
  obtain ⟨f', o, h1, e, e1⟩ := hf
  rw [fl_one] at e1; cases e; cases e1
  obtain ⟨k2, p2, rfl⟩ := hK2
  obtain ⟨g2, q2, rfl⟩ := hG2
  obtain ⟨_, k1, hk, e, rfl⟩ := hK; cases e
  obtain ⟨_, g1, hg, e, rfl⟩ := hG; cases e
  have p1 : 0 < k1 := p2.trans hk
  have q1 : 0 < g1 := q2.trans hg
  have ek : k2 - k1 ≠ 0 := (sub_neg.mpr hk).ne
  have eg : g2 - g1 ≠ 0 := (sub_neg.mpr hg).ne
  -- the denominators are negative
  have dk : (k2 - k1)⁻¹ + f * (k1 + 4 * g1 / 3)⁻¹ < 0 := by
    have a : (k1 - k2)⁻¹ = -(k2 - k1)⁻¹ := by rw [← inv_neg, neg_sub]
    have b : (k1 + 4 * g1 / 3)⁻¹ < (k1 - k2)⁻¹ :=
      inv_strictAnti₀ (sub_pos.mpr hk) (by nlinarith)
    have c : f * (k1 + 4 * g1 / 3)⁻¹ ≤ (k1 + 4 * g1 / 3)⁻¹ :=
      mul_le_of_le_one_left (by positivity) h1
    linarith
  have tq : (k1 + 2 * g1) / (5 * g1 * (k1 + 4 * g1 / 3)) * 2 < (g1 - g2)⁻¹ := by
    have hd : 0 < g1 - g2 := sub_pos.mpr hg
    have : (g1 - g2)⁻¹ = 1 / (g1 - g2) := by ring
    rw [this, div_mul_eq_mul_div, div_lt_div_iff₀ (by positivity) hd]
    nlinarith [mul_pos p1 q1, mul_pos q1 q1, mul_pos p1 q2, mul_pos q1 q2]
  have dg : (g2 - g1)⁻¹ + 2 * f * ((k1 + 2 * g1) / (5 * g1 * (k1 + 4 * g1 / 3))) < 0 := by
    have a : (g1 - g2)⁻¹ = -(g2 - g1)⁻¹ := by rw [← inv_neg, neg_sub]
    have c : f * ((k1 + 2 * g1) / (5 * g1 * (k1 + 4 * g1 / 3)))
        ≤ (k1 + 2 * g1) / (5 * g1 * (k1 + 4 * g1 / 3)) :=
      mul_le_of_le_one_left (by positivity) h1
    linarith
  have nk := dk.ne
  have ng := dg.ne
  refine ⟨⟨k1 + (1 - f) / ((k2 - k1)⁻¹ + f * (k1 + 4 * g1 / 3)⁻¹), ?_, ?_⟩,
    ⟨g1 + (1 - f) / ((g2 - g1)⁻¹ + 2 * f * ((k1 + 2 * g1) / (5 * g1 * (k1 + 4 * g1 / 3)))), ?_, ?_⟩⟩
  · have : -(k1 - k2) ≤ (1 - f) / ((k2 - k1)⁻¹ + f * (k1 + 4 * g1 / 3)⁻¹) := by
      rw [le_div_iff_of_neg dk]
      have a : (k1 - k2) * (k2 - k1)⁻¹ = -1 := by
        rw [← neg_sub k2 k1, neg_mul, mul_inv_cancel₀ ek]
      have b : (k1 - k2) * (f * (k1 + 4 * g1 / 3)⁻¹) ≤ f := by
        have hM : 0 < k1 + 4 * g1 / 3 := by positivity
        have : (k1 - k2) * (k1 + 4 * g1 / 3)⁻¹ ≤ 1 := by
          rw [← div_eq_mul_inv, div_le_one hM]; nlinarith
        nlinarith
      nlinarith
    linarith
  · fl_eval [EM.HS, if_true]
  · have : -(g1 - g2) ≤ (1 - f) / ((g2 - g1)⁻¹
        + 2 * f * ((k1 + 2 * g1) / (5 * g1 * (k1 + 4 * g1 / 3)))) := by
      rw [le_div_iff_of_neg dg]
      have a : (g1 - g2) * (g2 - g1)⁻¹ = -1 := by
        rw [← neg_sub g2 g1, neg_mul, mul_inv_cancel₀ eg]
      have hd : 0 < g1 - g2 := sub_pos.mpr hg
      have b : (g1 - g2) * ((k1 + 2 * g1) / (5 * g1 * (k1 + 4 * g1 / 3)) * 2) ≤ 1 := by
        have := mul_lt_mul_of_pos_left tq hd
        rw [mul_inv_cancel₀ hd.ne'] at this
        exact this.le
      nlinarith
    linarith
  · fl_eval [EM.HS, if_true]

theorem C111_EM_HS_lower (f K1 K2 G1 G2 : Fl) (h0 : NonNeg f) (hf : AtMost f 1) (hK2 : Pos K2) (hG2 : Pos G2)
    (hK : Below K2 K1) (hG : Below G2 G1) :
    Pos (EM.HS f K1 K2 G1 G2 "lower").1 ∧ Pos (EM.HS f K1 K2 G1 G2 "lower").2 := by
  have a1 := Def.nn_sub hf
  have a2 := Def.inv (Def.pos_sub hK)
  have a3 := Def.inv (Def.pos_sub hG)
  refine ⟨?_, ?_⟩
  · simp only [EM.HS, if_neg (show ("lower" : String) ≠ "upper" by decide)]; num
  · simp only [EM.HS, if_neg (show ("lower" : String) ≠ "upper" by decide)]; num

/-! ## Averages -/

theorem Def_lsum {l : List Fl} (h : ∀ x ∈ l, Number x) : Number (lsum l) := by
  induction l with
  | nil => exact ⟨0, lsum_nil⟩
  | cons a l ih =>
    exact Def.add (h a (by simp)) (ih fun x hx => h x (by simp [hx]))

theorem Def_lsum_pos {l : List Fl} (h : ∀ x ∈ l, NonNeg x) (h1 : ∃ x ∈ l, Pos x) : Pos (lsum l) := by
  induction l with
  | nil => obtain ⟨x, hx, _⟩ := h1; exact absurd hx (by simp)
  | cons a l ih =>
    have hl : NonNeg (lsum l) := by
      have : ∀ x ∈ l, NonNeg x := fun x hx => h x (by simp [hx])
      clear ih h h1
      induction l with
      | nil => exact ⟨0, le_rfl, lsum_nil⟩
      | cons b l ih => exact Def.nn_add (this b (by simp)) (ih fun x hx => this x (by simp [hx]))
    obtain ⟨x, hx, hp⟩ := h1
    rcases List.mem_cons.mp hx with e | e
    · subst e; exact Def.pos_add_left hp hl
    · exact Def.pos_add_right (h a (by simp)) (ih (fun x hx => h x (by simp [hx])) ⟨x, e, hp⟩)

/-- Any number of phases, one of them at least present. -/
theorem C111_EM_VRH (volumes M : List Fl) (hl : volumes.length = M.length)
    (hv : ∀ v ∈ volumes, NonNeg v) (h1 : ∃ v ∈ volumes, Pos v) (hM : ∀ m ∈ M, Pos m) :
    ∃ v, EM.VRH volumes M = .ok v ∧ Pos v.1 ∧ Pos v.2.1 ∧ Pos v.2.2 := by
  have key : ∀ (f l : List Fl), f.length = l.length → (∀ v ∈ f, NonNeg v) → (∃ v ∈ f, Pos v) →
      (∀ m ∈ l, Pos m) → Pos (lsum (List.zipWith (· * ·) f l)) := by
    intro f l hfl hf hp hm
    apply Def_lsum_pos
    · intro x hx
      obtain ⟨i, hi, rfl⟩ := List.getElem_of_mem hx
      rw [List.length_zipWith] at hi
      rw [List.getElem_zipWith]
      exact Def.nn_mul (hf _ (List.getElem_mem _)) (hm _ (List.getElem_mem _)).nonneg
    · obtain ⟨v, hv, hp⟩ := hp
      obtain ⟨i, hi, rfl⟩ := List.getElem_of_mem hv
      have hi' : i < l.length := hfl ▸ hi
      refine ⟨f[i] * l[i], ?_, Def.pos_mul hp (hm _ (List.getElem_mem _))⟩
      have hz : i < (List.zipWith (· * ·) f l).length := by rw [List.length_zipWith]; omega
      have : (List.zipWith (· * ·) f l)[i] = f[i] * l[i] := List.getElem_zipWith
      exact this ▸ List.getElem_mem hz
  have a := key volumes M hl hv h1 hM
  have b := key volumes (M.map fun m => 1 / m) (by simpa using hl) hv h1 (by
    intro m hm
    obtain ⟨x, hx, rfl⟩ := List.mem_map.mp hm
    exact Def.pos_div Def.one (hM x hx))
  have e1 : dot volumes M = .ok (lsum (List.zipWith (· * ·) volumes M)) := if_pos hl
  have e2 : dot volumes (M.map fun m => 1 / m)
      = .ok (lsum (List.zipWith (· * ·) volumes (M.map fun m => 1 / m))) :=
    if_pos (by simpa using hl)
  generalize lsum (List.zipWith (· * ·) volumes M) = x at a e1
  generalize lsum (List.zipWith (· * ·) volumes (M.map fun m => 1 / m)) = y at b e2
  refine ⟨(x, PyNum.inv y, 0.5 * (PyNum.inv y + x)), ?_, a, Def.inv b, ?_⟩
  · simp only [EM.VRH, e1, e2, Bind.bind, Except.bind, pure, Except.pure]
  · dsimp only; num

theorem C111_QI_den_matrix (vsh phi_c phi_0 den_sh den_g den_c : Fl) (h1 : Number vsh)
    (h2 : Number phi_c) (h3 : Below phi_0 1) (h4 : Pos den_sh) (h5 : Pos den_g) (h6 : Pos den_c) :
    ∃ v, QI.den_matrix vsh phi_c phi_0 den_sh den_g den_c = .ok v ∧ Number v := by
  refine ⟨_, rfl, ?_⟩
  apply Def_lsum
  intro x hx
  simp only [List.zipWith_cons_cons, List.zipWith_nil_right, List.mem_cons, List.not_mem_nil,
    or_false] at hx
  rcases hx with rfl | rfl | rfl <;> num

theorem C111_EM_MT_average (f Kmat Gmat K1 G1 K2 G2 : Fl) (h0 : Pos f) (h1 : Below f 1) (hK : Pos Kmat)
    (hG : Pos Gmat) (hK1 : Pos K1) (hG1 : Pos G1) (hK2 : Pos K2) (hG2 : Pos G2) :
    Pos (EM.MT_average f Kmat Gmat K1 G1 K2 G2).1 ∧ Pos (EM.MT_average f Kmat Gmat K1 G1 K2 G2).2 := by
  obtain ⟨nu, n1, n2, -, e⟩ := Def.poisson hK hG
  have d : 0 < 1 - nu := by linarith
  obtain ⟨a, a0, a1, ea⟩ : ∃ a : ℝ, 0 < a ∧ a < 1 ∧ (1 + fin nu) / (3 * (1 - fin nu)) = fin a := by
    refine ⟨(1 + nu) / (3 * (1 - nu)), div_pos (by linarith) (by positivity), ?_, by fl_eval []⟩
    rw [div_lt_one (by positivity)]; linarith
  obtain ⟨b, b0, b1, eb⟩ : ∃ b : ℝ, 0 < b ∧ b < 1
      ∧ 2 * (4 - 5 * fin nu) / (15 * (1 - fin nu)) = fin b := by
    refine ⟨2 * (4 - 5 * nu) / (15 * (1 - nu)), div_pos (by linarith) (by positivity), ?_,
      by fl_eval []⟩
    rw [div_lt_one (by positivity)]; linarith
  have key : ∀ (m x : Fl) (c : ℝ), Pos m → Pos x → 0 < c → c < 1 → Pos (m - (m - x) * fin c) := by
    rintro _ _ c ⟨m, hm, rfl⟩ ⟨x, hx, rfl⟩ c0 c1
    exact ⟨m - (m - x) * c, by nlinarith, by fl_eval []⟩
  have k1 := key _ _ _ hK hK1 a0 a1
  have k2 := key _ _ _ hK hK2 a0 a1
  have g1 := key _ _ _ hG hG1 b0 b1
  have g2 := key _ _ _ hG hG2 b0 b1
  simp only [EM.MT_average, e, ea, eb]
  refine ⟨?_, ?_⟩ <;> num

/-! ## Cracks -/

section cracks
variable {K G : Fl} (hK : Pos K) (hG : Pos G)
include hK hG

theorem Def_lame1 : Pos (K - 2 * G / 3 + G) := by
  obtain ⟨k, hk, rfl⟩ := hK
  obtain ⟨g, hg, rfl⟩ := hG
  exact ⟨k - 2 * g / 3 + g, by linarith, by fl_eval []⟩

theorem Def_lame2 : Pos (K - 2 * G / 3 + 2 * G) := by
  obtain ⟨k, hk, rfl⟩ := hK
  obtain ⟨g, hg, rfl⟩ := hG
  exact ⟨k - 2 * g / 3 + 2 * g, by linarith, by fl_eval []⟩

theorem Def_lame3 : Pos (3 * (K - 2 * G / 3) + 4 * G) := by
  obtain ⟨k, hk, rfl⟩ := hK
  obtain ⟨g, hg, rfl⟩ := hG
  exact ⟨3 * (k - 2 * g / 3) + 4 * g, by linarith, by fl_eval []⟩

end cracks

/-- Cracks filled with a weak material, a fluid (`Gi = 0`) or nothing. -/
theorem C111_EM_hudson_rand (K G Ki Gi alpha crd : Fl) (hK : Pos K) (hG : Pos G) (hKi : NonNeg Ki)
    (hGi : NonNeg Gi) (ha : Pos alpha) (hc : Number crd) :
    Number (EM.hudson_rand K G Ki Gi alpha crd).1 ∧ Number (EM.hudson_rand K G Ki Gi alpha crd).2 := by
  have l1 := Def_lame1 hK hG
  have l2 := Def_lame2 hK hG
  have l3 := Def_lame3 hK hG
  have U1 : Number (EM.hudson_U1 K G Gi alpha) := by simp only [EM.hudson_U1, EM.hudson_M]; num
  have U3 : Number (EM.hudson_U3 K G Ki Gi alpha) := by simp only [EM.hudson_U3, EM.hudson_kapa]; num
  refine ⟨?_, ?_⟩
  · simp only [EM.hudson_rand]; num
  · simp only [EM.hudson_rand]; num

/-- First order: any crack set.  The second order expansion adds no further denominator. -/
theorem C111_EM_hudson (K G Ki Gi alpha crd : Fl) (order : Int) (ho : order = 1 ∨ order = 2)
    (hK : Pos K) (hG : Pos G) (hKi : NonNeg Ki) (hGi : NonNeg Gi) (ha : Pos alpha) (hc : Number crd) :
    ∃ v, EM.hudson_consts K G Ki Gi alpha crd order = .ok v ∧ Number v.1 ∧ Number v.2.1 ∧ Number v.2.2.1
      ∧ Number v.2.2.2.1 ∧ Number v.2.2.2.2 := by
  have l1 := Def_lame1 hK hG
  have l2 := Def_lame2 hK hG
  have l3 := Def_lame3 hK hG
  have U1 : Number (EM.hudson_U1 K G Gi alpha) := by simp only [EM.hudson_U1, EM.hudson_M]; num
  have U3 : Number (EM.hudson_U3 K G Ki Gi alpha) := by simp only [EM.hudson_U3, EM.hudson_kapa]; num
  rcases ho with rfl | rfl
  · refine ⟨_, rfl, ?_, ?_, ?_, ?_, ?_⟩ <;> dsimp only <;> num
  · refine ⟨_, rfl, ?_, ?_, ?_, ?_, ?_⟩ <;> dsimp only <;> num

theorem C111_EM_Dilute_crack (Ks Gs cd : Fl) (hK : Pos Ks) (hG : Pos Gs) (hc : NonNeg cd) :
    Pos (EM.Dilute_crack Ks Gs cd).1 ∧ Pos (EM.Dilute_crack Ks Gs cd).2 := by
  obtain ⟨nu, h1, h2, -, e⟩ := Def.poisson hK hG
  simp only [EM.Dilute_crack, e]
  have a1 : Pos (1 - fin nu ** 2) := ⟨1 - nu ^ 2, by nlinarith, by fl_eval []⟩
  have a2 : Pos (1 - 2 * fin nu) := ⟨1 - 2 * nu, by linarith, by fl_eval []⟩
  have a3 : Pos (1 - fin nu) := ⟨1 - nu, by linarith, by fl_eval []⟩
  have a4 : Pos (5 - fin nu) := ⟨5 - nu, by linarith, by fl_eval []⟩
  have a5 : Pos (2 - fin nu) := ⟨2 - nu, by linarith, by fl_eval []⟩
  refine ⟨?_, ?_⟩ <;> num

theorem C111_EM_OConnell_Budiansky (K0 G0 crd : Fl) (hK : Pos K0) (hG : Pos G0) (hc : NonNeg crd)
    (hc1 : AtMost crd (9 / 16)) :
    Number (EM.OConnell_Budiansky K0 G0 crd).1 ∧ Number (EM.OConnell_Budiansky K0 G0 crd).2 := by
  obtain ⟨nu, h1, h2, e, -⟩ := Def.poisson hK hG
  obtain ⟨c, h0, rfl⟩ := hc
  obtain ⟨_, d, hd, q, q1⟩ := hc1; cases q
  have : (9 / 16 : Fl) = fin (9 / 16) := by fl_eval []
  rw [this] at q1; cases q1
  obtain ⟨w, e2, h3⟩ : ∃ w, fin nu * (1 - 16 * fin c / 9) = fin w ∧ w < 1 / 2 := by
    refine ⟨nu * (1 - 16 * c / 9), by fl_eval [], ?_⟩
    have a : 0 ≤ 1 - 16 * c / 9 := by linarith
    nlinarith
  simp only [EM.OConnell_Budiansky, e, e2]
  have a2 : Pos (1 - 2 * fin w) := ⟨1 - 2 * w, by linarith, by fl_eval []⟩
  have a5 : Pos (2 - fin w) := ⟨2 - w, by linarith, by fl_eval []⟩
  refine ⟨?_, ?_⟩ <;> num

/-! ## Sands and shales -/

theorem C111_GM_shaly_sand (phis C Kss Gss Kcc Gcc : Fl) (h1 : Pos C) (h2 : Below C phis)
    (h3 : Pos Kss) (h4 : Pos Gss) (h5 : Pos Kcc) (h6 : Pos Gcc) :
    Number (GM.shaly_sand phis C Kss Gss Kcc Gcc).1 ∧ Number (GM.shaly_sand phis C Kss Gss Kcc Gcc).2 := by
  have h7 : Pos phis := by
    obtain ⟨c, hc, rfl⟩ := h1
    obtain ⟨_, p, h, e, rfl⟩ := h2; cases e
    exact ⟨p, hc.trans h, rfl⟩
  refine ⟨?_, ?_⟩ <;> simp only [GM.shaly_sand] <;> num

theorem C111_GM_ThomasStieber (phi_sand phi_sh vsh : Fl) (h1 : Number phi_sand) (h2 : Number phi_sh)
    (h3 : Number vsh) :
    Number (GM.ThomasStieber phi_sand phi_sh vsh).1 ∧ Number (GM.ThomasStieber phi_sand phi_sh vsh).2 := by
  refine ⟨?_, ?_⟩ <;> simp only [GM.ThomasStieber] <;> num

section pack
variable {K0 G0 phic Cn sigma f : Fl} (h1 : Pos K0) (h2 : Pos G0) (h4 : Below phic 1)
  (h5 : Pos Cn) (h6 : Pos sigma) (h7 : NonNeg f) (h8 : AtMost f 1)
include h1 h2 h4 h5 h6 h7 h8

theorem C111_GM_hertzmindlin :
    Pos (GM.hertzmindlin K0 G0 phic Cn sigma f).1 ∧ Pos (GM.hertzmindlin K0 G0 phic Cn sigma f).2 := by
  obtain ⟨nu, n1, n2, e, -⟩ := Def.poisson h1 h2
  have a3 : Pos (1 - fin nu) := ⟨1 - nu, by linarith, by fl_eval []⟩
  have a5 : Pos (2 - fin nu) := ⟨2 - nu, by linarith, by fl_eval []⟩
  have a6 : Pos (2 + 3 * f - fin nu * (1 + 3 * f)) := by
    obtain ⟨f, hf, rfl⟩ := h7
    exact ⟨2 + 3 * f - nu * (1 + 3 * f), by nlinarith, by fl_eval []⟩
  simp only [GM.hertzmindlin, e]
  refine ⟨?_, ?_⟩ <;> num

theorem C111_GM_Walton :
    Pos (GM.Walton K0 G0 phic Cn sigma f).1 ∧ Pos (GM.Walton K0 G0 phic Cn sigma f).2 := by
  obtain ⟨nu, n1, n2, e, -⟩ := Def.poisson h1 h2
  have a5 : Pos (2 - fin nu) := ⟨2 - nu, by linarith, by fl_eval []⟩
  have a6 : Pos (5 - 4 * fin nu) := ⟨5 - 4 * nu, by linarith, by fl_eval []⟩
  have a7 : Pos (G0 + (K0 - 2 * G0 / 3)) := by
    obtain ⟨k, hk, rfl⟩ := h1
    obtain ⟨g, hg, rfl⟩ := h2
    exact ⟨g + (k - 2 * g / 3), by linarith, by fl_eval []⟩
  have K : Pos (GM.Walton K0 G0 phic Cn sigma f).1 := by simp only [GM.Walton]; num
  refine ⟨K, ?_⟩
  simp only [GM.Walton, e] at K ⊢
  generalize (1 : Fl) / 6 * _ = x at K ⊢
  obtain ⟨x, hx, rfl⟩ := K
  obtain ⟨f, hf, rfl⟩ := h7
  obtain ⟨_, o, hf1, q, q1⟩ := h8; cases q
  rw [fl_one] at q1; cases q1
  have d : 0 < 2 - nu := by linarith
  refine ⟨f * (3 / 5 * x * (5 - 4 * nu) / (2 - nu)) + (1 - f) * (3 / 5 * x), ?_, by fl_eval []⟩
  have b : 3 / 5 * x ≤ 3 / 5 * x * (5 - 4 * nu) / (2 - nu) := by
    rw [le_div_iff₀ d]
    nlinarith
  nlinarith

variable {phi : Fl} (h9 : Pos phi) (h10 : Below phi phic)
include h9 h10

omit h1 h2 h5 h6 h7 h8 h4 in
theorem Def_phic : Pos phic := by
  obtain ⟨p, hp, rfl⟩ := h9
  obtain ⟨_, q, h, e, rfl⟩ := h10; cases e
  exact ⟨q, hp.trans h, rfl⟩

theorem C111_GM_softsand :
    Number (GM.softsand K0 G0 phi phic Cn sigma f).1 ∧ Number (GM.softsand K0 G0 phi phic Cn sigma f).2 := by
  obtain ⟨a, b⟩ := C111_GM_hertzmindlin h1 h2 h4 h5 h6 h7 h8
  have c := Def_phic h9 h10
  simp only [GM.softsand]
  refine ⟨?_, ?_⟩ <;> num

theorem C111_GM_stiffsand :
    Number (GM.stiffsand K0 G0 phi phic Cn sigma f).1
    ∧ Number (GM.stiffsand K0 G0 phi phic Cn sigma f).2 := by
  obtain ⟨a, b⟩ := C111_GM_hertzmindlin h1 h2 h4 h5 h6 h7 h8
  have c := Def_phic h9 h10
  simp only [GM.stiffsand]
  refine ⟨?_, ?_⟩ <;> num

omit h6 h7 h8 h9 in
/-- Contact cement, with both cementation schemes. -/
theorem C111_GM_contactcement (Kc Gc : Fl) (k1 : Pos Kc) (k2 : Pos Gc) (scheme : Int) :
    Number (GM.contactcement K0 G0 Kc Gc phi phic Cn scheme).1
    ∧ Number (GM.contactcement K0 G0 Kc Gc phi phic Cn scheme).2 := by
  obtain ⟨nu, n1, n2, e, -⟩ := Def.poisson h1 h2
  obtain ⟨mu, m1, m2, e', -⟩ := Def.poisson k1 k2
  have a3 : Pos (1 - fin nu) := ⟨1 - nu, by linarith, by fl_eval []⟩
  have b3 : Pos (1 - fin mu) := ⟨1 - mu, by linarith, by fl_eval []⟩
  have b4 : Pos (1 - 2 * fin mu) := ⟨1 - 2 * mu, by linarith, by fl_eval []⟩
  have al : Number (if scheme = 1 then 2 * ((phic - phi) / (3 * Cn * (1 - phic))) **. (1 / 4)
    else ((2 * (phic - phi)) / (3 * (1 - phic))) **. (1 / 2)) := by num
  simp only [GM.contactcement, e, e']
  generalize (if scheme = 1 then 2 * ((phic - phi) / (3 * Cn * (1 - phic))) **. (1 / 4)
    else ((2 * (phic - phi)) / (3 * (1 - phic))) **. (1 / 2)) = al' at al ⊢
  refine ⟨?_, ?_⟩ <;> num

end pack

/-! ## Fluid substitution -/

section fluid
variable {K_dry G_dry K0 Kf phi : Fl} (h1 : Pos K_dry) (h2 : Pos G_dry) (h3 : Pos K0) (h4 : Pos Kf)
  (h5 : Pos phi) (h7 : AtMost K_dry ((1 - phi) * K0))
include h1 h2 h3 h4 h5 h7

/-- A frame no stiffer than the Voigt average of mineral and empty pores. -/
theorem C111_Fluid_Gassmann :
    Pos (Fluid.Gassmann K_dry G_dry K0 Kf phi).1 ∧ Pos (Fluid.Gassmann K_dry G_dry K0 Kf phi).2 := by
  refine ⟨?_, h2⟩
  obtain ⟨d, hd, rfl⟩ := h1
  obtain ⟨k, hk, rfl⟩ := h3
  obtain ⟨w, hw, rfl⟩ := h4
  obtain ⟨p, hp, rfl⟩ := h5
  obtain ⟨_, b, h, e, e1⟩ := h7; cases e
  rw [fl_one, fl_sub, fl_mul] at e1; cases e1
  have B : 0 < p / w + (1 - p) / k - d / k ^ 2 := by
    have : d / k ^ 2 ≤ (1 - p) / k := by
      rw [div_le_div_iff₀ (by positivity) hk]
      nlinarith
    have : 0 < p / w := by positivity
    linarith
  have B' := B.ne'
  refine ⟨d + (1 - d / k) ^ 2 / (p / w + (1 - p) / k - d / k ^ 2), by positivity, ?_⟩
  fl_eval [Fluid.Gassmann]

theorem C111_Fluid_vels (D0 Df : Fl) (h8 : Pos D0) (h9 : Pos Df) (h6 : Below phi 1) :
    Pos (Fluid.vels K_dry G_dry K0 D0 Kf Df phi).1 ∧ Pos (Fluid.vels K_dry G_dry K0 D0 Kf Df phi).2.1
    ∧ Pos (Fluid.vels K_dry G_dry K0 D0 Kf Df phi).2.2 := by
  obtain ⟨a, b⟩ := C111_Fluid_Gassmann h1 h2 h3 h4 h5 h7
  simp only [Fluid.vels]
  refine ⟨?_, ?_, ?_⟩ <;> num

end fluid

/-- One point of a rock physics template. -/
theorem C111_QI_rpt (Kdry Gdry K0 D0 Kb Db Khc Dhc phi sw : Fl) (h1 : Pos Kdry) (h2 : Pos Gdry)
    (h3 : Pos K0) (h4 : Pos D0) (h5 : Pos Kb) (h6 : Pos Db) (h7 : Pos Khc) (h8 : Pos Dhc)
    (h9 : Pos phi) (h10 : Below phi 1) (h11 : Pos sw) (h12 : Below sw 1)
    (h13 : AtMost Kdry ((1 - phi) * K0)) :
    Pos (QI.rpt_entry Kdry Gdry K0 D0 Kb Db Khc Dhc phi sw).1
    ∧ Pos (QI.rpt_entry Kdry Gdry K0 D0 Kb Db Khc Dhc phi sw).2 := by
  have a : Pos (PyNum.inv (sw / Kb + (1 - sw) / Khc)) := by num
  have b : Pos (sw * Db + (1 - sw) * Dhc) := by num
  obtain ⟨c1, c2, c3⟩ := C111_Fluid_vels h1 h2 h3 a h9 h13 D0 _ h4 b h10
  simp only [QI.rpt_entry]
  refine ⟨?_, ?_⟩ <;> num

/-! ## Anisotropy and reflectivity -/

theorem C111_Anisotropy_Thomsen (C11 C33 C13 C44 C66 den theta : Fl) (h1 : Number C11) (h2 : Pos C44)
    (h3 : Below C44 C33) (h4 : Number C13) (h5 : Number C66) (h6 : Pos den) (h7 : Number theta) :
    let v := Anisotropy.Thomsen C11 C33 C13 C44 C66 den theta
    Number v.1 ∧ Number v.2.1 ∧ Number v.2.2.1 ∧ Number v.2.2.2.1 ∧ Number v.2.2.2.2.1
      ∧ Number v.2.2.2.2.2 := by
  have h8 : Pos C33 := by
    obtain ⟨c, hc, rfl⟩ := h2
    obtain ⟨_, p, h, e, rfl⟩ := h3; cases e
    exact ⟨p, hc.trans h, rfl⟩
  simp only [Anisotropy.Thomsen]
  refine ⟨?_, ?_, ?_, ?_, ?_, ?_⟩ <;> num

/-- Below grazing incidence, in a medium with a P wave faster than the S wave. -/
theorem C111_AVO_Aki_Richards (theta : ℝ) (vp1 vp2 vs1 vs2 den1 den2 : Fl) (ht : |theta| < 90)
    (h1 : Pos vs1) (h2 : Below vs1 vp1) (h3 : Pos vp2) (h4 : Pos vs2) (h5 : Pos den1) (h6 : Pos den2) :
    let v := AVO.Aki_Richards (fin theta) vp1 vp2 vs1 vs2 den1 den2
    Number v.1 ∧ Number v.2.1 ∧ Number v.2.2.1 ∧ Number v.2.2.2 := by
  have h8 : Pos vp1 := by
    obtain ⟨c, hc, rfl⟩ := h1
    obtain ⟨_, p, h, e, rfl⟩ := h2; cases e
    exact ⟨p, hc.trans h, rfl⟩
  have hc : 0 < Real.cos (theta * (Real.pi / 180)) := by
    have hp := Real.pi_pos
    obtain ⟨a, b⟩ := abs_lt.mp ht
    apply Real.cos_pos_of_mem_Ioo
    constructor <;> nlinarith
  have ht := Def.tan hc.ne'
  have hs : Pos (PyNum.sqrt (1 - (PyNum.sin (fin (theta * (Real.pi / 180))) ** 2
      * (vs1 ** 2 / vp1 ** 2)))) := by
    obtain ⟨s, hs, rfl⟩ := h1
    obtain ⟨_, p, h, e, rfl⟩ := h2; cases e
    have hp : 0 < p := hs.trans h
    have q : s ^ 2 / p ^ 2 < 1 := by rw [div_lt_one (by positivity)]; nlinarith
    have q0 : 0 < s ^ 2 / p ^ 2 := by positivity
    have := Real.sin_sq_le_one (theta * (Real.pi / 180))
    have r : 0 < 1 - Real.sin (theta * (Real.pi / 180)) ^ 2 * (s ^ 2 / p ^ 2) := by nlinarith
    have r' := r.le
    exact ⟨Real.sqrt (1 - Real.sin (theta * (Real.pi / 180)) ^ 2 * (s ^ 2 / p ^ 2)),
      Real.sqrt_pos.mpr r, by fl_eval []⟩
  simp only [AVO.Aki_Richards, fl_deg2rad]
  refine ⟨?_, ?_, ?_, ?_⟩ <;> num

/-! ## Regressions -/

/-- Gas gravities up to 12; those of hydrocarbon gases are between 0.56 and 1.8. -/
theorem C111_BW_pseudo_p_t (P T G : Fl) (h1 : Number P) (h2 : Number T) (h3 : Pos G) (h4 : Below G 12) :
    Number (BW.pseudo_p_t P T G).1 ∧ Number (BW.pseudo_p_t P T G).2.1
    ∧ Number (BW.pseudo_p_t P T G).2.2 := by
  have a : Pos (4.892 - 0.4048 * G) := by
    obtain ⟨g, h, rfl⟩ := h3
    obtain ⟨_, p, h, e, e1⟩ := h4; cases e
    rw [fl_nat] at e1; cases e1
    exact ⟨4.892 - 0.4048 * g, by norm_num at h ⊢; linarith, by fl_eval []⟩
  simp only [BW.pseudo_p_t]
  refine ⟨?_, ?_, ?_⟩ <;> num

/-- Oil lighter than 1.08 g/cc, above freezing. -/
theorem C111_BW_rho_K_oil (P T den : Fl) (h1 : Number P) (h2 : NonNeg T) (h3 : Pos den)
    (h4 : Below den 1.08) :
    Number (BW.rho_K_oil P T den).1 ∧ Number (BW.rho_K_oil P T den).2 := by
  obtain ⟨d, hd, rfl⟩ := h3
  obtain ⟨_, p, h, e, e1⟩ := h4; cases e
  rw [fl_sci] at e1; cases e1
  norm_num at h
  have a : Pos (2.6 - fin d) := ⟨2.6 - d, by norm_num; linarith, by fl_eval []⟩
  have b : Pos (1.08 / fin d - 1) :=
    ⟨1.08 / d - 1, by rw [sub_pos, one_lt_div hd]; norm_num; linarith, by fl_eval []⟩
  have c : Pos (fin d) := ⟨d, hd, rfl⟩
  simp only [BW.rho_K_oil]
  refine ⟨?_, ?_⟩ <;> num

theorem C111_BW_v_water (T P : Fl) (h1 : Number T) (h2 : Number P) : Number (BW.v_water T P) := by
  apply Def_lsum
  intro x hx
  obtain ⟨i, -, hx⟩ := List.mem_flatMap.mp hx
  obtain ⟨j, -, rfl⟩ := List.mem_map.mp hx
  have : Number (BW.waterCoef i j : Fl) := by
    clear hx
    fin_cases i <;> fin_cases j <;> exact ⟨_, rfl⟩
  exact Def.mul (Def.mul this (Def.npow _ h1)) (Def.npow _ h2)

theorem C111_BW_rho_K_water (T P : Fl) (h1 : Number T) (h2 : Number P) :
    Number (BW.rho_K_water T P).1 ∧ Number (BW.rho_K_water T P).2 := by
  have := C111_BW_v_water T P h1 h2
  simp only [BW.rho_K_water]
  refine ⟨?_, ?_⟩ <;> num

theorem C111_BW_v_brine (T P S : Fl) (h1 : Number T) (h2 : Number P) (h3 : NonNeg S) :
    Number (BW.v_brine T P S) := by
  have := C111_BW_v_water T P h1 h2
  simp only [BW.v_brine]
  num

theorem C111_BW_rho_K_brine (T P S : Fl) (h1 : Number T) (h2 : Number P) (h3 : NonNeg S) :
    Number (BW.rho_K_brine T P S).1 ∧ Number (BW.rho_K_brine T P S).2 := by
  have a := C111_BW_v_brine T P S h1 h2 h3
  have b := (C111_BW_rho_K_water T P h1 h2).1
  simp only [BW.rho_K_brine]
  refine ⟨?_, ?_⟩ <;> num

theorem C111_Empirical_ramm_porosity (Z : Fl) (HB : Bool) (h : Number Z) :
    Number (Empirical.ramm_porosity Z HB) := by
  simp only [Empirical.ramm_porosity]; num

/-- Depths above 6.7 km. -/
theorem C111_Empirical_Hillis (z : ℝ) (h : z < 6700) : Pos (Empirical.Hillis (fin z)) := by
  have a : Pos (135.9 - 20.22 * fin z / 1000 : Fl) :=
    ⟨135.9 - 20.22 * z / 1000, by norm_num; linarith, by fl_eval []⟩
  simp only [Empirical.Hillis]; num

/-- Velocities of consolidated rock. -/
theorem C111_Empirical_esti_VS (v : ℝ) (vsh : Fl) (h : 1130 ≤ v) (h1 : Pos vsh) (h2 : Below vsh 1) :
    Pos (Empirical.esti_VS (fin v) vsh) := by
  have a : Pos (0.80416 * fin v / 1000 - 0.85588 : Fl) :=
    ⟨0.80416 * v / 1000 - 0.85588, by norm_num; linarith, by fl_eval []⟩
  have b : Pos (0.76969 * fin v / 1000 - 0.86735 : Fl) :=
    ⟨0.76969 * v / 1000 - 0.86735, by norm_num; linarith, by fl_eval []⟩
  simp only [Empirical.esti_VS]; num

theorem C111_Permeability_Kozeny_Carman_Percolation (phi phic d B : Fl) (h1 : Number phi)
    (h2 : Below phi 1) (h3 : NonNeg phic) (h4 : Number d) (h5 : Number B) :
    Number (Permeability.Kozeny_Carman_Percolation phi phic d B) := by
  have a : Pos (1 + phic - phi) := by
    obtain ⟨p, rfl⟩ := h1
    obtain ⟨_, o, h, e, e1⟩ := h2; cases e
    rw [fl_one] at e1; cases e1
    obtain ⟨c, hc, rfl⟩ := h3
    exact ⟨1 + c - p, by linarith, by fl_eval []⟩
  simp only [Permeability.Kozeny_Carman_Percolation]; num

/-! ## Where a physical input divides by zero -/

/-- The Hashin-Shtrikman values of two phases of equal bulk modulus divide by zero. -/
theorem C111_EM_HS_violated (f G1 G2 : Fl) (k : ℝ) :
    (EM.HS f (fin k) (fin k) G1 G2 "upper").1 = bad := by
  have : PyNum.inv (fin (k - k)) = bad := by rw [sub_self]; exact if_pos rfl
  simp only [EM.HS, if_true, fl_sub, this, fl_bad_add, fl_div_bad, fl_add_bad]

/-- Gassmann's formula divides by the fluid modulus, which is zero in an empty pore. -/
theorem C111_Fluid_Gassmann_violated (K_dry G_dry K0 phi : Fl) :
    (Fluid.Gassmann K_dry G_dry K0 (fin 0) phi).1 = bad := by
  have : phi / fin 0 = bad := by
    cases phi with
    | bad => rfl
    | fin p => exact if_pos rfl
  simp only [Fluid.Gassmann, this, fl]

/-- In numpy's arithmetic, with infinities, an empty pore leaves the dry modulus. -/
theorem C111_Fluid_Gassmann_numpy {d k p : ℝ} (G_dry : Np) (hk : k ≠ 0) (hp : 0 < p) :
    (Fluid.Gassmann (.fin d) G_dry (.fin k) (.fin 0) (.fin p)).1 = .fin d := by
  have h2 : k ^ 2 ≠ 0 := pow_ne_zero 2 hk
  simp only [Fluid.Gassmann, Np.np_div_zero hp, Np.np_one, Np.np_sub, Np.np_div hk, Np.np_npow,
    Np.np_div h2, Np.np_inf_add]
  have : Np.inf - Np.fin (d / k ^ 2) = .inf := rfl
  rw [this, Np.np_div_inf, Np.np_add, add_zero]

/-- In numpy's arithmetic two phases of equal bulk modulus have this modulus. -/
theorem C111_EM_HS_numpy {f k g1 : ℝ} (G2 : Np) (hk : 0 < k) (hg : 0 < g1) :
    (EM.HS (.fin f) (.fin k) (.fin k) (.fin g1) G2 "upper").1 = .fin k := by
  have h3 : k + 4 * g1 / 3 ≠ 0 := by positivity
  have h4 : (3 : ℝ) ≠ 0 := by norm_num
  simp only [EM.HS, if_true, Np.np_sub, sub_self, Np.np_inv_zero, Np.np_nat, Np.np_mul, Np.np_div h4,
    Np.np_add, Np.np_inv h3, Np.np_inf_add, Np.np_one, Np.np_div_inf, add_zero]

/-! ## Non-vacuity -/

/-- Quartz sand with 20 per cent porosity, filled with water. -/
example : Pos (Fluid.Gassmann (fin 10) (fin 8) (fin 37) (fin 2.2) (fin 0.2)).1 :=
  (C111_Fluid_Gassmann ⟨10, by norm_num, rfl⟩ ⟨8, by norm_num, rfl⟩ ⟨37, by norm_num, rfl⟩
    ⟨2.2, by norm_num, rfl⟩ ⟨0.2, by norm_num, rfl⟩
    ⟨10, (1 - 0.2) * 37, by norm_num, rfl, by rw [fl_one, fl_sub, fl_mul]⟩).1

example : Pos (GM.hertzmindlin (fin 37) (fin 44) (fin 0.4) (fin 9) (fin 20) (fin 0.5)).1 :=
  (C111_GM_hertzmindlin ⟨37, by norm_num, rfl⟩ ⟨44, by norm_num, rfl⟩
    ⟨0.4, 1, by norm_num, rfl, fl_one⟩ ⟨9, by norm_num, rfl⟩ ⟨20, by norm_num, rfl⟩
    ⟨0.5, by norm_num, rfl⟩ ⟨0.5, 1, by norm_num, rfl, fl_one⟩).1

end RockPhy.Props
