import Verif.Lemmas.Rounding
import Verif.Model.Utils
import Verif.Model.EM
import Verif.Model.Anisotropy
import Verif.Model.Fluid
import Verif.Model.Perm
import Verif.Props.EMBounds
import Verif.Props.Utils

/-! # Property C96: accuracy in computer arithmetic -/

namespace RockPhy.Props

open utils EM Anisotropy Fluid

variable {A : Rounding}

/-- Follow the operations of a formula on positive numbers. -/
macro "accuracy" : tactic => `(tactic| repeat first
  | assumption
  | exact AgreesPos.one
  | exact AgreesPos.nat _
  | exact AgreesPos.pi
  | exact AgreesPos.sci _ _ _ (by norm_num)
  | apply AgreesPos.mul
  | apply AgreesPos.div
  | apply AgreesPos.inv
  | apply AgreesPos.npow
  | apply AgreesPos.add
  | apply AgreesPos.sqrt'
  | apply Agrees.mul
  | apply Agrees.div
  | apply Agrees.add
  | apply Agrees.npow
  | apply Agrees.sqrt')

/-- Bound the number of errors of a formula on positive numbers. -/
macro "bound_errors" : tactic => `(tactic| (
  first | apply AgreesPos.mono | apply Agrees.mono
  · accuracy
  · first | decide | norm_num))

/-- C96: the velocities computed by `utils.V` have at most 6 and 4 relative rounding errors. -/
theorem C96_V {K G rho : ℝ} (hK : 0 < K) (hG : 0 < G) (hr : 0 < rho) :
    AgreesPos A 6 (V (.fin K) (.fin G) (.fin rho) : Fl × Fl).1
      (V (.fin K) (.fin G) (.fin rho) : Rd A × Rd A).1 ∧
    AgreesPos A 4 (V (.fin K) (.fin G) (.fin rho) : Fl × Fl).2
      (V (.fin K) (.fin G) (.fin rho) : Rd A × Rd A).2 := by
  have hK := AgreesPos.exact (A := A) hK
  have hG := AgreesPos.exact (A := A) hG
  have hr := AgreesPos.exact (A := A) hr
  constructor
  · unfold V; bound_errors
  · unfold V; bound_errors

/-- C96: the Kozeny-Carman family. -/
theorem C96_permeability {phi d : ℝ} (h0 : 0 < phi) (h1 : phi < 1) (hd : 0 < d) :
    AgreesPos A 10 (Permeability.Kozeny_Carman (.fin phi) (.fin d) : Fl)
      (Permeability.Kozeny_Carman (.fin phi) (.fin d) : Rd A) ∧
    AgreesPos A 10 (Permeability.Panda_Lake_cem (.fin phi) (.fin d) : Fl)
      (Permeability.Panda_Lake_cem (.fin phi) (.fin d) : Rd A) ∧
    ∀ {b : ℝ}, 0 < b → AgreesPos A 15 (Permeability.Fredrich (.fin phi) (.fin d) (.fin b) : Fl)
      (Permeability.Fredrich (.fin phi) (.fin d) (.fin b) : Rd A) := by
  have hp := AgreesPos.exact (A := A) h0
  have hq := AgreesPos.one_sub (A := A) h1
  have hd := AgreesPos.exact (A := A) hd
  refine ⟨?_, ?_, ?_⟩
  · unfold Permeability.Kozeny_Carman; bound_errors
  · unfold Permeability.Panda_Lake_cem; bound_errors
  · intro b hb
    have hb := AgreesPos.exact (A := A) hb
    unfold Permeability.Fredrich; bound_errors

/-- C96: the lower Hashin-Shtrikman values. -/
theorem C96_HS_lower {f K1 K2 G1 G2 : ℝ} (hf0 : 0 < f) (hf1 : f < 1) (hK2 : 0 < K2) (hG2 : 0 < G2)
    (hK : K2 < K1) (hG : G2 < G1) :
    AgreesPos A 12 (HS (.fin f) (.fin K1) (.fin K2) (.fin G1) (.fin G2) "lower" : Fl × Fl).1
      (HS (.fin f) (.fin K1) (.fin K2) (.fin G1) (.fin G2) "lower" : Rd A × Rd A).1 ∧
    AgreesPos A 16 (HS (.fin f) (.fin K1) (.fin K2) (.fin G1) (.fin G2) "lower" : Fl × Fl).2
      (HS (.fin f) (.fin K1) (.fin K2) (.fin G1) (.fin G2) "lower" : Rd A × Rd A).2 := by
  have hf := AgreesPos.exact (A := A) hf0
  have hq := AgreesPos.one_sub (A := A) hf1
  have hK1 := AgreesPos.exact (A := A) hK2
  have hG1 := AgreesPos.exact (A := A) hG2
  have dK := AgreesPos.sub (A := A) hK
  have dG := AgreesPos.sub (A := A) hG
  constructor
  · simp only [HS, String.reduceEq, if_false]; bound_errors
  · simp only [HS, String.reduceEq, if_false]; bound_errors

/-- C96: dilute spherical pores. -/
theorem C96_Swiss_cheese {K G phi : ℝ} (hK : 0 < K) (hG : 0 < G) (hp : 0 < phi) :
    AgreesPos A 12 (Swiss_cheese (.fin K) (.fin G) (.fin phi) : Fl × Fl).1
      (Swiss_cheese (.fin K) (.fin G) (.fin phi) : Rd A × Rd A).1 ∧
    AgreesPos A 12 (Swiss_cheese (.fin K) (.fin G) (.fin phi) : Fl × Fl).2
      (Swiss_cheese (.fin K) (.fin G) (.fin phi) : Rd A × Rd A).2 := by
  have hK := AgreesPos.exact (A := A) hK
  have hG := AgreesPos.exact (A := A) hG
  have hp := AgreesPos.exact (A := A) hp
  constructor
  · unfold Swiss_cheese; bound_errors
  · unfold Swiss_cheese; bound_errors

/-- C96: the averages of a list of `n` constituents have at most `n + 1`, `n + 3` and `n + 6`
relative rounding errors. -/
theorem C96_VRH {v M : List ℝ} (hl : v.length = M.length) (hv : ∀ a ∈ v, 0 ≤ a)
    (h0 : ∃ a ∈ v, a ≠ 0) (hM : ∀ m ∈ M, 0 < m) :
    ∃ (X Y Z : Fl) (X' Y' Z' : Rd A), VRH (v.map .fin) (M.map .fin) = .ok (X, Y, Z) ∧
      VRH (v.map .fin) (M.map .fin) = .ok (X', Y', Z') ∧ AgreesPos A (v.length + 1) X X' ∧
      AgreesPos A (v.length + 3) Y Y' ∧ AgreesPos A (v.length + 6) Z Z' := by
  have hV := Agrees.list (A := A) hv
  have hX := AgreesPos.list (A := A) hM
  have hI := AgreesPos.map (l := 1) hX (f := fun m => 1 / m) (g := fun m => 1 / m) fun x y h =>
    (AgreesPos.one.div h).mono (by simp)
  have hn : ∃ x ∈ v.map Fl.fin, x ≠ .fin 0 := by
    obtain ⟨a, ha, ha0⟩ := h0
    exact ⟨.fin a, List.mem_map_of_mem ha, by simpa using ha0⟩
  obtain ⟨s, s', h1, h2, h3⟩ := AgreesPos.dot hV hX hn (by simpa using hl)
  obtain ⟨t, t', g1, g2, g3⟩ := AgreesPos.dot hV hI hn (by simpa using hl)
  simp only [List.length_map] at h3 g3
  have hr := g3.inv
  refine ⟨s, _, _, s', _, _, ?_, ?_, h3.mono (by omega), hr.mono (by omega),
    AgreesPos.mono ((AgreesPos.sci 5 true 1 (by norm_num)).mul (hr.add h3)) (by omega)⟩
  · unfold VRH
    rw [h1, g1]; rfl
  · unfold VRH
    rw [h2, g2]; rfl

/-- C96: as computed, the Reuss average exceeds the Voigt average by no more than the rounding
errors of the two. -/
theorem C96_VRH_ordered {v M : List ℝ} (hl : v.length = M.length) (hv : ∀ a ∈ v, 0 ≤ a)
    (hs : v.sum = 1) (hM : ∀ m ∈ M, 0 < m) :
    ∃ X Y Z : ℝ, VRH (v.map .fin) (M.map .fin) = .ok ((.fin X, .fin Y, .fin Z) : Rd A × Rd A × Rd A) ∧
      0 < Y ∧ Y * (1 - A.u) ^ (2 * v.length + 4) ≤ X := by
  obtain ⟨X, Y, Z, h1, h2, h3, h4, -⟩ := C05_VRH_ordered v M hl hv hs hM
  have h0 : ∃ a ∈ v, a ≠ 0 := by
    by_contra hc
    push Not at hc
    have : v.sum = 0 := List.sum_eq_zero hc
    linarith
  obtain ⟨x, y, z, x', y', z', e1, e2, ax, ay, az⟩ := C96_VRH (A := A) hl hv h0 hM
  rw [h1] at e1
  obtain ⟨rfl, rfl, rfl⟩ : Fl.fin X = x ∧ Fl.fin Y = y ∧ Fl.fin Z = z := by simpa using e1
  obtain ⟨a, a', ea, rfl, ha, wa⟩ := ax
  obtain ⟨b, b', eb, rfl, hb, wb⟩ := ay
  obtain ⟨c, c', -, rfl, -, -⟩ := az
  obtain rfl := Fl.fin_inj.mp ea
  obtain rfl := Fl.fin_inj.mp eb
  refine ⟨_, _, _, e2, wb.pos hb, ?_⟩
  have hYX : Y ≤ X := h3.trans h4
  have w1 := wb.2
  have w2 := wa.1
  have p1 := (A.pow_pos (v.length + 1)).le
  calc b' * (1 - A.u) ^ (2 * v.length + 4) = b' * (1 - A.u) ^ (v.length + 3) * (1 - A.u) ^ (v.length + 1) := by
        rw [mul_assoc, ← pow_add]; congr 2; omega
    _ ≤ X * (1 - A.u) ^ (v.length + 1) := by
        apply mul_le_mul_of_nonneg_right (w1.trans hYX) p1
    _ ≤ _ := w2

/-- C96: listing the same constituents in another order changes the computed averages by no more
than rounding errors, although floating-point addition is not associative. -/
theorem C96_VRH_perm {ps qs : List (ℝ × ℝ)} (h : ps.Perm qs) (hv : ∀ p ∈ ps, 0 ≤ p.1)
    (h0 : ∃ p ∈ ps, p.1 ≠ 0) (hM : ∀ p ∈ ps, 0 < p.2) :
    ∃ X Y Z X' Y' Z' : ℝ,
      VRH (ps.map fun p => .fin p.1) (ps.map fun p => .fin p.2)
        = .ok ((.fin X, .fin Y, .fin Z) : Rd A × Rd A × Rd A) ∧
      VRH (qs.map fun p => .fin p.1) (qs.map fun p => .fin p.2)
        = .ok ((.fin X', .fin Y', .fin Z') : Rd A × Rd A × Rd A) ∧
      Within A (2 * ps.length + 2) X X' ∧ Within A (2 * ps.length + 6) Y Y' ∧
      Within A (2 * ps.length + 12) Z Z' := by
  have key : ∀ rs : List (ℝ × ℝ), (∀ p ∈ rs, 0 ≤ p.1) → (∃ p ∈ rs, p.1 ≠ 0) → (∀ p ∈ rs, 0 < p.2) →
      ∃ (X Y Z : Fl) (X' Y' Z' : Rd A),
        VRH (rs.map fun p => .fin p.1) (rs.map fun p => .fin p.2) = .ok (X, Y, Z) ∧
        VRH (rs.map fun p => .fin p.1) (rs.map fun p => .fin p.2) = .ok (X', Y', Z') ∧
        AgreesPos A (rs.length + 1) X X' ∧ AgreesPos A (rs.length + 3) Y Y' ∧
        AgreesPos A (rs.length + 6) Z Z' := by
    intro rs hv h0 hM
    have := C96_VRH (A := A) (v := rs.map Prod.fst) (M := rs.map Prod.snd) (by simp)
      (by simpa using fun a b hab => hv (a, b) hab)
      (by obtain ⟨p, hp, hp0⟩ := h0; exact ⟨p.1, List.mem_map_of_mem hp, hp0⟩)
      (by simpa using fun a b hab => hM (b, a) hab)
    simpa only [List.map_map, List.length_map, Function.comp_def] using this
  obtain ⟨x, y, z, x', y', z', e1, e2, ax, ay, az⟩ := key ps hv h0 hM
  obtain ⟨w, s, t, w', s', t', f1, f2, bw, bs, bt⟩ := key qs (fun p hp => hv p (h.mem_iff.mpr hp))
    (by obtain ⟨p, hp, hp0⟩ := h0; exact ⟨p, h.mem_iff.mp hp, hp0⟩) (fun p hp => hM p (h.mem_iff.mpr hp))
  have hperm := C06_VRH_perm (ps.map fun p => ((.fin p.1, .fin p.2) : Fl × Fl))
    (qs.map fun p => (.fin p.1, .fin p.2)) (h.map _)
  simp only [List.map_map, Function.comp_def] at hperm
  rw [e1, f1] at hperm
  obtain ⟨rfl, rfl, rfl⟩ : x = w ∧ y = s ∧ z = t := by simpa using hperm
  have join : ∀ {k : ℕ} {p : Fl} {q r : Rd A}, AgreesPos A k p q → AgreesPos A k p r →
      ∃ b c : ℝ, q = .fin b ∧ r = .fin c ∧ Within A (2 * k) b c := by
    intro k p q r h h'
    obtain ⟨a, b, ea, rfl, ha, wa⟩ := h
    obtain ⟨a', b', ea', rfl, ha', wa'⟩ := h'
    rw [ea] at ea'
    obtain rfl := Fl.fin_inj.mp ea'
    refine ⟨b, b', rfl, rfl, ?_⟩
    have := Within.trans ⟨wa.2, wa.1⟩ wa'
    rwa [← two_mul] at this
  rw [← h.length_eq] at bw bs bt
  obtain ⟨a, a', rfl, rfl, wa⟩ := join ax bw
  obtain ⟨b, b', rfl, rfl, wb⟩ := join ay bs
  obtain ⟨c, c', rfl, rfl, wc⟩ := join az bt
  exact ⟨_, _, _, _, _, _, e2, f2, wa, wb, wc⟩

/-- C96: the five constants of a stack of `n` layers. -/
theorem C96_Backus {v lam G : List ℝ} (hl : v.length = lam.length) (hg : v.length = G.length)
    (hv : ∀ a ∈ v, 0 ≤ a) (h0 : ∃ a ∈ v, a ≠ 0) (hL : ∀ a ∈ lam, 0 < a) (hG : ∀ a ∈ G, 0 < a) :
    ∃ (C11 C33 C13 C44 C66 : Fl) (C11' C33' C13' C44' C66' : Rd A),
      Backus (v.map .fin) (lam.map .fin) (G.map .fin) = .ok (C11, C33, C13, C44, C66) ∧
      Backus (v.map .fin) (lam.map .fin) (G.map .fin) = .ok (C11', C33', C13', C44', C66') ∧
      AgreesPos A (6 * v.length + 19) C11 C11' ∧ AgreesPos A (2 * v.length + 6) C33 C33' ∧
      AgreesPos A (4 * v.length + 12) C13 C13' ∧ AgreesPos A (2 * v.length + 4) C44 C44' ∧
      AgreesPos A (2 * v.length + 2) C66 C66' := by
  have hV := Agrees.list (A := A) hv
  have hl' := AgreesPos.list (A := A) hL
  have hg' := AgreesPos.list (A := A) hG
  have hn : ∃ x ∈ v.map Fl.fin, x ≠ .fin 0 := by
    obtain ⟨a, ha, ha0⟩ := h0
    exact ⟨.fin a, List.mem_map_of_mem ha, by simpa using ha0⟩
  have hsum : AgreesPos A v.length (lsum (v.map Fl.fin)) (lsum (v.map Rd.fin)) := by
    have h := (Agrees.lsum hV).ppos (Agrees.lsum_ne hV hn)
    simpa using h
  set S := lsum (v.map Fl.fin) with hS
  set S' : Rd A := lsum (v.map Rd.fin) with hS'
  have hW : List.Forall₂ (Agrees A (v.length + 1)) ((v.map Fl.fin).map (· / S)) ((v.map Rd.fin).map (· / S')) :=
    Agrees.map hV fun x y h => (h.div hsum).mono (by omega)
  have hWn : ∃ x ∈ (v.map Fl.fin).map (· / S), x ≠ .fin 0 := by
    obtain ⟨a, ha, ha0⟩ := h0
    refine ⟨.fin a / S, List.mem_map_of_mem (List.mem_map_of_mem ha), ?_⟩
    obtain ⟨s, _, es, -, hs, -⟩ := hsum
    rw [es, fl_div hs.ne', Ne, Fl.fin_inj]
    exact div_ne_zero ha0 hs.ne'
  have hi := AgreesPos.zipWith (m := 3) hl' hg' (f := fun l g => 1 / (l + 2 * g))
    (g := fun l g => 1 / (l + 2 * g)) fun x y x' y' h h' => by bound_errors
  have hm := AgreesPos.zipWith (m := 3) hl' hg' (f := fun l g => l / (l + 2 * g))
    (g := fun l g => l / (l + 2 * g)) fun x y x' y' h h' => by bound_errors
  have hq := AgreesPos.zipWith (m := 6) hl' hg' (f := fun l g => 4 * g * (l + g) / (l + 2 * g))
    (g := fun l g => 4 * g * (l + g) / (l + 2 * g)) fun x y x' y' h h' => by bound_errors
  have hI := AgreesPos.map (l := 1) hg' (f := fun m => 1 / m) (g := fun m => 1 / m) fun x y h =>
    (AgreesPos.one.div h).mono (by simp)
  have hlg : lam.length = G.length := hl.symm.trans hg
  obtain ⟨s1, s1', a1, b1, c1⟩ := AgreesPos.dot hW hi hWn (by simp; omega)
  obtain ⟨s2, s2', a2, b2, c2⟩ := AgreesPos.dot hW hm hWn (by simp; omega)
  obtain ⟨s3, s3', a3, b3, c3⟩ := AgreesPos.dot hW hq hWn (by simp; omega)
  obtain ⟨s4, s4', a4, b4, c4⟩ := AgreesPos.dot hW hI hWn (by simp; omega)
  obtain ⟨s5, s5', a5, b5, c5⟩ := AgreesPos.dot hW hg' hWn (by simp; omega)
  simp only [List.length_map] at c1 c2 c3 c4 c5
  refine ⟨s3 + PyNum.inv s1 * s2 ** 2, PyNum.inv s1, PyNum.inv s1 * s2, PyNum.inv s4, s5,
    s3' + PyNum.inv s1' * s2' ** 2, PyNum.inv s1', PyNum.inv s1' * s2', PyNum.inv s4', s5', ?_, ?_,
    (c3.add (c1.inv.mul (c2.npow 2))).mono (by omega), c1.inv.mono (by omega),
    (c1.inv.mul c2).mono (by omega), c4.inv.mono (by omega), c5.mono (by omega)⟩
  · unfold Backus bzip
    simp only [List.length_map, hlg, if_true]
    rw [← hS]
    simp only [bind, Except.bind, pure, Except.pure, a1, a2, a3, a4, a5]
  · unfold Backus bzip
    simp only [List.length_map, hlg, if_true]
    rw [← hS']
    simp only [bind, Except.bind, pure, Except.pure, b1, b2, b3, b4, b5]

theorem SC_step_eval {phi Ks Gs k g : ℝ} (hp : 0 < phi) (hK : 0 < Ks) (hG : 0 < Gs) (hk : 0 < k)
    (hg : 0 < g) : SC_step (.fin phi) (.fin Ks) (.fin Gs) (.fin k, .fin g)
      = ((.fin (Ks⁻¹ + (k⁻¹ + 3 / 4 * g⁻¹) * phi)⁻¹,
        .fin (Gs⁻¹ + (5 / 3 * g⁻¹ + 20 / 3 * (9 * (Ks⁻¹ + (k⁻¹ + 3 / 4 * g⁻¹) * phi)⁻¹ + 8 * g)⁻¹) * phi)⁻¹)
          : Fl × Fl) := by
  unfold SC_step
  have e1 : Ks⁻¹ + (k⁻¹ + 3 / 4 * g⁻¹) * phi = 1 / Ks + (1 / k + 3 / (4 * g)) * phi := by field_simp
  have h1 : 0 < 1 / Ks + (1 / k + 3 / (4 * g)) * phi := by positivity
  rw [e1]
  generalize hX : 1 / Ks + (1 / k + 3 / (4 * g)) * phi = X at h1
  have h2 : (9 * X⁻¹ + 8 * g) ≠ 0 := by positivity
  have h3 : 1 / Gs + (15 * X⁻¹ + 20 * g) / (9 * X⁻¹ + 8 * g) * phi / g ≠ 0 := by positivity
  have e2 : Gs⁻¹ + (5 / 3 * g⁻¹ + 20 / 3 * (9 * X⁻¹ + 8 * g)⁻¹) * phi
      = 1 / Gs + (15 * X⁻¹ + 20 * g) / (9 * X⁻¹ + 8 * g) * phi / g := by
    generalize X⁻¹ = x at h2
    have h2' : 9 * x + g * 8 ≠ 0 := by rwa [mul_comm g]
    field
  rw [e2]
  have h4 : (4 * g) ≠ 0 := by positivity
  fl_eval [hK.ne', hG.ne', hk.ne', hg.ne', h4, hX, h1.ne', h2, h3]

/-- C96: after `n` iterations the self-consistent moduli have at most `21 n` relative rounding
errors: the iteration does not amplify the errors of earlier rounds. -/
theorem C96_SC {phi Ks Gs : ℝ} (hp : 0 < phi) (hK : 0 < Ks) (hG : 0 < Gs) (n : ℕ) :
    AgreesPos A (21 * n) (SC (.fin phi) (.fin Ks) (.fin Gs) n : Fl × Fl).1
      (SC (.fin phi) (.fin Ks) (.fin Gs) n : Rd A × Rd A).1 ∧
    AgreesPos A (21 * n) (SC (.fin phi) (.fin Ks) (.fin Gs) n : Fl × Fl).2
      (SC (.fin phi) (.fin Ks) (.fin Gs) n : Rd A × Rd A).2 := by
  induction n with
  | zero => exact ⟨AgreesPos.exact hK, AgreesPos.exact hG⟩
  | succ n ih =>
    obtain ⟨⟨k, k', e1, e2, h1, w1⟩, ⟨g, g', e3, e4, h2, w2⟩⟩ := ih
    have h1' := w1.pos h1
    have h2' := w2.pos h2
    have es : (SC (.fin phi) (.fin Ks) (.fin Gs) n : Fl × Fl) = (.fin k, .fin g) := Prod.ext e1 e3
    have es' : (SC (.fin phi) (.fin Ks) (.fin Gs) n : Rd A × Rd A) = (.fin k', .fin g') := Prod.ext e2 e4
    show AgreesPos A _ (SC_step _ _ _ (SC _ _ _ n)).1 (SC_step _ _ _ (SC _ _ _ n)).1 ∧
      AgreesPos A _ (SC_step _ _ _ (SC _ _ _ n)).2 (SC_step _ _ _ (SC _ _ _ n)).2
    rw [es, es']
    have l1 : AgreesPos A 21 (SC_step (.fin phi) (.fin Ks) (.fin Gs) (.fin k', .fin g') : Fl × Fl).1
        (SC_step (.fin phi) (.fin Ks) (.fin Gs) (.fin k', .fin g') : Rd A × Rd A).1 := by
      have hp := AgreesPos.exact (A := A) hp
      have hK := AgreesPos.exact (A := A) hK
      have hk := AgreesPos.exact (A := A) h1'
      have hg := AgreesPos.exact (A := A) h2'
      unfold SC_step
      bound_errors
    have l2 : AgreesPos A 21 (SC_step (.fin phi) (.fin Ks) (.fin Gs) (.fin k', .fin g') : Fl × Fl).2
        (SC_step (.fin phi) (.fin Ks) (.fin Gs) (.fin k', .fin g') : Rd A × Rd A).2 := by
      clear l1
      have hp := AgreesPos.exact (A := A) hp
      have hK := AgreesPos.exact (A := A) hK
      have hG := AgreesPos.exact (A := A) hG
      have hk := AgreesPos.exact (A := A) h1'
      have hg := AgreesPos.exact (A := A) h2'
      unfold SC_step
      bound_errors
    rw [SC_step_eval hp hK hG h1' h2'] at l1 l2
    rw [SC_step_eval hp hK hG h1 h2]
    have c : ∀ a : ℝ, 0 ≤ a → Within A (21 * n) a a := fun a ha => (Within.refl a).mono ha (Nat.zero_le _)
    have cm : ∀ {a b c : ℝ}, 0 ≤ c → 0 ≤ a → Within A (21 * n) a b → Within A (21 * n) (c * a) (c * b) :=
      fun hc ha h => by simpa using (Within.refl _).mul h hc ha
    have mc : ∀ {a b c : ℝ}, 0 ≤ c → 0 ≤ a → Within A (21 * n) a b → Within A (21 * n) (a * c) (b * c) :=
      fun hc ha h => by simpa using h.mul (Within.refl _) ha hc
    have wi := w2.inv h2
    have wK := (((c Ks⁻¹ (by positivity)).add (mc hp.le (by positivity)
      ((w1.inv h1).add (cm (c := 3 / 4) (by norm_num) (by positivity) wi))))).inv (by positivity)
    have wG := ((c Gs⁻¹ (by positivity)).add (mc hp.le (by positivity)
      ((cm (c := 5 / 3) (by norm_num) (by positivity) wi).add
        (cm (c := 20 / 3) (by norm_num) (by positivity)
          (((cm (c := 9) (by norm_num) (by positivity) wK).add
            (cm (c := 8) (by norm_num) (by positivity) w2)).inv (by positivity)))))).inv (by positivity)
    obtain ⟨x, y, ex, ey, -, wx⟩ := l1
    obtain ⟨z, t, ez, et, -, wz⟩ := l2
    obtain rfl := Fl.fin_inj.mp ex
    obtain rfl := Fl.fin_inj.mp ez
    exact ⟨⟨_, _, rfl, ey, by positivity, wK.trans wx⟩, ⟨_, _, rfl, et, by positivity, wG.trans wz⟩⟩

/-- C96: moduli recovered from velocities, both computed with rounding.  The shear modulus has 13
relative rounding errors; the error of the bulk modulus, which is a difference, is in proportion to
the two terms subtracted. -/
theorem C96_moduli_roundtrip {K G rho : ℝ} (hK : 0 < K) (hG : 0 < G) (hr : 0 < rho)
    (hu : 18 * A.u ≤ 1 / 101) :
    ∃ K' G' : ℝ, M_from_V (.fin rho) (V (.fin K) (.fin G) (.fin rho)).1 (V (.fin K) (.fin G) (.fin rho)).2
        = ((.fin K', .fin G') : Rd A × Rd A) ∧
      |K' - K| ≤ 18.18 * A.u * (K + 8 / 3 * G) ∧ Within A 13 G G' := by
  obtain ⟨⟨p, p', e1, e2, h1, w1⟩, ⟨q, q', e3, e4, h2, w2⟩⟩ := C96_V (A := A) hK hG hr
  have hex := C01_moduli_roundtrip K G rho hr hG.le (by positivity)
  have hex' : utils.M_from_V (.fin rho) (V (.fin K) (.fin G) (.fin rho)).1
      (V (.fin K) (.fin G) (.fin rho)).2 = ((.fin K, .fin G) : Fl × Fl) := hex
  rw [e1, e3, utils.M_from_V_eval, Prod.mk.injEq, Fl.fin_inj, Fl.fin_inj] at hex'
  obtain ⟨x1, x2⟩ := hex'
  rw [e2, e4]
  have hp : AgreesPos A 6 (.fin p) (.fin p') := ⟨_, _, rfl, rfl, h1, w1⟩
  have hq : AgreesPos A 4 (.fin q) (.fin q') := ⟨_, _, rfl, rfl, h2, w2⟩
  have aR := (AgreesPos.exact (A := A) hr).mul (AgreesPos.nat 1000)
  have aN := (AgreesPos.nat (A := A) 10).npow 9
  obtain ⟨Ge, G', eG, eG', hGe, wG⟩ := (aR.mul (hq.npow 2)).div aN
  obtain ⟨R, R', eR, eR', hR, wR⟩ := aR
  obtain ⟨N, N', eN, eN', hN, wN⟩ := aN
  obtain ⟨S, S', eS, eS', hS, wS⟩ := hp.npow 2
  obtain ⟨T, T', eT, eT', hT, wT⟩ := ((AgreesPos.nat (A := A) 4).mul (hq.npow 2)).div (AgreesPos.nat 3)
  have vR : R = rho * 1000 := (Fl.fin_inj.mp eR).symm
  have vN : N = 10 ^ 9 := (Fl.fin_inj.mp eN).symm
  have vS : S = p ^ 2 := (Fl.fin_inj.mp eS).symm
  have vT : T = 4 * q ^ 2 / 3 := by
    have : Fl.fin (4 * q ^ 2 / 3) = Fl.fin T := by rw [← eT]; fl_eval []
    exact (Fl.fin_inj.mp this).symm
  have vG : Ge = G := by
    have : Fl.fin (rho * 1000 * q ^ 2 / 10 ^ 9) = Fl.fin Ge := by rw [← eG]; fl_eval []
    rw [← x2, Fl.fin_inj.mp this]
  have hN' := wN.pos hN
  obtain ⟨f1, ef1, wf1⟩ := A.factor .sub S' T' (S' - T')
  obtain ⟨f2, ef2, wf2⟩ := A.factor .mul R' (A.rnd .sub S' T' (S' - T')) (R' * A.rnd .sub S' T' (S' - T'))
  obtain ⟨f3, ef3, wf3⟩ := A.factor .div (A.rnd .mul R' (A.rnd .sub S' T' (S' - T')) (R' * A.rnd .sub S' T' (S' - T')))
    N' (A.rnd .mul R' (A.rnd .sub S' T' (S' - T')) (R' * A.rnd .sub S' T' (S' - T')) / N')
  refine ⟨R' * ((S' - T') * f1) * f2 / N' * f3, G', ?_, ?_, vG ▸ wG.mono hGe.le (by norm_num)⟩
  · unfold M_from_V
    simp only [eR', eN', eS', eT']
    rw [eR', eN'] at eG'
    refine Prod.ext ?_ eG'
    show (if N' = 0 then Rd.bad else Rd.fin _) = _
    rw [if_neg hN'.ne', ef3, ef2, ef1]
  · have hRN : 0 ≤ R * N⁻¹ := by positivity
    have wf : Within A 5 (R * N⁻¹) (R' * N'⁻¹ * f1 * f2 * f3) :=
      ((((wR.mul (wN.inv hN) hR.le (by positivity)).factor hRN wf1).factor hRN wf2).factor hRN wf3)
    have b1 := ((wf.mul wS hRN hS.le).mono (l := 18) (by positivity) (by norm_num)).rel (by positivity) hu
    have b2 := ((wf.mul wT hRN hT.le).mono (l := 18) (by positivity) (by norm_num)).rel (by positivity) hu
    have c1 : R * N⁻¹ * S = K + 4 / 3 * G := by
      rw [vR, vN, vS, ← x1, ← x2]; ring
    have c2 : R * N⁻¹ * T = 4 / 3 * G := by
      rw [vR, vN, vT, ← x2]; ring
    rw [c1] at b1
    rw [c2] at b2
    have e : R' * ((S' - T') * f1) * f2 / N' * f3 - K
        = (R' * N'⁻¹ * f1 * f2 * f3 * S' - (K + 4 / 3 * G)) - (R' * N'⁻¹ * f1 * f2 * f3 * T' - 4 / 3 * G) := by
      rw [div_eq_mul_inv]; ring
    rw [e]
    refine (abs_sub _ _).trans ((add_le_add b1 b2).trans (le_of_eq ?_))
    push_cast; ring

/-- C96: the low-frequency velocity and the shear velocity and density of a saturated rock. -/
theorem C96_fluid {a b f phi rho kappa eta : ℝ} (ha : 0 < a) (hb : 0 < b) (hf : 0 < f) (hp : 0 < phi)
    (hr : 0 < rho) (hk : 0 < kappa) (he : 0 < eta) :
    AgreesPos A 32 (Geertsma_Smit_LF (.fin a) (.fin b) (.fin f) (.fin phi) (.fin rho) (.fin kappa) (.fin eta) : Fl)
      (Geertsma_Smit_LF (.fin a) (.fin b) (.fin f) (.fin phi) (.fin rho) (.fin kappa) (.fin eta) : Rd A) ∧
    ∀ {K G K0 D0 Kf Df : ℝ}, 0 < G → 0 < D0 → 0 < Df → phi < 1 →
      AgreesPos A 5 (vels (.fin K) (.fin G) (.fin K0) (.fin D0) (.fin Kf) (.fin Df) (.fin phi) : Fl × Fl × Fl).2.1
        (vels (.fin K) (.fin G) (.fin K0) (.fin D0) (.fin Kf) (.fin Df) (.fin phi) : Rd A × Rd A × Rd A).2.1 ∧
      AgreesPos A 3 (vels (.fin K) (.fin G) (.fin K0) (.fin D0) (.fin Kf) (.fin Df) (.fin phi) : Fl × Fl × Fl).2.2
        (vels (.fin K) (.fin G) (.fin K0) (.fin D0) (.fin Kf) (.fin Df) (.fin phi) : Rd A × Rd A × Rd A).2.2 := by
  have ha := AgreesPos.exact (A := A) ha
  have hb := AgreesPos.exact (A := A) hb
  have hf := AgreesPos.exact (A := A) hf
  have hp := AgreesPos.exact (A := A) hp
  have hr := AgreesPos.exact (A := A) hr
  have hk := AgreesPos.exact (A := A) hk
  have he := AgreesPos.exact (A := A) he
  constructor
  · unfold Geertsma_Smit_LF; bound_errors
  · intro K G K0 D0 Kf Df hG hD0 hDf h1
    have hG := AgreesPos.exact (A := A) hG
    have hD0 := AgreesPos.exact (A := A) hD0
    have hDf := AgreesPos.exact (A := A) hDf
    have h1 := AgreesPos.one_sub (A := A) h1
    constructor
    · unfold vels; bound_errors
    · unfold vels; bound_errors

/-- Three constituents, and two layers, that meet the hypotheses of `C96_VRH` and `C96_Backus`. -/
example : (∃ X Y Z : ℝ, VRH ([0.3, 0.5, 0.2].map .fin) ([37, 25, 75].map .fin)
      = .ok ((.fin X, .fin Y, .fin Z) : Rd binary53 × Rd binary53 × Rd binary53) ∧
        0 < Y ∧ Y * (1 - binary53.u) ^ 10 ≤ X) ∧
    ∃ (X : Rd binary53 × Rd binary53 × Rd binary53 × Rd binary53 × Rd binary53),
      Backus ([0.3, 0.7].map .fin) ([8, 12].map .fin) ([44, 9].map .fin) = .ok X := by
  constructor
  · exact C96_VRH_ordered (v := [0.3, 0.5, 0.2]) (M := [37, 25, 75]) rfl (by norm_num) (by norm_num) (by norm_num)
  · obtain ⟨_, _, _, _, _, _, _, _, _, _, -, e, -⟩ := C96_Backus (A := binary53) (v := [0.3, 0.7])
      (lam := [8, 12]) (G := [44, 9]) rfl rfl (by norm_num) ⟨0.3, by simp, by norm_num⟩ (by norm_num) (by norm_num)
    exact ⟨_, e⟩

/-- C96: in binary arithmetic with 53 significant bits, at the moduli of quartz, the velocities are
computed to a relative error of 7 in 10^16, and the bulk modulus is recovered to better than 4 in
10^13 GPa. -/
example : (∃ a b : ℝ, (V (.fin 37) (.fin 44) (.fin 2.65) : Fl × Fl).1 = .fin a ∧
      (V (.fin 37) (.fin 44) (.fin 2.65) : Rd binary53 × Rd binary53).1 = .fin b ∧ |b - a| ≤ 7e-16 * a) ∧
    ∃ K' G' : ℝ, M_from_V (.fin 2.65) (V (.fin 37) (.fin 44) (.fin 2.65)).1
        (V (.fin 37) (.fin 44) (.fin 2.65)).2 = ((.fin K', .fin G') : Rd binary53 × Rd binary53) ∧
      |K' - 37| ≤ 4e-13 := by
  have hu : binary53.u = 2⁻¹ ^ 53 := rfl
  constructor
  · obtain ⟨⟨a, b, ea, eb, ha, w⟩, -⟩ := C96_V (A := binary53) (K := 37) (G := 44) (rho := 2.65)
      (by norm_num) (by norm_num) (by norm_num)
    refine ⟨a, b, ea, eb, (w.rel ha.le (by rw [hu]; norm_num)).trans ?_⟩
    apply mul_le_mul_of_nonneg_right _ ha.le
    rw [hu]; norm_num
  · obtain ⟨K', G', e, h, -⟩ := C96_moduli_roundtrip (A := binary53) (K := 37) (G := 44) (rho := 2.65)
      (by norm_num) (by norm_num) (by norm_num) (by rw [hu]; norm_num)
    refine ⟨K', G', e, h.trans ?_⟩
    rw [hu]; norm_num

end RockPhy.Props
