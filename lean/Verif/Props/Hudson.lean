import Verif.Lemmas.Hudson

/-! # Properties C12 to C16 (Hudson's crack models in `rockphypy/EM.py`) -/

namespace RockPhy.Props

open Fl Spec EM

/-- Dry and fluid filled penny cracks in quartz are admissible. -/
example : CrackOK 37 44 0 0 0.01 ∧ CrackOK 37 44 2.2 0 0.01 := by
  constructor <;> constructor <;> norm_num

/-! ## C12: zero crack density -/

/-- Aligned cracks, either order, either axis. -/
theorem C12_hudson_uncracked (K G Ki Gi alpha : ℝ) (h : CrackOK K G Ki Gi alpha)
    (order axis : Int) (ho : order = 1 ∨ order = 2) (ha : axis = 1 ∨ axis = 3) :
    hudson (fin K) (fin G) (fin Ki) (fin Gi) (fin alpha) (fin 0) order axis
      = .ok (utils.write_iso (fin K) (fin G)) := by
  have key : ∀ o : ℝ, ((order = 1 ∧ o = 0) ∨ (order = 2 ∧ o = 1)) →
      hudson (fin K) (fin G) (fin Ki) (fin Gi) (fin alpha) (fin 0) order axis
      = .ok (utils.write_iso (fin K) (fin G)) := by
    intro o ho
    rw [hudson_eval h 0 ho, utils.write_iso_eval]
    simp only [zero_mul, ne_eq, OfNat.ofNat_ne_zero, not_false_eq_true, zero_pow, mul_zero,
      add_zero]
    rcases ha with rfl | rfl
    · rw [if_neg (by decide), if_pos rfl]
      congr 2
      unfold htiMatrix isoMatrix
      congr 1; ring
    · rw [if_pos rfl]
      congr 2
      unfold vtiMatrix isoMatrix
      congr 1; ring
  rcases ho with h | h
  · exact key 0 (Or.inl ⟨h, rfl⟩)
  · exact key 1 (Or.inr ⟨h, rfl⟩)

/-- Three orthogonal crack sets. -/
theorem C12_ortho_uncracked (K G Ki Gi : ℝ) (al : Fin 3 → ℝ)
    (h : ∀ i, CrackOK K G Ki Gi (al i)) :
    hudson_ortho (fin K) (fin G) (fin Ki) (fin Gi) (fun i => fin (al i)) (fun _ => fin 0)
      = utils.write_iso (fin K) (fin G) := by
  rw [hudson_ortho_eval al (fun _ => 0) h, utils.write_iso_eval]
  simp only [zero_mul, add_zero]
  rfl

/-- Cone of crack normals, any cone angle. -/
theorem C12_cone_uncracked (K G Ki Gi alpha th : ℝ) (h : CrackOK K G Ki Gi alpha) :
    hudson_cone (fin K) (fin G) (fin Ki) (fin Gi) (fin alpha) (fin 0) (fin th)
      = utils.write_iso (fin K) (fin G) := by
  have e' : lam K G + 2 * G = K + 4 * G / 3 := by unfold lam; ring
  rw [hudson_cone_eval h 0 th rfl, utils.write_iso_eval]
  simp only [zero_mul, zero_div, sub_zero, e']
  rfl

/-- Random crack orientations. -/
theorem C12_rand_uncracked (K G Ki Gi alpha : ℝ) (h : CrackOK K G Ki Gi alpha) :
    hudson_rand (fin K) (fin G) (fin Ki) (fin Gi) (fin alpha) (fin 0) = (fin K, fin G) := by
  rw [hudson_rand_eval h]
  simp

/-- `Eshelby_Cheng` at zero porosity returns the isotropic background, whenever the
inclusion terms are defined at all (that is, whenever some porosity gives finite constants). -/
theorem C12_Eshelby_Cheng_nonporous (K G alpha Kf : Fl) (k g : ℝ) (hK : K = fin k) (hG : G = fin g)
    (phi c11 c33 c13 c44 c66 : ℝ)
    (hdef : Eshelby_Cheng_consts K G (fin phi) alpha Kf
      = (fin c11, fin c33, fin c13, fin c44, fin c66)) :
    Eshelby_Cheng K G (fin 0) alpha Kf true = .inr (utils.write_iso (fin k) (fin g)) ∧
    Eshelby_Cheng K G (fin 0) alpha Kf false = .inl (fin (k + 4 * g / 3), fin (k + 4 * g / 3),
      fin (k - 2 * g / 3), fin g, fin g) := by
  have lin : ∀ (c0 phi c : ℝ) (x : Fl), fin c0 - fin phi * x = fin c → fin c0 - fin 0 * x = fin c0 := by
    intro c0 phi c x hx
    cases x with
    | fin x => simp only [fl, zero_mul, sub_zero]
    | bad => simp only [fl] at hx; exact absurd hx bad_ne_fin
  have hl : fin k - 2 * fin g / 3 = fin (k - 2 * g / 3) := by fl_eval []
  have hm : fin (k - 2 * g / 3) + 2 * fin g = fin (k + 4 * g / 3) := by
    fl_eval []
    rw [fin_inj]; ring
  have key : Eshelby_Cheng_consts K G (fin 0) alpha Kf = (fin (k + 4 * g / 3), fin (k + 4 * g / 3),
      fin (k - 2 * g / 3), fin g, fin g) := by
    subst hK hG
    unfold Eshelby_Cheng_consts Eshelby_Cheng_moduli at hdef ⊢
    simp only [Prod.mk.injEq, hl, hm] at hdef ⊢
    obtain ⟨h1, h2, h3, h4, h5⟩ := hdef
    exact ⟨lin _ _ _ _ h1, lin _ _ _ _ h2, lin _ _ _ _ h3, lin _ _ _ _ h4, lin _ _ _ _ h5⟩
  unfold Eshelby_Cheng
  rw [key, utils.write_iso_eval]
  simp only [Bool.true_eq_false, if_false, if_true, utils.write_VTI_matrix_eval]
  refine ⟨?_, trivial⟩
  congr 2
  unfold vtiMatrix isoMatrix
  congr 1; ring

/-! ## C13: HTI is VTI with exchanged axes -/

/-- For all inputs, defined or not. -/
theorem C13_hudson_axes (K G Ki Gi alpha crd : Fl) (order : Int) :
    hudson K G Ki Gi alpha crd order 1
      = (hudson K G Ki Gi alpha crd order 3).map fun C => fun i j => C (swap13 i) (swap13 j) := by
  unfold hudson
  generalize hudson_consts K G Ki Gi alpha crd order = c
  cases c with
  | error e => rfl
  | ok c =>
    obtain ⟨a, b, c, d, e⟩ := c
    have w : utils.write_HTI_matrix c a b e d
        = fun i j => utils.write_VTI_matrix a c b d e (swap13 i) (swap13 j) := by
      ext i j
      fin_cases i <;> fin_cases j <;>
        simp [utils.write_HTI_matrix, utils.write_VTI_matrix, swap13]
    rw [except_ok_bind, except_ok_bind]
    unfold hudson_matrix
    simp only [w, if_true, if_neg (show ¬ (1 : Int) = 3 by decide)]
    rfl

/-- Any other axis or order raises. -/
theorem C13_hudson_errors (K G Ki Gi alpha crd : Fl) (order axis : Int)
    (h : (order ≠ 1 ∧ order ≠ 2) ∨ (axis ≠ 1 ∧ axis ≠ 3)) :
    hudson K G Ki Gi alpha crd order axis = .error .UnboundLocalError := by
  unfold hudson
  rcases h with ⟨h1, h2⟩ | ⟨h1, h3⟩
  · unfold hudson_consts
    rw [if_neg h1, if_neg h2]; rfl
  · have : ∀ c : Fl × Fl × Fl × Fl × Fl, hudson_matrix c axis = .error .UnboundLocalError := by
      rintro ⟨_, _, _, _, _⟩
      unfold hudson_matrix
      dsimp only
      rw [if_neg h3, if_neg h1]
    have e : ∃ c, hudson_consts K G Ki Gi alpha crd order = c ∧
        (c = .error .UnboundLocalError ∨ ∃ t, c = .ok t) := by
      refine ⟨_, rfl, ?_⟩
      unfold hudson_consts
      split
      · exact Or.inr ⟨_, rfl⟩
      · split
        · exact Or.inr ⟨_, rfl⟩
        · exact Or.inl rfl
    obtain ⟨c, hc, rfl | ⟨t, rfl⟩⟩ := e
    · rw [hc]; rfl
    · rw [hc, except_ok_bind, this]

/-- The axis 3 result is a VTI stiffness, the axis 1 result an HTI stiffness. -/
theorem C13_hudson_symmetry (K G Ki Gi alpha crd : ℝ) (h : CrackOK K G Ki Gi alpha)
    (order : Int) (ho : order = 1 ∨ order = 2) :
    ∃ C3 C1 : Matrix (Fin 6) (Fin 6) ℝ,
      hudson (fin K) (fin G) (fin Ki) (fin Gi) (fin alpha) (fin crd) order 3 = .ok (C3.map fin) ∧
      hudson (fin K) (fin G) (fin Ki) (fin Gi) (fin alpha) (fin crd) order 1 = .ok (C1.map fin) ∧
      IsVTI C3 ∧ IsHTI C1 := by
  have ⟨o, ho⟩ : ∃ o : ℝ, (order = 1 ∧ o = 0) ∨ (order = 2 ∧ o = 1) := by
    rcases ho with h | h
    · exact ⟨0, Or.inl ⟨h, rfl⟩⟩
    · exact ⟨1, Or.inr ⟨h, rfl⟩⟩
  refine ⟨_, _, hudson_eval h crd ho, hudson_eval h crd ho, isVTI_vtiMatrix _ _ _ _ _,
    isHTI_htiMatrix _ _ _ _ _⟩

/-- First order, positive crack density: every diagonal stiffness that the cracks can touch is
strictly below the uncracked one, and `C66` is untouched. -/
theorem C13_hudson_softens (K G Ki Gi alpha crd : ℝ) (h : CrackOK K G Ki Gi alpha)
    (hc : 0 < crd) :
    ∃ C : Matrix (Fin 6) (Fin 6) ℝ,
      hudson (fin K) (fin G) (fin Ki) (fin Gi) (fin alpha) (fin crd) 1 3 = .ok (C.map fin) ∧
      C 2 2 < K + 4 * G / 3 ∧ C 0 0 ≤ K + 4 * G / 3 ∧ C 3 3 < G ∧ C 5 5 = G := by
  have u1 := rU1_pos h
  have u3 := rU3_pos h
  have hG := h.G
  have p2 := lam_pos2 h.K h.G
  refine ⟨_, hudson_eval h crd (Or.inl ⟨rfl, rfl⟩), ?_, ?_, ?_, rfl⟩
  · show K + 4 * G / 3 + crd * h33 K G Ki Gi alpha + 0 * _ < K + 4 * G / 3
    have : 0 < crd * ((lam K G + 2 * G) ^ 2 * rU3 K G Ki Gi alpha / G) := by positivity
    have e : crd * h33 K G Ki Gi alpha
        = -(crd * ((lam K G + 2 * G) ^ 2 * rU3 K G Ki Gi alpha / G)) := by unfold h33; ring
    rw [e]; linarith
  · show K + 4 * G / 3 + crd * h11 K G Ki Gi alpha + 0 * _ ≤ K + 4 * G / 3
    have : 0 ≤ crd * (lam K G ^ 2 * rU3 K G Ki Gi alpha / G) := by positivity
    have e : crd * h11 K G Ki Gi alpha
        = -(crd * (lam K G ^ 2 * rU3 K G Ki Gi alpha / G)) := by unfold h11; ring
    rw [e]; linarith
  · show G + crd * h44 K G Gi alpha + 0 * _ < G
    have : 0 < crd * (G * rU1 K G Gi alpha) := by positivity
    have e : crd * h44 K G Gi alpha = -(crd * (G * rU1 K G Gi alpha)) := by unfold h44; ring
    rw [e]; linarith

/-! ## C14: three crack sets superpose -/

/-- Only the set normal to `x3`: `hudson(..., axis=3)` of first order. -/
theorem C14_ortho_single3 (K G Ki Gi c : ℝ) (al : Fin 3 → ℝ) (h : ∀ i, CrackOK K G Ki Gi (al i)) :
    hudson (fin K) (fin G) (fin Ki) (fin Gi) (fin (al 2)) (fin c) 1 3
      = .ok (hudson_ortho (fin K) (fin G) (fin Ki) (fin Gi) (fun i => fin (al i))
          fun i => fin (![0, 0, c] i)) := by
  rw [hudson_ortho_eval al ![0, 0, c] h, hudson_eval (h 2) c (Or.inl ⟨rfl, rfl⟩)]
  simp only [if_true, Matrix.cons_val, zero_mul, add_zero]
  congr 2
  unfold vtiMatrix
  congr 1; ring

/-- Only the set normal to `x1`: `hudson(..., axis=1)` of first order. -/
theorem C14_ortho_single1 (K G Ki Gi c : ℝ) (al : Fin 3 → ℝ) (h : ∀ i, CrackOK K G Ki Gi (al i)) :
    hudson (fin K) (fin G) (fin Ki) (fin Gi) (fin (al 0)) (fin c) 1 1
      = .ok (hudson_ortho (fin K) (fin G) (fin Ki) (fin Gi) (fun i => fin (al i))
          fun i => fin (![c, 0, 0] i)) := by
  rw [hudson_ortho_eval al ![c, 0, 0] h, hudson_eval (h 0) c (Or.inl ⟨rfl, rfl⟩)]
  rw [if_neg (by decide), if_pos rfl]
  simp only [Matrix.cons_val, zero_mul, add_zero]
  congr 2
  unfold htiMatrix
  congr 1; ring

/-- Only the set normal to `x2`: the axis 3 result with axes 2 and 3 exchanged. -/
theorem C14_ortho_single2 (K G Ki Gi c : ℝ) (al : Fin 3 → ℝ) (h : ∀ i, CrackOK K G Ki Gi (al i)) :
    (hudson (fin K) (fin G) (fin Ki) (fin Gi) (fin (al 1)) (fin c) 1 3).map
        (fun C => fun i j => C (swap23 i) (swap23 j))
      = .ok (hudson_ortho (fin K) (fin G) (fin Ki) (fin Gi) (fun i => fin (al i))
          fun i => fin (![0, c, 0] i)) := by
  rw [hudson_ortho_eval al ![0, c, 0] h, hudson_eval (h 1) c (Or.inl ⟨rfl, rfl⟩)]
  simp only [if_true, Matrix.cons_val, zero_mul, add_zero, Except.map]
  congr 1
  ext i j
  have e : K + 4 * G / 3 + c * h11 K G Ki Gi (al 1) - 2 * G
      = K - 2 * G / 3 + c * h11 K G Ki Gi (al 1) := by ring
  simp only [vtiMatrix, e]
  fin_cases i <;> fin_cases j <;> simp [swap23, orthoMatrix]

/-- The correction of three sets is the sum of the three single-set corrections, entry by
entry. -/
theorem C14_ortho_superposition (K G Ki Gi : ℝ) (al cr : Fin 3 → ℝ)
    (h : ∀ i, CrackOK K G Ki Gi (al i)) :
    ∃ C C0 C1 C2 Ci : Matrix (Fin 6) (Fin 6) ℝ,
      hudson_ortho (fin K) (fin G) (fin Ki) (fin Gi) (fun i => fin (al i)) (fun i => fin (cr i))
        = C.map fin ∧
      hudson_ortho (fin K) (fin G) (fin Ki) (fin Gi) (fun i => fin (al i))
        (fun i => fin (![cr 0, 0, 0] i)) = C0.map fin ∧
      hudson_ortho (fin K) (fin G) (fin Ki) (fin Gi) (fun i => fin (al i))
        (fun i => fin (![0, cr 1, 0] i)) = C1.map fin ∧
      hudson_ortho (fin K) (fin G) (fin Ki) (fin Gi) (fun i => fin (al i))
        (fun i => fin (![0, 0, cr 2] i)) = C2.map fin ∧
      utils.write_iso (fin K) (fin G) = Ci.map fin ∧
      C - Ci = (C0 - Ci) + (C1 - Ci) + (C2 - Ci) := by
  refine ⟨_, _, _, _, _, hudson_ortho_eval al cr h, hudson_ortho_eval al _ h,
    hudson_ortho_eval al _ h, hudson_ortho_eval al _ h, utils.write_iso_eval K G, ?_⟩
  ext i j
  simp only [Matrix.sub_apply, Matrix.add_apply]
  fin_cases i <;> fin_cases j <;> simp [orthoMatrix, isoMatrix] <;> ring

/-! ## C15: randomly oriented cracks -/

/-- The bulk modulus is that of the orientation average of the aligned-crack stiffness. -/
theorem C15_rand_bulk (K G Ki Gi alpha crd : ℝ) (h : CrackOK K G Ki Gi alpha) :
    ∃ C : Matrix (Fin 6) (Fin 6) ℝ,
      hudson (fin K) (fin G) (fin Ki) (fin Gi) (fin alpha) (fin crd) 1 3 = .ok (C.map fin) ∧
      (hudson_rand (fin K) (fin G) (fin Ki) (fin Gi) (fin alpha) (fin crd)).1 = fin (avgK C) := by
  have hG := h.G
  refine ⟨_, hudson_eval h crd (Or.inl ⟨rfl, rfl⟩), ?_⟩
  rw [hudson_rand_eval h, fin_inj]
  simp [avgK, invIIJJ, vtiMatrix, orthoMatrix, h11, h13, h33, lam]
  field

/-- The shear correction is 15 times the orientation average of the aligned-crack
correction. -/
theorem C15_rand_shear_15_times (K G Ki Gi alpha crd : ℝ) (h : CrackOK K G Ki Gi alpha) :
    ∃ (C : Matrix (Fin 6) (Fin 6) ℝ) (Geff : ℝ),
      hudson (fin K) (fin G) (fin Ki) (fin Gi) (fin alpha) (fin crd) 1 3 = .ok (C.map fin) ∧
      (hudson_rand (fin K) (fin G) (fin Ki) (fin Gi) (fin alpha) (fin crd)).2 = fin Geff ∧
      Geff - G = 15 * (avgG C - G) ∧ (crd ≠ 0 → Geff ≠ avgG C) := by
  have hG := h.G
  have u1 := rU1_pos h
  have u3 := rU3_pos h
  have key : ∀ C : Matrix (Fin 6) (Fin 6) ℝ,
      C = vtiMatrix (K + 4 * G / 3 + crd * h11 K G Ki Gi alpha)
        (K + 4 * G / 3 + crd * h33 K G Ki Gi alpha) (K - 2 * G / 3 + crd * h13 K G Ki Gi alpha)
        (G + crd * h44 K G Gi alpha) G →
      avgG C - G = -(crd * (2 * G * (3 * rU1 K G Gi alpha + 2 * rU3 K G Ki Gi alpha))) / 15 := by
    rintro C rfl
    simp [avgG, invIIJJ, invIJIJ, vtiMatrix, orthoMatrix, h11, h13, h33, h44, lam]
    field
  refine ⟨_, _, hudson_eval h crd (Or.inl ⟨rfl, rfl⟩), by rw [hudson_rand_eval h], ?_, ?_⟩
  · simp only [zero_mul, add_zero]
    rw [key _ rfl]; ring
  · intro hc he
    simp only [zero_mul, add_zero] at he
    have k := key _ rfl
    rw [← he] at k
    have n : crd * (2 * G * (3 * rU1 K G Gi alpha + 2 * rU3 K G Ki Gi alpha)) ≠ 0 := by
      refine mul_ne_zero hc ?_
      positivity
    apply n
    linarith

/-! ## C16: cone of crack normals -/

/-- A vertical cone (zero angle) is the aligned set. -/
theorem C16_cone_vertical (K G Ki Gi alpha crd : ℝ) (h : CrackOK K G Ki Gi alpha) :
    hudson (fin K) (fin G) (fin Ki) (fin Gi) (fin alpha) (fin crd) 1 3
      = .ok (hudson_cone (fin K) (fin G) (fin Ki) (fin Gi) (fin alpha) (fin crd) (fin 0)) := by
  have hG := h.G
  have e' : lam K G + 2 * G = K + 4 * G / 3 := by unfold lam; ring
  rw [hudson_cone_eval h crd 0 (s := 0) (by simp), hudson_eval h crd (Or.inl ⟨rfl, rfl⟩)]
  simp only [if_true, zero_mul, add_zero]
  congr 2
  unfold vtiMatrix h11 h13 h33 h44 lam
  congr 1 <;> field

/-- The orientation invariant `C_iijj` does not depend on the cone angle. -/
theorem C16_cone_invariant (K G Ki Gi alpha crd : ℝ) (h : CrackOK K G Ki Gi alpha) :
    ∃ v : ℝ, ∀ th : ℝ, ∃ C : Matrix (Fin 6) (Fin 6) ℝ,
      hudson_cone (fin K) (fin G) (fin Ki) (fin Gi) (fin alpha) (fin crd) (fin th) = C.map fin ∧
      invIIJJ C = v := by
  have hG := h.G
  refine ⟨9 * K - crd / G * rU3 K G Ki Gi alpha * (3 * K) ^ 2, fun th =>
    ⟨_, hudson_cone_eval h crd th rfl, ?_⟩⟩
  simp [invIIJJ, orthoMatrix, lam]
  field

/-- The defect: a stiffness with a vertical symmetry axis needs `C66 = (C11 - C12)/2`; the
returned one satisfies it only for zero crack density or a vertical cone. -/
theorem C16_cone_not_VTI (K G Ki Gi alpha crd th : ℝ) (h : CrackOK K G Ki Gi alpha) :
    ∃ C : Matrix (Fin 6) (Fin 6) ℝ,
      hudson_cone (fin K) (fin G) (fin Ki) (fin Gi) (fin alpha) (fin crd) (fin th) = C.map fin ∧
      (C 5 5 = (C 0 0 - C 0 1) / 2 ↔ crd = 0 ∨ Real.sin (th * (Real.pi / 180)) = 0) := by
  have hG := h.G
  have u3 := rU3_pos h
  refine ⟨_, hudson_cone_eval h crd th rfl, ?_⟩
  generalize Real.sin (th * (Real.pi / 180)) = s
  simp only [orthoMatrix, Matrix.of_apply, Matrix.cons_val]
  constructor
  · intro he
    have : crd * s ^ 4 * (3 * G ^ 2 / 2 * rU3 K G Ki Gi alpha) = 0 := by
      field_simp at he
      linear_combination (-1 / 4) * he
    rcases mul_eq_zero.mp this with h | h
    · rcases mul_eq_zero.mp h with h | h
      · exact Or.inl h
      · exact Or.inr (pow_eq_zero_iff (by norm_num) |>.mp h)
    · have : 0 < 3 * G ^ 2 / 2 * rU3 K G Ki Gi alpha := by positivity
      linarith
  · rintro (h | h)
    · rw [h]; ring
    · rw [h]; field

/-- Witness: energy of the returned stiffness is not invariant about the vertical axis for a
dry crack cone of 30 degrees. -/
theorem C16_cone_violated : ∃ C : Matrix (Fin 6) (Fin 6) ℝ,
    hudson_cone (fin 37) (fin 44) (fin 0) (fin 0) (fin 0.01) (fin 0.1) (fin 30) = C.map fin ∧
    C 5 5 ≠ (C 0 0 - C 0 1) / 2 := by
  obtain ⟨C, h1, h2⟩ := C16_cone_not_VTI 37 44 0 0 0.01 0.1 30 (by constructor <;> norm_num)
  refine ⟨C, h1, fun h => ?_⟩
  rcases h2.mp h with h | h
  · norm_num at h
  · rw [show (30 : ℝ) * (Real.pi / 180) = Real.pi / 6 by ring, Real.sin_pi_div_six] at h
    norm_num at h

end RockPhy.Props
