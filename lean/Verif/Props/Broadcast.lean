import Verif.Spec.Broadcast
import Verif.Model.EM
import Verif.Model.GM
import Verif.Model.BW
import Verif.Model.AVO
import Verif.Model.Anisotropy
import Verif.Model.Perm
import Verif.Model.Emp

/-!
# C102: arrays and broadcasting
-/

namespace RockPhy.Props

open Spec Nd

theorem shape_lsum (l : List (Nd Fl)) : (lsum l).shape = bcs (l.map shape) := by
  induction l with
  | nil => rfl
  | cons x l ih =>
    show (x + lsum l).shape = _
    rw [shape_add, ih]
    rfl

theorem fits_lsum {u : Option (List ℕ)} (hu : u ≠ none) {l : List (Nd Fl)}
    (h : ∀ x ∈ l, Fits u x) : Fits u (lsum l) := by
  induction l with
  | nil => exact fits_zero hu
  | cons x l ih =>
    show Fits u (x + lsum l)
    rw [fits_add]
    exact ⟨h x List.mem_cons_self, ih fun y hy => h y (List.mem_cons_of_mem x hy)⟩

theorem read_lsum {u : Option (List ℕ)} (hu : u ≠ none) {l : List (Nd Fl)}
    (h : ∀ x ∈ l, Fits u x) (i : List ℕ) : (lsum l).read i = lsum (l.map fun x => x.read i) := by
  induction l with
  | nil => rfl
  | cons x l ih =>
    have h1 := h x List.mem_cons_self
    have h2 : ∀ y ∈ l, Fits u y := fun y hy => h y (List.mem_cons_of_mem x hy)
    show (x + lsum l).read i = x.read i + lsum (l.map fun x => x.read i)
    rw [read_add h1 (fits_lsum hu h2), ih h2]

theorem bcs_const {a : Option (List ℕ)} {l : List (Option (List ℕ))} (hl : l ≠ [])
    (h : ∀ b ∈ l, b = a) : bcs l = a := by
  induction l with
  | nil => exact absurd rfl hl
  | cons b l ih =>
    obtain rfl : b = a := h b List.mem_cons_self
    rw [bcs_cons]
    by_cases hn : l = []
    · subst hn; exact bc_nil b
    · rw [ih hn fun c hc => h c (List.mem_cons_of_mem b hc), bc_self]

theorem shape_waterCoef (i : Fin 5) (j : Fin 4) : (BW.waterCoef i j : Nd Fl).shape = some [] := by
  fin_cases i <;> fin_cases j <;> rfl

theorem read_waterCoef (i : Fin 5) (j : Fin 4) (k : List ℕ) :
    (BW.waterCoef i j : Nd Fl).read k = BW.waterCoef i j := by
  fin_cases i <;> fin_cases j <;> rfl

theorem shape_v_water (T P : Nd Fl) : (BW.v_water T P).shape = bc T.shape P.shape := by
  unfold BW.v_water
  rw [shape_lsum]
  refine bcs_const (by simp) fun b hb => ?_
  simp only [List.mem_map, List.mem_flatMap] at hb
  obtain ⟨x, ⟨i, -, j, -, rfl⟩, rfl⟩ := hb
  simp only [nd, shape_waterCoef]

theorem fits_v_water {u : Option (List ℕ)} {T P : Nd Fl} :
    Fits u (BW.v_water T P) ↔ Fits u T ∧ Fits u P := by
  unfold Fits
  rw [shape_v_water, bc_absorb]
  tauto

theorem read_v_water {u : Option (List ℕ)} {T P : Nd Fl} (k : List ℕ) (hT : Fits u T)
    (hP : Fits u P) : (BW.v_water T P).read k = BW.v_water (T.read k) (P.read k) := by
  have hw : ∀ i j, Fits u (BW.waterCoef i j : Nd Fl) := fun i j =>
    ⟨by rw [shape_waterCoef]; exact nil_bc u, hT.2⟩
  unfold BW.v_water
  rw [read_lsum hT.2]
  · rw [List.map_flatMap]
    congr 1
    refine List.flatMap_congr fun i _ => ?_
    rw [List.map_map]
    refine List.map_congr_left fun j _ => ?_
    show ((BW.waterCoef i j * T ** _) * P ** _ : Nd Fl).read k = _
    rw [read_mul (fits_mul.mpr ⟨hw i j, (fits_npow _).mpr hT⟩) ((fits_npow _).mpr hP),
      read_mul (hw i j) ((fits_npow _).mpr hT), read_npow, read_npow, read_waterCoef]
  · intro x hx
    simp only [List.mem_map, List.mem_flatMap] at hx
    obtain ⟨i, -, j, -, rfl⟩ := hx
    simp only [nd, hw, hT, hP, and_self]

/-- Show that a formula acts entry by entry. -/
macro "nd_eval" "[" ls:Lean.Parser.Tactic.simpLemma,* "]" : tactic =>
  `(tactic|
    (refine Elementwise.of ?_ fun u hu h i => ?_
     · simp only [nd, List.map_cons, List.map_nil, bcs_cons, bcs_nil, shape_v_water,
         apply_ite shape, ite_self, reduceIte, String.reduceEq,
         bc_assoc, bc_comm, bc_left_comm, bc_self, bc_left_self, $ls,*]
     · simp only [List.forall_mem_cons, List.not_mem_nil, false_imp_iff, implies_true, and_true] at h
       simp (disch := simp only [nd, h, fits_v_water, fits_zero hu, fits_one hu, fits_pi hu,
           fits_nat hu, fits_num hu, fits_ofNat hu, fits_sci hu, and_self]) only
         [nd, read_add (u := u), read_sub (u := u), read_mul (u := u), read_div (u := u),
          read_rpow (u := u), read_v_water (u := u), apply_ite (fun x => read x i), reduceIte,
          String.reduceEq, $ls,*]))

/-- `utils`. -/
theorem C102_utils :
    (∀ K G rho : Nd Fl,
      Elementwise (utils.V K G rho).1 [K, G, rho]
        (fun at_ => (utils.V (at_ K) (at_ G) (at_ rho)).1) ∧
      Elementwise (utils.V K G rho).2 [G, rho]
        (fun at_ => (utils.V (at_ K) (at_ G) (at_ rho)).2)) ∧
    (∀ K G : Nd Fl,
      Elementwise (utils.poi K G) [K, G]
        (fun at_ => (utils.poi (at_ K) (at_ G)))) ∧
    (∀ K G : Nd Fl,
      Elementwise (utils.lame K G) [K, G]
        (fun at_ => (utils.lame (at_ K) (at_ G)))) ∧
    (∀ den vp vs : Nd Fl,
      Elementwise (utils.M_from_V den vp vs).1 [den, vp, vs]
        (fun at_ => (utils.M_from_V (at_ den) (at_ vp) (at_ vs)).1) ∧
      Elementwise (utils.M_from_V den vp vs).2 [den, vs]
        (fun at_ => (utils.M_from_V (at_ den) (at_ vp) (at_ vs)).2)) ∧
    (∀ crd alpha : Nd Fl,
      Elementwise (utils.crack_por crd alpha) [crd, alpha]
        (fun at_ => (utils.crack_por (at_ crd) (at_ alpha)))) := by
  refine ⟨?_, ?_, ?_, ?_, ?_⟩
  · intros; refine ⟨?_, ?_⟩ <;> nd_eval [utils.V]
  · intros; nd_eval [utils.poi]
  · intros; nd_eval [utils.lame]
  · intros; refine ⟨?_, ?_⟩ <;> nd_eval [utils.M_from_V]
  · intros; nd_eval [utils.crack_por]

/-- `Empirical`. -/
theorem C102_Empirical :
    (∀ phi Kg Gg : Nd Fl,
      Elementwise (Empirical.krief phi Kg Gg).1 [phi, Kg, Gg]
        (fun at_ => (Empirical.krief (at_ phi) (at_ Kg) (at_ Gg)).1) ∧
      Elementwise (Empirical.krief phi Kg Gg).2.1 [phi, Gg]
        (fun at_ => (Empirical.krief (at_ phi) (at_ Kg) (at_ Gg)).2.1) ∧
      Elementwise (Empirical.krief phi Kg Gg).2.2 [phi, Kg]
        (fun at_ => (Empirical.krief (at_ phi) (at_ Kg) (at_ Gg)).2.2)) ∧
    (∀ Vp vsh : Nd Fl,
      Elementwise (Empirical.esti_VS Vp vsh) [Vp, vsh]
        (fun at_ => (Empirical.esti_VS (at_ Vp) (at_ vsh)))) ∧
    (∀ phi C : Nd Fl,
      Elementwise (Empirical.han phi C).1 [phi, C]
        (fun at_ => (Empirical.han (at_ phi) (at_ C)).1) ∧
      Elementwise (Empirical.han phi C).2 [phi, C]
        (fun at_ => (Empirical.han (at_ phi) (at_ C)).2)) ∧
    (∀ Z : Nd Fl,
      Elementwise (Empirical.ehrenberg Z) [Z]
        (fun at_ => (Empirical.ehrenberg (at_ Z)))) ∧
    (∀ Z : Nd Fl,
      Elementwise (Empirical.Scherbaum Z) [Z]
        (fun at_ => (Empirical.Scherbaum (at_ Z)))) ∧
    (∀ phi : Nd Fl,
      Elementwise (Empirical.Sclater phi) [phi]
        (fun at_ => (Empirical.Sclater (at_ phi)))) ∧
    (∀ Z : Nd Fl,
      Elementwise (Empirical.Storvoll Z) [Z]
        (fun at_ => (Empirical.Storvoll (at_ Z)))) ∧
    (∀ Z : Nd Fl,
      Elementwise (Empirical.Hillis Z) [Z]
        (fun at_ => (Empirical.Hillis (at_ Z)))) ∧
    (∀ Z : Nd Fl,
      Elementwise (Empirical.hjelstuen Z) [Z]
        (fun at_ => (Empirical.hjelstuen (at_ Z)))) ∧
    (∀ phi : Nd Fl,
      Elementwise (Empirical.Cp phi) [phi]
        (fun at_ => (Empirical.Cp (at_ phi)))) := by
  refine ⟨?_, ?_, ?_, ?_, ?_, ?_, ?_, ?_, ?_, ?_⟩
  · intros; refine ⟨?_, ?_, ?_⟩ <;> nd_eval [Empirical.krief]
  · intros; nd_eval [Empirical.esti_VS]
  · intros; refine ⟨?_, ?_⟩ <;> nd_eval [Empirical.han]
  · intros; nd_eval [Empirical.ehrenberg]
  · intros; nd_eval [Empirical.Scherbaum]
  · intros; nd_eval [Empirical.Sclater]
  · intros; nd_eval [Empirical.Storvoll]
  · intros; nd_eval [Empirical.Hillis]
  · intros; nd_eval [Empirical.hjelstuen]
  · intros; nd_eval [Empirical.Cp]

/-- `Permeability`. -/
theorem C102_Permeability :
    (∀ phi d : Nd Fl,
      Elementwise (Permeability.Kozeny_Carman phi d) [phi, d]
        (fun at_ => (Permeability.Kozeny_Carman (at_ phi) (at_ d)))) ∧
    (∀ phi phic d B : Nd Fl,
      Elementwise (Permeability.Kozeny_Carman_Percolation phi phic d B) [phi, phic, d, B]
        (fun at_ => (Permeability.Kozeny_Carman_Percolation (at_ phi) (at_ phic) (at_ d) (at_ B)))) ∧
    (∀ phi Swi : Nd Fl,
      Elementwise (Permeability.Owolabi phi Swi).1 [phi, Swi]
        (fun at_ => (Permeability.Owolabi (at_ phi) (at_ Swi)).1) ∧
      Elementwise (Permeability.Owolabi phi Swi).2 [phi, Swi]
        (fun at_ => (Permeability.Owolabi (at_ phi) (at_ Swi)).2)) ∧
    (∀ phi Swi : Nd Fl,
      Elementwise (Permeability.Perm_logs phi Swi).1 [phi, Swi]
        (fun at_ => (Permeability.Perm_logs (at_ phi) (at_ Swi)).1) ∧
      Elementwise (Permeability.Perm_logs phi Swi).2.1 [phi, Swi]
        (fun at_ => (Permeability.Perm_logs (at_ phi) (at_ Swi)).2.1) ∧
      Elementwise (Permeability.Perm_logs phi Swi).2.2.1 [phi, Swi]
        (fun at_ => (Permeability.Perm_logs (at_ phi) (at_ Swi)).2.2.1) ∧
      Elementwise (Permeability.Perm_logs phi Swi).2.2.2 [phi, Swi]
        (fun at_ => (Permeability.Perm_logs (at_ phi) (at_ Swi)).2.2.2)) ∧
    (∀ d C S tau phi : Nd Fl,
      Elementwise (Permeability.Panda_Lake d C S tau phi) [d, C, S, tau, phi]
        (fun at_ => (Permeability.Panda_Lake (at_ d) (at_ C) (at_ S) (at_ tau) (at_ phi)))) ∧
    (∀ phi d : Nd Fl,
      Elementwise (Permeability.Panda_Lake_cem phi d) [phi, d]
        (fun at_ => (Permeability.Panda_Lake_cem (at_ phi) (at_ d)))) ∧
    (∀ phi d : Nd Fl,
      Elementwise (Permeability.Revil phi d) [phi, d]
        (fun at_ => (Permeability.Revil (at_ phi) (at_ d)))) ∧
    (∀ phi d b : Nd Fl,
      Elementwise (Permeability.Fredrich phi d b) [phi, d, b]
        (fun at_ => (Permeability.Fredrich (at_ phi) (at_ d) (at_ b)))) ∧
    (∀ S C D : Nd Fl,
      Elementwise (Permeability.Bloch S C D).1 [S, C]
        (fun at_ => (Permeability.Bloch (at_ S) (at_ C) (at_ D)).1) ∧
      Elementwise (Permeability.Bloch S C D).2 [S, C, D]
        (fun at_ => (Permeability.Bloch (at_ S) (at_ C) (at_ D)).2)) ∧
    (∀ phi crf w r : Nd Fl,
      Elementwise (Permeability.Bernabe phi crf w r) [phi, crf, w, r]
        (fun at_ => (Permeability.Bernabe (at_ phi) (at_ crf) (at_ w) (at_ r)))) := by
  refine ⟨?_, ?_, ?_, ?_, ?_, ?_, ?_, ?_, ?_, ?_⟩
  · intros; nd_eval [Permeability.Kozeny_Carman]
  · intros; nd_eval [Permeability.Kozeny_Carman_Percolation]
  · intros; refine ⟨?_, ?_⟩ <;> nd_eval [Permeability.Owolabi]
  · intros; refine ⟨?_, ?_, ?_, ?_⟩ <;> nd_eval [Permeability.Perm_logs]
  · intros; nd_eval [Permeability.Panda_Lake]
  · intros; nd_eval [Permeability.Panda_Lake_cem]
  · intros; nd_eval [Permeability.Revil]
  · intros; nd_eval [Permeability.Fredrich]
  · intros; refine ⟨?_, ?_⟩ <;> nd_eval [Permeability.Bloch]
  · intros; nd_eval [Permeability.Bernabe]

/-- `EM`. -/
theorem C102_EM :
    (∀ K0 G0 phi phic : Nd Fl,
      Elementwise (EM.cripor K0 G0 phi phic).1 [K0, phi, phic]
        (fun at_ => (EM.cripor (at_ K0) (at_ G0) (at_ phi) (at_ phic)).1) ∧
      Elementwise (EM.cripor K0 G0 phi phic).2 [G0, phi, phic]
        (fun at_ => (EM.cripor (at_ K0) (at_ G0) (at_ phi) (at_ phic)).2)) ∧
    (∀ K G Ki Gi alpha crd : Nd Fl,
      Elementwise (EM.hudson_rand K G Ki Gi alpha crd).1 [K, G, Ki, Gi, alpha, crd]
        (fun at_ => (EM.hudson_rand (at_ K) (at_ G) (at_ Ki) (at_ Gi) (at_ alpha) (at_ crd)).1) ∧
      Elementwise (EM.hudson_rand K G Ki Gi alpha crd).2 [K, G, Ki, Gi, alpha, crd]
        (fun at_ => (EM.hudson_rand (at_ K) (at_ G) (at_ Ki) (at_ Gi) (at_ alpha) (at_ crd)).2)) ∧
    (∀ Ks Gs cd : Nd Fl,
      Elementwise (EM.Dilute_crack Ks Gs cd).1 [Ks, Gs, cd]
        (fun at_ => (EM.Dilute_crack (at_ Ks) (at_ Gs) (at_ cd)).1) ∧
      Elementwise (EM.Dilute_crack Ks Gs cd).2 [Ks, Gs, cd]
        (fun at_ => (EM.Dilute_crack (at_ Ks) (at_ Gs) (at_ cd)).2)) ∧
    (∀ K0 G0 crd : Nd Fl,
      Elementwise (EM.OConnell_Budiansky K0 G0 crd).1 [K0, G0, crd]
        (fun at_ => (EM.OConnell_Budiansky (at_ K0) (at_ G0) (at_ crd)).1) ∧
      Elementwise (EM.OConnell_Budiansky K0 G0 crd).2 [K0, G0, crd]
        (fun at_ => (EM.OConnell_Budiansky (at_ K0) (at_ G0) (at_ crd)).2)) ∧
    (∀ f Kmat Gmat K1 G1 K2 G2 : Nd Fl,
      Elementwise (EM.MT_average f Kmat Gmat K1 G1 K2 G2).1 [f, Kmat, Gmat, K1, K2]
        (fun at_ => (EM.MT_average (at_ f) (at_ Kmat) (at_ Gmat) (at_ K1) (at_ G1) (at_ K2) (at_
          G2)).1) ∧
      Elementwise (EM.MT_average f Kmat Gmat K1 G1 K2 G2).2 [f, Kmat, Gmat, G1, G2]
        (fun at_ => (EM.MT_average (at_ f) (at_ Kmat) (at_ Gmat) (at_ K1) (at_ G1) (at_ K2) (at_
          G2)).2)) ∧
    (∀ f K1 K2 G1 G2 : Nd Fl,
      Elementwise (EM.HS f K1 K2 G1 G2 "upper").1 [f, K1, K2, G1]
        (fun at_ => (EM.HS (at_ f) (at_ K1) (at_ K2) (at_ G1) (at_ G2) "upper").1) ∧
      Elementwise (EM.HS f K1 K2 G1 G2 "upper").2 [f, K1, G1, G2]
        (fun at_ => (EM.HS (at_ f) (at_ K1) (at_ K2) (at_ G1) (at_ G2) "upper").2)) ∧
    (∀ (f K1 K2 G1 G2 : Nd Fl) (bound : String), bound ≠ "upper" →
      Elementwise (EM.HS f K1 K2 G1 G2 bound).1 [f, K1, K2, G2]
        (fun at_ => (EM.HS (at_ f) (at_ K1) (at_ K2) (at_ G1) (at_ G2) bound).1) ∧
      Elementwise (EM.HS f K1 K2 G1 G2 bound).2 [f, K2, G1, G2]
        (fun at_ => (EM.HS (at_ f) (at_ K1) (at_ K2) (at_ G1) (at_ G2) bound).2)) := by
  refine ⟨?_, ?_, ?_, ?_, ?_, ?_, ?_⟩
  · intros; refine ⟨?_, ?_⟩ <;> nd_eval [EM.cripor]
  · intros; refine ⟨?_, ?_⟩ <;> nd_eval [EM.hudson_rand, EM.hudson_U1, EM.hudson_U3, EM.hudson_M,
    EM.hudson_kapa]
  · intros; refine ⟨?_, ?_⟩ <;> nd_eval [EM.Dilute_crack]
  · intros; refine ⟨?_, ?_⟩ <;> nd_eval [EM.OConnell_Budiansky]
  · intros; refine ⟨?_, ?_⟩ <;> nd_eval [EM.MT_average]
  · intros; refine ⟨?_, ?_⟩ <;> nd_eval [EM.HS]
  · intro f K1 K2 G1 G2 bound hb
    refine ⟨?_, ?_⟩ <;> nd_eval [EM.HS, hb]

set_option maxHeartbeats 1000000 in
/-- `GM`. -/
theorem C102_GM :
    (∀ C Kq Gq Ksh Gsh : Nd Fl,
      Elementwise (GM.silty_shale C Kq Gq Ksh Gsh).1 [C, Kq, Gq, Ksh, Gsh]
        (fun at_ => (GM.silty_shale (at_ C) (at_ Kq) (at_ Gq) (at_ Ksh) (at_ Gsh)).1) ∧
      Elementwise (GM.silty_shale C Kq Gq Ksh Gsh).2 [C, Gq, Ksh, Gsh]
        (fun at_ => (GM.silty_shale (at_ C) (at_ Kq) (at_ Gq) (at_ Ksh) (at_ Gsh)).2)) ∧
    (∀ phis C Kss Gss Kcc Gcc : Nd Fl,
      Elementwise (GM.shaly_sand phis C Kss Gss Kcc Gcc).1 [phis, C, Kss, Gss, Kcc]
        (fun at_ => (GM.shaly_sand (at_ phis) (at_ C) (at_ Kss) (at_ Gss) (at_ Kcc) (at_ Gcc)).1) ∧
      Elementwise (GM.shaly_sand phis C Kss Gss Kcc Gcc).2 [phis, C, Kss, Gss, Gcc]
        (fun at_ => (GM.shaly_sand (at_ phis) (at_ C) (at_ Kss) (at_ Gss) (at_ Kcc) (at_ Gcc)).2)) ∧
    (∀ (K0 G0 Kc Gc phi phic Cn : Nd Fl) (scheme : ℤ),
      Elementwise (GM.contactcement K0 G0 Kc Gc phi phic Cn scheme).1 [K0, G0, Kc, Gc, phi, phic,
        Cn]
        (fun at_ => (GM.contactcement (at_ K0) (at_ G0) (at_ Kc) (at_ Gc) (at_ phi) (at_ phic) (at_
          Cn) scheme).1) ∧
      Elementwise (GM.contactcement K0 G0 Kc Gc phi phic Cn scheme).2 [K0, G0, Kc, Gc, phi, phic,
        Cn]
        (fun at_ => (GM.contactcement (at_ K0) (at_ G0) (at_ Kc) (at_ Gc) (at_ phi) (at_ phic) (at_
          Cn) scheme).2)) ∧
    (∀ K0 G0 phic Cn sigma f : Nd Fl,
      Elementwise (GM.hertzmindlin K0 G0 phic Cn sigma f).1 [K0, G0, phic, Cn, sigma]
        (fun at_ => (GM.hertzmindlin (at_ K0) (at_ G0) (at_ phic) (at_ Cn) (at_ sigma) (at_ f)).1) ∧
      Elementwise (GM.hertzmindlin K0 G0 phic Cn sigma f).2 [K0, G0, phic, Cn, sigma, f]
        (fun at_ => (GM.hertzmindlin (at_ K0) (at_ G0) (at_ phic) (at_ Cn) (at_ sigma) (at_ f)).2)) ∧
    (∀ K0 G0 phi phic Cn sigma f : Nd Fl,
      Elementwise (GM.softsand K0 G0 phi phic Cn sigma f).1 [K0, G0, phi, phic, Cn, sigma, f]
        (fun at_ => (GM.softsand (at_ K0) (at_ G0) (at_ phi) (at_ phic) (at_ Cn) (at_ sigma) (at_
          f)).1) ∧
      Elementwise (GM.softsand K0 G0 phi phic Cn sigma f).2 [K0, G0, phi, phic, Cn, sigma, f]
        (fun at_ => (GM.softsand (at_ K0) (at_ G0) (at_ phi) (at_ phic) (at_ Cn) (at_ sigma) (at_
          f)).2)) ∧
    (∀ K0 G0 phic Cn sigma f : Nd Fl,
      Elementwise (GM.Walton K0 G0 phic Cn sigma f).1 [K0, G0, phic, Cn, sigma]
        (fun at_ => (GM.Walton (at_ K0) (at_ G0) (at_ phic) (at_ Cn) (at_ sigma) (at_ f)).1) ∧
      Elementwise (GM.Walton K0 G0 phic Cn sigma f).2 [K0, G0, phic, Cn, sigma, f]
        (fun at_ => (GM.Walton (at_ K0) (at_ G0) (at_ phic) (at_ Cn) (at_ sigma) (at_ f)).2)) ∧
    (∀ K0 G0 phi phic Cn sigma f : Nd Fl,
      Elementwise (GM.stiffsand K0 G0 phi phic Cn sigma f).1 [K0, G0, phi, phic, Cn, sigma]
        (fun at_ => (GM.stiffsand (at_ K0) (at_ G0) (at_ phi) (at_ phic) (at_ Cn) (at_ sigma) (at_
          f)).1) ∧
      Elementwise (GM.stiffsand K0 G0 phi phic Cn sigma f).2 [K0, G0, phi, phic, Cn, sigma, f]
        (fun at_ => (GM.stiffsand (at_ K0) (at_ G0) (at_ phi) (at_ phic) (at_ Cn) (at_ sigma) (at_
          f)).2)) ∧
    (∀ K0 G0 phi phic Kp Gp : Nd Fl,
      Elementwise (GM.patchyHS K0 G0 phi phic Kp Gp).1 [K0, phi, phic, Kp, Gp]
        (fun at_ => (GM.patchyHS (at_ K0) (at_ G0) (at_ phi) (at_ phic) (at_ Kp) (at_ Gp)).1) ∧
      Elementwise (GM.patchyHS K0 G0 phi phic Kp Gp).2 [G0, phi, phic, Kp, Gp]
        (fun at_ => (GM.patchyHS (at_ K0) (at_ G0) (at_ phi) (at_ phic) (at_ Kp) (at_ Gp)).2)) ∧
    (∀ (phi_b K0 G0 Kc Gc phi phic Cn : Nd Fl) (scheme : ℤ),
      Elementwise (GM.constantcement phi_b K0 G0 Kc Gc phi phic Cn scheme).1 [phi_b, K0, G0, Kc,
        Gc, phi, phic, Cn]
        (fun at_ => (GM.constantcement (at_ phi_b) (at_ K0) (at_ G0) (at_ Kc) (at_ Gc) (at_ phi)
          (at_ phic) (at_ Cn) scheme).1) ∧
      Elementwise (GM.constantcement phi_b K0 G0 Kc Gc phi phic Cn scheme).2 [phi_b, K0, G0, Kc,
        Gc, phi, phic, Cn]
        (fun at_ => (GM.constantcement (at_ phi_b) (at_ K0) (at_ G0) (at_ Kc) (at_ Gc) (at_ phi)
          (at_ phic) (at_ Cn) scheme).2)) ∧
    (∀ (K0 G0 Kc Gc phi phi_b phic Cn : Nd Fl) (scheme : ℤ),
      Elementwise (GM.MUHS K0 G0 Kc Gc phi phi_b phic Cn scheme).1 [K0, G0, Kc, Gc, phi, phi_b,
        phic, Cn]
        (fun at_ => (GM.MUHS (at_ K0) (at_ G0) (at_ Kc) (at_ Gc) (at_ phi) (at_ phi_b) (at_ phic)
          (at_ Cn) scheme).1) ∧
      Elementwise (GM.MUHS K0 G0 Kc Gc phi phi_b phic Cn scheme).2 [K0, G0, Kc, Gc, phi, phi_b,
        phic, Cn]
        (fun at_ => (GM.MUHS (at_ K0) (at_ G0) (at_ Kc) (at_ Gc) (at_ phi) (at_ phi_b) (at_ phic)
          (at_ Cn) scheme).2)) := by
  refine ⟨?_, ?_, ?_, ?_, ?_, ?_, ?_, ?_, ?_, ?_⟩
  · intros; refine ⟨?_, ?_⟩ <;> nd_eval [GM.silty_shale]
  · intros; refine ⟨?_, ?_⟩ <;> nd_eval [GM.shaly_sand]
  · intro K0 G0 Kc Gc phi phic Cn scheme; by_cases hs : scheme = 1 <;> refine ⟨?_, ?_⟩ <;> nd_eval
    [GM.contactcement, hs]
  · intros; refine ⟨?_, ?_⟩ <;> nd_eval [GM.hertzmindlin]
  · intros; refine ⟨?_, ?_⟩ <;> nd_eval [GM.softsand, GM.hertzmindlin]
  · intros; refine ⟨?_, ?_⟩ <;> nd_eval [GM.Walton]
  · intros; refine ⟨?_, ?_⟩ <;> nd_eval [GM.stiffsand, GM.hertzmindlin]
  · intros; refine ⟨?_, ?_⟩ <;> nd_eval [GM.patchyHS]
  · intro phi_b K0 G0 Kc Gc phi phic Cn scheme; by_cases hs : scheme = 1 <;> refine ⟨?_, ?_⟩ <;>
    nd_eval [GM.constantcement, GM.contactcement, hs]
  · intro K0 G0 Kc Gc phi phi_b phic Cn scheme; by_cases hs : scheme = 1 <;> refine ⟨?_, ?_⟩ <;>
    nd_eval [GM.MUHS, GM.contactcement, hs]

/-- `BW`. -/
theorem C102_BW :
    (∀ P T G : Nd Fl,
      Elementwise (BW.rho_K_co2 P T G).1 [P, T, G]
        (fun at_ => (BW.rho_K_co2 (at_ P) (at_ T) (at_ G)).1) ∧
      Elementwise (BW.rho_K_co2 P T G).2 [P, T]
        (fun at_ => (BW.rho_K_co2 (at_ P) (at_ T) (at_ G)).2)) ∧
    (∀ P T G : Nd Fl,
      Elementwise (BW.rho_K_gas P T G).1 [P, T, G]
        (fun at_ => (BW.rho_K_gas (at_ P) (at_ T) (at_ G)).1) ∧
      Elementwise (BW.rho_K_gas P T G).2 [P, T, G]
        (fun at_ => (BW.rho_K_gas (at_ P) (at_ T) (at_ G)).2)) ∧
    (∀ P T den : Nd Fl,
      Elementwise (BW.rho_K_oil P T den).1 [P, T, den]
        (fun at_ => (BW.rho_K_oil (at_ P) (at_ T) (at_ den)).1) ∧
      Elementwise (BW.rho_K_oil P T den).2 [P, T, den]
        (fun at_ => (BW.rho_K_oil (at_ P) (at_ T) (at_ den)).2)) ∧
    (∀ T P : Nd Fl,
      Elementwise (BW.rho_K_water T P).1 [T, P]
        (fun at_ => (BW.rho_K_water (at_ T) (at_ P)).1) ∧
      Elementwise (BW.rho_K_water T P).2 [T, P]
        (fun at_ => (BW.rho_K_water (at_ T) (at_ P)).2)) ∧
    (∀ T P S : Nd Fl,
      Elementwise (BW.rho_K_brine T P S).1 [T, P, S]
        (fun at_ => (BW.rho_K_brine (at_ T) (at_ P) (at_ S)).1) ∧
      Elementwise (BW.rho_K_brine T P S).2 [T, P, S]
        (fun at_ => (BW.rho_K_brine (at_ T) (at_ P) (at_ S)).2)) ∧
    (∀ P T den G : Nd Fl,
      Elementwise (BW.rho_K_go P T den G none).1 [P, T, den, G]
        (fun at_ => (BW.rho_K_go (at_ P) (at_ T) (at_ den) (at_ G) none).1) ∧
      Elementwise (BW.rho_K_go P T den G none).2 [P, T, den, G]
        (fun at_ => (BW.rho_K_go (at_ P) (at_ T) (at_ den) (at_ G) none).2)) ∧
    (∀ T P S Sc : Nd Fl,
      Elementwise (BW.co2_brine T P S Sc none true).1 [T, P, S, Sc]
        (fun at_ => (BW.co2_brine (at_ T) (at_ P) (at_ S) (at_ Sc) none true).1) ∧
      Elementwise (BW.co2_brine T P S Sc none true).2 [T, P, S, Sc]
        (fun at_ => (BW.co2_brine (at_ T) (at_ P) (at_ S) (at_ Sc) none true).2)) ∧
    (∀ T P S Sc : Nd Fl,
      Elementwise (BW.co2_brine T P S Sc none false).1 [T, P, S, Sc]
        (fun at_ => (BW.co2_brine (at_ T) (at_ P) (at_ S) (at_ Sc) none false).1) ∧
      Elementwise (BW.co2_brine T P S Sc none false).2 [T, P, S, Sc]
        (fun at_ => (BW.co2_brine (at_ T) (at_ P) (at_ S) (at_ Sc) none false).2)) := by
  refine ⟨?_, ?_, ?_, ?_, ?_, ?_, ?_, ?_⟩
  · intros; refine ⟨?_, ?_⟩ <;> nd_eval [BW.rho_K_co2, BW.rho_K_reduced, BW.dz_dp]
  · intros; refine ⟨?_, ?_⟩ <;> nd_eval [BW.rho_K_gas, BW.rho_K_reduced, BW.dz_dp, BW.pseudo_p_t]
  · intros; refine ⟨?_, ?_⟩ <;> nd_eval [BW.rho_K_oil]
  · intros; refine ⟨?_, ?_⟩ <;> nd_eval [BW.rho_K_water]
  · intros; refine ⟨?_, ?_⟩ <;> nd_eval [BW.rho_K_brine, BW.v_brine, BW.rho_K_water]
  · intros; refine ⟨?_, ?_⟩ <;> nd_eval [BW.rho_K_go]
  · intros; refine ⟨?_, ?_⟩ <;> nd_eval [BW.co2_brine, BW.rho_K_brine, BW.v_brine, BW.rho_K_water,
    BW.rho_K_co2, BW.rho_K_reduced, BW.dz_dp, BW.rho_K_gas, BW.pseudo_p_t, Bool.false_eq_true]
  · intros; refine ⟨?_, ?_⟩ <;> nd_eval [BW.co2_brine, BW.rho_K_brine, BW.v_brine, BW.rho_K_water,
    BW.rho_K_co2, BW.rho_K_reduced, BW.dz_dp, BW.rho_K_gas, BW.pseudo_p_t, Bool.false_eq_true]

/-- `Fluid`. -/
theorem C102_Fluid :
    (∀ Vp0 Vpinf freq phi rhofl kapa eta : Nd Fl,
      Elementwise (Fluid.Geertsma_Smit_LF Vp0 Vpinf freq phi rhofl kapa eta) [Vp0, Vpinf, freq,
        phi, rhofl, kapa, eta]
        (fun at_ => (Fluid.Geertsma_Smit_LF (at_ Vp0) (at_ Vpinf) (at_ freq) (at_ phi) (at_ rhofl)
          (at_ kapa) (at_ eta)))) ∧
    (∀ K_dry G_dry K_mat Kf phi : Nd Fl,
      Elementwise (Fluid.Gassmann K_dry G_dry K_mat Kf phi).1 [K_dry, K_mat, Kf, phi]
        (fun at_ => (Fluid.Gassmann (at_ K_dry) (at_ G_dry) (at_ K_mat) (at_ Kf) (at_ phi)).1) ∧
      Elementwise (Fluid.Gassmann K_dry G_dry K_mat Kf phi).2 [G_dry]
        (fun at_ => (Fluid.Gassmann (at_ K_dry) (at_ G_dry) (at_ K_mat) (at_ Kf) (at_ phi)).2)) ∧
    (∀ phi K0 Ksat1 Kfl1 Kfl2 : Nd Fl,
      Elementwise (Fluid.Gassmann_sub phi K0 Ksat1 Kfl1 Kfl2) [phi, K0, Ksat1, Kfl1, Kfl2]
        (fun at_ => (Fluid.Gassmann_sub (at_ phi) (at_ K0) (at_ Ksat1) (at_ Kfl1) (at_ Kfl2)))) ∧
    (∀ K_dry G_dry K0 D0 Kf Df phi : Nd Fl,
      Elementwise (Fluid.vels K_dry G_dry K0 D0 Kf Df phi).1 [K_dry, G_dry, K0, D0, Kf, Df, phi]
        (fun at_ => (Fluid.vels (at_ K_dry) (at_ G_dry) (at_ K0) (at_ D0) (at_ Kf) (at_ Df) (at_
          phi)).1) ∧
      Elementwise (Fluid.vels K_dry G_dry K0 D0 Kf Df phi).2.1 [G_dry, D0, Df, phi]
        (fun at_ => (Fluid.vels (at_ K_dry) (at_ G_dry) (at_ K0) (at_ D0) (at_ Kf) (at_ Df) (at_
          phi)).2.1) ∧
      Elementwise (Fluid.vels K_dry G_dry K0 D0 Kf Df phi).2.2 [D0, Df, phi]
        (fun at_ => (Fluid.vels (at_ K_dry) (at_ G_dry) (at_ K0) (at_ D0) (at_ Kf) (at_ Df) (at_
          phi)).2.2)) ∧
    (∀ Vp1 Vs1 rho1 rhofl1 Kfl1 rhofl2 Kfl2 K0 phi : Nd Fl,
      Elementwise (Fluid.Gassmann_vels Vp1 Vs1 rho1 rhofl1 Kfl1 rhofl2 Kfl2 K0 phi).1 [Vp1, Vs1,
        rho1, rhofl1, Kfl1, rhofl2, Kfl2, K0, phi]
        (fun at_ => (Fluid.Gassmann_vels (at_ Vp1) (at_ Vs1) (at_ rho1) (at_ rhofl1) (at_ Kfl1)
          (at_ rhofl2) (at_ Kfl2) (at_ K0) (at_ phi)).1) ∧
      Elementwise (Fluid.Gassmann_vels Vp1 Vs1 rho1 rhofl1 Kfl1 rhofl2 Kfl2 K0 phi).2 [Vs1, rho1,
        rhofl1, rhofl2, phi]
        (fun at_ => (Fluid.Gassmann_vels (at_ Vp1) (at_ Vs1) (at_ rho1) (at_ rhofl1) (at_ Kfl1)
          (at_ rhofl2) (at_ Kfl2) (at_ K0) (at_ phi)).2)) ∧
    (∀ Msat1 M0 Mfl1 phi Mfl2 : Nd Fl,
      Elementwise (Fluid.Gassmann_approx Msat1 M0 Mfl1 phi Mfl2) [Msat1, M0, Mfl1, phi, Mfl2]
        (fun at_ => (Fluid.Gassmann_approx (at_ Msat1) (at_ M0) (at_ Mfl1) (at_ phi) (at_ Mfl2)))) ∧
    (∀ Vp_hs Vs_hs Vpdry Vsdry K0 rhodry rhofl Kfl phi : Nd Fl,
      Elementwise (Fluid.Mavko_Jizba Vp_hs Vs_hs Vpdry Vsdry K0 rhodry rhofl Kfl phi).1 [Vp_hs,
        Vs_hs, K0, rhodry, Kfl, phi]
        (fun at_ => (Fluid.Mavko_Jizba (at_ Vp_hs) (at_ Vs_hs) (at_ Vpdry) (at_ Vsdry) (at_ K0)
          (at_ rhodry) (at_ rhofl) (at_ Kfl) (at_ phi)).1) ∧
      Elementwise (Fluid.Mavko_Jizba Vp_hs Vs_hs Vpdry Vsdry K0 rhodry rhofl Kfl phi).2.1 [Vp_hs,
        Vs_hs, Vpdry, Vsdry, rhodry]
        (fun at_ => (Fluid.Mavko_Jizba (at_ Vp_hs) (at_ Vs_hs) (at_ Vpdry) (at_ Vsdry) (at_ K0)
          (at_ rhodry) (at_ rhofl) (at_ Kfl) (at_ phi)).2.1) ∧
      Elementwise (Fluid.Mavko_Jizba Vp_hs Vs_hs Vpdry Vsdry K0 rhodry rhofl Kfl phi).2.2.1 [Vp_hs,
        Vs_hs, Vpdry, Vsdry, K0, rhodry, rhofl, Kfl, phi]
        (fun at_ => (Fluid.Mavko_Jizba (at_ Vp_hs) (at_ Vs_hs) (at_ Vpdry) (at_ Vsdry) (at_ K0)
          (at_ rhodry) (at_ rhofl) (at_ Kfl) (at_ phi)).2.2.1) ∧
      Elementwise (Fluid.Mavko_Jizba Vp_hs Vs_hs Vpdry Vsdry K0 rhodry rhofl Kfl phi).2.2.2 [Vp_hs,
        Vs_hs, Vpdry, Vsdry, rhodry, rhofl, phi]
        (fun at_ => (Fluid.Mavko_Jizba (at_ Vp_hs) (at_ Vs_hs) (at_ Vpdry) (at_ Vsdry) (at_ K0)
          (at_ rhodry) (at_ rhofl) (at_ Kfl) (at_ phi)).2.2.2)) ∧
    (∀ Kw Kgas Sw e : Nd Fl,
      Elementwise (Fluid.Brie Kw Kgas Sw e) [Kw, Kgas, Sw, e]
        (fun at_ => (Fluid.Brie (at_ Kw) (at_ Kgas) (at_ Sw) (at_ e)))) ∧
    (∀ Kdry Gdry K0 Kfl rho0 rhofl phi alpha : Nd Fl,
      Elementwise (Fluid.Biot_HF Kdry Gdry K0 Kfl rho0 rhofl phi alpha).1 [Kdry, Gdry, K0, Kfl,
        rho0, rhofl, phi, alpha]
        (fun at_ => (Fluid.Biot_HF (at_ Kdry) (at_ Gdry) (at_ K0) (at_ Kfl) (at_ rho0) (at_ rhofl)
          (at_ phi) (at_ alpha)).1) ∧
      Elementwise (Fluid.Biot_HF Kdry Gdry K0 Kfl rho0 rhofl phi alpha).2.1 [Kdry, Gdry, K0, Kfl,
        rho0, rhofl, phi, alpha]
        (fun at_ => (Fluid.Biot_HF (at_ Kdry) (at_ Gdry) (at_ K0) (at_ Kfl) (at_ rho0) (at_ rhofl)
          (at_ phi) (at_ alpha)).2.1) ∧
      Elementwise (Fluid.Biot_HF Kdry Gdry K0 Kfl rho0 rhofl phi alpha).2.2 [Gdry, rho0, rhofl,
        phi, alpha]
        (fun at_ => (Fluid.Biot_HF (at_ Kdry) (at_ Gdry) (at_ K0) (at_ Kfl) (at_ rho0) (at_ rhofl)
          (at_ phi) (at_ alpha)).2.2)) ∧
    (∀ Kdry Gdry K0 Kfl rho0 rhofl phi alpha : Nd Fl,
      Elementwise (Fluid.Geertsma_Smit_HF Kdry Gdry K0 Kfl rho0 rhofl phi alpha).1 [Kdry, Gdry, K0,
        Kfl, rho0, rhofl, phi, alpha]
        (fun at_ => (Fluid.Geertsma_Smit_HF (at_ Kdry) (at_ Gdry) (at_ K0) (at_ Kfl) (at_ rho0)
          (at_ rhofl) (at_ phi) (at_ alpha)).1) ∧
      Elementwise (Fluid.Geertsma_Smit_HF Kdry Gdry K0 Kfl rho0 rhofl phi alpha).2 [Gdry, rho0,
        rhofl, phi, alpha]
        (fun at_ => (Fluid.Geertsma_Smit_HF (at_ Kdry) (at_ Gdry) (at_ K0) (at_ Kfl) (at_ rho0)
          (at_ rhofl) (at_ phi) (at_ alpha)).2)) := by
  refine ⟨?_, ?_, ?_, ?_, ?_, ?_, ?_, ?_, ?_, ?_⟩
  · intros; nd_eval [Fluid.Geertsma_Smit_LF]
  · intros; refine ⟨?_, ?_⟩ <;> nd_eval [Fluid.Gassmann]
  · intros; nd_eval [Fluid.Gassmann_sub]
  · intros; refine ⟨?_, ?_, ?_⟩ <;> nd_eval [Fluid.vels, Fluid.Gassmann]
  · intros; refine ⟨?_, ?_⟩ <;> nd_eval [Fluid.Gassmann_vels, Fluid.Gassmann_sub]
  · intros; nd_eval [Fluid.Gassmann_approx]
  · intros; refine ⟨?_, ?_, ?_, ?_⟩ <;> nd_eval [Fluid.Mavko_Jizba, utils.M_from_V, utils.V,
    Fluid.Gassmann]
  · intros; nd_eval [Fluid.Brie]
  · intros; refine ⟨?_, ?_, ?_⟩ <;> nd_eval [Fluid.Biot_HF]
  · intros; refine ⟨?_, ?_⟩ <;> nd_eval [Fluid.Geertsma_Smit_HF]

/-- `AVO`. -/
theorem C102_AVO :
    (∀ vp1 vs1 rho1 vp2 vs2 rho2 theta : Nd Fl,
      Elementwise (AVO.zoeppritz vp1 vs1 rho1 vp2 vs2 rho2 theta).1 [vp1, vs1, rho1, vp2, vs2,
        rho2, theta]
        (fun at_ => (AVO.zoeppritz (at_ vp1) (at_ vs1) (at_ rho1) (at_ vp2) (at_ vs2) (at_ rho2)
          (at_ theta)).1) ∧
      Elementwise (AVO.zoeppritz vp1 vs1 rho1 vp2 vs2 rho2 theta).2 [vp1, vs1, rho1, vp2, vs2,
        rho2, theta]
        (fun at_ => (AVO.zoeppritz (at_ vp1) (at_ vs1) (at_ rho1) (at_ vp2) (at_ vs2) (at_ rho2)
          (at_ theta)).2)) ∧
    (∀ vp1 vs1 d1 vp2 vs2 d2 : Nd Fl,
      Elementwise (AVO.AVO_abe vp1 vs1 d1 vp2 vs2 d2).1 [vp1, d1, vp2, d2]
        (fun at_ => (AVO.AVO_abe (at_ vp1) (at_ vs1) (at_ d1) (at_ vp2) (at_ vs2) (at_ d2)).1) ∧
      Elementwise (AVO.AVO_abe vp1 vs1 d1 vp2 vs2 d2).2.1 [vp1, vs1, d1, vp2, vs2, d2]
        (fun at_ => (AVO.AVO_abe (at_ vp1) (at_ vs1) (at_ d1) (at_ vp2) (at_ vs2) (at_ d2)).2.1) ∧
      Elementwise (AVO.AVO_abe vp1 vs1 d1 vp2 vs2 d2).2.2.1 [vp1, vs1, d1, vp2, vs2, d2]
        (fun at_ => (AVO.AVO_abe (at_ vp1) (at_ vs1) (at_ d1) (at_ vp2) (at_ vs2) (at_ d2)).2.2.1) ∧
      Elementwise (AVO.AVO_abe vp1 vs1 d1 vp2 vs2 d2).2.2.2.1 [vp1, vs1, d1, vp2, vs2, d2]
        (fun at_ => (AVO.AVO_abe (at_ vp1) (at_ vs1) (at_ d1) (at_ vp2) (at_ vs2) (at_ d2)).2.2.2.1) ∧
      Elementwise (AVO.AVO_abe vp1 vs1 d1 vp2 vs2 d2).2.2.2.2 [vp1, vs1, d1, vp2, vs2, d2]
        (fun at_ => (AVO.AVO_abe (at_ vp1) (at_ vs1) (at_ d1) (at_ vp2) (at_ vs2) (at_ d2)).2.2.2.2)) ∧
    (∀ a1 b1 e11 d11 e12 d12 g1 rho1 a2 b2 e21 d21 e22 d22 g2 rho2 the : Nd Fl,
      Elementwise (AVO.AVO_ortho a1 b1 e11 d11 e12 d12 g1 rho1 a2 b2 e21 d21 e22 d22 g2 rho2 the).1
        [a1, b1, e12, d12, g1, rho1, a2, b2, e22, d22, g2, rho2, the]
        (fun at_ => (AVO.AVO_ortho (at_ a1) (at_ b1) (at_ e11) (at_ d11) (at_ e12) (at_ d12) (at_
          g1) (at_ rho1) (at_ a2) (at_ b2) (at_ e21) (at_ d21) (at_ e22) (at_ d22) (at_ g2) (at_
          rho2) (at_ the)).1) ∧
      Elementwise (AVO.AVO_ortho a1 b1 e11 d11 e12 d12 g1 rho1 a2 b2 e21 d21 e22 d22 g2 rho2 the).2
        [a1, b1, e11, d11, rho1, a2, b2, e21, d21, rho2, the]
        (fun at_ => (AVO.AVO_ortho (at_ a1) (at_ b1) (at_ e11) (at_ d11) (at_ e12) (at_ d12) (at_
          g1) (at_ rho1) (at_ a2) (at_ b2) (at_ e21) (at_ d21) (at_ e22) (at_ d22) (at_ g2) (at_
          rho2) (at_ the)).2)) := by
  refine ⟨?_, ?_, ?_⟩
  · intros; refine ⟨?_, ?_⟩ <;> nd_eval [AVO.zoeppritz]
  · intros; refine ⟨?_, ?_, ?_, ?_, ?_⟩ <;> nd_eval [AVO.AVO_abe]
  · intros; refine ⟨?_, ?_⟩ <;> nd_eval [AVO.AVO_ortho]

/-- `Anisotropy`. -/
theorem C102_Anisotropy :
    (∀ C11 C33 C13 C44 C66 den theta : Nd Fl,
      Elementwise (Anisotropy.Thomsen C11 C33 C13 C44 C66 den theta).1 [C11, C33, C13, C44, den,
        theta]
        (fun at_ => (Anisotropy.Thomsen (at_ C11) (at_ C33) (at_ C13) (at_ C44) (at_ C66) (at_ den)
          (at_ theta)).1) ∧
      Elementwise (Anisotropy.Thomsen C11 C33 C13 C44 C66 den theta).2.1 [C11, C33, C13, C44, den,
        theta]
        (fun at_ => (Anisotropy.Thomsen (at_ C11) (at_ C33) (at_ C13) (at_ C44) (at_ C66) (at_ den)
          (at_ theta)).2.1) ∧
      Elementwise (Anisotropy.Thomsen C11 C33 C13 C44 C66 den theta).2.2.1 [C44, C66, den, theta]
        (fun at_ => (Anisotropy.Thomsen (at_ C11) (at_ C33) (at_ C13) (at_ C44) (at_ C66) (at_ den)
          (at_ theta)).2.2.1) ∧
      Elementwise (Anisotropy.Thomsen C11 C33 C13 C44 C66 den theta).2.2.2.1 [C11, C33]
        (fun at_ => (Anisotropy.Thomsen (at_ C11) (at_ C33) (at_ C13) (at_ C44) (at_ C66) (at_ den)
          (at_ theta)).2.2.2.1) ∧
      Elementwise (Anisotropy.Thomsen C11 C33 C13 C44 C66 den theta).2.2.2.2.1 [C44, C66]
        (fun at_ => (Anisotropy.Thomsen (at_ C11) (at_ C33) (at_ C13) (at_ C44) (at_ C66) (at_ den)
          (at_ theta)).2.2.2.2.1) ∧
      Elementwise (Anisotropy.Thomsen C11 C33 C13 C44 C66 den theta).2.2.2.2.2 [C33, C13, C44]
        (fun at_ => (Anisotropy.Thomsen (at_ C11) (at_ C33) (at_ C13) (at_ C44) (at_ C66) (at_ den)
          (at_ theta)).2.2.2.2.2)) ∧
    (∀ C11 C22 C33 C12 C13 C23 C44 C55 C66 : Nd Fl,
      Elementwise (Anisotropy.Thomsen_Tsvankin C11 C22 C33 C12 C13 C23 C44 C55 C66).1 [C22, C33]
        (fun at_ => (Anisotropy.Thomsen_Tsvankin (at_ C11) (at_ C22) (at_ C33) (at_ C12) (at_ C13)
          (at_ C23) (at_ C44) (at_ C55) (at_ C66)).1) ∧
      Elementwise (Anisotropy.Thomsen_Tsvankin C11 C22 C33 C12 C13 C23 C44 C55 C66).2.1 [C33, C23,
        C44]
        (fun at_ => (Anisotropy.Thomsen_Tsvankin (at_ C11) (at_ C22) (at_ C33) (at_ C12) (at_ C13)
          (at_ C23) (at_ C44) (at_ C55) (at_ C66)).2.1) ∧
      Elementwise (Anisotropy.Thomsen_Tsvankin C11 C22 C33 C12 C13 C23 C44 C55 C66).2.2.1 [C55, C66]
        (fun at_ => (Anisotropy.Thomsen_Tsvankin (at_ C11) (at_ C22) (at_ C33) (at_ C12) (at_ C13)
          (at_ C23) (at_ C44) (at_ C55) (at_ C66)).2.2.1) ∧
      Elementwise (Anisotropy.Thomsen_Tsvankin C11 C22 C33 C12 C13 C23 C44 C55 C66).2.2.2.1 [C11,
        C33]
        (fun at_ => (Anisotropy.Thomsen_Tsvankin (at_ C11) (at_ C22) (at_ C33) (at_ C12) (at_ C13)
          (at_ C23) (at_ C44) (at_ C55) (at_ C66)).2.2.2.1) ∧
      Elementwise (Anisotropy.Thomsen_Tsvankin C11 C22 C33 C12 C13 C23 C44 C55 C66).2.2.2.2.1 [C33,
        C13, C55]
        (fun at_ => (Anisotropy.Thomsen_Tsvankin (at_ C11) (at_ C22) (at_ C33) (at_ C12) (at_ C13)
          (at_ C23) (at_ C44) (at_ C55) (at_ C66)).2.2.2.2.1) ∧
      Elementwise (Anisotropy.Thomsen_Tsvankin C11 C22 C33 C12 C13 C23 C44 C55 C66).2.2.2.2.2.1
        [C44, C66]
        (fun at_ => (Anisotropy.Thomsen_Tsvankin (at_ C11) (at_ C22) (at_ C33) (at_ C12) (at_ C13)
          (at_ C23) (at_ C44) (at_ C55) (at_ C66)).2.2.2.2.2.1) ∧
      Elementwise (Anisotropy.Thomsen_Tsvankin C11 C22 C33 C12 C13 C23 C44 C55 C66).2.2.2.2.2.2
        [C11, C12, C66]
        (fun at_ => (Anisotropy.Thomsen_Tsvankin (at_ C11) (at_ C22) (at_ C33) (at_ C12) (at_ C13)
          (at_ C23) (at_ C44) (at_ C55) (at_ C66)).2.2.2.2.2.2)) := by
  refine ⟨?_, ?_⟩
  · intros; refine ⟨?_, ?_, ?_, ?_, ?_, ?_⟩ <;> nd_eval [Anisotropy.Thomsen]
  · intros; refine ⟨?_, ?_, ?_, ?_, ?_, ?_, ?_⟩ <;> nd_eval [Anisotropy.Thomsen_Tsvankin]

end RockPhy.Props
