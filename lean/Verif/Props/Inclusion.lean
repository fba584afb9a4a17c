import Verif.Lemmas.Mix
import Verif.Lemmas.Residuals

/-! # Properties C17, C18, C19 (inclusion shape factors in `rockphypy/EM.py`) -/

namespace RockPhy.EM

open Fl

/-- Oblate and prolate aspect ratios give a defined `theta`. -/
theorem PQ_theta_fin {a : ℝ} (h0 : 0 ≤ a) (h1 : a ≠ 1) : ∃ t : ℝ, PQ_theta (fin a) = fin t := by
  rcases lt_or_gt_of_ne h1 with h | h
  · have p : 0 < 1.0 - a ^ 2 := by
      have h2 : a ^ 2 < 1 := by nlinarith
      have e : (1.0 : ℝ) = 1 := by norm_num
      rw [e]; linarith
    have pr : 0 < (1.0 - a ^ 2) ^ ((3.0 : ℝ) / 2.0) := Real.rpow_pos_of_pos p _
    have ac : -1 ≤ a ∧ a ≤ 1 := ⟨by linarith, h.le⟩
    refine ⟨a / (1.0 - a ^ 2) ^ ((3.0 : ℝ) / 2.0) * (Real.arccos a - a * √(1.0 - a ^ 2)), ?_⟩
    unfold PQ_theta
    rw [if_pos (by simp only [fl]; exact h)]
    fl_eval []
  · have p : 0 < a ^ 2 - 1 := by nlinarith
    have pr : 0 < (a ^ 2 - 1) ^ ((3.0 : ℝ) / 2.0) := Real.rpow_pos_of_pos p _
    have pc : Real.cosh a ≠ 0 := (Real.cosh_pos a).ne'
    refine ⟨a / (a ^ 2 - 1) ^ ((3.0 : ℝ) / 2.0) * (a * (a ^ 2 - 1) ^ (0.5 : ℝ) - (Real.cosh a)⁻¹),
      ?_⟩
    unfold PQ_theta
    rw [if_neg (by simp only [fl]; exact h.not_gt)]
    fl_eval []

theorem PQ_core_neutral {K G a t : ℝ} (hK : 0 < K) (hG : 0 < G) (h0 : 0 ≤ a) (h1 : a ≠ 1) :
    PQ_core (fin K) (fin G) (fin K) (fin G) (fin a) (fin t) = (fin 1, fin 1) := by
  have n : 1.0 - a ^ 2 ≠ 0 := by
    intro h
    norm_num at h
    have : (1 - a) * (1 + a) = 0 := by linear_combination h
    rcases mul_eq_zero.mp this with h | h
    · exact h1 (by linarith)
    · linarith
  have hA : G / G - 1.0 = 0 := by rw [div_self hG.ne']; norm_num
  have hB : K / K - G / G = 0 := by rw [div_self hG.ne', div_self hK.ne']; norm_num
  have c1 : (1.0 : ℝ) = 1 := by norm_num
  have c2 : (2.0 : ℝ) = 2 := by norm_num
  unfold PQ_core
  simp (disch := first | assumption | positivity | (norm_num; done) | fail) only
    [fl, hA, hB, zero_mul, mul_zero, add_zero, zero_div, sub_zero, zero_add]
  norm_num

theorem PQ_neutral_fin {K G a : ℝ} (hK : 0 < K) (hG : 0 < G) (h0 : 0 ≤ a) :
    PQ (fin K) (fin G) (fin K) (fin G) (fin a) = (fin 1, fin 1) := by
  unfold PQ
  by_cases h1 : a = 1
  · rw [if_pos (by simp only [fl]; exact h1)]
    unfold PQ_sphere
    have p : 0 < K + 4 * G / 3 := by positivity
    have q : 0 < G + G / 6 * (9 * K + 8 * G) / (K + 2 * G) := by positivity
    fl_eval [div_self p.ne', div_self q.ne']
  · rw [if_neg (by simp only [fl]; exact h1)]
    obtain ⟨t, ht⟩ := PQ_theta_fin h0 h1
    rw [ht]
    exact PQ_core_neutral hK hG h0 h1

theorem PQ_sphere_eval {Km Gm Ki Gi : ℝ} (hK : 0 < Km) (hG : 0 < Gm) (hKi : 0 ≤ Ki)
    (hGi : 0 ≤ Gi) :
    PQ (fin Km) (fin Gm) (fin Ki) (fin Gi) (fin 1)
      = (fin ((Km + 4 * Gm / 3) / (Ki + 4 * Gm / 3)),
         fin ((Gm + Gm / 6 * (9 * Km + 8 * Gm) / (Km + 2 * Gm))
           / (Gi + Gm / 6 * (9 * Km + 8 * Gm) / (Km + 2 * Gm)))) := by
  unfold PQ
  rw [if_pos (by simp only [fl])]
  unfold PQ_sphere
  fl_eval []

end RockPhy.EM

namespace RockPhy.Props

open Fl EM Spec

/-! ## C17: an inclusion of the matrix material is neutral -/

/-- `PQ(K, G, K, G, alpha) = (1, 1)` for every aspect ratio: needle, sphere, disk or crack. -/
theorem C17_PQ_neutral (K G a : ℝ) (hK : 0 < K) (hG : 0 < G) (h0 : 0 ≤ a) :
    PQ (fin K) (fin G) (fin K) (fin G) (fin a) = (fin 1, fin 1) :=
  PQ_neutral_fin hK hG h0

/-- The same for the vectorised version with any number of aspect ratios. -/
theorem C17_PQ_vectorize_neutral (K G : ℝ) (as : List ℝ) (hK : 0 < K) (hG : 0 < G)
    (h0 : ∀ a ∈ as, 0 ≤ a) :
    ∃ as' : List Fl, PQ_vectorize (fin K) (fin G) (List.replicate as.length (fin K))
        (List.replicate as.length (fin G)) (as.map fin)
      = .ok (List.replicate as.length (fin 1), List.replicate as.length (fin 1), as') := by
  refine ⟨PQ_vectorize_alpha (as.map fin), ?_⟩
  rw [PQ_vectorize_fit _ _ (by simp) (by simp)]
  have key : List.zipWith (fun (kg : Fl × Fl) a => PQ_vectorize_entry (fin K) (fin G) kg.1 kg.2 a)
      (List.zip (List.replicate as.length (fin K)) (List.replicate as.length (fin G)))
      (PQ_vectorize_alpha (as.map fin)) = List.replicate as.length (fin 1, fin 1) := by
    induction as with
    | nil => rfl
    | cons a as ih =>
      have ih := ih fun a h => h0 a (List.mem_cons_of_mem _ h)
      have ha := h0 a List.mem_cons_self
      simp only [PQ_vectorize_alpha, List.length_cons, List.replicate_succ, List.map_cons,
        List.zip_cons_cons, List.zipWith_cons_cons] at ih ⊢
      rw [ih]
      congr 1
      show PQ (fin K) (fin G) (fin K) (fin G) _ = _
      by_cases h1 : a = 1
      · rw [if_pos (by simp only [fl]; exact h1), fl_sci]
        exact PQ_neutral_fin hK hG (by norm_num)
      · rw [if_neg (by simp only [fl]; exact h1)]
        exact PQ_neutral_fin hK hG ha
  simp only [fl, key, List.map_replicate]

example : ∀ a ∈ ([0, 0.01, 1, 5] : List ℝ), 0 ≤ a := by norm_num

/-! ## C18: the vectorised factors agree with the scalar ones, entry by entry -/

/-- Entries with aspect ratio different from one agree with `PQ` and keep their aspect ratio;
entries equal to one are evaluated at 0.999, and the caller's array holds 0.999 afterwards. -/
theorem C18_PQ_vectorize_entries (Km Gm : Fl) (Ki Gi : List Fl) (as : List ℝ)
    (h1 : Gi.length = Ki.length) (h2 : as.length = Ki.length) :
    ∃ P Q as' : List Fl, PQ_vectorize Km Gm Ki Gi (as.map fin) = .ok (P, Q, as') ∧
      P.length = as.length ∧ Q.length = as.length ∧ as'.length = as.length ∧
      ∀ (i : ℕ) (k g : Fl) (a : ℝ), Ki[i]? = some k → Gi[i]? = some g → as[i]? = some a →
        (a ≠ 1 → P[i]? = some (PQ Km Gm k g (fin a)).1 ∧ Q[i]? = some (PQ Km Gm k g (fin a)).2 ∧
          as'[i]? = some (fin a)) ∧
        (a = 1 → P[i]? = some (PQ Km Gm k g (fin 0.999)).1 ∧
          Q[i]? = some (PQ Km Gm k g (fin 0.999)).2 ∧ as'[i]? = some (fin 0.999)) := by
  have hp : PQ_vectorize Km Gm Ki Gi (as.map fin) = .ok
      ((List.zipWith (fun (kg : Fl × Fl) a => PQ_vectorize_entry Km Gm kg.1 kg.2 a)
        (List.zip Ki Gi) (PQ_vectorize_alpha (as.map fin))).map Prod.fst,
       (List.zipWith (fun (kg : Fl × Fl) a => PQ_vectorize_entry Km Gm kg.1 kg.2 a)
        (List.zip Ki Gi) (PQ_vectorize_alpha (as.map fin))).map Prod.snd,
       PQ_vectorize_alpha (as.map fin)) := PQ_vectorize_fit _ _ h1 (by simpa using h2)
  refine ⟨_, _, _, hp, by simp [PQ_vectorize_alpha, h1, h2], by simp [PQ_vectorize_alpha, h1, h2],
    by simp [PQ_vectorize_alpha], ?_⟩
  intro i k g a hk hg ha
  have e1 : ∀ x y z, PQ_vectorize_entry Km Gm x y z = PQ Km Gm x y z := fun _ _ _ => rfl
  have z : (List.zip Ki Gi)[i]? = some (k, g) := by
    rw [List.getElem?_zip_eq_some]; exact ⟨hk, hg⟩
  have al : (PQ_vectorize_alpha (as.map fin))[i]?
      = some (if PyNum.eq (fin a) 1 then 0.999 else fin a) := by
    unfold PQ_vectorize_alpha
    rw [List.getElem?_map, List.getElem?_map, ha]
    rfl
  constructor
  · intro hne
    rw [if_neg (by simp only [fl]; exact hne)] at al
    simp only [List.getElem?_map, List.getElem?_zipWith, z, al, e1, Option.map_some]
    exact ⟨trivial, trivial, trivial⟩
  · intro he
    rw [if_pos (by simp only [fl]; exact he), fl_sci] at al
    simp only [List.getElem?_map, List.getElem?_zipWith, z, al, e1, Option.map_some]
    exact ⟨trivial, trivial, trivial⟩

/-- The caller's aspect ratios survive the call exactly when none of them is one. -/
theorem C18_PQ_vectorize_mutates (Km Gm : Fl) (Ki Gi : List Fl) (as : List ℝ)
    (P Q as' : List Fl) (h : PQ_vectorize Km Gm Ki Gi (as.map fin) = .ok (P, Q, as')) :
    as' = as.map fin ↔ ∀ a ∈ as, a ≠ 1 := by
  have : as' = PQ_vectorize_alpha (as.map fin) := by
    obtain ⟨h1, h2, -, -⟩ := PQ_vectorize_length h
    rw [PQ_vectorize_fit _ _ h1 h2] at h
    injection h with h
    injection h with _ h
    injection h with _ h
    exact h.symm
  subst this
  unfold PQ_vectorize_alpha
  rw [List.map_map, List.map_inj_left]
  apply forall_congr'; intro a
  apply imp_congr_right; intro _
  show (if PyNum.eq (fin a) 1 then (0.999 : Fl) else fin a) = fin a ↔ _
  by_cases h1 : a = 1
  · rw [if_pos (by simp only [fl]; exact h1), fl_sci, fin_inj, h1]
    norm_num
  · rw [if_neg (by simp only [fl]; exact h1)]
    simp [h1]

/-- Unequal lengths are an error, also when one of the arrays has a single entry. -/
theorem C18_PQ_vectorize_shapes (Km Gm : Fl) (Ki Gi alpha : List Fl)
    (h : Gi.length ≠ Ki.length ∨ alpha.length ≠ Ki.length) :
    PQ_vectorize Km Gm Ki Gi alpha = .error
      (if alpha.length = Ki.length ∧ Gi.length ≠ 1 ∧ Ki.length ≠ 1 then .ValueError
        else .IndexError) := by
  unfold PQ_vectorize
  by_cases ha : alpha.length = Ki.length
  · rw [if_neg (not_not.mpr ha), if_pos (h.resolve_right (not_not.mpr ha))]
    show Except.error (if Gi.length = 1 ∨ Ki.length = 1 then PyErr.IndexError else .ValueError) = _
    by_cases h1 : Gi.length = 1 ∨ Ki.length = 1
    · rw [if_pos h1, if_neg (by tauto)]
    · rw [if_neg h1, if_pos (by tauto)]
  · rw [if_pos ha]
    show Except.error PyErr.IndexError = _
    rw [if_neg (by tauto)]

/-! ## C19: the homogeneous medium solves the inclusion equations -/

/-- Berryman's residuals vanish when every phase has the moduli of the effective medium, for any
number of phases, any fractions and any aspect ratios. -/
theorem C19_Berryman_homogeneous (K G : ℝ) (X as : List ℝ) (hK : 0 < K) (hG : 0 < G)
    (h0 : ∀ a ∈ as, 0 ≤ a) (hX : X.length = as.length) :
    ∃ as' : List Fl, Berryman_func (fin K) (fin G) (List.replicate as.length (fin K))
        (List.replicate as.length (fin G)) (X.map fin) (as.map fin) = .ok (fin 0, fin 0, as') := by
  obtain ⟨as', h⟩ := C17_PQ_vectorize_neutral K G as hK hG h0
  refine ⟨as', ?_⟩
  rw [Berryman_func_fit _ _ (by simp [hX])]
  have z : ∀ (k : ℝ) (n : ℕ) (X : List ℝ), X.length = n →
      lsum (List.zipWith (· * ·)
        (List.zipWith (fun x y => x * (y - fin k)) (X.map fin) (List.replicate n (fin k)))
        (List.replicate n (fin 1))) = fin 0 := by
    intro k n X hX
    induction X generalizing n with
    | nil => exact lsum_nil
    | cons x X ih =>
      cases n with
      | zero => simp at hX
      | succ n =>
        simp only [List.replicate_succ, List.map_cons, List.zipWith_cons_cons, lsum_cons]
        rw [ih n (by simpa using hX)]
        simp only [fl, sub_self, mul_zero, zero_mul, add_zero]
  rw [h]
  simp only [Except.map, z K _ X hX, z G _ X hX]

/-- The differential effective medium equations are stationary when the inclusion has the
moduli of the current medium. -/
theorem C19_DEM_stationary (K G t a : ℝ) (hK : 0 < K) (hG : 0 < G) (h0 : 0 ≤ a) (ht : t ≠ 1) :
    DEM (fin K) (fin G) (fin t) (fin G) (fin K) (fin a) = (fin 0, fin 0) := by
  have : 1 - t ≠ 0 := sub_ne_zero.mpr ht.symm
  unfold DEM
  rw [PQ_neutral_fin hK hG h0]
  fl_eval [sub_self, mul_zero, zero_mul]

/-- With spherical inclusions both moduli always move towards those of the inclusion. -/
theorem C19_DEM_direction (K G Ki Gi t : ℝ) (hK : 0 < K) (hG : 0 < G) (hKi : 0 ≤ Ki)
    (hGi : 0 ≤ Gi) (ht : t < 1) :
    ∃ dK dG : ℝ, DEM (fin K) (fin G) (fin t) (fin Gi) (fin Ki) (fin 1) = (fin dK, fin dG) ∧
      (Ki < K → dK < 0) ∧ (K < Ki → 0 < dK) ∧ (Gi < G → dG < 0) ∧ (G < Gi → 0 < dG) := by
  have n : 0 < 1 - t := by linarith
  have pP : 0 < (K + 4 * G / 3) / (Ki + 4 * G / 3) := by positivity
  have pQ : 0 < (G + G / 6 * (9 * K + 8 * G) / (K + 2 * G))
      / (Gi + G / 6 * (9 * K + 8 * G) / (K + 2 * G)) := by positivity
  unfold DEM
  rw [PQ_sphere_eval hK hG hKi hGi]
  generalize (K + 4 * G / 3) / (Ki + 4 * G / 3) = P at *
  generalize (G + G / 6 * (9 * K + 8 * G) / (K + 2 * G))
      / (Gi + G / 6 * (9 * K + 8 * G) / (K + 2 * G)) = Q at *
  refine ⟨1 / (1 - t) * (Ki - K) * P, 1 / (1 - t) * (Gi - G) * Q, by fl_eval [], ?_⟩
  have q : 0 < 1 / (1 - t) := by positivity
  refine ⟨fun h => ?_, fun h => ?_, fun h => ?_, fun h => ?_⟩
  · exact mul_neg_of_neg_of_pos (mul_neg_of_pos_of_neg q (by linarith)) pP
  · exact mul_pos (mul_pos q (by linarith)) pP
  · exact mul_neg_of_neg_of_pos (mul_neg_of_pos_of_neg q (by linarith)) pQ
  · exact mul_pos (mul_pos q (by linarith)) pQ

example : (0 : ℝ) < 37 ∧ (0 : ℝ) < 44 ∧ (0 : ℝ) ≤ 0 ∧ (0.2 : ℝ) < 1 ∧
    ([0.8, 0.15, 0.05] : List ℝ).length = ([1, 0.1, 0.01] : List ℝ).length := by norm_num

end RockPhy.Props
