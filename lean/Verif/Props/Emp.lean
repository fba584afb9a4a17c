import Verif.Model.Emp
import Verif.Spec.Trends

/-! # Properties C56, C57 and C67 to C70 (empirical relations) -/

namespace RockPhy.Empirical

open Fl Spec

/-- Filling the masked positions with the values selected by the same mask from another array
takes, entry by entry, the one or the other. -/
theorem setMask_getMask {α} (g : α → α → Bool) : ∀ (x y : List α), x.length = y.length →
    setMask x (List.zipWith g x y) (getMask y (List.zipWith g x y))
      = .ok (List.zipWith (fun a b => if g a b then b else a) x y)
  | [], [], _ => rfl
  | a :: x, b :: y, h => by
    have ih := setMask_getMask g x y (by simpa using h)
    simp only [List.zipWith_cons_cons]
    cases g a b <;> simp [setMask, getMask, ih, Except.map]

theorem filter_append_filter_not {α} (p : α → Bool) : ∀ l : List α,
    (l.filter p ++ l.filter fun x => !p x) = l ↔ l.Pairwise fun a b => p b = true → p a = true
  | [] => by simp
  | a :: l => by
    have ih := filter_append_filter_not p l
    by_cases h : p a
    · simp [h, ih]
    · simp only [List.filter_cons, h, List.pairwise_cons]
      constructor
      · intro e
        have : ∀ b ∈ l, ¬ p b := by
          intro b hb pb
          have hne : l.filter p ≠ [] := by
            intro he
            have : b ∈ l.filter p := List.mem_filter.mpr ⟨hb, pb⟩
            rw [he] at this; simp at this
          obtain ⟨c, t, hc⟩ := List.exists_cons_of_ne_nil hne
          rw [hc] at e
          simp at e
          have : c ∈ l.filter p := by rw [hc]; simp
          have := (List.mem_filter.mp this).2
          rw [e.1] at this
          exact h this
        refine ⟨fun b hb pb => absurd pb (this b hb), ?_⟩
        refine List.Pairwise.imp_of_mem (R := fun _ _ => True) ?_ (by
          exact List.pairwise_of_forall (fun _ _ => trivial))
        intro x y _ hy _ py
        exact absurd py (this y hy)
      · rintro ⟨h1, h2⟩
        have hn : ∀ b ∈ l, ¬ p b := fun b hb pb => absurd (h1 b hb pb) (by simp)
        have e1 : l.filter p = [] := by
          rw [List.filter_eq_nil_iff]; exact hn
        have e2 : (l.filter fun x => !p x) = l := by
          rw [List.filter_eq_self]; intro b hb; simpa using hn b hb
        simp [e1, e2]

/-- For an ascending list, the entries below `c` come first. -/
theorem filter_split_sorted {l : List ℝ} (h : l.Pairwise (· ≤ ·)) (p q : ℝ → Bool)
    (ho : ∀ x y, q x = true → p y = true → y < x) :
    l.filter p ++ l.filter q = l.filter fun x => p x || q x := by
  induction l with
  | nil => rfl
  | cons a l ih =>
    obtain ⟨h1, h2⟩ := List.pairwise_cons.mp h
    have ih := ih h2
    cases ha : p a
    · cases hb : q a
      · simp [ha, hb, ih]
      · have e : l.filter p = [] := by
          rw [List.filter_eq_nil_iff]
          intro b hb' pb
          exact absurd (h1 b hb') (not_le.mpr (ho a b hb pb))
        rw [e, List.nil_append] at ih
        simp [ha, hb, ih, e]
    · cases hb : q a
      · simp [ha, hb, ih]
      · exact absurd (ho a a hb ha) (lt_irrefl _)

theorem filter_map_fin (p : Fl → Bool) (q : ℝ → Bool) (h : ∀ r, p (fin r) = q r) (l : List ℝ) :
    (l.map fin).filter p = (l.filter q).map fin := by
  induction l with
  | nil => rfl
  | cons a l ih =>
    simp only [List.map_cons, List.filter_cons, h, ih]
    split <;> simp

theorem lt_fin (a b : ℝ) : PyNum.lt (fin a) (fin b) = decide (a < b) := rfl
theorem le_fin (a b : ℝ) : PyNum.le (fin a) (fin b) = decide (a ≤ b) := rfl

theorem yu_eval (Z : List ℝ) :
    yu_segment_trend (Z.map fin)
      = ((Z.filter fun z => decide (z ≤ 2630)) ++ (Z.filter fun z => !decide (z ≤ 2630))).map
          fun z => fin (yuTrend z) := by
  unfold yu_segment_trend
  simp only [fl_nat]
  rw [filter_map_fin _ (fun z => decide (z ≤ 2630)) (fun r => le_fin r 2630),
    filter_map_fin _ (fun z => !decide (z ≤ 2630))
      (fun r => by rw [lt_fin, ← decide_not]; simp only [not_le]), List.map_append, List.map_map, List.map_map]
  congr 1
  · refine List.map_congr_left fun z hz => ?_
    have : z ≤ 2630 := by simpa using (List.mem_filter.mp hz).2
    simp only [Function.comp, fl, yuTrend, if_pos this]
  · refine List.map_congr_left fun z hz => ?_
    have : ¬ z ≤ 2630 := by simpa using (List.mem_filter.mp hz).2
    simp only [Function.comp, fl, yuTrend, if_neg this]

theorem yuTrend_strictMono : StrictMono yuTrend := by
  intro a b h
  unfold yuTrend
  split_ifs <;> linarith

theorem japsenTrend_strictMono : StrictMono japsenTrend := by
  intro a b h
  unfold japsenTrend
  split_ifs <;> linarith

/-- The four depth intervals of `Japsen` in the order in which they are concatenated. -/
noncomputable def japsenOrder (Z : List ℝ) : List ℝ :=
  (Z.filter fun z => decide (z < 1393)) ++ (Z.filter fun z => decide (1393 ≤ z) && decide (z < 2000))
    ++ (Z.filter fun z => decide (2000 ≤ z) && decide (z < 3500))
    ++ (Z.filter fun z => decide (3500 ≤ z) && decide (z < 5300))

theorem japsen_eval (Z : List ℝ) :
    Japsen (Z.map fin) = (japsenOrder Z).map fun z => fin (japsenTrend z) := by
  unfold Japsen japsenOrder
  simp only [fl_nat]
  rw [filter_map_fin _ (fun z => decide (z < 1393)) (fun r => lt_fin r 1393),
    filter_map_fin _ (fun z => decide (1393 ≤ z) && decide (z < 2000))
      (fun r => by rw [lt_fin, le_fin]),
    filter_map_fin _ (fun z => decide (2000 ≤ z) && decide (z < 3500))
      (fun r => by rw [lt_fin, le_fin]),
    filter_map_fin _ (fun z => decide (3500 ≤ z) && decide (z < 5300))
      (fun r => by rw [lt_fin, le_fin])]
  simp only [List.map_append, List.map_map]
  congr 1
  · congr 1
    · congr 1
      · refine List.map_congr_left fun z hz => ?_
        have : z < 1393 := by simpa using (List.mem_filter.mp hz).2
        simp only [Function.comp, fl, japsenTrend, if_pos this]
      · refine List.map_congr_left fun z hz => ?_
        have : 1393 ≤ z ∧ z < 2000 := by simpa using (List.mem_filter.mp hz).2
        simp only [Function.comp, fl, japsenTrend, if_neg (not_lt.mpr this.1), if_pos this.2]
    · refine List.map_congr_left fun z hz => ?_
      have : 2000 ≤ z ∧ z < 3500 := by simpa using (List.mem_filter.mp hz).2
      have h1 : ¬ z < 1393 := by linarith
      simp only [Function.comp, fl, japsenTrend, if_neg h1, if_neg (not_lt.mpr this.1), if_pos this.2]
  · refine List.map_congr_left fun z hz => ?_
    have : 3500 ≤ z ∧ z < 5300 := by simpa using (List.mem_filter.mp hz).2
    have h1 : ¬ z < 1393 := by linarith
    have h2 : ¬ z < 2000 := by linarith
    simp only [Function.comp, fl, japsenTrend, if_neg h1, if_neg h2, if_neg (not_lt.mpr this.1)]

theorem japsenOrder_perm (Z : List ℝ) :
    (japsenOrder Z).Perm (Z.filter fun z => decide (z < 5300)) := by
  unfold japsenOrder
  induction Z with
  | nil => rfl
  | cons a l ih =>
    by_cases h1 : a < 1393
    · have : a < 5300 := by linarith
      have n2 : ¬ 1393 ≤ a := by linarith
      have n3 : ¬ 2000 ≤ a := by linarith
      have n4 : ¬ 3500 ≤ a := by linarith
      simpa [h1, this, n2, n3, n4] using ih
    · have n2 : 1393 ≤ a := not_lt.mp h1
      by_cases h2 : a < 2000
      · have : a < 5300 := by linarith
        have n3 : ¬ 2000 ≤ a := by linarith
        have n4 : ¬ 3500 ≤ a := by linarith
        simp [h1, h2, this, n2, n3, n4] at ih ⊢
        exact List.perm_middle.trans (List.Perm.cons _ ih)
      · have n3 : 2000 ≤ a := not_lt.mp h2
        by_cases h3 : a < 3500
        · have : a < 5300 := by linarith
          have n4 : ¬ 3500 ≤ a := by linarith
          simp [h1, h2, h3, this, n2, n3, n4] at ih ⊢
          rw [← List.append_assoc] at ih ⊢
          exact List.perm_middle.trans (List.Perm.cons _ ih)
        · have n4 : 3500 ≤ a := not_lt.mp h3
          by_cases h4 : a < 5300
          · simp [h1, h2, h3, h4, n2, n3, n4] at ih ⊢
            rw [← List.append_assoc, ← List.append_assoc] at ih ⊢
            exact List.perm_middle.trans (List.Perm.cons _ ih)
          · simp [h1, h2, h3, h4, n2, n3, n4] at ih ⊢
            exact ih

theorem japsenOrder_sorted {Z : List ℝ} (h : Z.Pairwise (· ≤ ·)) :
    japsenOrder Z = Z.filter fun z => decide (z < 5300) := by
  unfold japsenOrder
  rw [filter_split_sorted h, filter_split_sorted h, filter_split_sorted h]
  · refine List.filter_congr fun z _ => ?_
    rw [Bool.eq_iff_iff]
    simp only [Bool.or_eq_true, Bool.and_eq_true, decide_eq_true_eq]
    constructor
    · rintro (((h | h) | h) | h) <;> linarith
    · intro h4
      by_cases h1 : z < 1393
      · exact Or.inl (Or.inl (Or.inl h1))
      by_cases h2 : z < 2000
      · exact Or.inl (Or.inl (Or.inr ⟨not_lt.mp h1, h2⟩))
      by_cases h3 : z < 3500
      · exact Or.inl (Or.inr ⟨not_lt.mp h2, h3⟩)
      exact Or.inr ⟨not_lt.mp h3, h4⟩
  all_goals
    intro x y
    simp only [Bool.or_eq_true, Bool.and_eq_true, decide_eq_true_eq]
    grind

end RockPhy.Empirical

namespace RockPhy.Props

open Fl Empirical Spec

/-- C56: for every list of depths, the segmented porosity is, entry by entry and in the same order,
the smaller of the mechanical and the chemical compaction trend. -/
theorem C56_min (Z : List ℝ) :
    ramm_porosity_segment (Z.map fin) = .ok (Z.map fun z => fin (min (mechPor z) (chemPor z))) := by
  unfold ramm_porosity_segment
  rw [setMask_getMask _ _ _ (by simp)]
  congr 1
  rw [List.map_map, List.map_map, List.zipWith_map, List.zipWith_self]
  refine List.map_congr_left fun z _ => ?_
  simp only [Function.comp, fl]
  unfold mechPor chemPor
  split <;> rename_i h
  · rw [min_eq_right h.le]
  · rw [min_eq_left (not_lt.mp h)]

example : ramm_porosity_segment [fin 0, fin 10000] = .ok [fin 45, fin (-72.5)] := by
  have h := C56_min [0, 10000]
  simp only [List.map_cons, List.map_nil] at h
  rw [h]
  have e1 : min (mechPor 0) (chemPor 0) = 45 := by
    unfold mechPor chemPor
    rw [mul_zero, Real.exp_zero]; norm_num
  have e2 : min (mechPor 10000) (chemPor 10000) = -72.5 := by
    have : 0 < mechPor 10000 := by unfold mechPor; positivity
    have c : chemPor 10000 = -72.5 := by unfold chemPor; norm_num
    rw [c, min_eq_right (by norm_num; linarith)]
  rw [e1, e2]

/-- C56: units.  `ramm_porosity` returns a fraction: below the sea floor never more than 0.464.
`ramm_porosity_segment` returns percent: 45 at the sea floor. -/
theorem C56_units {z : ℝ} (h : 0 ≤ z) (HB : Bool) :
    ramm_porosity (fin z) HB ≤ fin 0.464 ∧ ramm_porosity_segment [fin 0] = .ok [fin 45] := by
  constructor
  · unfold ramm_porosity
    cases HB
    · simp only [Bool.false_eq_true, if_false]
      fl_eval [fin_le]
      norm_num; linarith
    · simp only [if_true]
      fl_eval [fin_le]
      norm_num; linarith
  · have h := C56_min [0]
    simp only [List.map_cons, List.map_nil] at h
    rw [h]
    have e1 : min (mechPor 0) (chemPor 0) = 45 := by
      unfold mechPor chemPor
      rw [mul_zero, Real.exp_zero]; norm_num
    rw [e1]

/-- C57: `yu_segment_trend` returns the trend value of every depth, none lost, in some order. -/
theorem C57_yu_perm (Z : List ℝ) :
    (yu_segment_trend (Z.map fin)).Perm (Z.map fun z => fin (yuTrend z)) := by
  rw [yu_eval]
  exact (List.filter_append_perm _ Z).map _

/-- C57: the values are in the order of the depths exactly when no depth at most 2630 m follows
one beyond 2630 m in the input. -/
theorem C57_yu_aligned_iff (Z : List ℝ) :
    yu_segment_trend (Z.map fin) = (Z.map fun z => fin (yuTrend z)) ↔
      Z.Pairwise fun a b => b ≤ 2630 → a ≤ 2630 := by
  rw [yu_eval]
  have inj : Function.Injective fun z => fin (yuTrend z) := by
    intro a b h
    exact yuTrend_strictMono.injective (fin_inj.mp h)
  rw [List.map_inj_right (fun a b h => inj h), filter_append_filter_not]
  simp only [decide_eq_true_eq]

/-- C57: in particular for every ascending list of depths. -/
theorem C57_yu_sorted {Z : List ℝ} (h : Z.Pairwise (· ≤ ·)) :
    yu_segment_trend (Z.map fin) = Z.map fun z => fin (yuTrend z) :=
  (C57_yu_aligned_iff Z).mpr (h.imp fun hab hb => hab.trans hb)

example : yu_segment_trend [fin 1000, fin 3000] = [fin 2367.998, fin 3759.84] := by
  have h := C57_yu_sorted (Z := [1000, 3000]) (by norm_num)
  simp only [List.map_cons, List.map_nil] at h
  rw [h]; unfold yuTrend; norm_num

/-- C57 (violation): two depths given deepest first come back shallowest first, so every value is
attached to the wrong depth. -/
theorem C57_yu_misaligned :
    yu_segment_trend [fin 3000, fin 1000] = [fin (yuTrend 1000), fin (yuTrend 3000)] ∧
      fin (yuTrend 1000) ≠ fin (yuTrend 3000) := by
  constructor
  · have h := yu_eval [3000, 1000]
    simp only [List.map_cons, List.map_nil] at h
    rw [h]
    norm_num
  · rw [Ne, fin_inj]
    exact (yuTrend_strictMono (by norm_num)).ne

/-- C57: `Japsen` returns the trend values of exactly the depths above 5300 m, in some order; the
others are dropped, so the result is shorter than the input as soon as one depth reaches 5300 m. -/
theorem C57_japsen_perm (Z : List ℝ) :
    (Japsen (Z.map fin)).Perm ((Z.filter fun z => decide (z < 5300)).map fun z => fin (japsenTrend z))
      ∧ ((Japsen (Z.map fin)).length = Z.length ↔ ∀ z ∈ Z, z < 5300) := by
  have p : (Japsen (Z.map fin)).Perm
      ((Z.filter fun z => decide (z < 5300)).map fun z => fin (japsenTrend z)) := by
    rw [japsen_eval]
    exact (japsenOrder_perm Z).map _
  refine ⟨p, ?_⟩
  rw [p.length_eq, List.length_map, List.length_filter_eq_length_iff]
  simp only [decide_eq_true_eq]

/-- C57: for ascending depths all above 5300 m, the values are aligned with the depths. -/
theorem C57_japsen_sorted {Z : List ℝ} (h : Z.Pairwise (· ≤ ·)) (h' : ∀ z ∈ Z, z < 5300) :
    Japsen (Z.map fin) = Z.map fun z => fin (japsenTrend z) := by
  rw [japsen_eval, japsenOrder_sorted h, List.filter_eq_self.mpr (by simpa using h')]

example : Japsen [fin 1000, fin 1500, fin 3000, fin 4000] = [fin 2150, fin 2600, fin 4100, fin 4475] := by
  have h := C57_japsen_sorted (Z := [1000, 1500, 3000, 4000]) (by norm_num) (by norm_num)
  simp only [List.map_cons, List.map_nil] at h
  rw [h]; unfold japsenTrend; norm_num

/-- C57: both trends strictly increase with depth across their breaks, but are not continuous:
the first jumps up by 0.432 m/s at 2630 m, the second by 0.2 m/s at 1393 m. -/
theorem C57_trends :
    StrictMono yuTrend ∧ StrictMono japsenTrend ∧
      (∀ ε > 0, yuTrend (2630 + ε) - yuTrend 2630 = 0.432 + 0.853 * ε) ∧
      (∀ ε, 0 < ε → japsenTrend 1393 - japsenTrend (1393 - ε) = 0.2 + 0.6 * ε) := by
  refine ⟨yuTrend_strictMono, japsenTrend_strictMono, fun ε h => ?_, fun ε h => ?_⟩
  · unfold yuTrend
    rw [if_neg (by linarith), if_pos le_rfl]; norm_num; ring
  · unfold japsenTrend
    rw [if_neg (by norm_num), if_pos (by norm_num), if_pos (by linarith)]; norm_num; ring

/-- C67: Krief's frame: value of the three returned moduli for a porosity below one. -/
theorem C67_value {φ K G : ℝ} (h : φ < 1) :
    krief (fin φ) (fin K) (fin G) =
      (fin ((1 - φ) ^ (3 / (1 - φ)) * (K - 2 * G / 3)), fin ((1 - φ) ^ (3 / (1 - φ)) * G),
        fin ((1 - φ) ^ (3 / (1 - φ)) * K)) := by
  have n : 0 < 1 - φ := by linarith
  unfold krief
  fl_eval []
  congr 3 <;> ring_nf

/-- C67: without porosity the mineral moduli are returned, and the first result is always the Lamé
constant belonging to the other two. -/
theorem C67_mineral {φ K G : ℝ} (h : φ < 1) :
    krief (fin 0) (fin K) (fin G) = (fin (K - 2 * G / 3), fin G, fin K) ∧
      ∃ l g k, krief (fin φ) (fin K) (fin G) = (fin l, fin g, fin k) ∧ k = l + 2 * g / 3 := by
  constructor
  · rw [C67_value (by norm_num)]
    norm_num
  · exact ⟨_, _, _, C67_value h, by ring⟩

theorem krief_factor_lt {x y : ℝ} (hx : 0 < x) (h : x < y) (hy : y ≤ 1) :
    x ^ (3 / x) < y ^ (3 / y) := by
  have hy0 : 0 < y := hx.trans h
  rw [Real.rpow_def_of_pos hx, Real.rpow_def_of_pos hy0, Real.exp_lt_exp]
  have l1 : Real.log x < Real.log y := Real.log_lt_log hx h
  have l2 : Real.log y ≤ 0 := Real.log_nonpos hy0.le hy
  have i : 3 / y < 3 / x := by gcongr
  have p : 0 < 3 / x := by positivity
  calc Real.log x * (3 / x) < Real.log y * (3 / x) := by gcongr
    _ ≤ Real.log y * (3 / y) := by nlinarith

/-- C67: bulk and shear modulus strictly decrease with porosity, stay positive, and keep the ratio
of the mineral. -/
theorem C67_decreasing {φ ψ K G : ℝ} (h0 : 0 ≤ φ) (h : φ < ψ) (h1 : ψ < 1) (hK : 0 < K)
    (hG : 0 < G) :
    fin 0 < (krief (fin ψ) (fin K) (fin G)).2.2 ∧ fin 0 < (krief (fin ψ) (fin K) (fin G)).2.1 ∧
      (krief (fin ψ) (fin K) (fin G)).2.2 < (krief (fin φ) (fin K) (fin G)).2.2 ∧
      (krief (fin ψ) (fin K) (fin G)).2.1 < (krief (fin φ) (fin K) (fin G)).2.1 ∧
      (krief (fin φ) (fin K) (fin G)).2.2 / (krief (fin φ) (fin K) (fin G)).2.1 = fin (K / G) := by
  have n : 0 < 1 - ψ := by linarith
  have n' : 0 < 1 - φ := by linarith
  have l := krief_factor_lt (x := 1 - ψ) (y := 1 - φ) n (by linarith) (by linarith)
  rw [C67_value h1, C67_value (h.trans h1)]
  have p : 0 < (1 - ψ) ^ (3 / (1 - ψ)) := by positivity
  have p' : 0 < (1 - φ) ^ (3 / (1 - φ)) := by positivity
  simp only [fin_lt]
  refine ⟨by positivity, by positivity, by gcongr, by gcongr, ?_⟩
  rw [fl_div (by positivity), mul_div_mul_left _ _ p'.ne']

example : (krief (fin 0.3) (fin 37) (fin 44)).2.2 < (krief (fin 0.1) (fin 37) (fin 44)).2.2 :=
  (C67_decreasing (by norm_num) (by norm_num) (by norm_num) (by norm_num) (by norm_num)).2.2.1

/-- Greenberg-Castagna regressions for pure sandstone and pure shale (m/s). -/
noncomputable def vsSand (v : ℝ) : ℝ := 0.80416 * v - 855.88
noncomputable def vsShale (v : ℝ) : ℝ := 0.76969 * v - 867.35

theorem esti_VS_eval {v x : ℝ} (hs : vsSand v ≠ 0) (hc : vsShale v ≠ 0)
    (hh : (1 - x) / vsSand v + x / vsShale v ≠ 0) :
    esti_VS (fin v) (fin x) = fin (0.5 * ((1 - x) * vsSand v + x * vsShale v
      + ((1 - x) / vsSand v + x / vsShale v)⁻¹)) := by
  have e1 : (0.80416 : ℝ) * v / 1000 - 0.85588 = vsSand v / 1000 := by unfold vsSand; ring
  have e2 : (0.76969 : ℝ) * v / 1000 - 0.86735 = vsShale v / 1000 := by unfold vsShale; ring
  have hs' : vsSand v / 1000 ≠ 0 := by positivity
  have hc' : vsShale v / 1000 ≠ 0 := by positivity
  have e3 : (1 - x) / (vsSand v / 1000) + x / (vsShale v / 1000)
      = 1000 * ((1 - x) / vsSand v + x / vsShale v) := by field
  have hh' : (1 - x) / (vsSand v / 1000) + x / (vsShale v / 1000) ≠ 0 := by
    rw [e3]; exact mul_ne_zero (by norm_num) hh
  unfold esti_VS
  fl_eval [e1, e2]
  rw [e3, mul_inv]
  exact congrArg fin (by ring)

/-- C68: the estimated shear velocity of a pure sandstone and of a pure shale is the regression of
that rock; a mixture lies between the two, for every compressional velocity above 1127 m/s. -/
theorem C68_between {v x : ℝ} (hv : 1127 ≤ v) (h0 : 0 ≤ x) (h1 : x ≤ 1) :
    0 < vsShale v ∧ fin (vsShale v) ≤ esti_VS (fin v) (fin x) ∧
      esti_VS (fin v) (fin x) ≤ fin (vsSand v) ∧
      esti_VS (fin v) (fin 0) = fin (vsSand v) ∧ esti_VS (fin v) (fin 1) = fin (vsShale v) := by
  have hc : 0 < vsShale v := by unfold vsShale; linarith
  have hcs : vsShale v < vsSand v := by unfold vsShale vsSand; linarith
  have hs : 0 < vsSand v := hc.trans hcs
  generalize hS : vsSand v = s at *
  generalize hC : vsShale v = c at *
  have hd : 0 < (1 - x) / s + x / c := by
    have : (1 - x) / s + x / c = ((1 - x) * c + x * s) / (s * c) := by field
    rw [this]
    have : 0 < (1 - x) * c + x * s := by nlinarith
    positivity
  have ev := esti_VS_eval (v := v) (x := x) (by rw [hS]; exact hs.ne') (by rw [hC]; exact hc.ne')
    (by rw [hS, hC]; exact hd.ne')
  have e0 := esti_VS_eval (v := v) (x := 0) (by rw [hS]; exact hs.ne') (by rw [hC]; exact hc.ne')
    (by rw [hS, hC]; simpa using hs.ne')
  have e1 := esti_VS_eval (v := v) (x := 1) (by rw [hS]; exact hs.ne') (by rw [hC]; exact hc.ne')
    (by rw [hS, hC]; simpa using hc.ne')
  rw [hS, hC] at ev e0 e1
  have hm : c ≤ ((1 - x) / s + x / c)⁻¹ ∧ ((1 - x) / s + x / c)⁻¹ ≤ s := by
    constructor
    · rw [le_inv_comm₀ hc hd]
      have : (1 - x) / s ≤ (1 - x) / c := by
        have : 0 ≤ 1 - x := by linarith
        gcongr
      calc (1 - x) / s + x / c ≤ (1 - x) / c + x / c := by linarith
        _ = c⁻¹ := by field
    · rw [inv_le_comm₀ hd hs]
      have : x / s ≤ x / c := by gcongr
      calc s⁻¹ = (1 - x) / s + x / s := by field
        _ ≤ _ := by linarith
  refine ⟨hc, ?_, ?_, ?_, ?_⟩
  · rw [ev, fin_le]; norm_num; nlinarith [hm.1]
  · rw [ev, fin_le]; norm_num; nlinarith [hm.2]
  · rw [e0]; refine congrArg fin ?_; norm_num; ring
  · rw [e1]; refine congrArg fin ?_; norm_num; ring

example : esti_VS (fin 3000) (fin 0.3) ≤ fin (vsSand 3000) :=
  (C68_between (by norm_num) (by norm_num) (by norm_num)).2.2.1

/-- C68: below that the harmonic mean can fail: at 1100 m/s, between the zeros of the two
regressions, some shale fraction gives a division by zero. -/
theorem C68_low_velocity : ∃ x : ℝ, 0 < x ∧ x < 1 ∧ esti_VS (fin 1100) (fin x) = bad := by
  refine ⟨20.691 / 49.387, by norm_num, by norm_num, ?_⟩
  have e1 : (0.80416 : ℝ) * 1100 / 1000 - 0.85588 = 0.028696 := by norm_num
  have e2 : (0.76969 : ℝ) * 1100 / 1000 - 0.86735 = -0.020691 := by norm_num
  have n2 : (-0.020691 : ℝ) ≠ 0 := by norm_num
  have z : (1 - (20.691 : ℝ) / 49.387) / 0.028696 + 20.691 / 49.387 / -0.020691 = 0 := by norm_num
  unfold esti_VS
  fl_eval [e1, e2, z, fl_inv_zero]

/-- C69: Murphy's coordination number falls strictly from 20 to 0 as the porosity goes from 0 to
1. -/
theorem C69_coordination {φ ψ : ℝ} (h : φ < ψ) (h1 : ψ ≤ 1) :
    Cp (fin φ) = fin (20 - 34 * φ + 14 * φ ^ 2) ∧
    Cp (fin 0) = fin 20 ∧ Cp (fin 1) = fin 0 ∧ fin 0 ≤ Cp (fin ψ) ∧ Cp (fin ψ) < Cp (fin φ) := by
  unfold Cp
  fl_eval [fin_le, fin_lt]
  refine ⟨trivial, by norm_num, by norm_num, by nlinarith, by nlinarith⟩

example : Cp (fin 0.4) < Cp (fin 0.36) :=
  (C69_coordination (by norm_num) (by norm_num)).2.2.2.2

/-- C70: Sclater's depth is the inverse of the exponential porosity curve `0.49 exp(-Z/3.7)`, in
both directions. -/
theorem C70_sclater {z φ : ℝ} (h : 0 < φ) :
    Sclater (fin (0.49 * Real.exp (-z / 3.7))) = fin z ∧
      ∃ d, Sclater (fin φ) = fin d ∧ 0.49 * Real.exp (-d / 3.7) = φ := by
  constructor
  · unfold Sclater
    have p : (0 : ℝ) < 0.49 * Real.exp (-z / 3.7) := by positivity
    have e : (0.49 : ℝ) / (0.49 * Real.exp (-z / 3.7)) = Real.exp (z / 3.7) := by
      rw [neg_div, Real.exp_neg]
      field
    fl_eval [e, Real.log_exp]
    exact congrArg fin (by field)
  · refine ⟨3.7 * Real.log (0.49 / φ), ?_, ?_⟩
    · unfold Sclater
      fl_eval []
    · have e : -(3.7 * Real.log (0.49 / φ)) / 3.7 = -Real.log (0.49 / φ) := by field
      rw [e, Real.exp_neg, Real.exp_log (by positivity)]
      field

/-- C70: Hillis' velocity is positive and strictly increases with depth above
`Z* = 135900/20.22` m, is not a number there, and is negative below. -/
theorem C70_hillis {y z : ℝ} :
    (y < z → z < 135900 / 20.22 → fin 0 < Hillis (fin y) ∧ Hillis (fin y) < Hillis (fin z)) ∧
      Hillis (fin (135900 / 20.22)) = bad ∧
      (135900 / 20.22 < z → Hillis (fin z) < fin 0) := by
  refine ⟨fun h hz => ?_, ?_, fun hz => ?_⟩
  · rw [lt_div_iff₀ (by norm_num)] at hz
    have p : (0 : ℝ) < 135.9 - 20.22 * z / 1000 := by linarith
    have q : (0 : ℝ) < 135.9 - 20.22 * y / 1000 := by linarith
    unfold Hillis
    fl_eval [fin_lt]
    refine ⟨by positivity, ?_⟩
    gcongr
  · have e : (135.9 : ℝ) - 20.22 * (135900 / 20.22) / 1000 = 0 := by norm_num
    unfold Hillis
    fl_eval [e, fl_div_zero]
  · rw [div_lt_iff₀ (by norm_num)] at hz
    have p : (135.9 : ℝ) - 20.22 * z / 1000 < 0 := by linarith
    have n := p.ne
    unfold Hillis
    fl_eval [fin_lt]
    exact div_neg_of_pos_of_neg (by norm_num) p

/-- C70: at Hillis' velocity (m/s) a foot, 0.3048 m, takes `135.9 − 20.22 z` microseconds at `z`
kilometres. -/
theorem C70_hillis_transit {z : ℝ} (hz : z ≠ 135900 / 20.22) :
    ∃ v : ℝ, Hillis (fin z) = fin v ∧ 0.3048 / v * 10 ^ 6 = 135.9 - 20.22 * (z / 1000) := by
  have n : (135.9 : ℝ) - 20.22 * z / 1000 ≠ 0 := by
    intro h
    apply hz
    rw [eq_div_iff (by norm_num)]
    linarith
  refine ⟨304.8 * 1000 / (135.9 - 20.22 * z / 1000), ?_, ?_⟩
  · unfold Hillis
    fl_eval []
  · rw [mul_div_assoc] at n ⊢
    field_simp
    norm_num
    ring

example : ∃ v : ℝ, Hillis (fin 2000) = fin v ∧ 0.3048 / v * 10 ^ 6 = 135.9 - 20.22 * (2000 / 1000) :=
  C70_hillis_transit (by norm_num)

/-- C70: the linear trends increase (velocity) or decrease (porosity) strictly with depth. -/
theorem C70_linear {y z : ℝ} (h : y < z) (HB : Bool) :
    Scherbaum (fin y) < Scherbaum (fin z) ∧ Storvoll (fin y) < Storvoll (fin z) ∧
      hjelstuen (fin y) < hjelstuen (fin z) ∧ ehrenberg (fin z) < ehrenberg (fin y) ∧
      ramm_porosity (fin z) HB < ramm_porosity (fin y) HB := by
  unfold Scherbaum Storvoll hjelstuen ehrenberg ramm_porosity
  cases HB <;> simp only [Bool.false_eq_true, if_false, if_true] <;> fl_eval [fin_lt] <;>
    refine ⟨by linarith, by norm_num; linarith, by linarith, by linarith, by linarith⟩

/-- C70: Han's velocities strictly decrease with porosity and with clay content. -/
theorem C70_han {φ ψ c c' : ℝ} (h : φ ≤ ψ) (hc : c ≤ c') (hne : φ < ψ ∨ c < c') :
    (han (fin ψ) (fin c')).1 < (han (fin φ) (fin c)).1 ∧
      (han (fin ψ) (fin c')).2 < (han (fin φ) (fin c)).2 := by
  unfold han
  fl_eval [fin_lt]
  rcases hne with h' | h' <;> exact ⟨by linarith, by linarith⟩

/-- C70: the St Peter velocities of samples 1 and 2 strictly increase with pressure and satisfy
`0 < Vs < Vp`; every other sample number ends in an unbound local variable. -/
theorem C70_stpeter {p q : ℝ} (h0 : 0 ≤ p) (h : p < q) {n : ℤ} (hn : n = 1 ∨ n = 2) :
    ∃ vp vs vp' vs', empirical_StPeter (fin p) n = .ok (fin vp, fin vs) ∧
      empirical_StPeter (fin q) n = .ok (fin vp', fin vs') ∧ 0 < vs ∧ vs < vp ∧ vp < vp' ∧
      vs < vs' := by
  have ex : ∀ a : ℝ, 0 ≤ a → Real.exp (-a * p) ≤ 1 := fun a ha => by
    rw [Real.exp_le_one_iff]; nlinarith
  have mo : ∀ a : ℝ, 0 < a → Real.exp (-a * q) < Real.exp (-a * p) := fun a ha => by
    rw [Real.exp_lt_exp]; nlinarith
  have pos : ∀ a : ℝ, 0 < Real.exp (-a * p) := fun a => Real.exp_pos _
  have e1 : ∀ t : ℝ, empirical_StPeter (fin t) 1
      = .ok (fin ((4.21 + 0.187 * t - 0.746 * Real.exp (-24 * t)) * 1000),
          fin ((2.58 + 0.160 * t - 0.781 * Real.exp (-20 * t)) * 1000)) := fun t => by
    unfold empirical_StPeter
    rw [if_pos rfl]; fl_eval []
  have e2 : ∀ t : ℝ, empirical_StPeter (fin t) 2
      = .ok (fin ((4.55 + 0.298 * t - 0.8 * Real.exp (-19 * t)) * 1000),
          fin ((2.83 + 0.195 * t - 0.741 * Real.exp (-16 * t)) * 1000)) := fun t => by
    unfold empirical_StPeter
    rw [if_neg (by decide), if_pos rfl]; fl_eval []
  rcases hn with rfl | rfl
  · refine ⟨_, _, _, _, e1 p, e1 q, ?_⟩
    have := ex 20 (by norm_num); have := ex 24 (by norm_num)
    have := mo 20 (by norm_num); have := mo 24 (by norm_num)
    have := pos 20; have := pos 24
    refine ⟨by linarith, by linarith, by linarith, by linarith⟩
  · refine ⟨_, _, _, _, e2 p, e2 q, ?_⟩
    have := ex 19 (by norm_num); have := ex 16 (by norm_num)
    have := mo 19 (by norm_num); have := mo 16 (by norm_num)
    have := pos 19; have := pos 16
    refine ⟨by linarith, by linarith, by linarith, by linarith⟩

theorem C70_stpeter_unknown {n : ℤ} (h1 : n ≠ 1) (h2 : n ≠ 2) (p : Fl) :
    empirical_StPeter p n = .error .UnboundLocalError := by
  unfold empirical_StPeter
  rw [if_neg h1, if_neg h2]

/-- C70: the published regressions.  `Z` in metres; `Storvoll` is the published depth-velocity line
`z = 1.76 v - 4576` solved for the velocity; porosities are fractions. -/
theorem C70_published (z φ c : ℝ) :
    Scherbaum (fin z) = fin (2325 + 0.51 * z) ∧
      (∃ v, Storvoll (fin z) = fin v ∧ z = 1.76 * v - 4576) ∧
      hjelstuen (fin z) = fin (1870 + 0.55 * z) ∧
      ehrenberg (fin z) = fin (0.4802422 - 0.092200747 * (z / 1000)) ∧
      ramm_porosity (fin z) true = fin ((46.4 - 0.0085 * z) / 100) ∧
      ramm_porosity (fin z) false = fin ((42.7 - 0.0069 * z) / 100) ∧
      han (fin φ) (fin c)
        = (fin (5590 - 6930 * φ - 2810 * c), fin (3520 - 4910 * φ - 1890 * c)) := by
  unfold Scherbaum Storvoll hjelstuen ehrenberg ramm_porosity han
  simp only [Bool.false_eq_true, if_false, if_true]
  refine ⟨by fl_eval [], ⟨1 / 1.76 * z + 2600, by fl_eval [], by norm_num; ring⟩, ?_, ?_,
    by fl_eval [], by fl_eval [], ?_⟩ <;> fl_eval []
  · exact congrArg fin (by ring)
  · exact congrArg fin (by ring)
  · exact Prod.ext (congrArg fin (by ring)) (congrArg fin (by ring))

end RockPhy.Props
