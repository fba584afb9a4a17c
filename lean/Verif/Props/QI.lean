import Verif.Model.QI
import Verif.Lemmas.GM
import Verif.Props.EMBounds
import Verif.Props.Fluid

/-! # Properties C60, C61 and C73 to C75 (`QI`) -/

namespace RockPhy.QI

open Fl Spec EM

/-! ## Lemmas on arrays of finite numbers -/

theorem npmax_fin (a : ℝ) (l : List ℝ) : npmax ((a :: l).map fin) = .ok (fin (l.foldl max a)) := by
  unfold npmax
  rw [List.map_cons]
  refine congrArg Except.ok ?_
  induction l generalizing a with
  | nil => rfl
  | cons b l ih => rw [List.map_cons, List.foldl_cons, List.foldl_cons, maximum_fin, ih]

theorem npmin_fin (a : ℝ) (l : List ℝ) : npmin ((a :: l).map fin) = .ok (fin (l.foldl min a)) := by
  unfold npmin
  rw [List.map_cons]
  refine congrArg Except.ok ?_
  induction l generalizing a with
  | nil => rfl
  | cons b l ih => rw [List.map_cons, List.foldl_cons, List.foldl_cons, minimum_fin, ih]

theorem foldl_max_spec (l : List ℝ) (a : ℝ) :
    a ≤ l.foldl max a ∧ (∀ x ∈ l, x ≤ l.foldl max a) ∧ (l.foldl max a = a ∨ l.foldl max a ∈ l) := by
  induction l generalizing a with
  | nil => simp
  | cons b l ih =>
    obtain ⟨h1, h2, h3⟩ := ih (max a b)
    rw [List.foldl_cons]
    refine ⟨(le_max_left a b).trans h1, ?_, ?_⟩
    · intro x hx
      rcases List.mem_cons.mp hx with rfl | hx
      · exact (le_max_right _ _).trans h1
      · exact h2 x hx
    · rcases h3 with h3 | h3
      · rcases max_choice a b with h | h
        · left; rw [h3, h]
        · right; rw [h3, h]; exact List.mem_cons_self
      · right; exact List.mem_cons_of_mem _ h3

theorem foldl_min_spec (l : List ℝ) (a : ℝ) :
    l.foldl min a ≤ a ∧ (∀ x ∈ l, l.foldl min a ≤ x) ∧ (l.foldl min a = a ∨ l.foldl min a ∈ l) := by
  induction l generalizing a with
  | nil => simp
  | cons b l ih =>
    obtain ⟨h1, h2, h3⟩ := ih (min a b)
    rw [List.foldl_cons]
    refine ⟨h1.trans (min_le_left a b), ?_, ?_⟩
    · intro x hx
      rcases List.mem_cons.mp hx with rfl | hx
      · exact h1.trans (min_le_right _ _)
      · exact h2 x hx
    · rcases h3 with h3 | h3
      · rcases min_choice a b with h | h
        · left; rw [h3, h]
        · right; rw [h3, h]; exact List.mem_cons_self
      · right; exact List.mem_cons_of_mem _ h3

/-- The maximum of a non-empty array is its element that is not below any other. -/
theorem npmax_eq {l : List ℝ} {m : ℝ} (hm : m ∈ l) (h : ∀ x ∈ l, x ≤ m) :
    npmax (l.map fin) = .ok (fin m) := by
  cases l with
  | nil => cases hm
  | cons a l =>
    rw [npmax_fin]
    obtain ⟨h1, h2, h3⟩ := foldl_max_spec l a
    refine congrArg (fun x => Except.ok (fin x)) (le_antisymm ?_ ?_)
    · rcases h3 with h3 | h3
      · rw [h3]; exact h a List.mem_cons_self
      · exact h _ (List.mem_cons_of_mem _ h3)
    · rcases List.mem_cons.mp hm with rfl | hm
      · exact h1
      · exact h2 m hm

theorem npmin_eq {l : List ℝ} {m : ℝ} (hm : m ∈ l) (h : ∀ x ∈ l, m ≤ x) :
    npmin (l.map fin) = .ok (fin m) := by
  cases l with
  | nil => cases hm
  | cons a l =>
    rw [npmin_fin]
    obtain ⟨h1, h2, h3⟩ := foldl_min_spec l a
    refine congrArg (fun x => Except.ok (fin x)) (le_antisymm ?_ ?_)
    · rcases List.mem_cons.mp hm with rfl | hm
      · exact h1
      · exact h2 m hm
    · rcases h3 with h3 | h3
      · rw [h3]; exact h a List.mem_cons_self
      · exact h _ (List.mem_cons_of_mem _ h3)

theorem getMask_nil {β} (m : List Bool) : Empirical.getMask ([] : List β) m = [] := by
  unfold Empirical.getMask; rfl

theorem getMask_append {β} {x y : List β} {m n : List Bool} (h : x.length = m.length) :
    Empirical.getMask (x ++ y) (m ++ n) = Empirical.getMask x m ++ Empirical.getMask y n := by
  induction x generalizing m with
  | nil =>
    have : m = [] := List.length_eq_zero_iff.mp h.symm
    subst this; rw [getMask_nil]; rfl
  | cons a x ih =>
    cases m with
    | nil => cases h
    | cons b m =>
      have := ih (m := m) (by simpa using h)
      cases b <;> simp [Empirical.getMask, this]

theorem getMask_false {β} (x : List β) (m : List Bool) (h : ∀ b ∈ m, b = false) :
    Empirical.getMask x m = [] := by
  induction x generalizing m with
  | nil => exact getMask_nil m
  | cons a x ih =>
    cases m with
    | nil => rfl
    | cons b m =>
      have hb := h b List.mem_cons_self
      subst hb
      exact ih m fun b hb => h b (List.mem_cons_of_mem _ hb)

/-- Selecting the entries of `s` at the only position where `x` occurs in `a`. -/
theorem select_unique {sp sq ap aq : List ℝ} {s x : ℝ} (hl : sp.length = ap.length)
    (hl' : sq.length = aq.length) (h1 : ∀ y ∈ ap, y ≠ x) (h2 : ∀ y ∈ aq, y ≠ x) :
    select ((sp ++ s :: sq).map fin)
        (((ap ++ x :: aq).map fin).map fun y => PyNum.eq y (fin x)) = .ok [fin s] := by
  unfold select
  rw [if_pos (by simp [hl, hl']), List.map_append, List.map_append, List.map_append,
    getMask_append (by simp [hl])]
  refine congrArg Except.ok ?_
  rw [getMask_false _ (List.map _ (ap.map fin)), List.nil_append]
  · simp only [List.map_cons]
    have e : PyNum.eq (fin x) (fin x) = true := by simp only [fl]; try exact decide_eq_true rfl
    rw [e, Empirical.getMask, getMask_false]
    intro b hb
    simp only [List.map_map, List.mem_map] at hb
    obtain ⟨y, hy, rfl⟩ := hb
    simp only [Function.comp, fl]
    exact decide_eq_false (h2 y hy)
  · intro b hb
    simp only [List.map_map, List.mem_map] at hb
    obtain ⟨y, hy, rfl⟩ := hb
    simp only [Function.comp, fl]
    exact decide_eq_false (h1 y hy)

theorem filter_lt_fin (l : List ℝ) (v : ℝ) :
    (l.map fin).filter (fun x => PyNum.lt x (fin v)) = (l.filter fun x => decide (x < v)).map fin := by
  rw [List.filter_map]; rfl

theorem filter_gt_fin (l : List ℝ) (v : ℝ) :
    (l.map fin).filter (fun x => PyNum.lt (fin v) x) = (l.filter fun x => decide (v < x)).map fin := by
  rw [List.filter_map]; rfl

/-- A sample between the first and last template is compared with its neighbours. -/
theorem cem_interior {seeds array : List ℝ} {f l v lo hi : ℝ} (hf : array.head? = some f)
    (hl : array.getLast? = some l) (h1 : f < v) (h2 : v < l) (a : Bool)
    (hlo : lo ∈ array) (hlo' : lo < v) (hlo'' : ∀ x ∈ array, x < v → x ≤ lo)
    (hhi : hi ∈ array) (hhi' : v < hi) (hhi'' : ∀ x ∈ array, v < x → hi ≤ x) :
    cem_of_row (seeds.map fin) a (array.map fin) (fin v)
      = if a then do
          let sb ← select (seeds.map fin) ((array.map fin).map fun x => PyNum.eq x (fin lo))
          let ss ← select (seeds.map fin) ((array.map fin).map fun x => PyNum.eq x (fin hi))
          let diff ← bzip (· - ·) sb ss
          let r ← bzip (· + ·) (diff.map fun s => (fin v - fin hi) / (fin lo - fin hi) * s) ss
          cell r
        else .error .TypeError := by
  unfold cem_of_row
  rw [List.head?_map, List.getLast?_map, hf, hl, Option.map_some, Option.map_some]
  have e1 : PyNum.le (fin v) (fin f) = false := decide_eq_false h1.not_ge
  have e2 : PyNum.le (fin l) (fin v) = false := decide_eq_false h2.not_ge
  dsimp only
  rw [e1, e2, filter_lt_fin, filter_gt_fin,
    npmax_eq (m := lo) (List.mem_filter.mpr ⟨hlo, decide_eq_true hlo'⟩) (by
      intro x hx
      obtain ⟨p, q⟩ := List.mem_filter.mp hx
      exact hlo'' x p (of_decide_eq_true q)),
    npmin_eq (m := hi) (List.mem_filter.mpr ⟨hhi, decide_eq_true hhi'⟩) (by
      intro x hx
      obtain ⟨p, q⟩ := List.mem_filter.mp hx
      exact hhi'' x p (of_decide_eq_true q))]
  cases a <;> rfl

/-- Interpolation between two selected seeds. -/
theorem cem_select {seeds array : List ℝ} {f l v lo hi slo shi : ℝ} (hf : array.head? = some f)
    (hl : array.getLast? = some l) (h1 : f < v) (h2 : v < l)
    (hlo : lo ∈ array) (hlo' : lo < v) (hlo'' : ∀ x ∈ array, x < v → x ≤ lo)
    (hhi : hi ∈ array) (hhi' : v < hi) (hhi'' : ∀ x ∈ array, v < x → hi ≤ x)
    (s1 : select (seeds.map fin) ((array.map fin).map fun x => PyNum.eq x (fin lo)) = .ok [fin slo])
    (s2 : select (seeds.map fin) ((array.map fin).map fun x => PyNum.eq x (fin hi)) = .ok [fin shi]) :
    cem_of_row (seeds.map fin) true (array.map fin) (fin v)
      = .ok (fin (slo + (v - lo) / (hi - lo) * (shi - slo))) := by
  rw [cem_interior hf hl h1 h2 true hlo hlo' hlo'' hhi hhi' hhi'', if_pos rfl, s1, s2]
  have n : lo - hi ≠ 0 := by linarith
  have n' : hi - lo ≠ 0 := by linarith
  have d : fin lo - fin hi = fin (lo - hi) := rfl
  have b : ∀ (f : Fl → Fl → Fl) (x y : Fl), bzip f [x] [y] = .ok [f x y] := fun _ _ _ => rfl
  simp only [except_ok_bind, b, List.map_cons, List.map_nil, cell]
  refine congrArg Except.ok ?_
  fl_eval []
  exact congrArg fin (by field)

theorem linspace_length (a b : Fl) (n : ℕ) : (linspace a b n).length = n := by
  simp [linspace]

end RockPhy.QI

namespace RockPhy.Props

open Fl Spec QI

theorem rdot_nil_nil : rdot [] [] = 0 := rfl

/-! ## C60: the matrix of a cementing sand -/

theorem VRH_pair {f1 f2 m1 m2 : ℝ} (h1 : 0 ≤ f1) (h2 : 0 ≤ f2) (hs : f1 + f2 = 1) (p1 : 0 < m1)
    (p2 : 0 < m2) :
    EM.VRH [fin f1, fin f2] [fin m1, fin m2]
      = .ok (fin (f1 * m1 + f2 * m2), fin (f1 / m1 + f2 / m2)⁻¹,
        fin (((f1 / m1 + f2 / m2)⁻¹ + (f1 * m1 + f2 * m2)) / 2)) := by
  have := EM.VRH_eval (v := [f1, f2]) (M := [m1, m2]) rfl (by simp [h1, h2]) (by simp [hs])
    (by simp [p1, p2])
  simp only [List.map_cons, List.map_nil] at this
  rw [this]
  simp only [rdot_cons, rdot_nil_nil, add_zero]
  have e : f1 * (1 / m1) + f2 * (1 / m2) = f1 / m1 + f2 / m2 := by ring
  have e' : ∀ x : ℝ, 0.5 * x = x / 2 := fun x => by norm_num; ring
  rw [e, e']

theorem VRH_triple {f1 f2 f3 m1 m2 m3 : ℝ} (h1 : 0 ≤ f1) (h2 : 0 ≤ f2) (h3 : 0 ≤ f3)
    (hs : f1 + f2 + f3 = 1) (p1 : 0 < m1) (p2 : 0 < m2) (p3 : 0 < m3) :
    EM.VRH [fin f1, fin f2, fin f3] [fin m1, fin m2, fin m3]
      = .ok (fin (f1 * m1 + f2 * m2 + f3 * m3), fin (f1 / m1 + f2 / m2 + f3 / m3)⁻¹,
        fin (((f1 / m1 + f2 / m2 + f3 / m3)⁻¹ + (f1 * m1 + f2 * m2 + f3 * m3)) / 2)) := by
  have := EM.VRH_eval (v := [f1, f2, f3]) (M := [m1, m2, m3]) rfl (by simp [h1, h2, h3])
    (by simp [← hs, add_assoc]) (by simp [p1, p2, p3])
  simp only [List.map_cons, List.map_nil] at this
  rw [this]
  simp only [rdot_cons, rdot_nil_nil, add_zero]
  have e : f1 * (1 / m1) + (f2 * (1 / m2) + f3 * (1 / m3)) = f1 / m1 + f2 / m2 + f3 / m3 := by ring
  have e' : ∀ x : ℝ, 0.5 * x = x / 2 := fun x => by norm_num; ring
  rw [e, e', ← add_assoc]

/-- C60: the matrix density conserves the mass of shale, grains and cement, for every porosity
other than one. -/
theorem C60_mass_balance {vsh c p ds dg dc : ℝ} (hp : p ≠ 1) (h1 : ds ≠ 0) (h2 : dg ≠ 0)
    (h3 : dc ≠ 0) :
    ∃ d, den_matrix (fin vsh) (fin c) (fin p) (fin ds) (fin dg) (fin dc) = .ok (fin d) ∧
      (1 - p) * d = vsh * ds + (1 - c - vsh) * dg + (c - p) * dc := by
  have hp' : 1 - p ≠ 0 := sub_ne_zero.mpr hp.symm
  refine ⟨vsh / (1 - p) * ds + ((1 - c - vsh) / (1 - p) * dg + (c - p) / (1 - p) * dc), ?_, ?_⟩
  · unfold den_matrix EM.VRH
    have e : ∀ {a b c x y z : ℝ}, dot [fin a, fin b, fin c] [fin x, fin y, fin z]
        = .ok (fin (a * x + (b * y + c * z))) := by
      intro a b c x y z
      have := dot_map_fin (x := [a, b, c]) (y := [x, y, z]) rfl
      simpa [rdot_cons] using this
    fl_eval []
    rw [e]
    simp only [List.map_cons, List.map_nil]
    rw [fl_div h1, fl_div h2, fl_div h3, e]
    rfl
  · field

/-- The volume fractions of shale, grain and cement in the solid part of a rock whose porosity has
been reduced by cement from `c` to `p`. -/
noncomputable def solidFractions (vsh c p : ℝ) : ℝ × ℝ × ℝ :=
  (vsh / (1 - p), (1 - c - vsh) / (1 - p), (c - p) / (1 - p))

/-- C60: the matrix modulus is Hill's average of shale, grain and cement with their fractions in
the solid, both for shaly and for clean sand. -/
theorem C60_hill {vsh c p ms mg mc : ℝ} (hv0 : 0 ≤ vsh) (hv1 : vsh ≤ 1 - c) (hpc : p ≤ c)
    (hc : c < 1) (h1 : 0 < ms) (h2 : 0 < mg) (h3 : 0 < mc) :
    let f := solidFractions vsh c p
    f.1 + f.2.1 + f.2.2 = 1 ∧ 0 ≤ f.1 ∧ 0 ≤ f.2.1 ∧ 0 ≤ f.2.2 ∧
    matrix_modulus (fin vsh) (fin c) (fin p) (fin ms) (fin mg) (fin mc)
      = .ok (fin (((f.1 / ms + f.2.1 / mg + f.2.2 / mc)⁻¹
          + (f.1 * ms + f.2.1 * mg + f.2.2 * mc)) / 2)) := by
  unfold solidFractions
  dsimp only
  have hp : 0 < 1 - p := by linarith
  have hs : vsh / (1 - p) + (1 - c - vsh) / (1 - p) + (c - p) / (1 - p) = 1 := by field
  have f1 : 0 ≤ vsh / (1 - p) := by positivity
  have f2 : 0 ≤ (1 - c - vsh) / (1 - p) := div_nonneg (by linarith) hp.le
  have f3 : 0 ≤ (c - p) / (1 - p) := div_nonneg (by linarith) hp.le
  refine ⟨hs, f1, f2, f3, ?_⟩
  unfold matrix_modulus
  by_cases hv : vsh = 0
  · subst hv
    rw [zero_div, zero_add] at hs
    have e : PyNum.eq (fin 0) (0 : Fl) = true := by simp only [fl]
    simp only [e, if_true, zero_div, zero_mul, zero_add]
    fl_eval []
    rw [VRH_pair f2 f3 hs h2 h3]
    rfl
  · have e : PyNum.eq (fin vsh) (0 : Fl) = false := by
      simp only [fl]; exact decide_eq_false (by simpa using hv)
    simp only [e, Bool.false_eq_true, if_false]
    fl_eval []
    rw [VRH_triple f1 f2 f3 hs h1 h2 h3]
    rfl

/-- C60: the matrix modulus lies between any bounds of the component moduli; in particular equal
components give their common modulus. -/
theorem C60_between {vsh c p ms mg mc lo hi : ℝ} (hv0 : 0 ≤ vsh) (hv1 : vsh ≤ 1 - c) (hpc : p ≤ c)
    (hc : c < 1) (hlo : 0 < lo) (h1 : lo ≤ ms ∧ ms ≤ hi) (h2 : lo ≤ mg ∧ mg ≤ hi)
    (h3 : lo ≤ mc ∧ mc ≤ hi) :
    ∃ m, matrix_modulus (fin vsh) (fin c) (fin p) (fin ms) (fin mg) (fin mc) = .ok (fin m) ∧
      lo ≤ m ∧ m ≤ hi := by
  have p1 := hlo.trans_le h1.1
  have p2 := hlo.trans_le h2.1
  have p3 := hlo.trans_le h3.1
  have hhi : 0 < hi := p1.trans_le h1.2
  obtain ⟨hs, f1, f2, f3, E⟩ := C60_hill hv0 hv1 hpc hc p1 p2 p3
  refine ⟨_, E, ?_⟩
  generalize (solidFractions vsh c p).1 = a at *
  generalize (solidFractions vsh c p).2.1 = b at *
  generalize (solidFractions vsh c p).2.2 = d at *
  have v1 : lo ≤ a * ms + b * mg + d * mc := by
    have := mul_le_mul_of_nonneg_left h1.1 f1
    have := mul_le_mul_of_nonneg_left h2.1 f2
    have := mul_le_mul_of_nonneg_left h3.1 f3
    calc lo = a * lo + b * lo + d * lo := by rw [← add_mul, ← add_mul, hs, one_mul]
      _ ≤ _ := by linarith
  have v2 : a * ms + b * mg + d * mc ≤ hi := by
    have := mul_le_mul_of_nonneg_left h1.2 f1
    have := mul_le_mul_of_nonneg_left h2.2 f2
    have := mul_le_mul_of_nonneg_left h3.2 f3
    calc _ ≤ a * hi + b * hi + d * hi := by linarith
      _ = hi := by rw [← add_mul, ← add_mul, hs, one_mul]
  have w1 : a / ms + b / mg + d / mc ≤ 1 / lo := by
    have := div_le_div_of_nonneg_left f1 hlo h1.1
    have := div_le_div_of_nonneg_left f2 hlo h2.1
    have := div_le_div_of_nonneg_left f3 hlo h3.1
    calc _ ≤ a / lo + b / lo + d / lo := by linarith
      _ = 1 / lo := by rw [← add_div, ← add_div, hs]
  have w2 : 1 / hi ≤ a / ms + b / mg + d / mc := by
    have := div_le_div_of_nonneg_left f1 p1 h1.2
    have := div_le_div_of_nonneg_left f2 p2 h2.2
    have := div_le_div_of_nonneg_left f3 p3 h3.2
    calc 1 / hi = a / hi + b / hi + d / hi := by rw [← add_div, ← add_div, hs]
      _ ≤ _ := by linarith
  have pos : 0 < a / ms + b / mg + d / mc := lt_of_lt_of_le (by positivity) w2
  have r1 : lo ≤ (a / ms + b / mg + d / mc)⁻¹ := by
    rw [le_inv_comm₀ hlo pos, ← one_div]; exact w1
  have r2 : (a / ms + b / mg + d / mc)⁻¹ ≤ hi := by
    rw [inv_le_comm₀ pos hhi, ← one_div]; exact w2
  constructor <;> linarith

example : ∃ m, matrix_modulus (fin 0.1) (fin 0.4) (fin 0.3) (fin 21) (fin 37) (fin 30) = .ok (fin m) ∧
    21 ≤ m ∧ m ≤ 37 :=
  C60_between (by norm_num) (by norm_num) (by norm_num) (by norm_num) (by norm_num) (by norm_num)
    (by norm_num) (by norm_num)

example : ∃ m, matrix_modulus (fin 0) (fin 0.4) (fin 0.3) (fin 5) (fin 37) (fin 37) = .ok (fin m) := by
  obtain ⟨m, h, -⟩ := C60_between (vsh := 0) (c := 0.4) (p := 0.3) (ms := 5) (mg := 37) (mc := 37)
    (lo := 1) (hi := 40) (by norm_num) (by norm_num) (by norm_num) (by norm_num) (by norm_num)
    (by norm_num) (by norm_num) (by norm_num)
  exact ⟨m, h⟩

example : ∃ d, den_matrix (fin 0.1) (fin 0.4) (fin 0.3) (fin 2.5) (fin 2.65) (fin 2.7) = .ok (fin d) ∧
    (1 - 0.3) * d = 0.1 * 2.5 + (1 - 0.4 - 0.1) * 2.65 + (0.4 - 0.3) * 2.7 :=
  C60_mass_balance (by norm_num) (by norm_num) (by norm_num) (by norm_num)

/-! ## C61: cement estimation -/

/-- C61: at or below the first template the estimate is zero, at or above the last one it is 0.1,
whatever the seeds are. -/
theorem C61_outside {array : List ℝ} {f l v : ℝ} (hf : array.head? = some f)
    (hl : array.getLast? = some l) (seeds : List Fl) (a : Bool) :
    (v ≤ f → cem_of_row seeds a (array.map fin) (fin v) = .ok (fin 0)) ∧
      (f < v → l ≤ v → cem_of_row seeds a (array.map fin) (fin v) = .ok (fin 0.1)) := by
  unfold cem_of_row
  rw [List.head?_map, List.getLast?_map, hf, hl, Option.map_some, Option.map_some]
  constructor
  · intro h
    have e1 : PyNum.le (fin v) (fin f) = true := decide_eq_true h
    dsimp only
    rw [e1, if_pos rfl, fl_zero]
  · intro h h'
    have e1 : PyNum.le (fin v) (fin f) = false := decide_eq_false h.not_ge
    have e2 : PyNum.le (fin l) (fin v) = true := decide_eq_true h'
    dsimp only
    rw [e1, e2, if_neg (by simp), if_pos rfl]
    simp only [fl]

/-- The first and the last entry of an increasing list around position `k`. -/
theorem sorted_ends {array : List ℝ} (hs : array.Pairwise (· < ·)) {i j : ℕ} (hij : i < j)
    (hj : j < array.length) :
    ∃ f l, array.head? = some f ∧ array.getLast? = some l ∧ f ≤ array[i] ∧ array[j] ≤ l := by
  have hne : array ≠ [] := by rintro rfl; simp at hj
  refine ⟨array.head hne, array.getLast hne, List.head?_eq_some_head hne,
    List.getLast?_eq_some_getLast hne, ?_, ?_⟩
  · rw [List.head_eq_getElem]
    rcases Nat.eq_zero_or_pos i with h | h
    · subst h; exact le_rfl
    · exact (List.pairwise_iff_getElem.mp hs 0 i _ (by omega) h).le
  · rw [List.getLast_eq_getElem]
    rcases Nat.lt_or_ge j (array.length - 1) with h | h
    · exact (List.pairwise_iff_getElem.mp hs j (array.length - 1) hj (by omega) h).le
    · have : j = array.length - 1 := by omega
      subst this; exact le_rfl

theorem sorted_select {seeds array : List ℝ} (hl : seeds.length = array.length)
    (hs : array.Pairwise (· < ·)) {k : ℕ} (hk : k < array.length) :
    select (seeds.map fin) ((array.map fin).map fun x => PyNum.eq x (fin array[k]))
      = .ok [fin (seeds[k]'(by omega))] := by
  have hk' : k < seeds.length := by omega
  have e1 : array = array.take k ++ array[k] :: array.drop (k + 1) := by
    rw [← List.drop_eq_getElem_cons hk, List.take_append_drop]
  have e2 : seeds = seeds.take k ++ seeds[k] :: seeds.drop (k + 1) := by
    rw [← List.drop_eq_getElem_cons hk', List.take_append_drop]
  have key := select_unique (sp := seeds.take k) (sq := seeds.drop (k + 1)) (ap := array.take k)
    (aq := array.drop (k + 1)) (s := seeds[k]) (x := array[k]) (by simp [hl]) (by simp [hl]) (by
      intro y hy
      obtain ⟨i, hi, rfl⟩ := List.mem_iff_getElem.mp hy
      rw [List.getElem_take]
      have hi' : i < k := by rw [List.length_take] at hi; omega
      exact (List.pairwise_iff_getElem.mp hs i k (by omega) hk hi').ne) (by
      intro y hy
      obtain ⟨i, hi, rfl⟩ := List.mem_iff_getElem.mp hy
      rw [List.getElem_drop]
      rw [List.length_drop] at hi
      exact (List.pairwise_iff_getElem.mp hs k (k + 1 + i) hk (by omega) (by omega)).ne')
  rw [← e1, ← e2] at key
  exact key

/-- C61: for increasing template velocities, a sample strictly between two neighbouring templates
is assigned the linear interpolation of their seeds. -/
theorem C61_between {seeds array : List ℝ} (hl : seeds.length = array.length)
    (hs : array.Pairwise (· < ·)) {k : ℕ} (hk : k + 1 < array.length) {v : ℝ}
    (h1 : array[k] < v) (h2 : v < array[k + 1]) :
    cem_of_row (seeds.map fin) true (array.map fin) (fin v)
      = .ok (fin (seeds[k]'(by omega) + (v - array[k]) / (array[k + 1] - array[k])
        * (seeds[k + 1]'(by omega) - seeds[k]'(by omega)))) := by
  obtain ⟨f, l, hf, hl', q1, q2⟩ := sorted_ends hs (Nat.lt_succ_self k) hk
  have mono := List.pairwise_iff_getElem.mp hs
  refine cem_select hf hl' (q1.trans_lt h1) (h2.trans_le q2) (List.getElem_mem _) h1 ?_
    (List.getElem_mem _) h2 ?_ (sorted_select hl hs (by omega)) (sorted_select hl hs hk)
  · intro x hx hxv
    obtain ⟨i, hi, rfl⟩ := List.mem_iff_getElem.mp hx
    rcases Nat.lt_trichotomy i k with h | h | h
    · exact (mono i k hi (by omega) h).le
    · subst h; exact le_rfl
    · exfalso
      rcases Nat.eq_or_lt_of_le (Nat.succ_le_of_lt h) with h' | h'
      · subst h'; linarith
      · have := mono (k + 1) i hk hi h'; linarith
  · intro x hx hxv
    obtain ⟨i, hi, rfl⟩ := List.mem_iff_getElem.mp hx
    rcases Nat.lt_trichotomy i (k + 1) with h | h | h
    · exfalso
      rcases Nat.eq_or_lt_of_le (Nat.le_of_lt_succ h) with h' | h'
      · subst h'; linarith
      · have := mono i k hi (by omega) h'; linarith
    · subst h; exact le_rfl
    · exact (mono (k + 1) i hk hi h).le

/-- C61: the interpolated estimate lies between the two seeds and, for increasing seeds, rises
strictly with the sample between the templates. -/
theorem C61_between_monotone {seeds array : List ℝ} (hl : seeds.length = array.length)
    (hs : array.Pairwise (· < ·)) (hs' : seeds.Pairwise (· < ·)) {k : ℕ}
    (hk : k + 1 < array.length) {v v' : ℝ} (h1 : array[k] < v) (h : v < v')
    (h2 : v' < array[k + 1]) :
    ∃ r r', cem_of_row (seeds.map fin) true (array.map fin) (fin v) = .ok (fin r) ∧
      cem_of_row (seeds.map fin) true (array.map fin) (fin v') = .ok (fin r') ∧
      seeds[k]'(by omega) < r ∧ r < r' ∧ r' < seeds[k + 1]'(by omega) := by
  have d : seeds[k]'(by omega) < seeds[k + 1]'(by omega) :=
    List.pairwise_iff_getElem.mp hs' k (k + 1) (by omega) (by omega) (Nat.lt_succ_self k)
  refine ⟨_, _, C61_between hl hs hk h1 (h.trans h2), C61_between hl hs hk (h1.trans h) h2, ?_⟩
  generalize seeds[k]'(by omega) = s at *
  generalize seeds[k + 1]'(by omega) = t at *
  generalize array[k] = a at *
  generalize array[k + 1] = b at *
  have hab : 0 < b - a := by linarith
  have e1 : 0 < (v - a) / (b - a) := div_pos (by linarith) hab
  have e2 : (v - a) / (b - a) < (v' - a) / (b - a) := div_lt_div_of_pos_right (by linarith) hab
  have e3 : (v' - a) / (b - a) < 1 := by rw [div_lt_one hab]; linarith
  have hst : 0 < t - s := by linarith
  refine ⟨by have := mul_pos e1 hst; linarith, ?_, ?_⟩
  · have := mul_lt_mul_of_pos_right e2 hst; linarith
  · have := mul_lt_mul_of_pos_right e3 hst; linarith

/-- C61 (violation): a sample exactly on an interior template is not assigned the seed of that
template but the interpolation between its two neighbours; the two agree exactly when the three
template points lie on a straight line. -/
theorem C61_on_template {seeds array : List ℝ} (hl : seeds.length = array.length)
    (hs : array.Pairwise (· < ·)) {k : ℕ} (hk : k + 2 < array.length) :
    ∃ r, cem_of_row (seeds.map fin) true (array.map fin) (fin array[k + 1]) = .ok (fin r) ∧
      (r = seeds[k + 1]'(by omega) ↔
        (seeds[k + 1]'(by omega) - seeds[k]'(by omega)) * (array[k + 2] - array[k])
          = (seeds[k + 2]'(by omega) - seeds[k]'(by omega)) * (array[k + 1] - array[k])) := by
  have mono := List.pairwise_iff_getElem.mp hs
  obtain ⟨f, l, hf, hl', q1, q2⟩ := sorted_ends hs (i := k) (j := k + 2) (by omega) hk
  have m1 := mono k (k + 1) (by omega) (by omega) (by omega)
  have m2 := mono (k + 1) (k + 2) (by omega) (by omega) (by omega)
  refine ⟨_, cem_select hf hl' (q1.trans_lt m1) (m2.trans_le q2) (lo := array[k])
    (hi := array[k + 2]) (List.getElem_mem _) m1 ?_
    (List.getElem_mem _) m2 ?_ (sorted_select hl hs (by omega)) (sorted_select hl hs hk), ?_⟩
  · intro x hx hxv
    obtain ⟨i, hi, rfl⟩ := List.mem_iff_getElem.mp hx
    rcases Nat.lt_trichotomy i k with h | h | h
    · exact (mono i k hi (by omega) h).le
    · subst h; exact le_rfl
    · exfalso
      rcases Nat.eq_or_lt_of_le (Nat.succ_le_of_lt h) with h' | h'
      · subst h'; exact absurd hxv (lt_irrefl _)
      · have := mono (k + 1) i (by omega) hi h'; linarith
  · intro x hx hxv
    obtain ⟨i, hi, rfl⟩ := List.mem_iff_getElem.mp hx
    rcases Nat.lt_trichotomy i (k + 2) with h | h | h
    · exfalso
      rcases Nat.eq_or_lt_of_le (Nat.le_of_lt_succ h) with h' | h'
      · subst h'; exact absurd hxv (lt_irrefl _)
      · have := mono i (k + 1) hi (by omega) h'; linarith
    · subst h; exact le_rfl
    · exact (mono (k + 2) i hk hi h).le
  · generalize seeds[k]'(by omega) = s at *
    generalize seeds[k + 1]'(by omega) = t at *
    generalize seeds[k + 2]'(by omega) = u at *
    generalize array[k] = a at *
    generalize array[k + 1] = b at *
    generalize array[k + 2] = c at *
    have hca : c - a ≠ 0 := by linarith
    have e : s + (b - a) / (c - a) * (u - s) = (s * (c - a) + (b - a) * (u - s)) / (c - a) := by field
    rw [e, div_eq_iff hca]
    constructor <;> intro h <;> linarith

example : cem_of_row ([0, 0.02, 0.1].map fin) true ([3000, 3500, 4000].map fin) (fin 3250)
    = .ok (fin (0 + (3250 - 3000) / (3500 - 3000) * (0.02 - 0))) :=
  C61_between (seeds := [0, 0.02, 0.1]) (array := [3000, 3500, 4000]) rfl (by norm_num) (k := 0)
    (by norm_num) (by norm_num) (by norm_num)

example : ∃ r, cem_of_row ([0, 0.02, 0.1].map fin) true ([3000, 3500, 4000].map fin) (fin 3500)
    = .ok (fin r) ∧ r ≠ 0.02 := by
  obtain ⟨r, h, h'⟩ := C61_on_template (seeds := [0, 0.02, 0.1]) (array := [3000, 3500, 4000]) rfl
    (by norm_num) (k := 0) (by norm_num)
  refine ⟨r, h, fun hr => ?_⟩
  have := h'.mp hr
  norm_num at this

/-- The largest entry below and the smallest entry above a sample exist. -/
theorem neighbours {array : List ℝ} {f l v : ℝ} (hf : array.head? = some f)
    (hl : array.getLast? = some l) (h1 : f < v) (h2 : v < l) :
    (∃ lo ∈ array, lo < v ∧ ∀ x ∈ array, x < v → x ≤ lo) ∧
      ∃ hi ∈ array, v < hi ∧ ∀ x ∈ array, v < x → hi ≤ x := by
  have hf' : f ∈ array := List.mem_of_head? hf
  have hl' : l ∈ array := List.mem_of_getLast? hl
  have ex1 : ∃ lo ∈ array, lo < v ∧ ∀ x ∈ array, x < v → x ≤ lo := by
    have hne : (array.filter fun x => decide (x < v)) ≠ [] :=
      List.ne_nil_of_mem (List.mem_filter.mpr ⟨hf', decide_eq_true h1⟩)
    obtain ⟨a, t, ht⟩ := List.exists_cons_of_ne_nil hne
    obtain ⟨g1, g2, g3⟩ := foldl_max_spec t a
    have mem : t.foldl max a ∈ array.filter fun x => decide (x < v) := by
      rw [ht]
      rcases g3 with g3 | g3
      · rw [g3]; exact List.mem_cons_self
      · exact List.mem_cons_of_mem _ g3
    obtain ⟨m1, m2⟩ := List.mem_filter.mp mem
    refine ⟨_, m1, of_decide_eq_true m2, fun x hx hxv => ?_⟩
    have : x ∈ a :: t := by rw [← ht]; exact List.mem_filter.mpr ⟨hx, decide_eq_true hxv⟩
    rcases List.mem_cons.mp this with rfl | h
    · exact g1
    · exact g2 x h
  have ex2 : ∃ hi ∈ array, v < hi ∧ ∀ x ∈ array, v < x → hi ≤ x := by
    have hne : (array.filter fun x => decide (v < x)) ≠ [] :=
      List.ne_nil_of_mem (List.mem_filter.mpr ⟨hl', decide_eq_true h2⟩)
    obtain ⟨a, t, ht⟩ := List.exists_cons_of_ne_nil hne
    obtain ⟨g1, g2, g3⟩ := foldl_min_spec t a
    have mem : t.foldl min a ∈ array.filter fun x => decide (v < x) := by
      rw [ht]
      rcases g3 with g3 | g3
      · rw [g3]; exact List.mem_cons_self
      · exact List.mem_cons_of_mem _ g3
    obtain ⟨m1, m2⟩ := List.mem_filter.mp mem
    refine ⟨_, m1, of_decide_eq_true m2, fun x hx hxv => ?_⟩
    have : x ∈ a :: t := by rw [← ht]; exact List.mem_filter.mpr ⟨hx, decide_eq_true hxv⟩
    rcases List.mem_cons.mp this with rfl | h
    · exact g1
    · exact g2 x h
  exact ⟨ex1, ex2⟩

/-- C61: seeds given as a Python list raise `TypeError` for every sample between the first and the
last template. -/
theorem C61_list_seeds {array : List ℝ} {f l v : ℝ}
    (hf : array.head? = some f) (hl : array.getLast? = some l) (h1 : f < v) (h2 : v < l)
    (seeds : List ℝ) :
    cem_of_row (seeds.map fin) false (array.map fin) (fin v) = .error .TypeError := by
  obtain ⟨⟨lo, a1, a2, a3⟩, hi, b1, b2, b3⟩ := neighbours hf hl h1 h2
  rw [cem_interior hf hl h1 h2 false a1 a2 a3 b1 b2 b3]
  rfl

example : cem_of_row ([0, 0.02, 0.1].map fin) false ([3000, 3500, 4000].map fin) (fin 3250)
    = .error .TypeError :=
  C61_list_seeds (array := [3000, 3500, 4000]) (f := 3000) (l := 4000) rfl rfl
    (by norm_num) (by norm_num) _

/-- C61: fewer or more template velocities than seeds raise `IndexError` for every sample between
the first and the last template. -/
theorem C61_length_mismatch {seeds array : List ℝ} {f l v : ℝ} (hn : seeds.length ≠ array.length)
    (hf : array.head? = some f) (hl : array.getLast? = some l) (h1 : f < v) (h2 : v < l) :
    cem_of_row (seeds.map fin) true (array.map fin) (fin v) = .error .IndexError := by
  obtain ⟨⟨lo, a1, a2, a3⟩, hi, b1, b2, b3⟩ := neighbours hf hl h1 h2
  rw [cem_interior hf hl h1 h2 true a1 a2 a3 b1 b2 b3, if_pos rfl]
  unfold select
  rw [if_neg (by simpa using hn)]
  rfl

theorem columns_fold (l acc : List ℝ) :
    ∃ r : List ℝ, (l.map fin).foldl
        (fun acc s => if acc.any (PyNum.eq s) then acc else acc ++ [s]) (acc.map fin) = r.map fin ∧
      ((acc ++ l).Nodup → r = acc ++ l) ∧ r.length ≤ acc.length + l.length ∧
      (acc.Nodup → ¬ (acc ++ l).Nodup → r.length < acc.length + l.length) ∧
      ∀ x ∈ r, x ∈ acc ∨ x ∈ l := by
  induction l generalizing acc with
  | nil => exact ⟨acc, rfl, fun _ => by simp, by simp, fun h h' => absurd (by simpa using h) h', fun x h => Or.inl h⟩
  | cons a l ih =>
    have any : (acc.map fin).any (PyNum.eq (fin a)) = decide (a ∈ acc) := by
      rw [Bool.eq_iff_iff, List.any_eq_true, decide_eq_true_eq]
      constructor
      · rintro ⟨x, hx, he⟩
        obtain ⟨y, hy, rfl⟩ := List.mem_map.mp hx
        have : a = y := by simpa only [fl] using he
        rwa [this]
      · intro h
        exact ⟨fin a, List.mem_map_of_mem h, by simp only [fl]⟩
    rw [List.map_cons, List.foldl_cons, any]
    by_cases h : a ∈ acc
    · rw [if_pos (decide_eq_true h)]
      obtain ⟨r, h1, h2, h3, h4, h5⟩ := ih acc
      refine ⟨r, h1, ?_, ?_, ?_, fun x hx => (h5 x hx).imp_right (List.mem_cons_of_mem _)⟩
      · intro hn
        exact absurd rfl (List.nodup_append.mp hn |>.2.2 a h a List.mem_cons_self)
      · rw [List.length_cons]; omega
      · intro _ _; rw [List.length_cons]; omega
    · rw [if_neg (by simpa using h)]
      obtain ⟨r, h1, h2, h3, h4, h5⟩ := ih (acc ++ [a])
      rw [List.map_append, List.map_cons, List.map_nil] at h1
      refine ⟨r, h1, ?_, ?_, ?_, fun x hx => ?_⟩
      · intro hn
        rw [h2 (by simpa using hn)]; simp
      · rw [List.length_append, List.length_singleton] at h3
        rw [List.length_cons]; omega
      · intro ha hn
        have := h4 (by
          rw [List.nodup_append]
          refine ⟨ha, List.nodup_singleton a, ?_⟩
          intro x hx y hy hxy
          rw [List.mem_singleton] at hy
          exact h (by rw [← hy, ← hxy]; exact hx)) (by simpa using hn)
        rw [List.length_append, List.length_singleton] at this
        rw [List.length_cons]; omega
      · rcases h5 x hx with h6 | h6
        · rcases List.mem_append.mp h6 with h7 | h7
          · exact Or.inl h7
          · rw [List.mem_singleton] at h7; subst h7; exact Or.inr List.mem_cons_self
        · exact Or.inr (List.mem_cons_of_mem _ h6)

/-- Distinct seeds give one column each, in the same order; a repeated seed loses a column. -/
theorem columns_spec (seeds : List ℝ) :
    ∃ r : List ℝ, columns (seeds.map fin) = r.map fin ∧ (seeds.Nodup → r = seeds) ∧
      (¬ seeds.Nodup → r.length < seeds.length) ∧ ∀ x ∈ r, x ∈ seeds := by
  obtain ⟨r, h1, h2, -, h4, h5⟩ := columns_fold seeds []
  exact ⟨r, h1, by simpa using h2, by simpa using h4 List.nodup_nil, by simpa using h5⟩

theorem mapM_ok {β γ : Type} {f : β → Except PyErr γ} {g : β → γ} {l : List β}
    (h : ∀ x ∈ l, f x = .ok (g x)) : l.mapM f = .ok (l.map g) := by
  induction l with
  | nil => rfl
  | cons a l ih =>
    rw [List.mapM_cons, h a List.mem_cons_self,
      ih fun x hx => h x (List.mem_cons_of_mem _ hx)]
    rfl

/-- The template velocities of the seeds `l` at one porosity are `vel`. -/
def TemplateVelocities (Kqz Gqz Ksh Gsh phi_c Kc Gc Db Kb : Fl) (scheme : Int)
    (vsh Dsh Dqz Dc phi : Fl) (l : List ℝ) (vel : ℝ → ℝ) : Prop :=
  ∀ s ∈ l, ∃ vs, cal_v_const Dqz Kqz Gqz Dsh Ksh Gsh Dc Kc Gc Db Kb (phi_c - fin s) phi_c vsh phi
    scheme = .ok (fin (vel s), vs)

section
variable {Kqz Gqz Ksh Gsh phi_c Kc Gc Db Kb vsh Dsh Dqz Dc phi : Fl} {scheme : Int}

theorem entry_eq {seeds : List ℝ} {vel : ℝ → ℝ} (r : List ℝ)
    (hr : columns (seeds.map fin) = r.map fin)
    (hv : TemplateVelocities Kqz Gqz Ksh Gsh phi_c Kc Gc Db Kb scheme vsh Dsh Dqz Dc phi r vel)
    (Cn val : Fl) (a : Bool) :
    estimate_cem_entry phi val (seeds.map fin) a Kqz Gqz Ksh Gsh phi_c Cn Kc Gc Db Kb scheme vsh
        Dsh Dqz Dc
      = cem_of_row (seeds.map fin) a ((r.map vel).map fin) val := by
  unfold estimate_cem_entry
  have : (r.map fin).mapM (fun i => do
      let v ← cal_v_const Dqz Kqz Gqz Dsh Ksh Gsh Dc Kc Gc Db Kb (phi_c - i) phi_c vsh phi scheme
      return v.1) = Except.ok ((r.map vel).map fin) := by
    rw [List.mapM_map, List.map_map]
    refine mapM_ok fun s hs => ?_
    obtain ⟨vs, e⟩ := hv s hs
    rw [Function.comp, e]
    rfl
  rw [hr, this]
  rfl

/-- C61: one log sample of `estimate_cem`, for distinct seeds whose template velocities at the
porosity of the sample increase: zero at or below the first template, 0.1 at or above the last, and
the interpolation of the two seeds around it strictly between two neighbouring templates. -/
theorem C61_estimate {seeds : List ℝ} {vel : ℝ → ℝ} (hn : seeds.Nodup)
    (hv : TemplateVelocities Kqz Gqz Ksh Gsh phi_c Kc Gc Db Kb scheme vsh Dsh Dqz Dc phi seeds vel)
    (hs : (seeds.map vel).Pairwise (· < ·)) (Cn : Fl) (v : ℝ) :
    let est := estimate_cem_entry phi (fin v) (seeds.map fin) true Kqz Gqz Ksh Gsh phi_c Cn Kc Gc Db
      Kb scheme vsh Dsh Dqz Dc
    (∀ s, seeds.head? = some s → v ≤ vel s → est = .ok (fin 0)) ∧
    (∀ s t, seeds.head? = some s → seeds.getLast? = some t → vel s < v → vel t ≤ v →
      est = .ok (fin 0.1)) ∧
    (∀ k, ∀ h : k + 1 < seeds.length, vel seeds[k] < v → v < vel seeds[k + 1] →
      est = .ok (fin (seeds[k] + (v - vel seeds[k]) / (vel seeds[k + 1] - vel seeds[k])
        * (seeds[k + 1] - seeds[k])))) := by
  obtain ⟨r, h1, h2, -, -⟩ := columns_spec seeds
  have hr := h2 hn
  subst hr
  dsimp only
  rw [entry_eq r h1 hv]
  refine ⟨fun s h hle => ?_, fun s t h h' hlt hle => ?_, fun k hk hlt hlt' => ?_⟩
  · have hne : r ≠ [] := by rintro rfl; cases h
    exact (C61_outside (f := vel s) (l := vel (r.getLast hne)) (by rw [List.head?_map, h]; rfl)
      (by rw [List.getLast?_map, List.getLast?_eq_some_getLast hne]; rfl) _ _).1 hle
  · exact (C61_outside (f := vel s) (l := vel t) (by rw [List.head?_map, h]; rfl)
      (by rw [List.getLast?_map, h']; rfl) _ _).2 hlt hle
  · have := C61_between (seeds := r) (array := r.map vel) (by simp) hs (k := k) (by simpa using hk)
      (v := v) (by simpa using hlt) (by simpa using hlt')
    simpa using this

/-- C61: with a repeated seed every sample between the first and the last template raises
`IndexError`. -/
theorem C61_repeated_seed {seeds : List ℝ} {vel : ℝ → ℝ} (hn : ¬ seeds.Nodup)
    (hv : TemplateVelocities Kqz Gqz Ksh Gsh phi_c Kc Gc Db Kb scheme vsh Dsh Dqz Dc phi seeds vel)
    {s t : ℝ} (hf : (columns (seeds.map fin)).head? = some (fin s))
    (hl : (columns (seeds.map fin)).getLast? = some (fin t)) (Cn : Fl) (v : ℝ) (h1 : vel s < v)
    (h2 : v < vel t) :
    estimate_cem_entry phi (fin v) (seeds.map fin) true Kqz Gqz Ksh Gsh phi_c Cn Kc Gc Db
      Kb scheme vsh Dsh Dqz Dc = .error .IndexError := by
  obtain ⟨r, e1, -, e3, e4⟩ := columns_spec seeds
  rw [e1, List.head?_map] at hf
  rw [e1, List.getLast?_map] at hl
  have inj : ∀ {o : Option ℝ} {x : ℝ}, o.map fin = some (fin x) → o = some x := by
    intro o x h
    cases o with
    | none => cases h
    | some y => rw [Option.map_some] at h; injection h with h; injection h with h; rw [h]
  rw [entry_eq r e1 fun s hs => hv s (e4 s hs)]
  refine C61_length_mismatch (f := vel s) (l := vel t) ?_ ?_ ?_ h1 h2
  · have := e3 hn; rw [List.length_map]; omega
  · rw [List.head?_map, inj hf]; rfl
  · rw [List.getLast?_map, inj hl]; rfl

/-- C61: the estimates of a log are the estimates of its samples, one per sample and in order. -/
theorem C61_log {samples : List (Fl × Fl)} {seeds : List Fl} {a : Bool} {Cn : Fl}
    {out : Fl × Fl → Fl}
    (h : ∀ p ∈ samples, estimate_cem_entry p.2 p.1 seeds a Kqz Gqz Ksh Gsh phi_c Cn Kc Gc Db Kb
      scheme vsh Dsh Dqz Dc = .ok (out p)) :
    estimate_cem (samples.map Prod.fst) (samples.map Prod.snd) seeds a Kqz Gqz Ksh Gsh phi_c Cn Kc
      Gc Db Kb scheme vsh Dsh Dqz Dc = .ok (samples.map out) := by
  unfold estimate_cem
  have : List.zip (samples.map Prod.fst) (samples.map Prod.snd) = samples := by
    rw [List.zip_map']; simp
  rw [this]
  exact mapM_ok h

/-- C61: the coordination number and the cement density passed by the caller have no effect. -/
theorem C61_ignored (Vp phi' seeds : List Fl) (a : Bool) (Cn Cn' Dc' : Fl) :
    estimate_cem Vp phi' seeds a Kqz Gqz Ksh Gsh phi_c Cn Kc Gc Db Kb scheme vsh Dsh Dqz Dc
      = estimate_cem Vp phi' seeds a Kqz Gqz Ksh Gsh phi_c Cn' Kc Gc Db Kb scheme vsh Dsh Dqz Dc' :=
  rfl

end

/-! ## C73: normalisation of a density -/

/-- C73: an array with a positive maximum is divided by that maximum: the largest entries become
one, no entry exceeds one, and the order is kept; non-negative entries stay non-negative. -/
theorem C73_normalize {d : List ℝ} {m : ℝ} (hm : m ∈ d) (hmax : ∀ x ∈ d, x ≤ m) (h0 : 0 < m) :
    normalize (d.map fin) = .ok (d.map fun x => fin (x / m)) ∧ m / m = 1 ∧
      (∀ x ∈ d, x / m ≤ 1) ∧ (∀ x ∈ d, 0 ≤ x → 0 ≤ x / m) ∧
      ∀ x ∈ d, ∀ y ∈ d, x < y → x / m < y / m := by
  refine ⟨?_, div_self h0.ne', fun x hx => (div_le_one h0).mpr (hmax x hx),
    fun x _ h => div_nonneg h h0.le, fun x _ y _ h => div_lt_div_of_pos_right h h0⟩
  unfold QI.normalize
  rw [npmax_eq hm hmax, except_ok_bind, List.map_map]
  refine congrArg Except.ok (List.map_congr_left fun x _ => ?_)
  rw [Function.comp]
  fl_eval []
  exact congrArg fin (by field)

/-- C73: an empty array raises `ValueError`, an array whose maximum is zero has no normalised
entry, and if the maximum is negative the order is reversed. -/
theorem C73_not_positive {d : List ℝ} {m : ℝ} (hm : m ∈ d) (hmax : ∀ x ∈ d, x ≤ m) :
    normalize ([] : List Fl) = .error .ValueError ∧
      (m = 0 → normalize (d.map fin) = .ok (d.map fun _ => bad)) ∧
      (m < 0 → ∃ n : ℝ → ℝ, normalize (d.map fin) = .ok (d.map fun x => fin (n x)) ∧
        ∀ x ∈ d, ∀ y ∈ d, x < y → n y < n x) := by
  refine ⟨rfl, fun h => ?_, fun h => ⟨fun x => x / m, ?_, fun x _ y _ hxy => ?_⟩⟩
  · unfold QI.normalize
    rw [npmax_eq hm hmax, except_ok_bind, List.map_map, h]
    refine congrArg Except.ok (List.map_congr_left fun x _ => ?_)
    rw [Function.comp, fl_sub, fl_div_zero]
    simp only [fl]
  · unfold QI.normalize
    rw [npmax_eq hm hmax, except_ok_bind, List.map_map]
    refine congrArg Except.ok (List.map_congr_left fun x _ => ?_)
    rw [Function.comp]
    have := h.ne
    fl_eval []
    exact congrArg fin (by field)
  · exact (div_lt_div_right_of_neg h).mpr hxy

example : normalize ([1, 4, 2].map fin) = .ok ([1, 4, 2].map fun x => fin (x / 4)) :=
  (C73_normalize (d := [1, 4, 2]) (by norm_num) (by norm_num) (by norm_num)).1

example : normalize ([-1, 0].map fin) = .ok ([-1, 0].map fun _ => bad) :=
  (C73_not_positive (d := [-1, 0]) (m := 0) (by norm_num) (by norm_num)).2.1 rfl

/-! ## C74: screening curves -/

/-- C74: `linspace` returns evenly spaced numbers from the first to the last limit. -/
theorem C74_linspace (a b : ℝ) (n : ℕ) :
    linspace (fin a) (fin b) (n + 2)
      = (List.range (n + 2)).map fun i : ℕ => fin (a + i * ((b - a) / (n + 1))) := by
  unfold linspace
  refine List.map_congr_left fun i hi => ?_
  have hn : ((n + 1 : ℕ) : ℝ) ≠ 0 := by positivity
  have hn' : (n : ℝ) + 1 ≠ 0 := by positivity
  split
  · rename_i h
    have : i = n + 1 := by omega
    subst this
    refine congrArg fin ?_
    push_cast
    field
  · have e : n + 2 - 1 = n + 1 := rfl
    rw [e]
    have n1 : ∀ k : ℕ, (PyNum.nat k : Fl) = fin k := fun _ => rfl
    rw [n1, n1, fl_sub, fl_div hn, fl_mul, fl_add]
    refine congrArg fin ?_
    push_cast
    ring

/-- C74: `screening` never raises; it returns 100 rows at evenly spaced porosities from 1e-7 to
the critical porosity. In every row the increasing-cement curve is undefined above the porosity
`phib_p` and the contact-cement curve below it; the first curve is the velocity of the brine
saturated friable sand. -/
theorem C74_screening {Dqz Kqz Gqz Dsh Ksh Gsh Dc Kc Gc Db Kb sigma vsh f Cn : Fl} {c b : ℝ}
    {scheme : Int} :
    ∃ rows, screening Dqz Kqz Gqz Dsh Ksh Gsh Dc Kc Gc Db Kb (fin b) (fin c) sigma vsh scheme f Cn
        = .ok rows ∧
      rows.map Prod.fst = (List.range 100).map (fun i : ℕ => fin (1e-7 + i * ((c - 1e-7) / 99))) ∧
      ∀ row ∈ rows, ∃ (phi : ℝ) (vp1 vp2 vp3 vs1 vs2 vs3 : Fl) (K0 G0 : Fl),
        row = (fin phi, vp1, vp2, vp3, vs1, vs2, vs3) ∧
        (b < phi → vp2 = bad ∧ vs2 = bad) ∧ (phi < b → vp3 = bad ∧ vs3 = bad) ∧
        (phi ≤ b →
          vp2 = (Fluid.vels (GM.MUHS K0 G0 Kc Gc (fin phi) (fin b) (fin c) Cn scheme).1
            (GM.MUHS K0 G0 Kc Gc (fin phi) (fin b) (fin c) Cn scheme).2 K0
            (Dsh * vsh + Dqz * (1 - vsh)) Kb Db (fin phi)).1 ∧
          vs2 = (Fluid.vels (GM.MUHS K0 G0 Kc Gc (fin phi) (fin b) (fin c) Cn scheme).1
            (GM.MUHS K0 G0 Kc Gc (fin phi) (fin b) (fin c) Cn scheme).2 K0
            (Dsh * vsh + Dqz * (1 - vsh)) Kb Db (fin phi)).2.1) ∧
        (b ≤ phi → ∃ Km Dm, matrix_modulus vsh (fin c) (fin phi) Ksh Kqz Kc = .ok Km ∧
          den_matrix vsh (fin c) (fin phi) Dsh Dqz Dc = .ok Dm ∧
          vp3 = (Fluid.vels (GM.contactcement K0 G0 Kc Gc (fin phi) (fin c) Cn scheme).1
            (GM.contactcement K0 G0 Kc Gc (fin phi) (fin c) Cn scheme).2 Km Dm Kb Db (fin phi)).1 ∧
          vs3 = (Fluid.vels (GM.contactcement K0 G0 Kc Gc (fin phi) (fin c) Cn scheme).1
            (GM.contactcement K0 G0 Kc Gc (fin phi) (fin c) Cn scheme).2 Km Dm Kb Db
            (fin phi)).2.1) ∧
        (∃ v r, EM.VRH [vsh, 1 - vsh] [Ksh, Kqz] = .ok (v, r, K0)) ∧
        (∃ v r, EM.VRH [vsh, 1 - vsh] [Gsh, Gqz] = .ok (v, r, G0)) ∧
        vp1 = (Fluid.vels (GM.softsand K0 G0 (fin phi) (fin c) Cn sigma f).1
          (GM.softsand K0 G0 (fin phi) (fin c) Cn sigma f).2 K0 (Dsh * vsh + Dqz * (1 - vsh)) Kb Db
          (fin phi)).1 ∧
        vs1 = (Fluid.vels (GM.softsand K0 G0 (fin phi) (fin c) Cn sigma f).1
          (GM.softsand K0 G0 (fin phi) (fin c) Cn sigma f).2 K0 (Dsh * vsh + Dqz * (1 - vsh)) Kb Db
          (fin phi)).2.1 := by
  have v2 : ∀ a b x y : Fl, ∃ v r h, EM.VRH [a, b] [x, y] = .ok (v, r, h) :=
    fun _ _ _ _ => ⟨_, _, _, rfl⟩
  have v3 : ∀ a b c x y z : Fl, ∃ v r h, EM.VRH [a, b, c] [x, y, z] = .ok (v, r, h) :=
    fun _ _ _ _ _ _ => ⟨_, _, _, rfl⟩
  obtain ⟨kv, kr, K0, hK⟩ := v2 vsh (1 - vsh) Ksh Kqz
  obtain ⟨gv, gr, G0, hG⟩ := v2 vsh (1 - vsh) Gsh Gqz
  have mm : ∀ phi : Fl, ∃ m, matrix_modulus vsh (fin c) phi Ksh Kqz Kc = .ok m := by
    intro phi
    unfold matrix_modulus
    dsimp only
    split
    · obtain ⟨v, r, h, e⟩ := v2 ((1 - fin c - vsh) / (1 - phi)) ((fin c - phi) / (1 - phi)) Kqz Kc
      exact ⟨h, by rw [e]; rfl⟩
    · obtain ⟨v, r, h, e⟩ := v3 (vsh / (1 - phi)) ((1 - fin c - vsh) / (1 - phi))
        ((fin c - phi) / (1 - phi)) Ksh Kqz Kc
      exact ⟨h, by rw [e]; rfl⟩
  have dm : ∀ phi : Fl, ∃ m, den_matrix vsh (fin c) phi Dsh Dqz Dc = .ok m := by
    intro phi
    unfold den_matrix
    dsimp only
    obtain ⟨v, r, h, e⟩ := v3 (vsh / (1 - phi)) ((1 - fin c - vsh) / (1 - phi))
        ((fin c - phi) / (1 - phi)) Dsh Dqz Dc
    exact ⟨v, by rw [e]; rfl⟩
  have entry : ∀ phi : ℝ, ∃ vp1 vp2 vp3 vs1 vs2 vs3 : Fl,
      screening_entry Dqz Kqz Gqz Dsh Ksh Gsh Dc Kc Gc Db Kb (fin b) (fin c) sigma vsh scheme f Cn
        (fin phi) = .ok (vp1, vp2, vp3, vs1, vs2, vs3) ∧
      (b < phi → vp2 = bad ∧ vs2 = bad) ∧ (phi < b → vp3 = bad ∧ vs3 = bad) ∧
        (phi ≤ b →
          vp2 = (Fluid.vels (GM.MUHS K0 G0 Kc Gc (fin phi) (fin b) (fin c) Cn scheme).1
            (GM.MUHS K0 G0 Kc Gc (fin phi) (fin b) (fin c) Cn scheme).2 K0
            (Dsh * vsh + Dqz * (1 - vsh)) Kb Db (fin phi)).1 ∧
          vs2 = (Fluid.vels (GM.MUHS K0 G0 Kc Gc (fin phi) (fin b) (fin c) Cn scheme).1
            (GM.MUHS K0 G0 Kc Gc (fin phi) (fin b) (fin c) Cn scheme).2 K0
            (Dsh * vsh + Dqz * (1 - vsh)) Kb Db (fin phi)).2.1) ∧
        (b ≤ phi → ∃ Km Dm, matrix_modulus vsh (fin c) (fin phi) Ksh Kqz Kc = .ok Km ∧
          den_matrix vsh (fin c) (fin phi) Dsh Dqz Dc = .ok Dm ∧
          vp3 = (Fluid.vels (GM.contactcement K0 G0 Kc Gc (fin phi) (fin c) Cn scheme).1
            (GM.contactcement K0 G0 Kc Gc (fin phi) (fin c) Cn scheme).2 Km Dm Kb Db (fin phi)).1 ∧
          vs3 = (Fluid.vels (GM.contactcement K0 G0 Kc Gc (fin phi) (fin c) Cn scheme).1
            (GM.contactcement K0 G0 Kc Gc (fin phi) (fin c) Cn scheme).2 Km Dm Kb Db
            (fin phi)).2.1) ∧
        vp1 = (Fluid.vels (GM.softsand K0 G0 (fin phi) (fin c) Cn sigma f).1
          (GM.softsand K0 G0 (fin phi) (fin c) Cn sigma f).2 K0 (Dsh * vsh + Dqz * (1 - vsh)) Kb Db
          (fin phi)).1 ∧
        vs1 = (Fluid.vels (GM.softsand K0 G0 (fin phi) (fin c) Cn sigma f).1
          (GM.softsand K0 G0 (fin phi) (fin c) Cn sigma f).2 K0 (Dsh * vsh + Dqz * (1 - vsh)) Kb Db
          (fin phi)).2.1 := by
    intro phi
    obtain ⟨m, hm⟩ := mm (fin phi)
    obtain ⟨d, hd⟩ := dm (fin phi)
    have nan : (npnan : Fl) = bad := by unfold npnan; rw [fl_zero]; exact fl_div_zero _
    unfold screening_entry
    rw [hK, hG, hm, hd]
    simp only [except_ok_bind, nan]
    have e4 : (4. : Fl) = 4 := by simp only [fl]; norm_num
    refine ⟨_, _, _, _, _, _, rfl, ?_, ?_, ?_, ?_, ?_, ?_⟩
    · intro h
      have e : PyNum.lt (fin b) (fin phi) = true := decide_eq_true h
      rw [if_pos e, if_pos e]; exact ⟨rfl, rfl⟩
    · intro h
      have e : PyNum.lt (fin phi) (fin b) = true := decide_eq_true h
      rw [if_pos e, if_pos e]; exact ⟨rfl, rfl⟩
    · intro h
      have e : ¬ PyNum.lt (fin b) (fin phi) = true := fun e => absurd (of_decide_eq_true e) h.not_gt
      rw [if_neg e, if_neg e]
      unfold Fluid.vels utils.V
      dsimp only
      rw [e4]
      exact ⟨rfl, rfl⟩
    · intro h
      have e : ¬ PyNum.lt (fin phi) (fin b) = true := fun e => absurd (of_decide_eq_true e) h.not_gt
      rw [if_neg e, if_neg e]
      refine ⟨m, d, rfl, rfl, ?_⟩
      unfold Fluid.vels utils.V
      dsimp only
      rw [e4]
      exact ⟨rfl, rfl⟩
    · unfold Fluid.vels utils.V
      dsimp only
      rw [e4]
      rfl
    · rfl
  choose vp1 vp2 vp3 vs1 vs2 vs3 he h2 h3 h4 h5 hp hs using entry
  have grid : linspace (1e-7 : Fl) (fin c) 100
      = (List.range 100).map fun i : ℕ => fin (1e-7 + i * ((c - 1e-7) / 99)) := by
    have e : (1e-7 : Fl) = fin 1e-7 := by simp only [fl]
    rw [e]
    have := C74_linspace 1e-7 c 98
    norm_num at this ⊢
    exact this
  have all : screening Dqz Kqz Gqz Dsh Ksh Gsh Dc Kc Gc Db Kb (fin b) (fin c) sigma vsh scheme f Cn
      = .ok ((List.range 100).map fun i : ℕ =>
        let p := 1e-7 + i * ((c - 1e-7) / 99)
        (fin p, vp1 p, vp2 p, vp3 p, vs1 p, vs2 p, vs3 p)) := by
    unfold screening
    rw [grid, List.mapM_map]
    refine mapM_ok fun i _ => ?_
    rw [Function.comp, he]
    rfl
  refine ⟨_, all, by rw [List.map_map]; rfl, ?_⟩
  intro row hrow
  obtain ⟨i, -, rfl⟩ := List.mem_map.mp hrow
  exact ⟨_, _, _, _, _, _, _, K0, G0, rfl, h2 _, h3 _, h4 _, h5 _, ⟨_, _, hK⟩,
    ⟨_, _, hG⟩, hp _, hs _⟩

/-! ## C75: rock physics template -/

/-- C75: the template at water saturation one is the brine saturated rock, at zero the hydrocarbon
saturated rock: impedance is velocity times density and the second coordinate is Vp/Vs. -/
theorem C75_endpoints {Kd G K0 D0 Db Dh phi : Fl} {Kb Kh : ℝ} (hb : Kb ≠ 0) (hh : Kh ≠ 0) :
    let brine := Fluid.vels Kd G K0 D0 (fin Kb) Db phi
    let hc := Fluid.vels Kd G K0 D0 (fin Kh) Dh phi
    (IsFin Db → IsFin Dh →
      rpt_entry Kd G K0 D0 (fin Kb) Db (fin Kh) Dh phi 1
          = (brine.1 * brine.2.2, brine.1 / brine.2.1) ∧
        rpt_entry Kd G K0 D0 (fin Kb) Db (fin Kh) Dh phi 0
          = (hc.1 * hc.2.2, hc.1 / hc.2.1)) := by
  dsimp only
  rintro ⟨db, rfl⟩ ⟨dh, rfl⟩
  have e1 : (1 : Fl) / fin Kb + (1 - 1) / fin Kh = fin (1 / Kb) := by
    fl_eval []; simp
  have e2 : (0 : Fl) / fin Kb + (1 - 0) / fin Kh = fin (1 / Kh) := by
    fl_eval []; simp
  have n1 : 1 / Kb ≠ 0 := one_div_ne_zero hb
  have n2 : 1 / Kh ≠ 0 := one_div_ne_zero hh
  have d1 : (1 : Fl) * fin db + (1 - 1) * fin dh = fin db := by fl_eval []; simp
  have d2 : (0 : Fl) * fin db + (1 - 0) * fin dh = fin dh := by fl_eval []; simp
  unfold rpt_entry
  dsimp only
  rw [e1, e2, d1, d2, fl_inv n1, fl_inv n2, one_div, one_div, inv_inv, inv_inv]
  exact ⟨rfl, rfl⟩

/-- C75: replacing hydrocarbon by a stiffer and not lighter brine moves a rock to strictly larger
impedance and strictly larger Vp/Vs. -/
theorem C75_monotone {Kd G K0 D0 Kb Kh Db Dh φ s s' : ℝ} (h0 : 0 ≤ Kd) (hd : Kd < K0) (hG : 0 < G)
    (hh : 0 < Kh) (hhb : Kh < Kb) (hb : Kb < K0) (hφ0 : 0 < φ) (hφ1 : φ < 1) (hD0 : 0 < D0)
    (hDh : 0 ≤ Dh) (hDb : Dh ≤ Db) (hs0 : 0 ≤ s) (hs : s < s') (hs1 : s' ≤ 1) :
    let rpt := fun s => rpt_entry (fin Kd) (fin G) (fin K0) (fin D0) (fin Kb) (fin Db) (fin Kh)
      (fin Dh) (fin φ) (fin s)
    (rpt s).1 < (rpt s').1 ∧ (rpt s).2 < (rpt s').2 := by
  have hKb : 0 < Kb := hh.trans hhb
  have hφ : 0 < 1 - φ := by linarith
  -- the mixture is a fluid between hydrocarbon and brine
  have mix : ∀ t : ℝ, 0 ≤ t → t ≤ 1 →
      1 / Kb ≤ t / Kb + (1 - t) / Kh ∧ 0 < t / Kb + (1 - t) / Kh := by
    intro t h0 h1
    have e : t / Kb + (1 - t) / Kh - 1 / Kb = (1 - t) * (Kb - Kh) / (Kb * Kh) := by field
    have p : 0 ≤ (1 - t) * (Kb - Kh) / (Kb * Kh) :=
      div_nonneg (mul_nonneg (by linarith) (by linarith)) (by positivity)
    have q : 0 < 1 / Kb := by positivity
    constructor <;> linarith
  have rock : ∀ t : ℝ, 0 ≤ t → t ≤ 1 → GassmannRock Kd K0 (t / Kb + (1 - t) / Kh)⁻¹ φ := by
    intro t t0 t1
    obtain ⟨m1, m2⟩ := mix t t0 t1
    refine ⟨h0, hd, by positivity, ?_, hφ0⟩
    refine lt_of_le_of_lt ?_ hb
    rw [inv_le_comm₀ m2 hKb, ← one_div]; exact m1
  have ev : ∀ t : ℝ, 0 ≤ t → t ≤ 1 → ∃ K : ℝ,
      (Fluid.Gassmann (fin Kd) (fin G) (fin K0) (fin (t / Kb + (1 - t) / Kh)⁻¹) (fin φ)).1 = fin K ∧
      0 < K ∧
      rpt_entry (fin Kd) (fin G) (fin K0) (fin D0) (fin Kb) (fin Db) (fin Kh) (fin Dh) (fin φ)
        (fin t) = (fin (1000 * √((K + 4 / 3 * G) * (D0 * (1 - φ) + (t * Db + (1 - t) * Dh) * φ))),
          fin (√((K + 4 / 3 * G) / G))) := by
    intro t t0 t1
    obtain ⟨m1, m2⟩ := mix t t0 t1
    obtain ⟨K, hK, -, hK', -, -⟩ := C26_Gassmann Kd G K0 _ φ (rock t t0 t1)
    have hKp : 0 < K := lt_of_le_of_lt h0 hK'
    refine ⟨K, by rw [hK], hKp, ?_⟩
    have hD : 0 ≤ t * Db + (1 - t) * Dh := by
      have := mul_nonneg t0 (hDh.trans hDb)
      have := mul_nonneg (sub_nonneg.mpr t1) hDh
      linarith
    have hρ : 0 < D0 * (1 - φ) + (t * Db + (1 - t) * Dh) * φ := by positivity
    have e : PyNum.inv (fin t / fin Kb + (1 - fin t) / fin Kh) = fin (t / Kb + (1 - t) / Kh)⁻¹ := by
      have := m2.ne'
      have := hKb.ne'
      fl_eval []
    have e' : fin t * fin Db + (1 - fin t) * fin Dh = fin (t * Db + (1 - t) * Dh) := by fl_eval []
    unfold rpt_entry
    dsimp only
    rw [e, e']
    unfold Fluid.vels
    dsimp only
    rw [hK]
    generalize t * Db + (1 - t) * Dh = D at *
    have r : fin D0 * (1 - fin φ) + fin D * fin φ = fin (D0 * (1 - φ) + D * φ) := by fl_eval []
    rw [r]
    generalize D0 * (1 - φ) + D * φ = ρ at *
    have p1 : 0 < (K + 4 / 3 * G) / ρ := by positivity
    have p2 : 0 < G / ρ := by positivity
    have q1 : PyNum.sqrt ((fin K + 4. / 3 * fin G) / fin ρ) = fin (√((K + 4 / 3 * G) / ρ)) := by
      fl_eval []
      norm_num
    have q2 : PyNum.sqrt (fin G / fin ρ) = fin (√(G / ρ)) := by fl_eval []
    rw [q1, q2]
    have n : √(G / ρ) * 1e3 ≠ 0 := by positivity
    fl_eval []
    refine Prod.ext (congrArg fin ?_) (congrArg fin ?_)
    · have : √((K + 4 / 3 * G) * ρ) = √((K + 4 / 3 * G) / ρ) * ρ := by
        rw [show (K + 4 / 3 * G) * ρ = (K + 4 / 3 * G) / ρ * ρ ^ 2 by field, Real.sqrt_mul p1.le,
          Real.sqrt_sq hρ.le]
      rw [this]
      norm_num
      ring
    · rw [mul_div_mul_right _ _ (by norm_num), ← Real.sqrt_div p1.le]
      congr 1
      field
  obtain ⟨K, k1, k2, k3⟩ := ev s hs0 (hs.le.trans hs1)
  obtain ⟨K', k1', k2', k3'⟩ := ev s' (hs0.trans hs.le) hs1
  dsimp only
  rw [k3, k3', fin_lt, fin_lt]
  have lt : K < K' := by
    have hf : (s / Kb + (1 - s) / Kh)⁻¹ < (s' / Kb + (1 - s') / Kh)⁻¹ := by
      refine (inv_lt_inv₀ (mix s hs0 (hs.le.trans hs1)).2 (mix s' (hs0.trans hs.le) hs1).2).mpr ?_
      have e : s / Kb + (1 - s) / Kh - (s' / Kb + (1 - s') / Kh)
          = (s' - s) * (Kb - Kh) / (Kb * Kh) := by field
      have : 0 < (s' - s) * (Kb - Kh) / (Kb * Kh) :=
        div_pos (mul_pos (by linarith) (by linarith)) (by positivity)
      linarith
    have := C26_Gassmann_monotone Kd Kd G K0 _ _ φ φ (rock s hs0 (hs.le.trans hs1))
      (rock s' (hs0.trans hs.le) hs1) le_rfl hf.le le_rfl (Or.inr (Or.inl hf))
    rwa [k1, k1', fin_lt] at this
  have hD : ∀ t : ℝ, 0 ≤ t → t ≤ 1 → 0 < D0 * (1 - φ) + (t * Db + (1 - t) * Dh) * φ := by
    intro t t0 t1
    have := mul_nonneg t0 (hDh.trans hDb)
    have := mul_nonneg (sub_nonneg.mpr t1) hDh
    have : 0 ≤ t * Db + (1 - t) * Dh := by linarith
    positivity
  constructor
  · refine mul_lt_mul_of_pos_left (Real.sqrt_lt_sqrt ?_ ?_) (by norm_num)
    · have := hD s hs0 (hs.le.trans hs1); positivity
    · refine mul_lt_mul (by linarith) ?_ (hD s hs0 (hs.le.trans hs1)) (by positivity)
      have : 0 ≤ (s' - s) * (Db - Dh) * φ :=
        mul_nonneg (mul_nonneg (by linarith) (by linarith)) hφ0.le
      linarith
  · exact Real.sqrt_lt_sqrt (by positivity) (div_lt_div_of_pos_right (by linarith) hG)

example : (rpt_entry (fin 12) (fin 10) (fin 37) (fin 2.65) (fin 2.5) (fin 1) (fin 0.1) (fin 0.2)
      (fin 0.25) (fin 0.2)).2
    < (rpt_entry (fin 12) (fin 10) (fin 37) (fin 2.65) (fin 2.5) (fin 1) (fin 0.1) (fin 0.2)
      (fin 0.25) (fin 0.9)).2 :=
  (C75_monotone (by norm_num) (by norm_num) (by norm_num) (by norm_num) (by norm_num) (by norm_num)
    (by norm_num) (by norm_num) (by norm_num) (by norm_num) (by norm_num) (by norm_num)
    (by norm_num) (by norm_num)).2

end RockPhy.Props
