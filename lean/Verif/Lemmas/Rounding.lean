import Verif.Spec.Rounding

/-! # Lemmas: propagation of relative errors through operations on positive numbers -/

namespace RockPhy

/-- The relative error of a number within `k` errors is little more than `k u`. -/
theorem Within.rel {A : Rounding} {k : ℕ} {e c : ℝ} (h : Within A k e c) (he : 0 ≤ e)
    (hk : k * A.u ≤ 1 / 101) : |c - e| ≤ 1.01 * (k * A.u) * e := by
  have hb : 1 - k * A.u ≤ (1 - A.u) ^ k := by
    have := one_add_mul_le_pow (a := -A.u) (by linarith [A.u_lt]) k
    have e1 : (1 : ℝ) + -A.u = 1 - A.u := by ring
    rw [e1] at this
    linarith
  have h0 : 0 ≤ k * A.u := mul_nonneg (Nat.cast_nonneg k) A.u_nonneg
  obtain ⟨h1, h2⟩ := h
  generalize (k : ℝ) * A.u = z at *
  generalize (1 - A.u) ^ k = w at *
  have l1 : e * (1 - z) ≤ c := (mul_le_mul_of_nonneg_left hb he).trans h1
  have hc : 0 ≤ c := le_trans (mul_nonneg he (by linarith)) l1
  have l2 : c * (1 - z) ≤ e := (mul_le_mul_of_nonneg_left hb hc).trans h2
  rw [abs_le]
  constructor
  · nlinarith
  · have : c ≤ 1.01 * e := by nlinarith
    nlinarith

variable {A : Rounding} {k l : ℕ} {x x' : Fl} {y y' : Rd A}

theorem Rounding.d_pos (A : Rounding) : 0 < 1 - A.u := by linarith [A.u_lt]
theorem Rounding.d_le (A : Rounding) : 1 - A.u ≤ 1 := by linarith [A.u_nonneg]
theorem Rounding.pow_pos (A : Rounding) (k : ℕ) : 0 < (1 - A.u) ^ k := by
  have := A.d_pos; positivity
theorem Rounding.pow_le (A : Rounding) (k : ℕ) : (1 - A.u) ^ k ≤ 1 := pow_le_one₀ A.d_pos.le A.d_le

theorem AgreesPos.nn (h : AgreesPos A k x y) : Agrees A k x y := by
  obtain ⟨a, b, h1, h2, h3, h4⟩ := h
  exact ⟨a, b, h1, h2, h3.le, h4⟩

theorem Within.refl (a : ℝ) : Within A 0 a a := by simp [Within]

theorem Within.mono {a b : ℝ} (h : Within A k a b) (ha : 0 ≤ a) (hkl : k ≤ l) : Within A l a b := by
  have hp : (1 - A.u) ^ l ≤ (1 - A.u) ^ k := pow_le_pow_of_le_one A.d_pos.le A.d_le hkl
  have hb : 0 ≤ b := (mul_nonneg ha (A.pow_pos k).le).trans h.1
  exact ⟨(mul_le_mul_of_nonneg_left hp ha).trans h.1, (mul_le_mul_of_nonneg_left hp hb).trans h.2⟩

theorem Within.nonneg {a b : ℝ} (h : Within A k a b) (ha : 0 ≤ a) : 0 ≤ b :=
  (mul_nonneg ha (A.pow_pos k).le).trans h.1

theorem Within.pos {a b : ℝ} (h : Within A k a b) (ha : 0 < a) : 0 < b :=
  (mul_pos ha (A.pow_pos k)).trans_le h.1

/-- One more rounding. -/
theorem Within.round {a b : ℝ} (h : Within A k a b) (ha : 0 ≤ a) (o : Op) (p q : ℝ) :
    Within A (k + 1) a (A.rnd o p q b) := by
  have hb := h.nonneg ha
  have he := A.err o p q b
  rw [abs_of_nonneg hb, abs_le] at he
  have hd := A.d_pos
  have hu := A.u_nonneg
  have hk := A.pow_pos k
  have h1 : b * (1 - A.u) ≤ A.rnd o p q b := by linarith
  have h2 : A.rnd o p q b * (1 - A.u) ≤ b := by nlinarith [mul_nonneg hb (sq_nonneg A.u)]
  constructor
  · rw [pow_succ, ← mul_assoc]
    exact (mul_le_mul_of_nonneg_right h.1 hd.le).trans h1
  · rw [pow_succ, mul_comm ((1 - A.u) ^ k), ← mul_assoc]
    exact (mul_le_mul_of_nonneg_right h2 hk.le).trans h.2

theorem Within.add {a b a' b' : ℝ} (h : Within A k a b) (h' : Within A k a' b') :
    Within A k (a + a') (b + b') := by
  constructor
  · rw [add_mul]; exact add_le_add h.1 h'.1
  · rw [add_mul]; exact add_le_add h.2 h'.2

theorem Within.mul {a b a' b' : ℝ} (h : Within A k a b) (h' : Within A l a' b') (ha : 0 ≤ a)
    (ha' : 0 ≤ a') : Within A (k + l) (a * a') (b * b') := by
  have hb := h.nonneg ha
  have hb' := h'.nonneg ha'
  constructor
  · calc a * a' * (1 - A.u) ^ (k + l) = (a * (1 - A.u) ^ k) * (a' * (1 - A.u) ^ l) := by
          rw [pow_add]; ring
      _ ≤ b * b' := mul_le_mul h.1 h'.1 (mul_nonneg ha' (A.pow_pos l).le) hb
  · calc b * b' * (1 - A.u) ^ (k + l) = (b * (1 - A.u) ^ k) * (b' * (1 - A.u) ^ l) := by
          rw [pow_add]; ring
      _ ≤ a * a' := mul_le_mul h.2 h'.2 (mul_nonneg hb' (A.pow_pos l).le) ha

theorem Within.inv {a b : ℝ} (h : Within A k a b) (ha : 0 < a) : Within A k a⁻¹ b⁻¹ := by
  have hb := h.pos ha
  constructor
  · rw [inv_mul_eq_div, div_le_iff₀ ha, inv_mul_eq_div, le_div_iff₀ hb, mul_comm]; exact h.2
  · rw [inv_mul_eq_div, div_le_iff₀ hb, inv_mul_eq_div, le_div_iff₀ ha, mul_comm]; exact h.1

theorem Within.pow {a b : ℝ} (h : Within A k a b) (ha : 0 ≤ a) (n : ℕ) :
    Within A (n * k) (a ^ n) (b ^ n) := by
  have hb := h.nonneg ha
  have hk := (A.pow_pos k).le
  constructor
  · rw [mul_comm n, pow_mul, ← mul_pow]; exact pow_le_pow_left₀ (mul_nonneg ha hk) h.1 n
  · rw [mul_comm n, pow_mul, ← mul_pow]; exact pow_le_pow_left₀ (mul_nonneg hb hk) h.2 n

theorem Within.sqrt {a b : ℝ} (h : Within A (2 * k) a b) : Within A k √a √b := by
  have hk := (A.pow_pos k).le
  have e : ∀ z : ℝ, √z * (1 - A.u) ^ k = √(z * (1 - A.u) ^ (2 * k)) := by
    intro z
    rw [mul_comm 2 k, pow_mul, Real.sqrt_mul' _ (sq_nonneg _), Real.sqrt_sq hk]
  constructor
  · rw [e]; exact Real.sqrt_le_sqrt h.1
  · rw [e]; exact Real.sqrt_le_sqrt h.2

theorem Agrees.mono (h : Agrees A k x y) (hkl : k ≤ l) : Agrees A l x y := by
  obtain ⟨a, b, h1, h2, h3, h4⟩ := h
  exact ⟨a, b, h1, h2, h3, h4.mono h3 hkl⟩

theorem AgreesPos.mono (h : AgreesPos A k x y) (hkl : k ≤ l) : AgreesPos A l x y := by
  obtain ⟨a, b, h1, h2, h3, h4⟩ := h
  exact ⟨a, b, h1, h2, h3, h4.mono h3.le hkl⟩

theorem Agrees.exact {a : ℝ} (h : 0 ≤ a) : Agrees A 0 (.fin a) (.fin a) := ⟨a, a, rfl, rfl, h, .refl a⟩
theorem AgreesPos.exact {a : ℝ} (h : 0 < a) : AgreesPos A 0 (.fin a) (.fin a) := ⟨a, a, rfl, rfl, h, .refl a⟩

theorem AgreesPos.nat (n : ℕ) [n.AtLeastTwo] : AgreesPos A 0 (OfNat.ofNat n : Fl) (OfNat.ofNat n : Rd A) :=
  ⟨OfNat.ofNat n, OfNat.ofNat n, rfl, rfl, Nat.ofNat_pos, .refl _⟩
theorem AgreesPos.one : AgreesPos A 0 (1 : Fl) (1 : Rd A) := by
  refine ⟨1, 1, fl_one, ?_, one_pos, .refl _⟩
  show Rd.fin ((1 : ℕ) : ℝ) = _
  rw [Nat.cast_one]
theorem Agrees.zero : Agrees A 0 (0 : Fl) (0 : Rd A) := by
  refine ⟨0, 0, fl_zero, ?_, le_rfl, .refl _⟩
  show Rd.fin ((0 : ℕ) : ℝ) = _
  rw [Nat.cast_zero]
theorem AgreesPos.sci (m : ℕ) (s : Bool) (e : ℕ) (h : (0 : ℝ) < OfScientific.ofScientific m s e) :
    AgreesPos A 1 (OfScientific.ofScientific m s e : Fl) (OfScientific.ofScientific m s e : Rd A) :=
  ⟨_, _, rfl, rfl, h, (Within.refl _).round h.le _ _ _⟩
theorem AgreesPos.pi : AgreesPos A 1 (PyNum.pi : Fl) (PyNum.pi : Rd A) :=
  ⟨_, _, rfl, rfl, Real.pi_pos, (Within.refl _).round Real.pi_pos.le _ _ _⟩

theorem Agrees.add (h : Agrees A k x y) (h' : Agrees A l x' y') : Agrees A (max k l + 1) (x + x') (y + y') := by
  obtain ⟨a, b, rfl, rfl, h3, h4⟩ := h
  obtain ⟨a', b', rfl, rfl, h3', h4'⟩ := h'
  exact ⟨_, _, rfl, rfl, add_nonneg h3 h3', ((h4.mono h3 (le_max_left k l)).add
    (h4'.mono h3' (le_max_right k l))).round (add_nonneg h3 h3') _ _ _⟩

theorem Agrees.ppos {k : ℕ} {x : Fl} {y : Rd A} (h : Agrees A k x y) (hx : x ≠ .fin 0) : AgreesPos A k x y := by
  obtain ⟨a, b, h1, h2, h3, h4⟩ := h
  exact ⟨a, b, h1, h2, lt_of_le_of_ne h3 (fun e => hx (by rw [h1, ← e])), h4⟩

theorem AgreesPos.ne (h : AgreesPos A k x y) : x ≠ .fin 0 := by
  obtain ⟨a, b, rfl, h2, h3, h4⟩ := h
  simpa using h3.ne'

theorem AgreesPos.addn (h : AgreesPos A k x y) (h' : Agrees A l x' y') : AgreesPos A (max k l + 1) (x + x') (y + y') := by
  refine (h.nn.add h').ppos ?_
  obtain ⟨a, b, rfl, rfl, h3, h4⟩ := h
  obtain ⟨a', b', rfl, rfl, h3', h4'⟩ := h'
  rw [fl_add, Ne, Fl.fin_inj]
  linarith

theorem Agrees.addp (h : Agrees A k x y) (h' : AgreesPos A l x' y') : AgreesPos A (max k l + 1) (x + x') (y + y') := by
  refine (h.add h'.nn).ppos ?_
  obtain ⟨a, b, rfl, rfl, h3, h4⟩ := h
  obtain ⟨a', b', rfl, rfl, h3', h4'⟩ := h'
  rw [fl_add, Ne, Fl.fin_inj]
  linarith

theorem AgreesPos.add (h : AgreesPos A k x y) (h' : AgreesPos A l x' y') : AgreesPos A (max k l + 1) (x + x') (y + y') :=
  h.addn h'.nn

theorem Agrees.mul (h : Agrees A k x y) (h' : Agrees A l x' y') : Agrees A (k + l + 1) (x * x') (y * y') := by
  obtain ⟨a, b, rfl, rfl, h3, h4⟩ := h
  obtain ⟨a', b', rfl, rfl, h3', h4'⟩ := h'
  exact ⟨_, _, rfl, rfl, mul_nonneg h3 h3', (h4.mul h4' h3 h3').round (mul_nonneg h3 h3') _ _ _⟩

theorem AgreesPos.mul (h : AgreesPos A k x y) (h' : AgreesPos A l x' y') : AgreesPos A (k + l + 1) (x * x') (y * y') := by
  refine (h.nn.mul h'.nn).ppos ?_
  obtain ⟨a, b, rfl, rfl, h3, h4⟩ := h
  obtain ⟨a', b', rfl, rfl, h3', h4'⟩ := h'
  rw [fl_mul, Ne, Fl.fin_inj]
  positivity

theorem Agrees.div (h : Agrees A k x y) (h' : AgreesPos A l x' y') : Agrees A (k + l + 1) (x / x') (y / y') := by
  obtain ⟨a, b, rfl, rfl, h3, h4⟩ := h
  obtain ⟨a', b', rfl, rfl, h3', h4'⟩ := h'
  have hp := div_nonneg h3 h3'.le
  have hw : Within A (k + l) (a / a') (b / b') := by
    rw [div_eq_mul_inv, div_eq_mul_inv]
    exact h4.mul (h4'.inv h3') h3 (inv_pos.mpr h3').le
  exact ⟨_, _, if_neg h3'.ne', if_neg (h4'.pos h3').ne', hp, hw.round hp _ _ _⟩

theorem AgreesPos.div (h : AgreesPos A k x y) (h' : AgreesPos A l x' y') : AgreesPos A (k + l + 1) (x / x') (y / y') := by
  refine (h.nn.div h').ppos ?_
  obtain ⟨a, b, rfl, rfl, h3, h4⟩ := h
  obtain ⟨a', b', rfl, rfl, h3', h4'⟩ := h'
  rw [fl_div h3'.ne', Ne, Fl.fin_inj]
  positivity

theorem AgreesPos.inv (h : AgreesPos A k x y) : AgreesPos A (k + 1) (PyNum.inv x) (PyNum.inv y) := by
  obtain ⟨a, b, rfl, rfl, h3, h4⟩ := h
  exact ⟨_, _, if_neg h3.ne', if_neg (h4.pos h3).ne', inv_pos.mpr h3,
    (h4.inv h3).round (inv_pos.mpr h3).le _ _ _⟩

theorem AgreesPos.npow (h : AgreesPos A k x y) (n : ℕ) : AgreesPos A (n * k + 1) (x ** n) (y ** n) := by
  obtain ⟨a, b, rfl, rfl, h3, h4⟩ := h
  exact ⟨_, _, rfl, rfl, pow_pos h3 n, (h4.pow h3.le n).round (pow_pos h3 n).le _ _ _⟩

theorem Agrees.npow (h : Agrees A k x y) (n : ℕ) : Agrees A (n * k + 1) (x ** n) (y ** n) := by
  obtain ⟨a, b, rfl, rfl, h3, h4⟩ := h
  exact ⟨_, _, rfl, rfl, pow_nonneg h3 n, (h4.pow h3 n).round (pow_nonneg h3 n) _ _ _⟩

theorem AgreesPos.sqrt (h : AgreesPos A (2 * k) x y) : AgreesPos A (k + 1) (PyNum.sqrt x) (PyNum.sqrt y) := by
  obtain ⟨a, b, rfl, rfl, h3, h4⟩ := h
  exact ⟨_, _, if_neg (not_lt.mpr h3.le), if_neg (not_lt.mpr (h4.nonneg h3.le)),
    Real.sqrt_pos.mpr h3, h4.sqrt.round (Real.sqrt_nonneg a) _ _ _⟩

theorem AgreesPos.sqrt' (h : AgreesPos A k x y) :
    AgreesPos A ((k + 1) / 2 + 1) (PyNum.sqrt x) (PyNum.sqrt y) :=
  AgreesPos.sqrt (h.mono (by omega))

theorem Agrees.sqrt' (h : Agrees A k x y) :
    Agrees A ((k + 1) / 2 + 1) (PyNum.sqrt x) (PyNum.sqrt y) := by
  obtain ⟨a, b, rfl, rfl, h3, h4⟩ := h
  have h4 := h4.mono (l := 2 * ((k + 1) / 2)) h3 (by omega)
  exact ⟨_, _, if_neg (not_lt.mpr h3), if_neg (not_lt.mpr (h4.nonneg h3)),
    Real.sqrt_nonneg a, h4.sqrt.round (Real.sqrt_nonneg a) _ _ _⟩

/-- A difference of two inputs has one error. -/
theorem AgreesPos.sub {a b : ℝ} (h : b < a) : AgreesPos A 1 (.fin a - .fin b) (.fin a - .fin b) :=
  ⟨_, _, rfl, rfl, sub_pos.mpr h, (Within.refl _).round (sub_pos.mpr h).le _ _ _⟩

theorem Agrees.sub {a b : ℝ} (h : b ≤ a) : Agrees A 1 (.fin a - .fin b) (.fin a - .fin b) :=
  ⟨_, _, rfl, rfl, sub_nonneg.mpr h, (Within.refl _).round (sub_nonneg.mpr h) _ _ _⟩

theorem rd_one : (1 : Rd A) = .fin 1 := by
  show Rd.fin ((1 : ℕ) : ℝ) = _
  rw [Nat.cast_one]

theorem AgreesPos.one_sub {b : ℝ} (h : b < 1) : AgreesPos A 1 (1 - .fin b) (1 - .fin b) := by
  rw [fl_one, rd_one]; exact AgreesPos.sub h

theorem Agrees.one_sub {b : ℝ} (h : b ≤ 1) : Agrees A 1 (1 - .fin b) (1 - .fin b) := by
  rw [fl_one, rd_one]; exact Agrees.sub h

/-! ### Sums and dot products -/

theorem Agrees.lsum : ∀ {X : List Fl} {Y : List (Rd A)}, List.Forall₂ (Agrees A k) X Y →
    Agrees A (k + X.length) (RockPhy.lsum X) (RockPhy.lsum Y)
  | [], _, .nil => (Agrees.zero (A := A)).mono (Nat.zero_le _)
  | x :: X, _, .cons (l₂ := Y) h t => by
    have := h.add (Agrees.lsum t)
    rw [max_eq_right (Nat.le_add_right k X.length)] at this
    exact this

theorem Agrees.zipMul : ∀ {X X' : List Fl} {Y Y' : List (Rd A)}, List.Forall₂ (Agrees A k) X Y →
    List.Forall₂ (Agrees A l) X' Y' →
    List.Forall₂ (Agrees A (k + l + 1)) (List.zipWith (· * ·) X X') (List.zipWith (· * ·) Y Y')
  | [], _, _, _, .nil, _ => by simp
  | _ :: _, [], _, _, .cons _ _, .nil => by simp
  | _ :: _, _ :: _, _, _, .cons h t, .cons h' t' => .cons (h.mul h') (Agrees.zipMul t t')

theorem Agrees.dot {X X' : List Fl} {Y Y' : List (Rd A)} (h : List.Forall₂ (Agrees A k) X Y)
    (h' : List.Forall₂ (Agrees A l) X' Y') (hl : X.length = X'.length) :
    ∃ s s', RockPhy.dot X X' = .ok s ∧ RockPhy.dot Y Y' = .ok s' ∧
      Agrees A (k + l + 1 + X.length) s s' := by
  have hl' : Y.length = Y'.length := by rw [← h.length_eq, ← h'.length_eq, hl]
  refine ⟨_, _, if_pos hl, if_pos hl', ?_⟩
  have := Agrees.lsum (Agrees.zipMul h h')
  rwa [List.length_zipWith, ← hl, min_self] at this

theorem Within.trans {a b c : ℝ} (h : Within A k a b) (h' : Within A l b c) :
    Within A (k + l) a c := by
  have hk := (A.pow_pos k).le
  have hl := (A.pow_pos l).le
  constructor
  · rw [pow_add, ← mul_assoc]
    exact (mul_le_mul_of_nonneg_right h.1 hl).trans h'.1
  · rw [pow_add, mul_comm ((1 - A.u) ^ k), ← mul_assoc]
    exact (mul_le_mul_of_nonneg_right h'.2 hk).trans h.2

theorem AgreesPos.forall_nn {X : List Fl} {Y : List (Rd A)} (h : List.Forall₂ (AgreesPos A k) X Y) :
    List.Forall₂ (Agrees A k) X Y := h.imp fun _ _ => AgreesPos.nn

theorem AgreesPos.zipMul_sum : ∀ {X X' : List Fl} {Y Y' : List (Rd A)}, List.Forall₂ (Agrees A k) X Y →
    List.Forall₂ (AgreesPos A l) X' Y' → (∃ x ∈ X, x ≠ .fin 0) → X.length = X'.length →
    RockPhy.lsum (List.zipWith (· * ·) X X') ≠ .fin 0
  | [], _, _, _, .nil, _, h, _ => by simp at h
  | _ :: _, [], _, _, .cons _ _, .nil, _, h => by simp at h
  | x :: X, x' :: X', _, _, .cons h t, .cons h' t', hx, hl => by
    have ht := Agrees.lsum (Agrees.zipMul t (AgreesPos.forall_nn t'))
    by_cases h0 : x = .fin 0
    · have hx : ∃ z ∈ X, z ≠ .fin 0 := by
        obtain ⟨z, hz, hz0⟩ := hx
        rcases List.mem_cons.mp hz with rfl | hz
        · exact absurd h0 hz0
        · exact ⟨z, hz, hz0⟩
      have := AgreesPos.zipMul_sum t t' hx (by simpa using hl)
      exact ((h.mul h'.nn).addp (ht.ppos this)).ne
    · exact (((h.ppos h0).mul h').addn ht).ne

/-- A dot product of weights, not all zero, with positive numbers. -/
theorem AgreesPos.dot {X X' : List Fl} {Y Y' : List (Rd A)} (h : List.Forall₂ (Agrees A k) X Y)
    (h' : List.Forall₂ (AgreesPos A l) X' Y') (hx : ∃ x ∈ X, x ≠ .fin 0) (hl : X.length = X'.length) :
    ∃ s s', RockPhy.dot X X' = .ok s ∧ RockPhy.dot Y Y' = .ok s' ∧
      AgreesPos A (k + l + 1 + X.length) s s' := by
  have hl' : Y.length = Y'.length := by rw [← h.length_eq, ← h'.length_eq, hl]
  refine ⟨_, _, if_pos hl, if_pos hl', ?_⟩
  have := (Agrees.lsum (Agrees.zipMul h (AgreesPos.forall_nn h'))).ppos (AgreesPos.zipMul_sum h h' hx hl)
  rwa [List.length_zipWith, ← hl, min_self] at this

theorem Agrees.list : ∀ {l : List ℝ}, (∀ v ∈ l, 0 ≤ v) →
    List.Forall₂ (Agrees A 0) (l.map Fl.fin) (l.map Rd.fin)
  | [], _ => .nil
  | _ :: _, h => .cons (.exact (h _ (by simp))) (Agrees.list fun v hv => h v (by simp [hv]))

theorem AgreesPos.list : ∀ {l : List ℝ}, (∀ v ∈ l, 0 < v) →
    List.Forall₂ (AgreesPos A 0) (l.map Fl.fin) (l.map Rd.fin)
  | [], _ => .nil
  | _ :: _, h => .cons (.exact (h _ (by simp))) (AgreesPos.list fun v hv => h v (by simp [hv]))

theorem AgreesPos.map {X : List Fl} {Y : List (Rd A)} (h : List.Forall₂ (AgreesPos A k) X Y)
    {f : Fl → Fl} {g : Rd A → Rd A} (hf : ∀ x y, AgreesPos A k x y → AgreesPos A l (f x) (g y)) :
    List.Forall₂ (AgreesPos A l) (X.map f) (Y.map g) := by
  induction h with
  | nil => exact .nil
  | cons h _ ih => exact .cons (hf _ _ h) ih

theorem AgreesPos.zipWith : ∀ {X X' : List Fl} {Y Y' : List (Rd A)},
    List.Forall₂ (AgreesPos A k) X Y → List.Forall₂ (AgreesPos A l) X' Y' →
    ∀ {m : ℕ} {f : Fl → Fl → Fl} {g : Rd A → Rd A → Rd A},
    (∀ x y x' y', AgreesPos A k x y → AgreesPos A l x' y' → AgreesPos A m (f x x') (g y y')) →
    List.Forall₂ (AgreesPos A m) (List.zipWith f X X') (List.zipWith g Y Y')
  | [], _, _, _, .nil, _, _, _, _, _ => by simp
  | _ :: _, [], _, _, .cons _ _, .nil, _, _, _, _ => by simp
  | _ :: _, _ :: _, _, _, .cons h t, .cons h' t', _, _, _, hf =>
    .cons (hf _ _ _ _ h h') (AgreesPos.zipWith t t' hf)

theorem Agrees.map {X : List Fl} {Y : List (Rd A)} (h : List.Forall₂ (Agrees A k) X Y)
    {f : Fl → Fl} {g : Rd A → Rd A} (hf : ∀ x y, Agrees A k x y → Agrees A l (f x) (g y)) :
    List.Forall₂ (Agrees A l) (X.map f) (Y.map g) := by
  induction h with
  | nil => exact .nil
  | cons h _ ih => exact .cons (hf _ _ h) ih

theorem Agrees.lsum_ne : ∀ {X : List Fl} {Y : List (Rd A)}, List.Forall₂ (Agrees A k) X Y →
    (∃ x ∈ X, x ≠ .fin 0) → RockPhy.lsum X ≠ .fin 0
  | [], _, .nil, h => by simp at h
  | x :: X, _, .cons h t, hx => by
    have ht := Agrees.lsum t
    by_cases h0 : x = .fin 0
    · have hx : ∃ z ∈ X, z ≠ .fin 0 := by
        obtain ⟨z, hz, hz0⟩ := hx
        rcases List.mem_cons.mp hz with rfl | hz
        · exact absurd h0 hz0
        · exact ⟨z, hz, hz0⟩
      exact (h.addp (ht.ppos (Agrees.lsum_ne t hx))).ne
    · exact ((h.ppos h0).addn ht).ne

/-- A rounding multiplies the exact result, whatever its sign, by a factor near one. -/
theorem Rounding.factor (A : Rounding) (o : Op) (x y e : ℝ) :
    ∃ f : ℝ, A.rnd o x y e = e * f ∧ Within A 1 1 f := by
  have h := A.err o x y e
  have hu := A.u_nonneg
  have hd := A.d_pos
  rcases eq_or_ne e 0 with rfl | he
  · refine ⟨1, ?_, (Within.refl 1).mono zero_le_one (Nat.zero_le _)⟩
    simpa using h
  · refine ⟨A.rnd o x y e / e, (mul_div_cancel₀ _ he).symm, ?_⟩
    have h1 : |A.rnd o x y e / e - 1| ≤ A.u := by
      rw [div_sub_one he, abs_div, div_le_iff₀ (abs_pos.mpr he)]; exact h
    rw [abs_le] at h1
    constructor
    · rw [pow_one]; linarith
    · rw [pow_one]; nlinarith

theorem Within.factor {a b f : ℝ} (h : Within A k a b) (ha : 0 ≤ a) (hf : Within A 1 1 f) :
    Within A (k + 1) a (b * f) := by
  simpa using h.mul hf ha zero_le_one

end RockPhy
