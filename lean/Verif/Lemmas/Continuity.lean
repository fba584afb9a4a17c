import Verif.Spec.Continuity
import Mathlib.Analysis.SpecialFunctions.Pow.Continuity
import Mathlib.Analysis.SpecialFunctions.Trigonometric.Inverse
import Mathlib.Analysis.SpecialFunctions.Trigonometric.Arctan
import Mathlib.Analysis.SpecialFunctions.Trigonometric.Deriv

/-! # Continuity through arithmetic -/

namespace RockPhy.Spec.Vary

open Filter Topology Fl

variable {X : Type} [TopologicalSpace X] {A B C D : X → Fl}

/-! ## Operations on numbers -/

theorem lift1 {op : Fl → Fl} (S : Set ℝ) (g : ℝ → ℝ) (h0 : op bad = bad)
    (h1 : ∀ a ∈ S, op (fin a) = fin (g a)) (h2 : ∀ a ∉ S, op (fin a) = bad)
    (hc : ContinuousOn g S) (hA : Varies A) : Varies fun x => op (A x) := by
  intro x r hr ε hε
  have inv : ∀ y s, op (A y) = fin s → ∃ a ∈ S, A y = fin a ∧ s = g a := by
    intro y s hs
    cases e : A y with
    | bad => rw [e, h0] at hs; exact absurd hs bad_ne_fin
    | fin a =>
      rw [e] at hs
      by_cases m : a ∈ S
      · rw [h1 a m, fin_inj] at hs; exact ⟨a, m, rfl, hs.symm⟩
      · rw [h2 a m] at hs; exact absurd hs bad_ne_fin
  obtain ⟨a, ma, ea, rfl⟩ := inv x r hr
  obtain ⟨δ, hδ, hg⟩ := Metric.continuousOn_iff.mp hc a ma ε hε
  filter_upwards [hA x a ea δ hδ] with y hy s hs
  obtain ⟨b, mb, eb, rfl⟩ := inv y s hs
  exact hg b mb (hy b eb)

theorem lift2 {op : Fl → Fl → Fl} (S : Set (ℝ × ℝ)) (g : ℝ × ℝ → ℝ) (h0 : ∀ b, op bad b = bad)
    (h0' : ∀ a, op a bad = bad) (h1 : ∀ a b, (a, b) ∈ S → op (fin a) (fin b) = fin (g (a, b)))
    (h2 : ∀ a b, (a, b) ∉ S → op (fin a) (fin b) = bad)
    (hc : ∀ x, (∃ a b, A x = fin a ∧ B x = fin b ∧ (a, b) ∈ S ∧ ¬ ContinuousWithinAt g S (a, b)) → False)
    (hA : Varies A) (hB : Varies B) : Varies fun x => op (A x) (B x) := by
  intro x r hr ε hε
  have inv : ∀ y s, op (A y) (B y) = fin s → ∃ a b, (a, b) ∈ S ∧ A y = fin a ∧ B y = fin b ∧
      s = g (a, b) := by
    intro y s hs
    cases e : A y with
    | bad => rw [e, h0] at hs; exact absurd hs bad_ne_fin
    | fin a =>
      cases e' : B y with
      | bad => rw [e', h0'] at hs; exact absurd hs bad_ne_fin
      | fin b =>
        rw [e, e'] at hs
        by_cases m : (a, b) ∈ S
        · rw [h1 a b m, fin_inj] at hs; exact ⟨a, b, m, rfl, rfl, hs.symm⟩
        · rw [h2 a b m] at hs; exact absurd hs bad_ne_fin
  obtain ⟨a, b, m, ea, eb, rfl⟩ := inv x r hr
  have hcw : ContinuousWithinAt g S (a, b) := by
    by_contra h
    exact hc x ⟨a, b, ea, eb, m, h⟩
  obtain ⟨δ, hδ, hg⟩ := Metric.continuousWithinAt_iff.mp hcw ε hε
  filter_upwards [hA x a ea δ hδ, hB x b eb δ hδ] with y hy hy' s hs
  obtain ⟨a', b', m', ea', eb', rfl⟩ := inv y s hs
  refine hg m' ?_
  rw [Prod.dist_eq, max_lt_iff]
  exact ⟨hy a' ea', hy' b' eb'⟩

theorem fl_const (c : Fl) : Varies fun _ : X => c := by
  intro x r hr ε hε
  refine Eventually.of_forall fun y s hs => ?_
  rw [hr, fin_inj] at hs
  rw [hs, sub_self, abs_zero]; exact hε

/-- A continuous real function. -/
theorem of_continuous {g : X → ℝ} (hg : Continuous g) : Varies fun x => fin (g x) := by
  intro x r hr ε hε
  rw [fin_inj] at hr
  subst hr
  filter_upwards [Metric.continuousAt_iff'.mp hg.continuousAt ε hε] with y hy s hs
  rw [fin_inj] at hs
  subst hs
  exact hy

theorem continuous_of {g : X → ℝ} (h : Varies fun x => fin (g x)) : Continuous g := by
  rw [continuous_iff_continuousAt]
  intro x
  rw [Metric.continuousAt_iff']
  intro ε hε
  filter_upwards [h x _ rfl ε hε] with y hy
  exact hy _ rfl

theorem add (hA : Varies A) (hB : Varies B) : Varies fun x => A x + B x :=
  lift2 (op := fun a b => a + b) Set.univ (fun p => p.1 + p.2) (fun _ => rfl) fl_add_bad
    (fun _ _ _ => rfl) (fun _ _ h => absurd trivial h)
    (fun _ ⟨_, _, _, _, _, h⟩ => h (by fun_prop)) hA hB

theorem sub (hA : Varies A) (hB : Varies B) : Varies fun x => A x - B x :=
  lift2 (op := fun a b => a - b) Set.univ (fun p => p.1 - p.2) (fun _ => rfl) fl_sub_bad
    (fun _ _ _ => rfl) (fun _ _ h => absurd trivial h)
    (fun _ ⟨_, _, _, _, _, h⟩ => h (by fun_prop)) hA hB

theorem mul (hA : Varies A) (hB : Varies B) : Varies fun x => A x * B x :=
  lift2 (op := fun a b => a * b) Set.univ (fun p => p.1 * p.2) (fun _ => rfl) fl_mul_bad
    (fun _ _ _ => rfl) (fun _ _ h => absurd trivial h)
    (fun _ ⟨_, _, _, _, _, h⟩ => h (by fun_prop)) hA hB

theorem div (hA : Varies A) (hB : Varies B) : Varies fun x => A x / B x :=
  lift2 (op := fun a b => a / b) {p | p.2 ≠ 0} (fun p => p.1 / p.2) (fun _ => rfl) fl_div_bad
    (fun _ _ h => if_neg h) (fun _ _ h => if_pos (not_not.mp h))
    (fun _ ⟨_, _, _, _, m, h⟩ => h ((continuousAt_fst.div continuousAt_snd m).continuousWithinAt)) hA hB

theorem neg (hA : Varies A) : Varies fun x => -A x :=
  lift1 (op := fun a => -a) Set.univ (fun a => -a) rfl (fun _ _ => rfl) (fun _ h => absurd trivial h)
    (by fun_prop) hA

theorem npow (n : ℕ) (hA : Varies A) : Varies fun x => A x ** n :=
  lift1 (op := fun a => a ** n) Set.univ (fun a => a ^ n) rfl (fun _ _ => rfl)
    (fun _ h => absurd trivial h) (by fun_prop) hA

theorem inv' (hA : Varies A) : Varies fun x => inv (A x) :=
  lift1 (op := inv) {a | a ≠ 0} (fun a => a⁻¹) rfl (fun _ h => if_neg h)
    (fun _ h => if_pos (not_not.mp h)) (continuousOn_inv₀) hA

theorem sqrt' (hA : Varies A) : Varies fun x => sqrt (A x) :=
  lift1 (op := sqrt) {a | ¬ a < 0} Real.sqrt rfl (fun _ h => if_neg h)
    (fun _ h => if_pos (not_not.mp h)) Real.continuous_sqrt.continuousOn hA

theorem exp' (hA : Varies A) : Varies fun x => exp (A x) :=
  lift1 (op := exp) Set.univ Real.exp rfl (fun _ _ => rfl) (fun _ h => absurd trivial h)
    Real.continuous_exp.continuousOn hA

theorem log' (hA : Varies A) : Varies fun x => log (A x) :=
  lift1 (op := log) {a | 0 < a} Real.log rfl (fun _ h => if_pos h) (fun _ h => if_neg h)
    (Real.continuousOn_log.mono fun _ h => ne_of_gt h) hA

theorem sin' (hA : Varies A) : Varies fun x => sin (A x) :=
  lift1 (op := sin) Set.univ Real.sin rfl (fun _ _ => rfl) (fun _ h => absurd trivial h)
    Real.continuous_sin.continuousOn hA

theorem cos' (hA : Varies A) : Varies fun x => cos (A x) :=
  lift1 (op := cos) Set.univ Real.cos rfl (fun _ _ => rfl) (fun _ h => absurd trivial h)
    Real.continuous_cos.continuousOn hA

theorem tan' (hA : Varies A) : Varies fun x => tan (A x) :=
  lift1 (op := tan) {a | Real.cos a ≠ 0} Real.tan rfl (fun _ h => if_neg h)
    (fun _ h => if_pos (not_not.mp h)) Real.continuousOn_tan hA

theorem arcsin' (hA : Varies A) : Varies fun x => arcsin (A x) :=
  lift1 (op := arcsin) {a | -1 ≤ a ∧ a ≤ 1} Real.arcsin rfl (fun _ h => if_pos h)
    (fun _ h => if_neg h) Real.continuous_arcsin.continuousOn hA

theorem arccos' (hA : Varies A) : Varies fun x => arccos (A x) :=
  lift1 (op := arccos) {a | -1 ≤ a ∧ a ≤ 1} Real.arccos rfl (fun _ h => if_pos h)
    (fun _ h => if_neg h) Real.continuous_arccos.continuousOn hA

theorem arctan' (hA : Varies A) : Varies fun x => arctan (A x) :=
  lift1 (op := arctan) Set.univ Real.arctan rfl (fun _ _ => rfl) (fun _ h => absurd trivial h)
    Real.continuous_arctan.continuousOn hA

theorem cosh' (hA : Varies A) : Varies fun x => cosh (A x) :=
  lift1 (op := cosh) Set.univ Real.cosh rfl (fun _ _ => rfl) (fun _ h => absurd trivial h)
    Real.continuous_cosh.continuousOn hA

theorem deg2rad' (hA : Varies A) : Varies fun x => deg2rad (A x) :=
  mul hA (div (fl_const _) (fl_const _))

theorem store' (hB : Varies B) : Varies fun x => PyNum.store (A x) (B x) := hB

/-- A power: continuous except where base and exponent are both zero. -/
theorem rpow' (hA : Varies A) (hB : Varies B) (h : ∀ x, A x = fin 0 → B x ≠ fin 0) :
    Varies fun x => A x **. B x := by
  refine lift2 (op := fun a b => a **. b)
    {p : ℝ × ℝ | 0 < p.1 ∨ (p.1 = 0 ∧ 0 ≤ p.2) ∨ (p.1 < 0 ∧ ∃ n : ℤ, p.2 = n)} (fun p => p.1 ^ p.2)
    (fun _ => rfl) fl_rpow_bad (fun _ _ h => if_pos h) (fun _ _ h => if_neg h) ?_ hA hB
  rintro x ⟨a, b, ea, eb, m, hn⟩
  apply hn
  refine (Real.continuousAt_rpow (a, b) ?_).continuousWithinAt
  by_cases h0 : a = 0
  · subst h0
    right
    rcases m with m | m | m
    · exact absurd m (lt_irrefl _)
    · exact lt_of_le_of_ne m.2 fun e => h x ea (eb.trans (congrArg fin e.symm))
    · exact absurd m.1 (lt_irrefl _)
  · exact Or.inl h0

/-- A power with a constant exponent. -/
theorem rpow_const (c : Fl) (hA : Varies A) : Varies fun x => A x **. c := by
  cases c with
  | bad => simp only [fl_rpow_bad]; exact fl_const bad
  | fin c =>
  refine lift1 (op := fun a => a **. fin c)
    {p : ℝ | 0 < p ∨ (p = 0 ∧ 0 ≤ c) ∨ (p < 0 ∧ ∃ n : ℤ, c = n)} (fun p => p ^ c)
    rfl (fun _ h => if_pos h) (fun _ h => if_neg h) ?_ hA
  intro a m
  refine (Real.continuousAt_rpow_const a c ?_).continuousWithinAt
  rcases m with m | m | m
  · exact Or.inl m.ne'
  · exact Or.inr m.2
  · exact Or.inl m.1.ne

/-- A power with a constant base. -/
theorem rpow_base (c : Fl) (hc : c ≠ fin 0) (hB : Varies B) : Varies fun x => c **. B x :=
  rpow' (fl_const c) hB fun _ h => absurd h hc

theorem congr {F G : X → Fl} (h : ∀ x, F x = G x) (hG : Varies G) : Varies F := by
  rw [funext h]; exact hG

/-- Varying a parameter of the parameter. -/
theorem comp {Y : Type} [TopologicalSpace Y] {φ : Y → X} (hφ : Continuous φ) (hA : Varies A) :
    Varies fun y => A (φ y) := by
  intro y r hr ε hε
  exact hφ.continuousAt.eventually (hA (φ y) r hr ε hε)

/-- Continuity needs to be shown only where the value is defined. -/
theorem restrict (P : X → Prop) (h0 : ∀ x, ¬ P x → A x = bad)
    (h : Varies fun x : {x // P x} => A x.1) : Varies A := by
  intro x r hr ε hε
  have hx : P x := by
    by_contra hn
    rw [h0 x hn] at hr
    exact bad_ne_fin hr
  have := h ⟨x, hx⟩ r hr ε hε
  rw [nhds_subtype_eq_comap, eventually_comap] at this
  filter_upwards [this] with y hy s hs
  have py : P y := by
    by_contra hn
    rw [h0 y hn] at hs
    exact bad_ne_fin hs
  exact hy ⟨y, py⟩ rfl s hs

/-- Leaving a value out does no harm. -/
theorem cut {p : X → Prop} [∀ x, Decidable (p x)] {c : Fl} (hc : c = bad) (hA : Varies A) :
    Varies fun x => if p x then c else A x := by
  intro x r hr ε hε
  beta_reduce at hr
  split at hr
  · rw [hc] at hr; exact absurd hr bad_ne_fin
  · filter_upwards [hA x r hr ε hε] with y hy s hs
    split at hs
    · rw [hc] at hs; exact absurd hs bad_ne_fin
    · exact hy s hs

/-- A condition on two numbers: the two branches must agree where the numbers are equal, and be
undefined where the numbers are. -/
theorem ite_le (hA : Varies A) (hB : Varies B) (hC : Varies C) (hD : Varies D)
    (h0 : ∀ x, A x = bad ∨ B x = bad → D x = bad) (h : ∀ x, A x ≠ bad → A x = B x → C x = D x) :
    Varies fun x => if PyNum.le (A x) (B x) then C x else D x := by
  have lef : ∀ a b : ℝ, PyNum.le (fin a) (fin b) = decide (a ≤ b) := fun _ _ => rfl
  intro x r hr ε hε
  beta_reduce at hr ⊢
  have undef : ∀ y, A y = bad ∨ B y = bad → (if PyNum.le (A y) (B y) then C y else D y) = bad := by
    intro y hy
    have : PyNum.le (A y) (B y) = false := by
      rcases hy with e | e <;> rw [e]
      · rfl
      · cases A y <;> rfl
    rw [this]
    exact h0 y hy
  cases ea : A x with
  | bad => rw [undef x (Or.inl ea)] at hr; exact absurd hr bad_ne_fin
  | fin a =>
  cases eb : B x with
  | bad => rw [undef x (Or.inr eb)] at hr; exact absurd hr bad_ne_fin
  | fin b =>
  rw [ea, eb, lef] at hr
  rcases lt_trichotomy a b with l | l | l
  · rw [decide_eq_true l.le] at hr
    filter_upwards [hA x a ea ((b - a) / 2) (by linarith), hB x b eb ((b - a) / 2) (by linarith),
      hC x r hr ε hε] with y ya yb yc s hs
    cases ea' : A y with
    | bad => rw [undef y (Or.inl ea')] at hs; exact absurd hs bad_ne_fin
    | fin a' =>
    cases eb' : B y with
    | bad => rw [undef y (Or.inr eb')] at hs; exact absurd hs bad_ne_fin
    | fin b' =>
    have p := abs_lt.mp (ya a' ea')
    have q := abs_lt.mp (yb b' eb')
    rw [ea', eb', lef, decide_eq_true (by linarith)] at hs
    exact yc s hs
  · subst l
    have e := h x (by rw [ea]; exact fin_ne_bad) (by rw [ea, eb])
    rw [decide_eq_true le_rfl] at hr
    have hr' : D x = fin r := by rw [← e]; exact hr
    filter_upwards [hC x r hr ε hε, hD x r hr' ε hε] with y yc yd s hs
    split at hs
    · exact yc s hs
    · exact yd s hs
  · rw [decide_eq_false (not_le.mpr l)] at hr
    filter_upwards [hA x a ea ((a - b) / 2) (by linarith), hB x b eb ((a - b) / 2) (by linarith),
      hD x r hr ε hε] with y ya yb yd s hs
    cases ea' : A y with
    | bad => rw [undef y (Or.inl ea')] at hs; exact absurd hs bad_ne_fin
    | fin a' =>
    cases eb' : B y with
    | bad => rw [undef y (Or.inr eb')] at hs; exact absurd hs bad_ne_fin
    | fin b' =>
    have p := abs_lt.mp (ya a' ea')
    have q := abs_lt.mp (yb b' eb')
    rw [ea', eb', lef, decide_eq_false (by linarith)] at hs
    exact yd s hs

/-! ## Structures -/

variable {β γ : Type} [Varying β] [Varying γ]

theorem pair {F : X → β} {G : X → γ} (hF : Varies F) (hG : Varies G) : Varies fun x => (F x, G x) :=
  ⟨hF, hG⟩

theorem fst {F : X → β × γ} (hF : Varies F) : Varies fun x => (F x).1 := hF.1

theorem snd {F : X → β × γ} (hF : Varies F) : Varies fun x => (F x).2 := hF.2

theorem ok {F : X → β} (hF : Varies F) : Varies fun x => (Except.ok (F x) : Except PyErr β) :=
  Or.inr ⟨F, hF, fun _ => rfl⟩

theorem err (e : PyErr) : Varies fun _ : X => (Except.error e : Except PyErr β) :=
  Or.inl ⟨e, fun _ => rfl⟩

theorem bind {F : X → Except PyErr β} {G : X → β → Except PyErr γ} (hF : Varies F)
    (hG : ∀ A : X → β, Varies A → Varies fun x => G x (A x)) : Varies fun x => F x >>= G x := by
  rcases hF with ⟨e, he⟩ | ⟨A, hA, he⟩
  · exact Or.inl ⟨e, fun x => by beta_reduce; rw [he]; rfl⟩
  · have := hG A hA
    have e : (fun x => F x >>= G x) = fun x => G x (A x) := by
      funext x; rw [he]; rfl
    rw [e]; exact this

theorem nil : Varies fun _ : X => ([] : List β) := ⟨[], by simp, fun _ => rfl⟩

theorem cons {F : X → β} {G : X → List β} (hF : Varies F) (hG : Varies G) :
    Varies fun x => F x :: G x := by
  obtain ⟨Gs, h1, h2⟩ := hG
  exact ⟨F :: Gs, by simpa [hF] using h1, fun x => by simp [h2]⟩

theorem app {F : X → β → γ} {A : X → β} (hF : Varies F) (hA : Varies A) : Varies fun x => F x (A x) :=
  hF A hA

theorem of_const {f : β} (hf : IsContinuous f) : Varies fun _ : X => f := hf X

theorem cond_const {p : Prop} [Decidable p] {F G : X → β} (hF : Varies F) (hG : Varies G) :
    Varies fun x => if p then F x else G x := by
  split <;> assumption

theorem let' (A : X → β) (G : X → β → γ) (hA : Varies A)
    (hG : ∀ A : X → β, Varies A → Varies fun x => G x (A x)) : Varies fun x => let v := A x; G x v :=
  hG A hA

theorem const_string (s : String) : Varies fun _ : X => s := ⟨s, fun _ => rfl⟩
theorem const_bool (s : Bool) : Varies fun _ : X => s := ⟨s, fun _ => rfl⟩
theorem const_int (s : Int) : Varies fun _ : X => s := ⟨s, fun _ => rfl⟩
theorem const_nat (s : Nat) : Varies fun _ : X => s := ⟨s, fun _ => rfl⟩

theorem elim_string {P : (X → String) → Prop} (h : ∀ s, P fun _ => s) (A : X → String) (hA : Varies A) :
    P A := by obtain ⟨s, hs⟩ := hA; rw [funext hs]; exact h s
theorem elim_bool {P : (X → Bool) → Prop} (h : ∀ s, P fun _ => s) (A : X → Bool) (hA : Varies A) :
    P A := by obtain ⟨s, hs⟩ := hA; rw [funext hs]; exact h s
theorem elim_int {P : (X → Int) → Prop} (h : ∀ s, P fun _ => s) (A : X → Int) (hA : Varies A) :
    P A := by obtain ⟨s, hs⟩ := hA; rw [funext hs]; exact h s
theorem elim_nat {P : (X → Nat) → Prop} (h : ∀ s, P fun _ => s) (A : X → Nat) (hA : Varies A) :
    P A := by obtain ⟨s, hs⟩ := hA; rw [funext hs]; exact h s

theorem elim_option {P : (X → Option β) → Prop} (h0 : P fun _ => none)
    (h1 : ∀ G, Varies G → P fun x => some (G x)) (A : X → Option β) (hA : Varies A) : P A := by
  rcases hA with hs | ⟨G, hG, hs⟩
  · rw [funext hs]; exact h0
  · rw [funext hs]; exact h1 G hG

theorem vempty {F : X → Fin 0 → β} : Varies F := fun i => i.elim0

theorem vcons {n : Nat} {F : X → β} {G : X → Fin n → β} (hF : Varies F) (hG : Varies G) :
    Varies fun x => Matrix.vecCons (F x) (G x) := by
  intro i
  refine Fin.cases ?_ (fun j => ?_) i
  · exact hF
  · exact hG j

theorem at_fin {n : Nat} {F : X → Fin n → β} (hF : Varies F) (i : Fin n) : Varies fun x => F x i := hF i

theorem entry {M : X → Mat6 Fl} (hM : Varies M) (i j : Fin 6) : Varies fun x => M x i j := hM i j

theorem matmul' {M N : X → Mat6 Fl} (hM : Varies M) (hN : Varies N) :
    Varies fun x => matmul6 (M x) (N x) := fun i j =>
  add (add (add (add (add (mul (hM i 0) (hN 0 j)) (mul (hM i 1) (hN 1 j))) (mul (hM i 2) (hN 2 j)))
    (mul (hM i 3) (hN 3 j))) (mul (hM i 4) (hN 4 j))) (mul (hM i 5) (hN 5 j))

theorem transpose' {M : X → Mat6 Fl} (hM : Varies M) : Varies fun x => Matrix.transpose (M x) :=
  fun i j => hM j i

theorem none' : Varies fun _ : X => (none : Option β) := Or.inl fun _ => rfl
theorem some' {F : X → β} (hF : Varies F) : Varies fun x => some (F x) := Or.inr ⟨F, hF, fun _ => rfl⟩
theorem inl' {F : X → β} (hF : Varies F) : Varies fun x => (Sum.inl (F x) : β ⊕ γ) :=
  Or.inl ⟨F, hF, fun _ => rfl⟩
theorem inr' {F : X → γ} (hF : Varies F) : Varies fun x => (Sum.inr (F x) : β ⊕ γ) :=
  Or.inr ⟨F, hF, fun _ => rfl⟩

theorem pure' {F : X → β} (hF : Varies F) : Varies fun x => (pure (F x) : Except PyErr β) := ok hF

theorem nat' {N : X → Nat} (hN : Varies N) : Varies fun x => (PyNum.nat (N x) : Fl) := by
  obtain ⟨n, hn⟩ := hN
  simp only [hn]; exact fl_const _

theorem length' {L : X → List β} (hL : Varies L) : Varies fun x => (L x).length := by
  obtain ⟨Gs, _, h⟩ := hL
  exact ⟨Gs.length, fun x => by simp [h]⟩

/-- The number of entries does not vary, so neither does an expression of it. -/
theorem comp_nat {N : X → Nat} (f : Nat → Nat) (hN : Varies N) : Varies fun x => f (N x) := by
  obtain ⟨n, hn⟩ := hN
  exact ⟨f n, fun x => by simp [hn]⟩

theorem map' {F : X → β → γ} {L : X → List β} (hF : Varies F) (hL : Varies L) :
    Varies fun x => (L x).map (F x) := by
  obtain ⟨Gs, h1, h2⟩ := hL
  refine ⟨Gs.map fun G x => F x (G x), ?_, fun x => by simp [h2]⟩
  intro G hG
  obtain ⟨G', m, rfl⟩ := List.mem_map.mp hG
  exact hF G' (h1 G' m)

theorem zipWith' {δ : Type} [Varying δ] {F : X → β → γ → δ} {L : X → List β} {M : X → List γ}
    (hF : Varies F) (hL : Varies L) (hM : Varies M) :
    Varies fun x => List.zipWith (F x) (L x) (M x) := by
  obtain ⟨Gs, h1, h2⟩ := hL
  obtain ⟨Hs, k1, k2⟩ := hM
  refine ⟨List.zipWith (fun G H x => F x (G x) (H x)) Gs Hs, ?_, fun x => ?_⟩
  · intro K hK
    obtain ⟨n, hn, rfl⟩ := List.mem_iff_getElem.mp hK
    rw [List.getElem_zipWith]
    exact hF _ (h1 _ (List.getElem_mem _)) _ (k1 _ (List.getElem_mem _))
  · simp [h2, k2, List.map_zipWith, List.zipWith_map]

theorem zip' {L : X → List β} {M : X → List γ} (hL : Varies L) (hM : Varies M) :
    Varies fun x => List.zip (L x) (M x) := by
  have := zipWith' (F := fun _ : X => (Prod.mk : β → γ → β × γ)) (fun _ h _ k => pair h k) hL hM
  exact this

theorem map_mem {F : X → β → γ} {L : X → List β} (hL : Varies L)
    (hF : ∀ G : X → β, (∀ x, G x ∈ L x) → Varies G → Varies fun x => F x (G x)) :
    Varies fun x => (L x).map (F x) := by
  obtain ⟨Gs, h1, h2⟩ := hL
  refine ⟨Gs.map fun G x => F x (G x), ?_, fun x => by simp [h2]⟩
  intro G hG
  obtain ⟨G', m, rfl⟩ := List.mem_map.mp hG
  exact hF G' (fun x => by rw [h2]; exact List.mem_map.mpr ⟨G', m, rfl⟩) (h1 G' m)

/-- A list of constants. -/
theorem const_list {δ : Type} [Varying δ] (l : List δ) (h : ∀ d ∈ l, Varies fun _ : X => d) :
    Varies fun _ : X => l := by
  refine ⟨l.map fun d _ => d, ?_, fun x => by rw [List.map_map]; exact (List.map_id' l).symm⟩
  intro G hG
  obtain ⟨d, m, rfl⟩ := List.mem_map.mp hG
  exact h d m

theorem map_fin {δ : Type} {F : X → δ → β} (l : List δ) (h : ∀ d, Varies fun x => F x d) :
    Varies fun x => l.map (F x) :=
  ⟨l.map fun d x => F x d, by simpa using fun d _ => h d, fun x => by simp⟩

theorem flatMap_fin {δ : Type} {F : X → δ → List β} (l : List δ) (h : ∀ d, Varies fun x => F x d) :
    Varies fun x => l.flatMap (F x) := by
  induction l with
  | nil => exact nil
  | cons d l ih =>
    obtain ⟨Gs, h1, h2⟩ := h d
    obtain ⟨Hs, k1, k2⟩ := ih
    refine ⟨Gs ++ Hs, fun G hG => ?_, fun x => by simp [h2, k2]⟩
    rcases List.mem_append.mp hG with m | m
    exacts [h1 G m, k1 G m]

theorem bzip' {δ : Type} [Varying δ] {F : X → β → γ → δ} {L : X → List β} {M : X → List γ}
    (hF : Varies F) (hL : Varies L) (hM : Varies M) : Varies fun x => bzip (F x) (L x) (M x) := by
  obtain ⟨Gs, h1, h2⟩ := hL
  obtain ⟨Hs, k1, k2⟩ := hM
  have hL : Varies L := ⟨Gs, h1, h2⟩
  have hM : Varies M := ⟨Hs, k1, k2⟩
  by_cases e : Gs.length = Hs.length
  · refine Or.inr ⟨_, zipWith' hF hL hM, fun x => ?_⟩
    unfold bzip
    beta_reduce
    rw [if_pos (by simp [h2, k2, e])]
  · have ne : ∀ x, ¬ (L x).length = (M x).length := fun x => by simp [h2, k2, e]
    have red : (fun x => bzip (F x) (L x) (M x)) = fun x => match L x, M x with
        | [a], y => .ok (y.map (F x a))
        | x', [b] => .ok (x'.map (F x · b))
        | _, _ => .error .ValueError := by
      funext x; unfold bzip; rw [if_neg (ne x)]; rfl
    rw [red]
    match Gs, Hs with
    | [G], Hs =>
      simp only [h2, List.map_cons, List.map_nil]
      exact ok (map' (F := fun x => F x (G x)) (hF G (h1 G (by simp))) hM)
    | [], [H] =>
      simp only [h2, k2, List.map_cons, List.map_nil]
      exact ok nil
    | G1 :: G2 :: Gs, [H] =>
      simp only [k2, List.map_cons, List.map_nil]
      have : (fun x => match L x, [H x] with
        | [a], y => (Except.ok (y.map (F x a)) : Except PyErr (List δ))
        | x', [b] => .ok (x'.map (F x · b))
        | _, _ => .error .ValueError) = fun x => .ok ((L x).map (F x · (H x))) := by
        funext x; rw [h2]; rfl
      rw [this]
      exact ok (map' (F := fun x a => F x a (H x)) (fun A hA => hF A hA H (k1 H (by simp))) hL)
    | [], [] => exact absurd rfl e
    | [], H1 :: H2 :: Hs =>
      simp only [h2, k2, List.map_cons, List.map_nil]
      exact err _
    | G1 :: G2 :: Gs, [] =>
      simp only [h2, k2, List.map_cons, List.map_nil]
      exact err _
    | G1 :: G2 :: Gs, H1 :: H2 :: Hs =>
      simp only [h2, k2, List.map_cons]
      exact err _

theorem mapM' {F : X → β → Except PyErr γ} {L : X → List β} (hF : Varies F) (hL : Varies L) :
    Varies fun x => (L x).mapM (F x) := by
  obtain ⟨Gs, h1, h2⟩ := hL
  simp only [h2]
  clear h2
  induction Gs with
  | nil => exact ok nil
  | cons G Gs ih =>
    simp only [List.map_cons, List.mapM_cons]
    refine bind (hF G (h1 G (by simp))) fun A hA => ?_
    refine bind (ih fun H hH => h1 H (by simp [hH])) fun B hB => ?_
    exact ok (cons hA hB)

theorem tail' {L : X → List β} (hL : Varies L) : Varies fun x => (L x).tail := by
  obtain ⟨Gs, h1, h2⟩ := hL
  exact ⟨Gs.tail, fun G hG => h1 G (List.mem_of_mem_tail hG), fun x => by simp [h2]⟩

theorem append' {L M : X → List β} (hL : Varies L) (hM : Varies M) : Varies fun x => L x ++ M x := by
  obtain ⟨Gs, h1, h2⟩ := hL
  obtain ⟨Hs, k1, k2⟩ := hM
  refine ⟨Gs ++ Hs, fun G hG => ?_, fun x => by simp [h2, k2]⟩
  rcases List.mem_append.mp hG with m | m
  exacts [h1 G m, k1 G m]

theorem lsum' {L : X → List Fl} (hL : Varies L) : Varies fun x => lsum (L x) := by
  obtain ⟨Gs, h1, h2⟩ := hL
  simp only [h2]
  clear h2
  induction Gs with
  | nil => exact fl_const _
  | cons G Gs ih =>
    exact add (h1 G (by simp)) (ih fun H hH => h1 H (by simp [hH]))

theorem dot' {L M : X → List Fl} (hL : Varies L) (hM : Varies M) : Varies fun x => dot (L x) (M x) := by
  obtain ⟨n, hn⟩ := length' hL
  obtain ⟨m, hm⟩ := length' hM
  unfold dot
  simp only [hn, hm]
  by_cases e : n = m
  · simp only [e, if_true]
    exact ok (lsum' (zipWith' (fun _ h _ k => mul h k) hL hM))
  · simp only [e, if_false]
    exact err _

open Lean Meta Elab Tactic

/-- The rule for each operation. -/
def rules : List (Name × Name) :=
  [(``HAdd.hAdd, ``add), (``HSub.hSub, ``sub), (``HMul.hMul, ``mul), (``HDiv.hDiv, ``div),
   (``Neg.neg, ``neg), (``PyNum.npow, ``npow), (``PyNum.inv, ``inv'), (``PyNum.sqrt, ``sqrt'),
   (``PyNum.exp, ``exp'), (``PyNum.log, ``log'), (``PyNum.sin, ``sin'), (``PyNum.cos, ``cos'),
   (``PyNum.tan, ``tan'), (``PyNum.arcsin, ``arcsin'), (``PyNum.arccos, ``arccos'),
   (``PyNum.arctan, ``arctan'), (``PyNum.cosh, ``cosh'), (``deg2rad, ``deg2rad'),
   (``PyNum.store, ``store'), (``PyNum.rpow, ``rpow_const), (``PyNum.rpow, ``rpow_base),
   (``PyNum.rpow, ``rpow'), (``matmul6, ``matmul'), (``Matrix.transpose, ``transpose'),
   (``Prod.fst, ``fst), (``Prod.snd, ``snd), (``Prod.mk, ``pair), (``Except.ok, ``ok),
   (``Except.error, ``err), (``List.nil, ``nil), (``List.cons, ``cons), (``ite, ``cond_const),
   (``Bind.bind, ``bind), (``Matrix.vecCons, ``vcons), (``Matrix.vecEmpty, ``vempty),
   (``Option.none, ``none'), (``Option.some, ``some'), (``Sum.inl, ``inl'), (``Sum.inr, ``inr'),
   (``Pure.pure, ``pure'), (``PyNum.nat, ``nat'), (``List.length, ``length'), (``List.map, ``map'),
   (``List.zipWith, ``zipWith'), (``List.tail, ``tail'), (``HAppend.hAppend, ``append'), (``lsum, ``lsum'),
   (``dot, ``dot'), (``List.zip, ``zip'), (``bzip, ``bzip'), (``List.mapM, ``mapM')]

/-- Apply the rules as long as one applies; returns the goals that remain. -/
partial def go (hs : List (Expr × Expr)) (g : MVarId) : MetaM (List MVarId) := g.withContext do
  let ty := (← instantiateMVars (← g.getType)).consumeMData
  if ty.isForall then
    let (_, g) ← g.intros
    return ← go hs g
  let args := ty.getAppArgs
  unless ty.isAppOf ``Varying.Varies && args.size == 5 do return [g]
  let .lam x X body bi := (← Core.betaReduce args[4]!).consumeMData
    | if ← withReducible g.assumptionCore then return []
      return [g]
  let body := body.consumeMData
  let g ← g.change (mkAppN ty.getAppFn #[args[0]!, args[1]!, args[2]!, args[3]!, .lam x X body bi])
  g.withContext do
  let try1 (n : Name) : MetaM (Option (List MVarId)) :=
    observing? do
      try withReducible (g.apply (← mkConstWithFreshMVarLevels n))
      catch _ => g.apply (← mkConstWithFreshMVarLevels n)
  if !body.hasLooseBVars then
    for n in [``fl_const, ``const_string, ``const_bool, ``const_int, ``const_nat] do
      if let some gs ← try1 n then return (← gs.mapM (go hs)).flatten
  if body.isLet then
    let .letE v vt val b _ := body | return [g]
    if vt.hasLooseBVars then return [g]
    let A := Expr.lam x X val bi
    let G := Expr.lam x X (Expr.lam v vt b .default) bi
    let pf ← mkAppOptM ``let' #[none, none, none, some args[0]!, none, some args[1]!, some A, some G]
    let gs ← g.apply pf
    return (← gs.mapM (go hs)).flatten
  if body.isLambda then
    let .forallE _ d _ _ ← whnf args[0]! | return [g]
    let (_, g) ← g.intro1
    let g ← if (← whnf d).isAppOf ``Fin then pure g else
      let (_, g) ← g.intro1
      pure g
    return ← go hs g
  if body.getAppFn.isFVar then
    if ← withReducible g.assumptionCore then return []
    if body.getAppNumArgs < 2 then return [g]
    if body.getAppNumArgs == 3 then
      if let some gs ← observing? (withReducible (g.apply (mkConst ``entry))) then
        return (← gs.mapM (go hs)).flatten
    let a := body.appArg!
    if !a.hasLooseBVars && (← whnf (← inferType a)).isAppOf ``Fin then
      if let some gs ← try1 ``at_fin then return (← gs.mapM (go hs)).flatten
      return [g]
    if let some gs ← try1 ``app then return (← gs.mapM (go hs)).flatten
    return [g]
  let .const c _ := body.getAppFn | return [g]
  for (h, f) in hs do
    if f.isAppOf c then
      let n := f.getAppNumArgs
      let bs := body.getAppArgs
      if bs.size < n then continue
      let mut pf ← mkAppOptM ``of_const #[some X, some args[3]!, none, none, none, some h]
      let mut new := #[]
      let mut cur := f
      for a in bs.extract n bs.size do
        let A := Expr.lam x X a bi
        let F := Expr.lam x X cur bi
        let .forallE _ _ β _ ← inferType A | return [g]
        let inst ← synthInstance (mkApp (mkConst ``Varying) β)
        let m ← mkFreshExprSyntheticOpaqueMVar
          (mkAppN (mkConst ``Varying.Varies) #[β, inst, X, args[3]!, A])
        pf ← mkAppOptM ``app #[none, none, none, none, none, none, some F, some A, some pf, some m]
        new := new.push m.mvarId!
        cur := mkApp cur a
      g.assign (← mkExpectedTypeHint pf (← g.getType))
      return (← new.toList.mapM (go hs)).flatten
  for (o, n) in rules do
    if c == o then
      if let some gs ← try1 n then return (← gs.mapM (go hs)).flatten
  return [g]

/-- Continuity of an expression from that of its parts and of the functions it calls. -/
elab "vary" "[" ts:term,* "]" : tactic => withMainContext do
  let hs ← ts.getElems.toList.mapM fun t => do
    let h ← elabTerm t none
    let hT ← instantiateMVars (← inferType h)
    pure (h, if hT.isAppOfArity ``IsContinuous 3 then hT.appArg! else mkConst ``True)
  replaceMainGoal (← go hs (← getMainGoal))

/-- Name the arguments of a function. -/
elab "vary_intro" : tactic => do
  let mut g ← getMainGoal
  let mut more := true
  while more do
    let ty ← g.withContext do instantiateMVars (← g.getType)
    if ty.isAppOf ``Varying.Varies && (ty.getArg! 0).isArrow then
      let d := (ty.getArg! 0).bindingDomain!
      let elim : List (Name × Name) := [(``String, ``elim_string), (``Bool, ``elim_bool),
        (``Int, ``elim_int), (``Nat, ``elim_nat)]
      if d.isAppOf ``Fin then more := false else
      if let some (_, l) := elim.find? fun p => d.isConstOf p.1 then
        let [g'] ← g.apply (← mkConstWithFreshMVarLevels l) | throwError "no"
        let (_, g') ← g'.intro1
        g := g'
      else
        let (_, g') ← g.intro1
        let (_, g') ← g'.intro1
        g := g'
      let g1 := g
      let t ← g1.withContext do Core.betaReduce (← instantiateMVars (← g1.getType))
      g := ← g1.change t
    else
      more := false
  replaceMainGoal [g]

/-- A function is continuous if the operations and functions of its definition are. -/
macro "vary_def" f:ident "[" ts:term,* "]" : tactic =>
  `(tactic| (intro X _; vary_intro; unfold $f; vary [$ts,*]))

end RockPhy.Spec.Vary
