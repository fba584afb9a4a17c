import Verif.Num

/-! Algebraic laws of `Fl` that hold even for the undefined value. -/

namespace RockPhy

open Fl

theorem Fl.add_comm' (x y : Fl) : x + y = y + x := by
  cases x <;> cases y <;> simp only [fl, add_comm]

theorem Fl.add_assoc' (x y z : Fl) : x + y + z = x + (y + z) := by
  cases x <;> cases y <;> cases z <;> simp only [fl, add_assoc]

theorem Fl.add_mul' (x y z : Fl) : (x + y) * z = x * z + y * z := by
  cases x <;> cases y <;> cases z <;> simp only [fl, add_mul]

theorem Fl.mul_comm' (x y : Fl) : x * y = y * x := by
  cases x <;> cases y <;> simp only [fl, mul_comm]

theorem lsum_perm {l l' : List Fl} (h : l.Perm l') : lsum l = lsum l' := by
  induction h with
  | nil => rfl
  | cons x _ ih => rw [lsum_cons, lsum_cons, ih]
  | swap x y l =>
    simp only [lsum_cons]
    rw [← Fl.add_assoc', ← Fl.add_assoc', Fl.add_comm' x y]
  | trans _ _ ih1 ih2 => rw [ih1, ih2]

/-- The dot product of two lists given as a list of pairs. -/
theorem dot_pairs (ps : List (Fl × Fl)) (f : Fl → Fl) :
    dot (ps.map Prod.fst) ((ps.map Prod.snd).map f) = .ok (lsum (ps.map fun p => p.1 * f p.2)) := by
  unfold dot
  rw [if_pos (by simp)]
  congr 2
  induction ps with
  | nil => rfl
  | cons p ps ih => simp only [List.map_cons, List.zipWith_cons_cons, ih]

/-- The dot product of equally long lists of reals. -/
theorem rdot_cons (a b : ℝ) (x y : List ℝ) : rdot (a :: x) (b :: y) = a * b + rdot x y := by
  simp [rdot]

@[simp] theorem rdot_nil_left (y : List ℝ) : rdot [] y = 0 := by simp [rdot]

theorem rdot_nonneg {x y : List ℝ} (hx : ∀ a ∈ x, 0 ≤ a) (hy : ∀ a ∈ y, 0 ≤ a) :
    0 ≤ rdot x y := by
  induction x generalizing y with
  | nil => simp
  | cons a x ih =>
    cases y with
    | nil => simp [rdot]
    | cons b y =>
      rw [rdot_cons]
      have := ih (fun a h => hx a (List.mem_cons_of_mem _ h))
        (fun a h => hy a (List.mem_cons_of_mem _ h))
      have h1 := hx a List.mem_cons_self
      have h2 := hy b List.mem_cons_self
      positivity

theorem rdot_le_mul {x y : List ℝ} {c : ℝ} (hl : x.length = y.length) (hx : ∀ a ∈ x, 0 ≤ a)
    (hy : ∀ b ∈ y, b ≤ c) : rdot x y ≤ c * x.sum := by
  induction x generalizing y with
  | nil => simp
  | cons a x ih =>
    cases y with
    | nil => simp at hl
    | cons b y =>
      rw [rdot_cons, List.sum_cons]
      have := ih (y := y) (by simpa using hl) (fun a h => hx a (List.mem_cons_of_mem _ h))
        (fun a h => hy a (List.mem_cons_of_mem _ h))
      have h1 := hx a List.mem_cons_self
      have h2 := hy b List.mem_cons_self
      nlinarith

theorem mul_le_rdot {x y : List ℝ} {c : ℝ} (hl : x.length = y.length) (hx : ∀ a ∈ x, 0 ≤ a)
    (hy : ∀ b ∈ y, c ≤ b) : c * x.sum ≤ rdot x y := by
  induction x generalizing y with
  | nil => simp
  | cons a x ih =>
    cases y with
    | nil => simp at hl
    | cons b y =>
      rw [rdot_cons, List.sum_cons]
      have := ih (y := y) (by simpa using hl) (fun a h => hx a (List.mem_cons_of_mem _ h))
        (fun a h => hy a (List.mem_cons_of_mem _ h))
      have h1 := hx a List.mem_cons_self
      have h2 := hy b List.mem_cons_self
      nlinarith

/-- Weighted Cauchy-Schwarz: `(sum v)^2 <= (sum v M) (sum v / M)`. -/
theorem sq_sum_le_rdot_mul_rdot_inv {v M : List ℝ} (hl : v.length = M.length)
    (hv : ∀ a ∈ v, 0 ≤ a) (hM : ∀ m ∈ M, 0 < m) :
    v.sum ^ 2 ≤ rdot v M * rdot v (M.map fun m => 1 / m) := by
  induction v generalizing M with
  | nil => simp
  | cons a v ih =>
    cases M with
    | nil => simp at hl
    | cons m M =>
      have hv' : ∀ a ∈ v, 0 ≤ a := fun a h => hv a (List.mem_cons_of_mem _ h)
      have hM' : ∀ m ∈ M, 0 < m := fun a h => hM a (List.mem_cons_of_mem _ h)
      have IH := ih (M := M) (by simpa using hl) hv' hM'
      have ha := hv a List.mem_cons_self
      have hm := hM m List.mem_cons_self
      rw [List.map_cons, rdot_cons, rdot_cons, List.sum_cons]
      have hA : 0 ≤ rdot v M := rdot_nonneg hv' (fun m h => (hM' m h).le)
      have hB : 0 ≤ rdot v (M.map fun m => 1 / m) := rdot_nonneg hv' (by
        intro b hb
        obtain ⟨m, hm, rfl⟩ := List.mem_map.mp hb
        have := hM' m hm
        positivity)
      have hS : 0 ≤ v.sum := List.sum_nonneg hv'
      generalize rdot v M = A at *
      generalize rdot v (M.map fun m => 1 / m) = B at *
      generalize v.sum = S at *
      have key : 2 * S ≤ A * (1 / m) + B * m := by
        refine (sq_le_sq₀ (by positivity) (by positivity)).mp ?_
        have e : A * (1 / m) * (B * m) = A * B := by field
        nlinarith [sq_nonneg (A * (1 / m) - B * m)]
      have e2 : a * m * (a * (1 / m)) = a ^ 2 := by field
      nlinarith [mul_le_mul_of_nonneg_left key ha]

end RockPhy
