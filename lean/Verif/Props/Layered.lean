import Verif.Props.Backus
import Verif.Spec.Layered

/-! C85: the Backus average is the exact static response of the layered stack. -/

namespace RockPhy.Props

open Fl Spec Anisotropy Matrix

theorem stackAvg_add (st : List Layer) (f g : Layer → ℝ) :
    stackAvg st (fun L => f L + g L) = stackAvg st f + stackAvg st g := by
  unfold stackAvg
  rw [← add_div]
  congr 1
  induction st with
  | nil => simp
  | cons p ps ih => simp only [List.map_cons, List.sum_cons, ih]; ring

theorem stackAvg_smul (st : List Layer) (c : ℝ) (f : Layer → ℝ) :
    stackAvg st (fun L => c * f L) = c * stackAvg st f := by
  unfold stackAvg
  rw [mul_div_assoc']
  congr 1
  induction st with
  | nil => simp
  | cons p ps ih => simp only [List.map_cons, List.sum_cons, ih]; ring

theorem stackAvg_congr {st : List Layer} {f g : Layer → ℝ} (h : ∀ L ∈ st, f L = g L) :
    stackAvg st f = stackAvg st g := by
  unfold stackAvg
  congr 2
  apply List.map_congr_left
  intro L hL
  rw [h L hL]

theorem stackAvg_one {st : List Layer} (h : (st.map Layer.thickness).sum ≠ 0) :
    stackAvg st (fun _ => 1) = 1 := by
  unfold stackAvg
  simp only [mul_one]
  exact div_self h

theorem stackAvg_const {st : List Layer} (h : (st.map Layer.thickness).sum ≠ 0) (c : ℝ) :
    stackAvg st (fun _ => c) = c := by
  have := stackAvg_smul st c fun _ => 1
  rw [stackAvg_one h] at this
  simpa using this

theorem stackAvg_rwsum (st : List Layer) (f : ℝ → ℝ → ℝ) :
    stackAvg st (fun L => f L.lam L.mu)
      = rwsum (st.map Layer.thickness).sum f (st.map fun L => (L.thickness, L.lam, L.mu)) := by
  unfold stackAvg rwsum
  rw [List.map_map, div_eq_inv_mul, ← List.sum_map_mul_left]
  congr 1
  apply List.map_congr_left
  intro L _
  simp only [Function.comp]
  ring

/-- The stress components of a layer. -/
theorem Layer.stress_apply (L : Layer) (i j : Fin 3) :
    L.stress i j = (if i = j then L.lam * (L.strain 0 0 + L.strain 1 1 + L.strain 2 2) else 0)
      + 2 * L.mu * L.strain i j := by
  unfold Layer.stress hooke
  rw [Matrix.trace_fin_three]
  by_cases h : i = j
  · subst h
    simp only [Matrix.add_apply, Matrix.smul_apply, Matrix.one_apply_eq, smul_eq_mul, if_true]
    ring
  · simp [h]

theorem triples_ext {ls ls' : List (ℝ × ℝ × ℝ)} (h1 : ls.map (·.1) = ls'.map (·.1))
    (h2 : ls.map (·.2.1) = ls'.map (·.2.1)) (h3 : ls.map (·.2.2) = ls'.map (·.2.2)) : ls = ls' := by
  induction ls generalizing ls' with
  | nil => cases ls' with
    | nil => rfl
    | cons b bs => simp at h1
  | cons a as ih => cases ls' with
    | nil => simp at h1
    | cons b bs =>
      simp only [List.map_cons, List.cons.injEq] at h1 h2 h3
      rw [ih h1.2 h2.2 h3.2]
      congr 1
      exact Prod.ext h1.1 (Prod.ext h2.1 h3.1)

/-- A stack of layers under given in-plane strains and tractions. -/
noncomputable def loaded (E11 E22 E12 T13 T23 T33 : ℝ) (t : ℝ × ℝ × ℝ) : Layer :=
  ⟨t.1, t.2.1, t.2.2,
    !![E11, E12, T13 / (2 * t.2.2);
       E12, E22, T23 / (2 * t.2.2);
       T13 / (2 * t.2.2), T23 / (2 * t.2.2), (T33 - t.2.1 * (E11 + E22)) / (t.2.1 + 2 * t.2.2)]⟩

/-- Every state of equilibrium is of that form. -/
theorem equilibrium_loaded {st : List Layer} (hne : st ≠ []) (hq : InEquilibrium st)
    (hG : ∀ L ∈ st, 0 < L.mu) (hM : ∀ L ∈ st, 0 < L.lam + 2 * L.mu) :
    ∃ E11 E22 E12 T13 T23 T33 : ℝ,
      st = (st.map fun L => (L.thickness, L.lam, L.mu)).map (loaded E11 E22 E12 T13 T23 T33) := by
  obtain ⟨L0, hL0⟩ := List.exists_mem_of_ne_nil _ hne
  obtain ⟨hsym, heq⟩ := hq
  refine ⟨L0.strain 0 0, L0.strain 1 1, L0.strain 0 1, L0.stress 0 2, L0.stress 1 2,
    L0.stress 2 2, ?_⟩
  rw [List.map_map]
  symm
  conv_rhs => rw [← List.map_id st]
  apply List.map_congr_left
  intro L hL
  obtain ⟨hs, ht⟩ := heq L hL L0 hL0
  have g := hG L hL
  have m := hM L hL
  have sy : ∀ i j, L.strain i j = L.strain j i := fun i j => (hsym L hL).apply j i
  have a00 := hs 0 0 (by decide) (by decide)
  have a11 := hs 1 1 (by decide) (by decide)
  have a01 := hs 0 1 (by decide) (by decide)
  have t0 := ht 0
  have t1 := ht 1
  have t2 := ht 2
  rw [Layer.stress_apply L] at t0 t1 t2
  rw [if_neg (by decide)] at t0 t1
  rw [if_pos rfl] at t2
  have e02 : L.strain 0 2 = L0.stress 0 2 / (2 * L.mu) := by rw [← t0]; field
  have e12 : L.strain 1 2 = L0.stress 1 2 / (2 * L.mu) := by rw [← t1]; field
  have e22 : L.strain 2 2 = (L0.stress 2 2 - L.lam * (L0.strain 0 0 + L0.strain 1 1))
      / (L.lam + 2 * L.mu) := by
    rw [← t2, ← a00, ← a11, eq_div_iff m.ne']; ring
  cases L with
  | mk v l g e =>
    simp only [Function.comp, loaded, id, Layer.mk.injEq, true_and]
    dsimp only at *
    ext i j
    fin_cases i <;> fin_cases j <;> simp [← a00, ← a11, ← a01]
    all_goals first
      | (exact e02.symm) | exact e12.symm | (rw [a00, a11]; exact e22.symm)
      | (rw [sy 1 0])
      | (rw [sy 2 0]; exact e02.symm) | (rw [sy 2 1]; exact e12.symm)

theorem loaded_equilibrium {ls : List (ℝ × ℝ × ℝ)} (E11 E22 E12 T13 T23 T33 : ℝ)
    (hG : ∀ t ∈ ls, 0 < t.2.2) (hM : ∀ t ∈ ls, 0 < t.2.1 + 2 * t.2.2) :
    InEquilibrium (ls.map (loaded E11 E22 E12 T13 T23 T33)) := by
  have st : ∀ t ∈ ls, ∀ i : Fin 3, (loaded E11 E22 E12 T13 T23 T33 t).stress i 2
      = ![T13, T23, T33] i := by
    intro t ht i
    have g := hG t ht
    have m := hM t ht
    rw [Layer.stress_apply]
    fin_cases i <;> simp [loaded] <;> field
  constructor
  · intro L hL
    obtain ⟨t, ht, rfl⟩ := List.mem_map.mp hL
    ext i j; fin_cases i <;> fin_cases j <;> rfl
  · intro L hL L' hL'
    obtain ⟨t, ht, rfl⟩ := List.mem_map.mp hL
    obtain ⟨t', ht', rfl⟩ := List.mem_map.mp hL'
    refine ⟨?_, fun i => by rw [st t ht, st t' ht']⟩
    intro i j hi hj
    fin_cases i <;> fin_cases j <;> first | rfl | exact absurd rfl hi | exact absurd rfl hj

theorem stackAvg_loaded (ls : List (ℝ × ℝ × ℝ)) (E11 E22 E12 T13 T23 T33 : ℝ)
    (f : ℝ → ℝ → ℝ) :
    stackAvg (ls.map (loaded E11 E22 E12 T13 T23 T33)) (fun L => f L.lam L.mu)
      = rwsum (ls.map (·.1)).sum f ls := by
  rw [stackAvg_rwsum]
  simp only [List.map_map, Function.comp_def, loaded, List.map_id']

/-- The averages over a loaded stack of a quantity of the form `a f + b g + c k`. -/
theorem stackAvg_lin {ls : List (ℝ × ℝ × ℝ)} {E11 E22 E12 T13 T23 T33 : ℝ} (q : Layer → ℝ)
    (a b c : ℝ) (f g k : ℝ → ℝ → ℝ)
    (h : ∀ t ∈ ls, q (loaded E11 E22 E12 T13 T23 T33 t)
      = a * f t.2.1 t.2.2 + b * g t.2.1 t.2.2 + c * k t.2.1 t.2.2) :
    stackAvg (ls.map (loaded E11 E22 E12 T13 T23 T33)) q
      = a * rwsum (ls.map (·.1)).sum f ls + b * rwsum (ls.map (·.1)).sum g ls
        + c * rwsum (ls.map (·.1)).sum k ls := by
  rw [← stackAvg_loaded ls E11 E22 E12 T13 T23 T33 f, ← stackAvg_loaded ls E11 E22 E12 T13 T23 T33 g,
    ← stackAvg_loaded ls E11 E22 E12 T13 T23 T33 k,
    ← stackAvg_smul, ← stackAvg_smul, ← stackAvg_smul, ← stackAvg_add, ← stackAvg_add]
  apply stackAvg_congr
  intro L hL
  obtain ⟨t, ht, rfl⟩ := List.mem_map.mp hL
  exact h t ht

/-- The Backus average of stable layers is the effective stiffness of the stack: in every state
of equilibrium it gives the average stress from the average strain. -/
theorem C85_Backus_is_stack_response (V lamda G : List ℝ) (h : GoodStack V lamda G) :
    ∃ C11 C33 C13 C44 C66 : ℝ,
      Backus (V.map fin) (lamda.map fin) (G.map fin)
        = .ok (fin C11, fin C33, fin C13, fin C44, fin C66) ∧
      IsEffectiveStiffness V lamda G (vtiMatrix C11 C33 C13 C44 C66) := by
  have hS := h.total
  obtain ⟨ls, rfl, rfl, rfl, hv, hG, hK⟩ := h.layers
  have hM : ∀ t ∈ ls, 0 < t.2.1 + 2 * t.2.2 := fun t ht => by
    have := hG t ht; have := hK t ht; linarith
  rw [Backus_eval hS hv hM hG]
  have p1 := rwsum_pos (f := fun l g => 1 / (l + 2 * g)) hS rfl hv fun t ht => by
    have := hM t ht; positivity
  have p2 := rwsum_pos (f := fun _ g => 1 / g) hS rfl hv fun t ht => by
    have := hG t ht; positivity
  have w1 : ∀ c, rwsum (ls.map (·.1)).sum (fun _ _ => c) ls = c := rwsum_const hS.ne' rfl
  have avgs : ∀ E11 E22 E12 T13 T23 T33 : ℝ,
      let st := ls.map (loaded E11 E22 E12 T13 T23 T33)
      let A := rwsum (ls.map (·.1)).sum (fun l g => 1 / (l + 2 * g)) ls
      let B := rwsum (ls.map (·.1)).sum (fun l g => l / (l + 2 * g)) ls
      let D := rwsum (ls.map (·.1)).sum (fun _ g => 1 / g) ls
      let F := rwsum (ls.map (·.1)).sum (fun l g => 4 * g * (l + g) / (l + 2 * g)) ls
      let H := rwsum (ls.map (·.1)).sum (fun _ g => g) ls
      avgStrain st = !![E11, E12, T13 / 2 * D; E12, E22, T23 / 2 * D;
          T13 / 2 * D, T23 / 2 * D, T33 * A - (E11 + E22) * B] ∧
        voigtStress (avgStress st) = ![F * (E11 + E22) - 2 * H * E22 + B * T33,
          F * (E11 + E22) - 2 * H * E11 + B * T33, T33, T23, T13, 2 * H * E12] := by
    intro E11 E22 E12 T13 T23 T33 st A B D F H
    have hD : ∀ T : ℝ, ∀ q : Layer → ℝ,
        (∀ t ∈ ls, q (loaded E11 E22 E12 T13 T23 T33 t) = T / (2 * t.2.2)) →
        stackAvg st q = T / 2 * D := by
      intro T q hq
      rw [stackAvg_lin q (T / 2) 0 0 (fun _ g => 1 / g) (fun _ _ => 1) (fun _ _ => 1) fun t ht => by
        have := hG t ht
        rw [hq t ht]; field]
      ring
    have hc : ∀ E : ℝ, ∀ q : Layer → ℝ,
        (∀ t ∈ ls, q (loaded E11 E22 E12 T13 T23 T33 t) = E) → stackAvg st q = E := by
      intro E q hq
      rw [stackAvg_lin q E 0 0 (fun _ _ => 1) (fun _ _ => 1) (fun _ _ => 1) fun t ht => by
        rw [hq t ht]; ring, w1]
      ring
    have c33 : stackAvg st (fun L => L.strain 2 2) = T33 * A - (E11 + E22) * B := by
      rw [stackAvg_lin _ T33 (-(E11 + E22)) 0 (fun l g => 1 / (l + 2 * g))
        (fun l g => l / (l + 2 * g)) (fun _ _ => 1) fun t ht => by
          have := hM t ht
          simp [loaded]
          field]
      ring
    have s3 : ∀ t ∈ ls, ∀ i : Fin 3, (loaded E11 E22 E12 T13 T23 T33 t).stress i 2
        = ![T13, T23, T33] i := by
      intro t ht i
      have g := hG t ht
      have m := hM t ht
      rw [Layer.stress_apply]
      fin_cases i <;> simp [loaded] <;> field
    constructor
    · ext i j
      change stackAvg st (fun L => L.strain i j) = _
      fin_cases i <;> fin_cases j
      · exact hc E11 _ fun t _ => rfl
      · exact hc E12 _ fun t _ => rfl
      · exact hD T13 _ fun t _ => rfl
      · exact hc E12 _ fun t _ => rfl
      · exact hc E22 _ fun t _ => rfl
      · exact hD T23 _ fun t _ => rfl
      · exact hD T13 _ fun t _ => rfl
      · exact hD T23 _ fun t _ => rfl
      · exact c33
    · ext i
      fin_cases i
      · change stackAvg st (fun L => L.stress 0 0) = F * (E11 + E22) - 2 * H * E22 + B * T33
        rw [stackAvg_lin _ (E11 + E22) (-2 * E22) T33
          (fun l g => 4 * g * (l + g) / (l + 2 * g)) (fun _ g => g) (fun l g => l / (l + 2 * g))
          fun t ht => by
            have := hM t ht
            rw [Layer.stress_apply]
            simp [loaded]
            field]
        ring
      · change stackAvg st (fun L => L.stress 1 1) = F * (E11 + E22) - 2 * H * E11 + B * T33
        rw [stackAvg_lin _ (E11 + E22) (-2 * E11) T33
          (fun l g => 4 * g * (l + g) / (l + 2 * g)) (fun _ g => g) (fun l g => l / (l + 2 * g))
          fun t ht => by
            have := hM t ht
            rw [Layer.stress_apply]
            simp [loaded]
            field]
        ring
      · exact hc T33 _ fun t ht => s3 t ht 2
      · exact hc T23 _ fun t ht => s3 t ht 1
      · exact hc T13 _ fun t ht => s3 t ht 0
      · change stackAvg st (fun L => L.stress 0 1) = 2 * H * E12
        rw [stackAvg_lin _ (2 * E12) 0 0 (fun _ g => g) (fun _ _ => 1) (fun _ _ => 1)
          fun t ht => by
            rw [Layer.stress_apply]
            simp [loaded]
            ring]
        ring
  refine ⟨_, _, _, _, _, rfl, ?_, ?_⟩
  · rintro st ⟨m1, m2, m3⟩ hq
    have hls : st.map (fun L => (L.thickness, L.lam, L.mu)) = ls :=
      triples_ext (by rw [← m1]; simp) (by rw [← m2]; simp) (by rw [← m3]; simp)
    have hne : st ≠ [] := by
      rintro rfl
      rw [← hls] at hS
      simp at hS
    have hmem : ∀ L ∈ st, (L.thickness, L.lam, L.mu) ∈ ls := fun L hL => by
      rw [← hls]; exact List.mem_map.mpr ⟨L, hL, rfl⟩
    obtain ⟨E11, E22, E12, T13, T23, T33, hst⟩ := equilibrium_loaded hne hq
      (fun L hL => hG _ (hmem L hL)) fun L hL => hM _ (hmem L hL)
    rw [hls] at hst
    obtain ⟨a1, a2⟩ := avgs E11 E22 E12 T13 T23 T33
    rw [hst, a1, a2]
    simp only [rBackus]
    generalize rwsum (ls.map (·.1)).sum (fun l g => 1 / (l + 2 * g)) ls = A at *
    generalize rwsum (ls.map (·.1)).sum (fun _ g => 1 / g) ls = D at *
    have hA := p1.ne'
    have hD := p2.ne'
    ext i
    fin_cases i <;> simp [voigt, vtiMatrix, orthoMatrix, Matrix.mulVec, dotProduct,
      Fin.sum_univ_six] <;> field
  · intro E hE
    have sy : ∀ i j, E i j = E j i := fun i j => hE.apply j i
    obtain ⟨a1, -⟩ := avgs (E 0 0) (E 1 1) (E 0 1)
      (2 * E 0 2 / rwsum (ls.map (·.1)).sum (fun _ g => 1 / g) ls)
      (2 * E 1 2 / rwsum (ls.map (·.1)).sum (fun _ g => 1 / g) ls)
      ((E 2 2 + (E 0 0 + E 1 1) * rwsum (ls.map (·.1)).sum (fun l g => l / (l + 2 * g)) ls)
        / rwsum (ls.map (·.1)).sum (fun l g => 1 / (l + 2 * g)) ls)
    refine ⟨_, ?_, loaded_equilibrium (ls := ls) _ _ _ _ _ _ hG hM, a1.trans ?_⟩
    · simp only [MadeOf, List.map_map, Function.comp_def, loaded, and_self]
    · have hA := p1.ne'
      have hD := p2.ne'
      generalize rwsum (ls.map (·.1)).sum (fun l g => 1 / (l + 2 * g)) ls = A at hA ⊢
      generalize rwsum (ls.map (·.1)).sum (fun _ g => 1 / g) ls = D at hD ⊢
      generalize rwsum (ls.map (·.1)).sum (fun l g => l / (l + 2 * g)) ls = B
      ext i j
      fin_cases i <;> fin_cases j <;> simp
      · field
      · rw [sy 1 0]
      · field
      · rw [sy 2 0]; field
      · rw [sy 2 1]; field
      · field

/-- Non-vacuity: a loaded two-layer stack. -/
example : ∃ C, IsEffectiveStiffness [1, 2, 0.5] [10, 5, -1] [8, 3, 6] C := by
  obtain ⟨_, _, _, _, _, -, h⟩ := C85_Backus_is_stack_response _ _ _ goodStack_example
  exact ⟨_, h⟩

end RockPhy.Props
