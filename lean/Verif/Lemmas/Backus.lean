import Verif.Model.Anisotropy
import Verif.Lemmas.FlAlg

/-! Closed forms of the Backus average on lists of layers. -/

namespace RockPhy

open Fl

theorem Fl.add_div' (x y z : Fl) : (x + y) / z = x / z + y / z := by
  cases x <;> cases y <;> cases z <;> simp only [fl]
  rename_i a b c
  by_cases h : c = 0
  · subst h; simp only [fl_div_zero, fl]
  · simp only [fl_div h, fl, add_div]

theorem dot_map {β : Type} (ls : List β) (f g : β → Fl) :
    dot (ls.map f) (ls.map g) = .ok (lsum (ls.map fun t => f t * g t)) := by
  unfold dot
  rw [if_pos (by simp)]
  congr 2
  induction ls with
  | nil => rfl
  | cons p ps ih => simp only [List.map_cons, List.zipWith_cons_cons, ih]

theorem bzip_map {β α₁ α₂ γ : Type} (ls : List β) (f : β → α₁) (g : β → α₂) (h : α₁ → α₂ → γ) :
    bzip h (ls.map f) (ls.map g) = .ok (ls.map fun t => h (f t) (g t)) := by
  rw [bzip_eq _ (by simp)]
  congr 1
  induction ls with
  | nil => rfl
  | cons p ps ih => simp only [List.map_cons, List.zipWith_cons_cons, ih]

theorem exists_pairs {α β : Type} (a : List α) (b : List β) (h : a.length = b.length) :
    ∃ ps : List (α × β), a = ps.map Prod.fst ∧ b = ps.map Prod.snd :=
  ⟨a.zip b, (List.map_fst_zip h.le).symm, (List.map_snd_zip h.ge).symm⟩

theorem exists_triples {α β γ : Type} (a : List α) (b : List β) (c : List γ)
    (h : a.length = b.length) (h' : b.length = c.length) :
    ∃ ps : List (α × β × γ), a = ps.map (·.1) ∧ b = ps.map (·.2.1) ∧ c = ps.map (·.2.2) := by
  obtain ⟨qs, rfl, rfl⟩ := exists_pairs b c h'
  obtain ⟨ps, rfl, rfl⟩ := exists_pairs a qs (by simpa using h)
  exact ⟨ps, rfl, by simp [List.map_map], by simp [List.map_map]⟩

end RockPhy

namespace RockPhy.Anisotropy

open Fl

/-- Thickness-weighted sum over layers `(V, lamda, G)`. -/
noncomputable def wsum (S : Fl) (f : Fl → Fl → Fl) (ls : List (Fl × Fl × Fl)) : Fl :=
  lsum (ls.map fun t => t.1 / S * f t.2.1 t.2.2)

/-- The Backus average as a function of weighted sums. -/
noncomputable def backusOf (W : (Fl → Fl → Fl) → Fl) : Fl × Fl × Fl × Fl × Fl :=
  (W (fun l g => 4 * g * (l + g) / (l + 2 * g))
      + inv (W fun l g => 1 / (l + 2 * g)) * (W fun l g => l / (l + 2 * g)) ** 2,
    inv (W fun l g => 1 / (l + 2 * g)),
    inv (W fun l g => 1 / (l + 2 * g)) * (W fun l g => l / (l + 2 * g)),
    inv (W fun _ g => 1 / g), W fun _ g => g)

theorem Backus_triples (ls : List (Fl × Fl × Fl)) :
    Backus (ls.map (·.1)) (ls.map (·.2.1)) (ls.map (·.2.2))
      = .ok (backusOf fun f => wsum (lsum (ls.map (·.1))) f ls) := by
  unfold Backus
  simp only [bzip_map, List.map_map, Function.comp_def, dot_map, except_ok_bind]
  rfl

theorem wsum_perm {S : Fl} {f : Fl → Fl → Fl} {l l' : List (Fl × Fl × Fl)} (h : l.Perm l') :
    wsum S f l = wsum S f l' := lsum_perm (h.map _)

theorem wsum_split (S : Fl) (f : Fl → Fl → Fl) (v v' l g : Fl) (ls : List (Fl × Fl × Fl)) :
    wsum S f ((v + v', l, g) :: ls) = wsum S f ((v, l, g) :: (v', l, g) :: ls) := by
  simp only [wsum, List.map_cons, lsum_cons, Fl.add_div', Fl.add_mul', Fl.add_assoc']

/-- Real weighted sum. -/
noncomputable def rwsum (S : ℝ) (f : ℝ → ℝ → ℝ) (ls : List (ℝ × ℝ × ℝ)) : ℝ :=
  (ls.map fun t => t.1 / S * f t.2.1 t.2.2).sum

/-- Layers of reals as layers of model numbers. -/
def finLayers (ls : List (ℝ × ℝ × ℝ)) : List (Fl × Fl × Fl) :=
  ls.map fun t => (fin t.1, fin t.2.1, fin t.2.2)

theorem wsum_fin {S : ℝ} (hS : S ≠ 0) (f : Fl → Fl → Fl) (f' : ℝ → ℝ → ℝ)
    (ls : List (ℝ × ℝ × ℝ)) (h : ∀ t ∈ ls, f (fin t.2.1) (fin t.2.2) = fin (f' t.2.1 t.2.2)) :
    wsum (fin S) f (finLayers ls) = fin (rwsum S f' ls) := by
  unfold wsum finLayers rwsum
  rw [← lsum_map_fin]
  congr 1
  simp only [List.map_map]
  apply List.map_congr_left
  intro t ht
  simp only [Function.comp, h t ht, fl_div hS, fl_mul]

/-- The real Backus constants `(C11, C33, C13, C44, C66)`. -/
noncomputable def rBackus (S : ℝ) (ls : List (ℝ × ℝ × ℝ)) : ℝ × ℝ × ℝ × ℝ × ℝ :=
  let M1 := rwsum S (fun l g => 1 / (l + 2 * g)) ls
  let ML := rwsum S (fun l g => l / (l + 2 * g)) ls
  (rwsum S (fun l g => 4 * g * (l + g) / (l + 2 * g)) ls + M1⁻¹ * ML ^ 2, M1⁻¹, M1⁻¹ * ML,
    (rwsum S (fun _ g => 1 / g) ls)⁻¹, rwsum S (fun _ g => g) ls)

theorem rwsum_pos {S : ℝ} (hS : 0 < S) {f : ℝ → ℝ → ℝ} {ls : List (ℝ × ℝ × ℝ)}
    (hsum : S = (ls.map (·.1)).sum) (hv : ∀ t ∈ ls, 0 ≤ t.1)
    (hf : ∀ t ∈ ls, 0 < f t.2.1 t.2.2) : 0 < rwsum S f ls := by
  have hnn : ∀ x ∈ ls.map (fun t => t.1 / S * f t.2.1 t.2.2), 0 ≤ x := by
    intro x hx
    obtain ⟨t, ht, rfl⟩ := List.mem_map.mp hx
    have := hv t ht
    have := hf t ht
    positivity
  refine lt_of_le_of_ne (List.sum_nonneg hnn) fun h0 => ?_
  have hz : ∀ t ∈ ls, t.1 = 0 := by
    intro t ht
    have h := List.all_zero_of_le_zero_le_of_sum_eq_zero hnn h0.symm (x := _)
      (List.mem_map.mpr ⟨t, ht, rfl⟩)
    have hf' := (hf t ht).ne'
    have : t.1 / S = 0 := (mul_eq_zero.mp h).resolve_right hf'
    exact (div_eq_zero_iff.mp this).resolve_right hS.ne'
  have : (ls.map (·.1)).sum = 0 := List.sum_eq_zero (by
    intro x hx
    obtain ⟨t, ht, rfl⟩ := List.mem_map.mp hx
    exact hz t ht)
  exact hS.ne' (hsum.trans this)

theorem Backus_eval {ls : List (ℝ × ℝ × ℝ)} (hS : 0 < (ls.map (·.1)).sum)
    (hv : ∀ t ∈ ls, 0 ≤ t.1) (hM : ∀ t ∈ ls, 0 < t.2.1 + 2 * t.2.2) (hG : ∀ t ∈ ls, 0 < t.2.2) :
    Backus ((ls.map (·.1)).map fin) ((ls.map (·.2.1)).map fin) ((ls.map (·.2.2)).map fin)
      = .ok (let c := rBackus (ls.map (·.1)).sum ls
        (fin c.1, fin c.2.1, fin c.2.2.1, fin c.2.2.2.1, fin c.2.2.2.2)) := by
  have hb := Backus_triples (finLayers ls)
  have e1 : (finLayers ls).map (·.1) = (ls.map (·.1)).map fin := by simp [finLayers]
  have e2 : (finLayers ls).map (·.2.1) = (ls.map (·.2.1)).map fin := by simp [finLayers]
  have e3 : (finLayers ls).map (·.2.2) = (ls.map (·.2.2)).map fin := by simp [finLayers]
  rw [e1, e2, e3, lsum_map_fin] at hb
  rw [hb]
  set S := (ls.map (·.1)).sum with hSdef
  have hS' : S ≠ 0 := hS.ne'
  have w1 : wsum (fin S) (fun l g => 1 / (l + 2 * g)) (finLayers ls)
      = fin (rwsum S (fun l g => 1 / (l + 2 * g)) ls) := wsum_fin hS' _ _ _ fun t ht => by
    have := (hM t ht).ne'
    fl_eval []
  have w2 : wsum (fin S) (fun l g => l / (l + 2 * g)) (finLayers ls)
      = fin (rwsum S (fun l g => l / (l + 2 * g)) ls) := wsum_fin hS' _ _ _ fun t ht => by
    have := (hM t ht).ne'
    fl_eval []
  have w3 : wsum (fin S) (fun l g => 4 * g * (l + g) / (l + 2 * g)) (finLayers ls)
      = fin (rwsum S (fun l g => 4 * g * (l + g) / (l + 2 * g)) ls) :=
    wsum_fin hS' _ _ _ fun t ht => by
      have := (hM t ht).ne'
      fl_eval []
  have w4 : wsum (fin S) (fun _ g => 1 / g) (finLayers ls)
      = fin (rwsum S (fun _ g => 1 / g) ls) := wsum_fin hS' _ _ _ fun t ht => by
    have := (hG t ht).ne'
    fl_eval []
  have w5 : wsum (fin S) (fun _ g => g) (finLayers ls)
      = fin (rwsum S (fun _ g => g) ls) := wsum_fin hS' _ _ _ fun t ht => rfl
  have p1 : rwsum S (fun l g => 1 / (l + 2 * g)) ls ≠ 0 :=
    (rwsum_pos hS hSdef hv fun t ht => by have := hM t ht; positivity).ne'
  have p4 : rwsum S (fun _ g => 1 / g) ls ≠ 0 :=
    (rwsum_pos hS hSdef hv fun t ht => by have := hG t ht; positivity).ne'
  simp only [backusOf, w1, w2, w3, w4, w5, fl_inv p1, fl_inv p4]
  simp only [fl, rBackus]

end RockPhy.Anisotropy
