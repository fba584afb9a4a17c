import Verif.Lemmas.Backus
import Verif.Lemmas.Utils

/-! # Properties C36, C37 (`Anisotropy.Backus`, `Anisotropy.Backus_log`) -/

namespace RockPhy.Anisotropy

open Fl

theorem rdot_map {β : Type} (ls : List β) (f g : β → ℝ) :
    rdot (ls.map f) (ls.map g) = (ls.map fun t => f t * g t).sum := by
  induction ls with
  | nil => simp
  | cons p ps ih => simp only [List.map_cons, rdot_cons, ih, List.sum_cons]

theorem rwsum_one {S : ℝ} (hS : S ≠ 0) {ls : List (ℝ × ℝ × ℝ)} (h : S = (ls.map (·.1)).sum) :
    rwsum S (fun _ _ => 1) ls = 1 := by
  unfold rwsum
  have : (ls.map fun t => t.1 / S * 1) = ls.map fun t => t.1 / S := by simp
  rw [this]
  have h2 : (ls.map fun t => t.1 / S).sum = (ls.map (·.1)).sum / S := by
    clear h this
    induction ls with
    | nil => simp
    | cons p ps ih => simp only [List.map_cons, List.sum_cons, ih, add_div]
  rw [h2, ← h, div_self hS]

theorem rwsum_congr {S : ℝ} {f g : ℝ → ℝ → ℝ} {ls : List (ℝ × ℝ × ℝ)}
    (h : ∀ t ∈ ls, f t.2.1 t.2.2 = g t.2.1 t.2.2) : rwsum S f ls = rwsum S g ls := by
  unfold rwsum
  congr 1
  apply List.map_congr_left
  intro t ht
  rw [h t ht]

theorem rwsum_smul (S c : ℝ) (f : ℝ → ℝ → ℝ) (ls : List (ℝ × ℝ × ℝ)) :
    rwsum S (fun l g => c * f l g) ls = c * rwsum S f ls := by
  unfold rwsum
  induction ls with
  | nil => simp
  | cons p ps ih => simp only [List.map_cons, List.sum_cons, ih]; ring

theorem rwsum_add (S : ℝ) (f g : ℝ → ℝ → ℝ) (ls : List (ℝ × ℝ × ℝ)) :
    rwsum S (fun a b => f a b + g a b) ls = rwsum S f ls + rwsum S g ls := by
  unfold rwsum
  induction ls with
  | nil => simp
  | cons p ps ih => simp only [List.map_cons, List.sum_cons, ih]; ring

theorem rwsum_le {S : ℝ} (hS : 0 < S) {f g : ℝ → ℝ → ℝ} {ls : List (ℝ × ℝ × ℝ)}
    (hv : ∀ t ∈ ls, 0 ≤ t.1) (h : ∀ t ∈ ls, f t.2.1 t.2.2 ≤ g t.2.1 t.2.2) :
    rwsum S f ls ≤ rwsum S g ls := by
  unfold rwsum
  apply List.sum_le_sum
  intro t ht
  have := hv t ht
  apply mul_le_mul_of_nonneg_left (h t ht); positivity

theorem rwsum_const {S : ℝ} (hS : S ≠ 0) {ls : List (ℝ × ℝ × ℝ)} (h : S = (ls.map (·.1)).sum)
    (c : ℝ) : rwsum S (fun _ _ => c) ls = c := by
  have := rwsum_smul S c (fun _ _ => 1) ls
  simp only [mul_one] at this
  rw [this, rwsum_one hS h, mul_one]

theorem one_le_rwsum_mul {S : ℝ} (hS : 0 < S) {ls : List (ℝ × ℝ × ℝ)}
    (h : S = (ls.map (·.1)).sum) (hv : ∀ t ∈ ls, 0 ≤ t.1) (hG : ∀ t ∈ ls, 0 < t.2.2) :
    1 ≤ rwsum S (fun _ g => g) ls * rwsum S (fun _ g => 1 / g) ls := by
  have := sq_sum_le_rdot_mul_rdot_inv (v := ls.map fun t => t.1 / S) (M := ls.map (·.2.2))
    (by simp)
    (by
      intro a ha
      obtain ⟨t, ht, rfl⟩ := List.mem_map.mp ha
      have := hv t ht
      positivity)
    (by
      intro a ha
      obtain ⟨t, ht, rfl⟩ := List.mem_map.mp ha
      exact hG t ht)
  rw [List.map_map, rdot_map, rdot_map] at this
  have h1 := rwsum_one hS.ne' h
  unfold rwsum at h1 ⊢
  simp only [mul_one] at h1
  rw [h1] at this
  simpa using this

end RockPhy.Anisotropy

namespace RockPhy.Props

open Fl Spec Matrix Anisotropy

/-! ## C36: Backus average -/

/-- A stack of layers with non-negative thicknesses (not all zero) and stable isotropic
moduli. -/
structure GoodStack (V lamda G : List ℝ) : Prop where
  len1 : V.length = lamda.length
  len2 : lamda.length = G.length
  nonneg : ∀ v ∈ V, 0 ≤ v
  total : 0 < V.sum
  shear : ∀ g ∈ G, 0 < g
  bulk : ∀ lg ∈ List.zip lamda G, 0 < lg.1 + 2 / 3 * lg.2

theorem GoodStack.layers {V lamda G : List ℝ} (h : GoodStack V lamda G) :
    ∃ ls : List (ℝ × ℝ × ℝ), V = ls.map (·.1) ∧ lamda = ls.map (·.2.1) ∧ G = ls.map (·.2.2) ∧
      (∀ t ∈ ls, 0 ≤ t.1) ∧ (∀ t ∈ ls, 0 < t.2.2) ∧ (∀ t ∈ ls, 0 < t.2.1 + 2 / 3 * t.2.2) := by
  obtain ⟨ls, rfl, rfl, rfl⟩ := exists_triples V lamda G h.len1 h.len2
  refine ⟨ls, rfl, rfl, rfl, fun t ht => h.nonneg _ (List.mem_map.mpr ⟨t, ht, rfl⟩),
    fun t ht => h.shear _ (List.mem_map.mpr ⟨t, ht, rfl⟩), fun t ht => ?_⟩
  apply h.bulk (t.2.1, t.2.2)
  rw [List.zip_map']
  exact List.mem_map.mpr ⟨t, ht, rfl⟩

/-- For every stack of stable isotropic layers the Backus average is defined, `C66 >= C44`,
and the averaged medium is a stable VTI medium. -/
theorem C36_Backus_stable (V lamda G : List ℝ) (h : GoodStack V lamda G) :
    ∃ C11 C33 C13 C44 C66 : ℝ,
      Backus (V.map fin) (lamda.map fin) (G.map fin)
        = .ok (fin C11, fin C33, fin C13, fin C44, fin C66) ∧
      C44 ≤ C66 ∧ IsStable (vtiMatrix C11 C33 C13 C44 C66) := by
  have hS := h.total
  obtain ⟨ls, rfl, rfl, rfl, hv, hG, hK⟩ := h.layers
  have hM : ∀ t ∈ ls, 0 < t.2.1 + 2 * t.2.2 := fun t ht => by
    have := hG t ht; have := hK t ht; linarith
  rw [Backus_eval hS hv hM hG]
  refine ⟨_, _, _, _, _, rfl, ?_, ?_⟩
  · simp only [rBackus]
    have p := rwsum_pos (f := fun _ g => 1 / g) hS rfl hv fun t ht => by
      have := hG t ht; positivity
    have := one_le_rwsum_mul hS rfl hv hG
    rw [inv_eq_one_div, div_le_iff₀ p]
    exact this
  · rw [isStable_vtiMatrix_iff]
    simp only [rBackus]
    have p1 := rwsum_pos (f := fun l g => 1 / (l + 2 * g)) hS rfl hv fun t ht => by
      have := hM t ht; positivity
    have p4 := rwsum_pos (f := fun _ g => 1 / g) hS rfl hv fun t ht => by
      have := hG t ht; positivity
    have p5 := rwsum_pos (f := fun _ g => g) hS rfl hv fun t ht => hG t ht
    refine ⟨inv_pos.mpr p4, p5, inv_pos.mpr p1, ?_⟩
    have key : 0 < rwsum (ls.map (·.1)).sum (fun l g => 4 * g * (l + g) / (l + 2 * g)) ls
        - rwsum (ls.map (·.1)).sum (fun _ g => g) ls := by
      have e : rwsum (ls.map (·.1)).sum (fun l g => 4 * g * (l + g) / (l + 2 * g)) ls
          = rwsum (ls.map (·.1)).sum (fun l g => g * (3 * l + 2 * g) / (l + 2 * g) + g) ls := by
        apply rwsum_congr
        intro t ht
        have hm := hM t ht
        generalize hx : t.2.1 + 2 * t.2.2 = m at hm
        have hl : t.2.1 = m - 2 * t.2.2 := by linarith
        rw [hl]
        field
      rw [e, rwsum_add, add_sub_cancel_right]
      apply rwsum_pos hS rfl hv
      intro t ht
      have h1 := hG t ht
      have h2 := hM t ht
      have h3 := hK t ht
      have : 0 < 3 * t.2.1 + 2 * t.2.2 := by linarith
      positivity
    have := mul_pos (inv_pos.mpr p1) key
    nlinarith

/-- Non-vacuity: a three-layer stack with one layer of negative Lamé parameter. -/
theorem goodStack_example : GoodStack [1, 2, 0.5] [10, 5, -1] [8, 3, 6] := by
  constructor <;> norm_num

/-- Averages lie between the extreme layer values: `C33` for `lamda + 2 G`, `C44` and `C66`
for `G`. -/
theorem C36_Backus_bounds (V lamda G : List ℝ) (h : GoodStack V lamda G)
    (mlo mhi glo ghi : ℝ) (hm0 : 0 < mlo) (hg0 : 0 < glo)
    (hm : ∀ lg ∈ List.zip lamda G, mlo ≤ lg.1 + 2 * lg.2 ∧ lg.1 + 2 * lg.2 ≤ mhi)
    (hg : ∀ g ∈ G, glo ≤ g ∧ g ≤ ghi) :
    ∃ C11 C33 C13 C44 C66 : ℝ,
      Backus (V.map fin) (lamda.map fin) (G.map fin)
        = .ok (fin C11, fin C33, fin C13, fin C44, fin C66) ∧
      mlo ≤ C33 ∧ C33 ≤ mhi ∧ glo ≤ C44 ∧ C44 ≤ ghi ∧ glo ≤ C66 ∧ C66 ≤ ghi := by
  have hS := h.total
  obtain ⟨ls, rfl, rfl, rfl, hv, hG, hK⟩ := h.layers
  have hM : ∀ t ∈ ls, 0 < t.2.1 + 2 * t.2.2 := fun t ht => by
    have := hG t ht; have := hK t ht; linarith
  have hm' : ∀ t ∈ ls, mlo ≤ t.2.1 + 2 * t.2.2 ∧ t.2.1 + 2 * t.2.2 ≤ mhi := by
    intro t ht
    apply hm (t.2.1, t.2.2)
    rw [List.zip_map']
    exact List.mem_map.mpr ⟨t, ht, rfl⟩
  have hg' : ∀ t ∈ ls, glo ≤ t.2.2 ∧ t.2.2 ≤ ghi := fun t ht =>
    hg _ (List.mem_map.mpr ⟨t, ht, rfl⟩)
  have hne : ∃ t, t ∈ ls := by
    by_contra hcon
    have : ls = [] := List.eq_nil_iff_forall_not_mem.mpr fun t ht => hcon ⟨t, ht⟩
    subst this
    simp at hS
  obtain ⟨t0, ht0⟩ := hne
  have hmhi : 0 < mhi := lt_of_lt_of_le hm0 ((hm' t0 ht0).1.trans (hm' t0 ht0).2)
  have hghi : 0 < ghi := lt_of_lt_of_le hg0 ((hg' t0 ht0).1.trans (hg' t0 ht0).2)
  rw [Backus_eval hS hv hM hG]
  refine ⟨_, _, _, _, _, rfl, ?_⟩
  simp only [rBackus]
  have p1 := rwsum_pos (f := fun l g => 1 / (l + 2 * g)) hS rfl hv fun t ht => by
    have := hM t ht; positivity
  have p4 := rwsum_pos (f := fun _ g => 1 / g) hS rfl hv fun t ht => by
    have := hG t ht; positivity
  have c := rwsum_const hS.ne' (ls := ls) rfl
  have b1 : rwsum (ls.map (·.1)).sum (fun l g => 1 / (l + 2 * g)) ls ≤ 1 / mlo := by
    rw [← c (1 / mlo)]
    exact rwsum_le hS hv fun t ht => one_div_le_one_div_of_le hm0 (hm' t ht).1
  have b2 : 1 / mhi ≤ rwsum (ls.map (·.1)).sum (fun l g => 1 / (l + 2 * g)) ls := by
    rw [← c (1 / mhi)]
    exact rwsum_le hS hv fun t ht => one_div_le_one_div_of_le (hM t ht) (hm' t ht).2
  have b3 : rwsum (ls.map (·.1)).sum (fun _ g => 1 / g) ls ≤ 1 / glo := by
    rw [← c (1 / glo)]
    exact rwsum_le hS hv fun t ht => one_div_le_one_div_of_le hg0 (hg' t ht).1
  have b4 : 1 / ghi ≤ rwsum (ls.map (·.1)).sum (fun _ g => 1 / g) ls := by
    rw [← c (1 / ghi)]
    exact rwsum_le hS hv fun t ht => one_div_le_one_div_of_le (hG t ht) (hg' t ht).2
  have b5 : glo ≤ rwsum (ls.map (·.1)).sum (fun _ g => g) ls := by
    rw [← c glo]
    exact rwsum_le hS hv fun t ht => (hg' t ht).1
  have b6 : rwsum (ls.map (·.1)).sum (fun _ g => g) ls ≤ ghi := by
    rw [← c ghi]
    exact rwsum_le hS hv fun t ht => (hg' t ht).2
  refine ⟨?_, ?_, ?_, ?_, b5, b6⟩
  · rw [le_inv_comm₀ hm0 p1, inv_eq_one_div]; exact b1
  · rw [inv_le_comm₀ p1 hmhi, inv_eq_one_div]; exact b2
  · rw [le_inv_comm₀ hg0 p4, inv_eq_one_div]; exact b3
  · rw [inv_le_comm₀ p4 hghi, inv_eq_one_div]; exact b4

/-- A stack of identical layers, however many and however thick, is that layer. -/
theorem C36_Backus_identical (V : List ℝ) (l g : ℝ) (hv : ∀ v ∈ V, 0 ≤ v) (hS : 0 < V.sum)
    (hg : 0 < g) (hl : 0 < l + 2 * g) :
    Backus (V.map fin) ((List.replicate V.length l).map fin) ((List.replicate V.length g).map fin)
      = .ok (fin (l + 2 * g), fin (l + 2 * g), fin l, fin g, fin g) := by
  obtain ⟨ls, h1, h2, h3⟩ := exists_triples V (List.replicate V.length l)
    (List.replicate V.length g) (by simp) (by simp)
  have hl' : ∀ t ∈ ls, t.2.1 = l := fun t ht => by
    have : t.2.1 ∈ List.replicate V.length l := h2 ▸ List.mem_map.mpr ⟨t, ht, rfl⟩
    exact List.eq_of_mem_replicate this
  have hg' : ∀ t ∈ ls, t.2.2 = g := fun t ht => by
    have : t.2.2 ∈ List.replicate V.length g := h3 ▸ List.mem_map.mpr ⟨t, ht, rfl⟩
    exact List.eq_of_mem_replicate this
  have hv' : ∀ t ∈ ls, 0 ≤ t.1 := fun t ht => hv _ (h1 ▸ List.mem_map.mpr ⟨t, ht, rfl⟩)
  rw [h1] at hS
  rw [h2, h3, h1, Backus_eval hS hv' (fun t ht => by rw [hl' t ht, hg' t ht]; exact hl)
    (fun t ht => by rw [hg' t ht]; exact hg)]
  have c := rwsum_const hS.ne' (ls := ls) rfl
  have cc : ∀ f : ℝ → ℝ → ℝ, rwsum (ls.map (·.1)).sum f ls = f l g := fun f => by
    rw [← c (f l g)]
    apply rwsum_congr
    intro t ht
    rw [hl' t ht, hg' t ht]
  simp only [rBackus, cc]
  congr 1
  simp only [Prod.mk.injEq, fin_inj]
  refine ⟨?_, ?_, ?_, ?_, trivial⟩
  · generalize hx : l + 2 * g = m at hl
    have : l = m - 2 * g := by linarith
    rw [this]
    field
  · field
  · field
  · field

/-- The order of the layers does not matter (for any inputs, including undefined ones). -/
theorem C36_Backus_perm (ls ls' : List (Fl × Fl × Fl)) (h : ls.Perm ls') :
    Backus (ls.map (·.1)) (ls.map (·.2.1)) (ls.map (·.2.2))
      = Backus (ls'.map (·.1)) (ls'.map (·.2.1)) (ls'.map (·.2.2)) := by
  rw [Backus_triples, Backus_triples, lsum_perm (h.map (·.1))]
  congr 2
  funext f
  exact wsum_perm h

/-- Splitting a layer anywhere in the stack into two layers of the same material changes
nothing. -/
theorem C36_Backus_split (pre post : List (Fl × Fl × Fl)) (v v' l g : Fl) :
    let one := pre ++ (v + v', l, g) :: post
    let two := pre ++ (v, l, g) :: (v', l, g) :: post
    Backus (one.map (·.1)) (one.map (·.2.1)) (one.map (·.2.2))
      = Backus (two.map (·.1)) (two.map (·.2.1)) (two.map (·.2.2)) := by
  intro one two
  have hp1 : one.Perm ((v + v', l, g) :: (pre ++ post)) := List.perm_middle
  have hp2 : two.Perm ((v, l, g) :: (v', l, g) :: (pre ++ post)) :=
    List.perm_middle.trans (List.Perm.cons _ List.perm_middle)
  rw [C36_Backus_perm _ _ hp1, C36_Backus_perm _ _ hp2, Backus_triples, Backus_triples]
  have hs : lsum (((v + v', l, g) :: (pre ++ post)).map (·.1))
      = lsum (((v, l, g) :: (v', l, g) :: (pre ++ post)).map (·.1)) := by
    simp only [List.map_cons, lsum_cons, Fl.add_assoc']
  rw [hs]
  congr 2
  funext f
  exact wsum_split _ _ _ _ _ _ _

/-- Only relative thicknesses matter. -/
theorem C36_Backus_scale (V : List ℝ) (lamda G : List Fl) (c : ℝ) (hc : c ≠ 0) :
    Backus ((V.map (c * ·)).map fin) lamda G = Backus (V.map fin) lamda G := by
  have h : ((V.map (c * ·)).map fin).map (· / lsum ((V.map (c * ·)).map fin))
      = (V.map fin).map (· / lsum (V.map fin)) := by
    rw [lsum_map_fin, lsum_map_fin, List.sum_map_mul_left, List.map_map, List.map_map,
      List.map_map]
    apply List.map_congr_left
    intro v _
    simp only [Function.comp, List.map_id']
    by_cases hs : V.sum = 0
    · rw [hs, mul_zero, fl_div_zero, fl_div_zero]
    · rw [fl_div (mul_ne_zero hc hs), fl_div hs, mul_div_mul_left _ _ hc]
  unfold Backus
  simp only [h]

theorem bzip_length {α β γ : Type} {f : α → β → γ} {x : List α} {y : List β} {z : List γ}
    (h : bzip f x y = .ok z) (hxy : x.length = y.length ∨ x.length = 1) : z.length = y.length := by
  unfold bzip at h
  split at h
  · injection h with h; subst h; simp_all
  · rename_i hne
    have hx := hxy.resolve_left hne
    match x, hx with
    | [a], _ =>
      simp only at h
      injection h with h
      rw [← h, List.length_map]

theorem dot_ok_iff {x y : List Fl} : (∃ r, dot x y = .ok r) ↔ x.length = y.length := by
  unfold dot
  split <;> simp_all

/-- Shapes: the call returns a value exactly when `V` and `G` have the same length and `lamda`
has that length or is a single value; otherwise numpy's `ValueError` is raised. -/
theorem C36_Backus_shapes (V lamda G : List Fl) :
    (V.length = G.length ∧ (lamda.length = G.length ∨ lamda.length = 1) →
      ∃ c, Backus V lamda G = .ok c) ∧
    (¬ (V.length = G.length ∧ (lamda.length = G.length ∨ lamda.length = 1)) →
      Backus V lamda G = .error .ValueError) := by
  have dl : ∀ {x y : List Fl}, x.length ≠ y.length → dot x y = .error .ValueError :=
    fun h => if_neg h
  have dk : ∀ {x y : List Fl}, x.length = y.length → ∃ r, dot x y = .ok r :=
    fun h => ⟨_, if_pos h⟩
  constructor
  · rintro ⟨h1, h2⟩
    have hb : ∀ f : Fl → Fl → Fl, ∃ z, bzip f lamda G = .ok z ∧ z.length = G.length := by
      intro f
      rcases h2 with h2 | h2
      · exact ⟨_, bzip_eq f h2, by simp [h2]⟩
      · by_cases he : lamda.length = G.length
        · exact ⟨_, bzip_eq f he, by simp [he]⟩
        · match lamda, h2 with
          | [a], _ => exact ⟨G.map (f a), by unfold bzip; rw [if_neg he], by simp⟩
    obtain ⟨z1, e1, l1⟩ := hb (fun l g => 1 / (l + 2 * g))
    obtain ⟨z2, e2, l2⟩ := hb (fun l g => l / (l + 2 * g))
    obtain ⟨z3, e3, l3⟩ := hb (fun l g => 4 * g * (l + g) / (l + 2 * g))
    have hV : (V.map (· / lsum V)).length = G.length := by simpa using h1
    obtain ⟨r1, d1⟩ := dk (hV.trans l1.symm)
    obtain ⟨r2, d2⟩ := dk (hV.trans l2.symm)
    obtain ⟨r3, d3⟩ := dk (hV.trans l3.symm)
    obtain ⟨r4, d4⟩ := dk (x := V.map (· / lsum V)) (y := G.map (fun g => 1 / g)) (by simpa using h1)
    obtain ⟨r5, d5⟩ := dk (x := V.map (· / lsum V)) (y := G) hV
    unfold Backus
    simp only [e1, e2, e3, except_ok_bind, d1, d2, d3, d4, d5]
    exact ⟨_, rfl⟩
  · intro h
    unfold Backus
    by_cases hVG : V.length = G.length
    · have hl : lamda.length ≠ G.length ∧ lamda.length ≠ 1 := by
        constructor
        · exact fun h' => h ⟨hVG, Or.inl h'⟩
        · exact fun h' => h ⟨hVG, Or.inr h'⟩
      -- either broadcasting already fails, or the broadcast result has the wrong length
      by_cases hG1 : G.length = 1
      · match G, hG1 with
        | [b], _ =>
          have e : ∀ f : Fl → Fl → Fl, bzip f lamda [b] = .ok (lamda.map (f · b)) := by
            intro f
            unfold bzip
            rw [if_neg hl.1]
            match lamda, hl with
            | [], _ => rfl
            | [a], hl => exact absurd rfl hl.2
            | a :: a' :: t, _ => rfl
          rw [e, except_ok_bind, dl (by simp at hVG hl ⊢; omega)]
          rfl
      · have e : ∀ f : Fl → Fl → Fl, bzip f lamda G = .error .ValueError := by
          intro f
          unfold bzip
          rw [if_neg hl.1]
          match lamda, G, hl, hG1 with
          | [a], _, hl, _ => exact absurd rfl hl.2
          | _, [b], _, hG1 => exact absurd rfl hG1
          | [], [], _, _ => rfl
          | [], _ :: _ :: _, _, _ => rfl
          | _ :: _ :: _, [], _, _ => rfl
          | _ :: _ :: _, _ :: _ :: _, _, _ => rfl
        rw [e, except_error_bind]
    · have hv : (V.map (· / lsum V)).length ≠ G.length := by simpa using hVG
      rcases hb : bzip (fun l g => 1 / (l + 2 * g)) lamda G with e | z
      · have : e = .ValueError := by
          unfold bzip at hb
          split at hb
          · cases hb
          · split at hb
            · cases hb
            · cases hb
            · injection hb with hb; exact hb.symm
        rw [except_error_bind, this]
      · rw [except_ok_bind]
        by_cases hz : (V.map (· / lsum V)).length = z.length
        · obtain ⟨r, hr⟩ := dk hz
          rw [hr, except_ok_bind, dl (y := G.map fun g => 1 / g) (by simpa using hVG),
            except_error_bind]
        · rw [dl hz, except_error_bind]

/-! ## C37: Backus average of a log

A log is a list of layers, each given by its top depth and its properties `(vp, vs, den)`,
together with the depth of the base of the last layer. -/

/-- One layer of a log: top depth, `vp`, `vs`, density. -/
structure LogLayer where
  top : ℝ
  vp : ℝ
  vs : ℝ
  den : ℝ

/-- `Anisotropy.Backus_log` applied to a log with base depth `base`. -/
noncomputable def runLog (log : List LogLayer) (base : ℝ) :
    Except PyErr (Fl × Fl × Fl × Fl × Fl × Fl) :=
  Backus_log (log.map fun L => fin L.vp) (log.map fun L => fin L.vs) (log.map fun L => fin L.den)
    ((log.map LogLayer.top ++ [base]).map fin)

/-- Layers with their thickness: the base of a layer is the top of the next one. -/
def withThickness : List LogLayer → ℝ → List (ℝ × LogLayer)
  | [], _ => []
  | [L], base => [(base - L.top, L)]
  | L :: L' :: rest, base => (L'.top - L.top, L) :: withThickness (L' :: rest) base

theorem withThickness_snd (log : List LogLayer) (base : ℝ) :
    (withThickness log base).map Prod.snd = log := by
  induction log, base using withThickness.induct <;> simp_all [withThickness]

theorem diff_tops (log : List LogLayer) (base : ℝ) :
    diff ((log.map LogLayer.top ++ [base]).map fin)
      = (withThickness log base).map fun p => fin p.1 := by
  induction log, base using withThickness.induct with
  | case1 base => simp [withThickness, diff]
  | case2 L base => simp [withThickness, diff, fl_sub]
  | case3 L L' rest base ih =>
    simp only [withThickness, List.map_cons, ← ih]
    simp [diff, fl_sub]

/-- The model call in terms of thickness-weighted layers. -/
theorem runLog_eq (log : List LogLayer) (base : ℝ) :
    runLog log base =
      let ps := withThickness log base
      let S := fin (ps.map Prod.fst).sum
      let ls : List (Fl × Fl × Fl) := ps.map fun p =>
        (fin p.1 / S, fin (p.2.den * p.2.vp ^ 2) - fin (2 * (p.2.den * p.2.vs ^ 2)),
          fin (p.2.den * p.2.vs ^ 2))
      (Backus (ls.map (·.1)) (ls.map (·.2.1)) (ls.map (·.2.2))).map fun c =>
        (c.1, c.2.1, c.2.2.1, c.2.2.2.1, c.2.2.2.2,
          lsum (ps.map fun p => fin p.1 / S * fin p.2.den)) := by
  extract_lets ps S ls
  have hlog : log = ps.map Prod.snd := (withThickness_snd log base).symm
  have hd := diff_tops log base
  have hthk : diff ((log.map LogLayer.top ++ [base]).map fin) = ps.map fun p => fin p.1 := hd
  unfold runLog Backus_log
  rw [hthk]
  have e : log.map (fun L => fin L.vp) = ps.map fun p => fin p.2.vp := by
    conv_lhs => rw [hlog]
    rw [List.map_map]; rfl
  have e' : log.map (fun L => fin L.vs) = ps.map fun p => fin p.2.vs := by
    conv_lhs => rw [hlog]
    rw [List.map_map]; rfl
  have e'' : log.map (fun L => fin L.den) = ps.map fun p => fin p.2.den := by
    conv_lhs => rw [hlog]
    rw [List.map_map]; rfl
  have hS : lsum (ps.map fun p => fin p.1) = S := by
    have := lsum_map_fin (ps.map Prod.fst)
    rw [List.map_map] at this
    exact this
  rw [e, e', e'']
  have l1 : ls.map (·.1) = (ps.map fun p => fin p.1).map (· / S) := by
    simp only [ls, List.map_map]; rfl
  have l2 : ls.map (·.2.1) = ps.map fun p => (fin p.2.den * fin p.2.vp ** 2)
      - 2 * (fin p.2.den * fin p.2.vs ** 2) := by
    simp only [ls, List.map_map]
    apply List.map_congr_left
    intro p _
    simp only [Function.comp, fl]
  have l3 : ls.map (·.2.2) = ps.map fun p => fin p.2.den * fin p.2.vs ** 2 := by
    simp only [ls, List.map_map]; rfl
  have dk : dot ((ps.map fun p => fin p.1).map (· / S)) (ps.map fun p => fin p.2.den)
      = .ok (lsum (ps.map fun p => fin p.1 / S * fin p.2.den)) := by
    rw [List.map_map]; exact dot_map ps _ _
  rw [bzip_map, except_ok_bind, bzip_map, except_ok_bind, List.map_map, bzip_map, except_ok_bind]
  dsimp only
  rw [hS, dk, l1, l2, l3]
  simp only [Function.comp_def]
  generalize Backus (α := Fl) _ _ _ = r
  rcases r with err | c <;> rfl

theorem withThickness_pos (log : List LogLayer) (base : ℝ) :
    (log.map LogLayer.top ++ [base]).Pairwise (· < ·) →
      ∀ p ∈ withThickness log base, 0 < p.1 := by
  induction log, base using withThickness.induct with
  | case1 base => simp [withThickness]
  | case2 L base => simp [withThickness]
  | case3 L L' rest base ih =>
    intro h p hp
    simp only [List.map_cons, List.cons_append] at h ih
    have h2 := List.pairwise_cons.mp h
    simp only [withThickness, List.mem_cons] at hp
    rcases hp with rfl | hp
    · have := h2.1 L'.top (by simp)
      simpa using this
    · exact ih h2.2 p (by simpa [withThickness] using hp)

/-- `Backus_log` is the Backus average of the layers' Lamé parameters with the layer
thicknesses as weights, and its density is the thickness-weighted mean. -/
theorem C37_log_is_thickness_average (log : List LogLayer) (base : ℝ)
    (hinc : (log.map LogLayer.top ++ [base]).Pairwise (· < ·)) (hne : log ≠ []) :
    let ps := withThickness log base
    let S := (ps.map Prod.fst).sum
    runLog log base =
      (Backus (ps.map fun p => fin p.1)
        (ps.map fun p => fin (p.2.den * p.2.vp ^ 2 - 2 * (p.2.den * p.2.vs ^ 2)))
        (ps.map fun p => fin (p.2.den * p.2.vs ^ 2))).map fun c =>
      (c.1, c.2.1, c.2.2.1, c.2.2.2.1, c.2.2.2.2,
        fin ((ps.map fun p => p.1 * p.2.den).sum / S)) := by
  intro ps S
  have hp := withThickness_pos log base hinc
  have hS : 0 < S := by
    have hne' : ps ≠ [] := fun h0 => hne (by
      rw [← withThickness_snd log base]; show ps.map Prod.snd = []; rw [h0]; rfl)
    apply List.sum_pos
    · intro x hx
      obtain ⟨p, hpm, rfl⟩ := List.mem_map.mp hx
      exact hp p hpm
    · simpa using hne'
  rw [runLog_eq]
  have hsum : ∀ l : List (ℝ × LogLayer),
      lsum (l.map fun p => fin p.1 / fin S * fin p.2.den)
        = fin ((l.map fun p => p.1 * p.2.den).sum / S) := by
    intro l
    induction l with
    | nil => simp [lsum_nil]
    | cons p l ih =>
      rw [List.map_cons, lsum_cons, ih, List.map_cons, List.sum_cons, fl_div hS.ne', fl_mul,
        fl_add, fin_inj]
      ring
  dsimp only
  rw [show (withThickness log base) = ps from rfl, show (ps.map Prod.fst).sum = S from rfl,
    hsum ps]
  congr 1
  have hsc := C36_Backus_scale (ps.map Prod.fst)
    (ps.map fun p => fin (p.2.den * p.2.vp ^ 2 - 2 * (p.2.den * p.2.vs ^ 2)))
    (ps.map fun p => fin (p.2.den * p.2.vs ^ 2)) S⁻¹ (inv_ne_zero hS.ne')
  have v1 : (ps.map Prod.fst).map fin = ps.map fun p => fin p.1 := by rw [List.map_map]; rfl
  have v2 : ((ps.map Prod.fst).map (S⁻¹ * ·)).map fin = ps.map fun p => fin p.1 / fin S := by
    rw [List.map_map, List.map_map]
    apply List.map_congr_left
    intro p _
    rw [fl_div hS.ne']
    simp only [Function.comp, fin_inj]
    ring
  rw [v1, v2] at hsc
  rw [← hsc]
  simp only [List.map_map]
  rfl

example : ((([⟨1000, 2.5, 1.1, 2.2⟩, ⟨1010, 3.0, 1.5, 2.3⟩] : List LogLayer).map LogLayer.top)
    ++ [1025]).Pairwise (· < ·) := by norm_num

theorem withThickness_append (pre : List LogLayer) (L : LogLayer) (post : List LogLayer)
    (base : ℝ) : withThickness (pre ++ L :: post) base
      = withThickness pre L.top ++ withThickness (L :: post) base := by
  induction pre with
  | nil => simp [withThickness]
  | cons P pre ih =>
    cases pre with
    | nil => simp [withThickness]
    | cons P' pre => simpa [withThickness] using ih

theorem withThickness_cons (L : LogLayer) (post : List LogLayer) (base : ℝ) :
    ∃ next : ℝ, ∀ d : ℝ,
      withThickness (L :: post) base = (next - L.top, L) :: withThickness post base ∧
      withThickness (L :: { L with top := d } :: post) base
        = (d - L.top, L) :: (next - d, { L with top := d }) :: withThickness post base := by
  cases post with
  | nil => exact ⟨base, fun d => ⟨by simp [withThickness], by simp [withThickness]⟩⟩
  | cons P post => exact ⟨P.top, fun d => ⟨by simp [withThickness], by simp [withThickness]⟩⟩

/-- Refining the layering, by inserting a depth point anywhere inside a layer and repeating
that layer's properties, changes neither the stiffnesses nor the density. -/
theorem C37_log_refinement (pre post : List LogLayer) (L : LogLayer) (d base : ℝ) :
    runLog (pre ++ L :: post) base = runLog (pre ++ L :: { L with top := d } :: post) base := by
  obtain ⟨next, hnext⟩ := withThickness_cons L post base
  obtain ⟨h1, h2⟩ := hnext d
  rw [runLog_eq, runLog_eq]
  simp only [withThickness_append, h1, h2, List.map_append, List.map_cons, List.sum_append,
    List.sum_cons]
  have hS : (next - L.top + ((withThickness post base).map Prod.fst).sum)
      = (d - L.top + (next - d + ((withThickness post base).map Prod.fst).sum)) := by ring
  rw [hS]
  set S := fin (((withThickness pre L.top).map Prod.fst).sum
    + (d - L.top + (next - d + ((withThickness post base).map Prod.fst).sum))) with hSdef
  have hsplit : fin (next - L.top) / S = fin (d - L.top) / S + fin (next - d) / S := by
    rw [← Fl.add_div', fl_add]; congr 2; ring
  have hden : lsum ((withThickness pre L.top).map (fun p => fin p.1 / S * fin p.2.den)
        ++ fin (next - L.top) / S * fin L.den
          :: (withThickness post base).map (fun p => fin p.1 / S * fin p.2.den))
      = lsum ((withThickness pre L.top).map (fun p => fin p.1 / S * fin p.2.den)
        ++ fin (d - L.top) / S * fin L.den :: fin (next - d) / S * fin L.den
          :: (withThickness post base).map (fun p => fin p.1 / S * fin p.2.den)) := by
    rw [hsplit]
    generalize (withThickness pre L.top).map (fun p => fin p.1 / S * fin p.2.den) = A
    induction A with
    | nil => simp only [List.nil_append, lsum_cons, Fl.add_mul', Fl.add_assoc']
    | cons a A ih => simp only [List.cons_append, lsum_cons, ih]
  rw [hden]
  congr 1
  have := C36_Backus_split
    ((withThickness pre L.top).map fun p => (fin p.1 / S,
      fin (p.2.den * p.2.vp ^ 2) - fin (2 * (p.2.den * p.2.vs ^ 2)), fin (p.2.den * p.2.vs ^ 2)))
    ((withThickness post base).map fun p => (fin p.1 / S,
      fin (p.2.den * p.2.vp ^ 2) - fin (2 * (p.2.den * p.2.vs ^ 2)), fin (p.2.den * p.2.vs ^ 2)))
    (fin (d - L.top) / S) (fin (next - d) / S)
    (fin (L.den * L.vp ^ 2) - fin (2 * (L.den * L.vs ^ 2))) (fin (L.den * L.vs ^ 2))
  simp only [List.map_append, List.map_cons] at this
  rw [hsplit]
  exact this

/-- Moving the whole log up or down changes nothing. -/
theorem C37_log_shift (log : List LogLayer) (base c : ℝ) :
    runLog (log.map fun L => { L with top := L.top + c }) (base + c) = runLog log base := by
  have h : withThickness (log.map fun L => { L with top := L.top + c }) (base + c)
      = (withThickness log base).map fun p => (p.1, { p.2 with top := p.2.top + c }) := by
    induction log, base using withThickness.induct with
    | case1 base => simp [withThickness]
    | case2 L base => simp [withThickness]
    | case3 L L' rest base ih =>
      simp only [List.map_cons] at ih
      simp only [List.map_cons, withThickness, ih]
      congr 1
      simp
  rw [runLog_eq, runLog_eq, h]
  simp only [List.map_map, Function.comp_def]

/-- For every log with increasing depths and physically admissible layers the averaged medium
is a stable VTI medium with `C66 >= C44`, and the density lies between the layer densities. -/
theorem C37_log_physical (log : List LogLayer) (base dlo dhi : ℝ)
    (hinc : (log.map LogLayer.top ++ [base]).Pairwise (· < ·)) (hne : log ≠ [])
    (hlay : ∀ L ∈ log, 0 < L.den ∧ 0 < L.vs ∧ 4 / 3 * L.vs ^ 2 < L.vp ^ 2)
    (hden : ∀ L ∈ log, dlo ≤ L.den ∧ L.den ≤ dhi) :
    ∃ C11 C33 C13 C44 C66 den : ℝ,
      runLog log base = .ok (fin C11, fin C33, fin C13, fin C44, fin C66, fin den) ∧
      C44 ≤ C66 ∧ IsStable (vtiMatrix C11 C33 C13 C44 C66) ∧ dlo ≤ den ∧ den ≤ dhi := by
  have hp := withThickness_pos log base hinc
  have hmem : ∀ p ∈ withThickness log base, p.2 ∈ log := fun p hp' => by
    have : p.2 ∈ (withThickness log base).map Prod.snd := List.mem_map.mpr ⟨p, hp', rfl⟩
    rwa [withThickness_snd] at this
  rw [C37_log_is_thickness_average log base hinc hne]
  have hne' : withThickness log base ≠ [] := fun h0 => hne (by
      rw [← withThickness_snd log base, h0]; rfl)
  generalize withThickness log base = ps at *
  have hS : 0 < (ps.map Prod.fst).sum := by
    apply List.sum_pos
    · intro x hx
      obtain ⟨p, hpm, rfl⟩ := List.mem_map.mp hx
      exact hp p hpm
    · simpa using hne'
  have good : GoodStack (ps.map Prod.fst)
      (ps.map fun p => p.2.den * p.2.vp ^ 2 - 2 * (p.2.den * p.2.vs ^ 2))
      (ps.map fun p => p.2.den * p.2.vs ^ 2) := by
    refine ⟨by simp, by simp, ?_, hS, ?_, ?_⟩
    · intro v hv
      obtain ⟨p, hpm, rfl⟩ := List.mem_map.mp hv
      exact (hp p hpm).le
    · intro g hg
      obtain ⟨p, hpm, rfl⟩ := List.mem_map.mp hg
      obtain ⟨h1, h2, h3⟩ := hlay _ (hmem p hpm)
      positivity
    · intro lg hlg
      rw [List.zip_map'] at hlg
      obtain ⟨p, hpm, rfl⟩ := List.mem_map.mp hlg
      obtain ⟨h1, h2, h3⟩ := hlay _ (hmem p hpm)
      simp only
      nlinarith
  obtain ⟨C11, C33, C13, C44, C66, h1, h2, h3⟩ := C36_Backus_stable _ _ _ good
  simp only [List.map_map] at h1
  have h1' : Backus (ps.map fun p => fin p.1)
      (ps.map fun p => fin (p.2.den * p.2.vp ^ 2 - 2 * (p.2.den * p.2.vs ^ 2)))
      (ps.map fun p => fin (p.2.den * p.2.vs ^ 2))
      = .ok (fin C11, fin C33, fin C13, fin C44, fin C66) := h1
  rw [h1']
  refine ⟨C11, C33, C13, C44, C66, _, rfl, h2, h3, ?_, ?_⟩
  · rw [le_div_iff₀ hS, ← List.sum_map_mul_left]
    apply List.sum_le_sum
    intro p hpm
    have := (hden _ (hmem p hpm)).1
    have := hp p hpm
    nlinarith
  · rw [div_le_iff₀ hS, ← List.sum_map_mul_left]
    apply List.sum_le_sum
    intro p hpm
    have := (hden _ (hmem p hpm)).2
    have := hp p hpm
    nlinarith

/-- Non-vacuity of the layer conditions. -/
example : (0 : ℝ) < 2.2 ∧ (0 : ℝ) < 1.1 ∧ 4 / 3 * (1.1 : ℝ) ^ 2 < 2.5 ^ 2 := by norm_num

end RockPhy.Props
