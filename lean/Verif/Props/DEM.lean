import Verif.Props.Spheres
import Verif.Spec.Ode
import Mathlib.Analysis.Calculus.MeanValue
import Mathlib.Analysis.Calculus.Deriv.Inv
import Mathlib.Algebra.BigOperators.Group.List.Lemmas

/-! # Property C82: self-consistent and differential effective medium models -/

namespace RockPhy.Spec

/-- One phase of a composite: volume fraction, moduli and aspect ratio. -/
structure Phase where
  x : ℝ
  K : ℝ
  G : ℝ
  a : ℝ

/-- `scipy.optimize.fsolve` on a system that has a root: it returns one. -/
def FindsRoot (fsolve : (Fl × Fl → Except PyErr (Fl × Fl)) → Fl × Fl → Fl × Fl) : Prop :=
  ∀ (f : Fl × Fl → Except PyErr (Fl × Fl)) (y : Fl × Fl),
    (∃ r, f r = .ok (Fl.fin 0, Fl.fin 0)) → f (fsolve f y) = .ok (Fl.fin 0, Fl.fin 0)

end RockPhy.Spec

namespace RockPhy.Props

open Fl EM Spec Set

/-! ## The self-consistent equations -/

/-- The residuals of `Berryman_func`: the mean over all phases of the deviation of the modulus
from the effective one, weighted by the strain concentration of the phase in the effective medium.
An aspect ratio of one is replaced by 0.999. -/
theorem C82_Berryman_func (K G : ℝ) (hK : 0 < K) (hG : 0 < G) (ph : List Phase)
    (h : ∀ p ∈ ph, 0 ≤ p.K ∧ 0 ≤ p.G ∧ 0 < p.a ∧ p.a ≤ 1) :
    ∃ c : List (ℝ × ℝ), List.Forall₂ (fun (p : Phase) c => 0 < c.1 ∧ 0 < c.2 ∧
        IsConcentration K G p.K p.G (spheroid (if p.a = 1 then 0.999 else p.a)) c.1 c.2) ph c ∧
      Berryman_func (fin K) (fin G) (ph.map fun p => fin p.K) (ph.map fun p => fin p.G)
          (ph.map fun p => fin p.x) (ph.map fun p => fin p.a)
        = .ok (fin (List.zipWith (fun (p : Phase) c => p.x * (p.K - K) * c.1) ph c).sum,
            fin (List.zipWith (fun (p : Phase) c => p.x * (p.G - G) * c.2) ph c).sum,
            ph.map fun p => fin (if p.a = 1 then 0.999 else p.a)) := by
  have al : PQ_vectorize_alpha (ph.map fun p => fin p.a)
      = ph.map fun p => fin (if p.a = 1 then 0.999 else p.a) := by
    unfold PQ_vectorize_alpha
    rw [List.map_map, List.map_inj_left]
    intro p _
    show (if PyNum.eq (fin p.a) 1 then (0.999 : Fl) else fin p.a) = _
    by_cases h1 : p.a = 1
    · rw [if_pos (by simp only [fl]; exact h1), if_pos h1, fl_sci]
    · rw [if_neg (by simp only [fl]; exact h1), if_neg h1]
  have main : ∃ c : List (ℝ × ℝ), List.Forall₂ (fun (p : Phase) c => 0 < c.1 ∧ 0 < c.2 ∧
        IsConcentration K G p.K p.G (spheroid (if p.a = 1 then 0.999 else p.a)) c.1 c.2) ph c ∧
      List.zipWith (fun (kg : Fl × Fl) a => PQ_vectorize_entry (fin K) (fin G) kg.1 kg.2 a)
        (List.zip (ph.map fun p => fin p.K) (ph.map fun p => fin p.G))
        (ph.map fun p => fin (if p.a = 1 then 0.999 else p.a))
        = c.map fun c => (fin c.1, fin c.2) := by
    clear al
    induction ph with
    | nil => exact ⟨[], List.Forall₂.nil, rfl⟩
    | cons p ph ih =>
      obtain ⟨c, hc, e⟩ := ih fun q hq => h q (List.mem_cons_of_mem _ hq)
      obtain ⟨k1, k2, k3, k4⟩ := h p List.mem_cons_self
      have b : 0 < (if p.a = 1 then 0.999 else p.a) ∧ (if p.a = 1 then 0.999 else p.a) ≤ 1 := by
        split
        · norm_num
        · exact ⟨k3, k4⟩
      obtain ⟨P, Q, e1, hP, hQ, con⟩ := C79_oblate K G p.K p.G _ hK hG k1 k2 b.1 b.2
      refine ⟨(P, Q) :: c, List.Forall₂.cons ⟨hP, hQ, con⟩ hc, ?_⟩
      simp only [List.map_cons, List.zip_cons_cons, List.zipWith_cons_cons]
      rw [e]
      exact congrArg₂ List.cons e1 rfl
  obtain ⟨c, hc, e⟩ := main
  refine ⟨c, hc, ?_⟩
  have v : PQ_vectorize (fin K) (fin G) (ph.map fun p => fin p.K) (ph.map fun p => fin p.G)
      (ph.map fun p => fin p.a) = .ok (c.map fun c => fin c.1, c.map fun c => fin c.2,
        ph.map fun p => fin (if p.a = 1 then 0.999 else p.a)) := by
    rw [PQ_vectorize_fit _ _ (by simp) (by simp), al, e, List.map_map, List.map_map]
    rfl
  rw [Berryman_func_fit _ _ (by simp), v]
  simp only [Except.map]
  have s : ∀ (y : Phase → ℝ) (k : ℝ) (z : ℝ × ℝ → ℝ),
      lsum (List.zipWith (· * ·) (List.zipWith (fun x k' => x * (k' - fin k))
        (ph.map fun p => fin p.x) (ph.map fun p => fin (y p))) (c.map fun c => fin (z c)))
        = fin (List.zipWith (fun (p : Phase) c => p.x * (y p - k) * z c) ph c).sum := by
    intro y k z
    clear e v al h
    induction hc with
    | nil => exact lsum_nil
    | cons _ _ ih =>
      simp only [List.map_cons, List.zipWith_cons_cons, lsum_cons, List.sum_cons]
      rw [ih]
      simp only [fl]
  rw [s Phase.K K Prod.fst, s Phase.G G Prod.snd]

/-- A weighted mean of deviations that vanishes puts the centre between the values. -/
theorem weighted_bound {ι : Type} {l : List ι} {w d : ι → ℝ} (hw : ∀ i ∈ l, 0 ≤ w i)
    (hs : ∃ i ∈ l, 0 < w i) (h0 : (l.map fun i => w i * d i).sum = 0) : ¬ ∀ i ∈ l, 0 < d i := by
  intro hd
  obtain ⟨i, hi, hp⟩ := hs
  have : 0 < (l.map fun i => w i * d i).sum := by
    refine lt_of_lt_of_le (mul_pos hp (hd i hi)) (List.single_le_sum ?_ _ ?_)
    · intro x hx
      obtain ⟨j, hj, rfl⟩ := List.mem_map.mp hx
      exact mul_nonneg (hw j hj) (hd j hj).le
    · exact List.mem_map.mpr ⟨i, hi, rfl⟩
  linarith

theorem Berryman_func_misfit {K_sc G_sc : Fl} {K G X Alpha : List Fl} {r : List Fl × List Fl × List Fl}
    (h : PQ_vectorize K_sc G_sc K G Alpha = .ok r) (h1 : X.length ≠ K.length) (h2 : X.length ≠ 1)
    (h3 : K.length ≠ 1) : Berryman_func K_sc G_sc K G X Alpha = .error .ValueError := by
  unfold Berryman_func
  rw [h]
  show (bzip (· * ·) X (K.map (· - K_sc))) >>= _ = _
  have : bzip (· * ·) X (K.map (· - K_sc)) = .error .ValueError := by
    unfold bzip
    rw [if_neg (by simpa using h1)]
    match X, K, h2, h3 with
    | [], [], _, _ => rfl
    | [], _ :: _ :: _, _, _ => rfl
    | _ :: _ :: _, [], _, _ => rfl
    | _ :: _ :: _, _ :: _ :: _, _, _ => rfl
  rw [this]
  rfl

/-- C82: fractions that do not match the phases in number are refused, whatever the medium, unless
there is one fraction or one phase. -/
theorem C82_mismatch (K_sc G_sc : Fl) (K G X Alpha : List Fl) (hG : G.length = K.length)
    (ha : Alpha.length = K.length) (hX : X.length ≠ K.length) (h1 : X.length ≠ 1)
    (h2 : K.length ≠ 1) : Berryman_func K_sc G_sc K G X Alpha = .error .ValueError :=
  Berryman_func_misfit (PQ_vectorize_fit _ _ hG ha) hX h1 h2

/-- C82: a single fraction is taken for every phase: the call is accepted and solves the equations of
other fractions. -/
theorem C82_single_fraction (K_sc G_sc x : Fl) (K G Alpha : List Fl) :
    Berryman_func K_sc G_sc K G [x] Alpha
      = Berryman_func K_sc G_sc K G (List.replicate K.length x) Alpha := by
  have one : ∀ y : List Fl, bzip (· * ·) [x] y = .ok (List.zipWith (· * ·) (List.replicate y.length x) y) := by
    intro y
    have e : List.zipWith (· * ·) (List.replicate y.length x) y = y.map (x * ·) := by
      induction y with
      | nil => rfl
      | cons a y ih => simp [List.replicate_succ, ih]
    rw [e]
    match y with
    | [] => rfl
    | [_] => rfl
    | _ :: _ :: _ => rfl
  rw [Berryman_func_fit _ _ (X := List.replicate K.length x) (by simp)]
  unfold Berryman_func
  cases h : PQ_vectorize K_sc G_sc K G Alpha with
  | error e => rfl
  | ok r =>
    obtain ⟨P, Q, A⟩ := r
    obtain ⟨hG, -, hP, hQ⟩ := PQ_vectorize_length h
    show (bzip (· * ·) [x] (K.map (· - K_sc))) >>= _ = _
    rw [one]
    show (bzip (· * ·) _ P) >>= _ = _
    rw [bzip_fit _ (by simp [hP])]
    show (bzip (· * ·) [x] (G.map (· - G_sc))) >>= _ = _
    rw [one]
    show (bzip (· * ·) _ Q) >>= _ = _
    rw [bzip_fit _ (by simp [hQ, hG])]
    simp only [List.zipWith_map_right, List.length_map, hG]
    rfl

example : Berryman_func (fin 10) (fin 5) [fin 37, fin 0] [fin 44, fin 0] [fin 1, fin 1, fin 1]
      [fin 1, fin 0.1] = .error .ValueError :=
  C82_mismatch _ _ _ _ _ _ rfl rfl (by simp) (by simp) (by simp)

/-- C82: the search of `Berryman_sc` starts between the smallest and the largest modulus of the
phases, whatever the root finder does afterwards. -/
theorem C82_start (K G X A : List ℝ) (hK : K ≠ []) (hG : G ≠ [])
    (fsolve : (Fl × Fl → Except PyErr (Fl × Fl)) → Fl × Fl → Fl × Fl) :
    ∃ (f : Fl × Fl → Except PyErr (Fl × Fl)) (k g : ℝ),
      Berryman_sc fsolve (K.map fin) (G.map fin) (X.map fin) (A.map fin) = fsolve f (fin k, fin g) ∧
      (∀ r, f r = (Berryman_func r.1 r.2 (K.map fin) (G.map fin) (X.map fin) (A.map fin)).map
        fun v => (v.1, v.2.1)) ∧
      (∃ x ∈ K, x ≤ k) ∧ (∃ x ∈ K, k ≤ x) ∧ (∃ x ∈ G, x ≤ g) ∧ (∃ x ∈ G, g ≤ x) := by
  have m : ∀ l : List ℝ, l ≠ [] → mean (l.map fin) = fin (l.sum / l.length) ∧
      (∃ x ∈ l, x ≤ l.sum / l.length) ∧ ∃ x ∈ l, l.sum / l.length ≤ x := by
    intro l hl
    have hp : (0 : ℝ) < l.length := by exact_mod_cast List.length_pos_iff.mpr hl
    have card : ∀ c : ℝ, (l.map fun _ => c).sum = l.length * c := by
      intro c; simp
    refine ⟨?_, ?_, ?_⟩
    · unfold mean
      rw [lsum_map_fin, List.length_map]
      exact fl_div hp.ne'
    · by_contra hn
      push Not at hn
      have := List.sum_lt_sum_of_ne_nil hl (fun _ => l.sum / l.length) id hn
      rw [card, List.map_id, mul_div_cancel₀ _ hp.ne'] at this
      exact lt_irrefl _ this
    · by_contra hn
      push Not at hn
      have := List.sum_lt_sum_of_ne_nil hl id (fun _ => l.sum / l.length) hn
      rw [card, List.map_id, mul_div_cancel₀ _ hp.ne'] at this
      exact lt_irrefl _ this
  obtain ⟨k1, k2, k3⟩ := m K hK
  obtain ⟨g1, g2, g3⟩ := m G hG
  refine ⟨_, _, _, ?_, fun r => rfl, k2, k3, g2, g3⟩
  unfold Berryman_sc
  rw [k1, g1]

example : Berryman_sc (fun _ y => y) [fin 37, fin 2] [fin 44, fin 0] [fin 1, fin 0] [fin 1, fin 1]
    = (fin (39 / 2), fin 22) := by
  unfold Berryman_sc mean
  refine Prod.ext ?_ ?_
  · have := lsum_map_fin [37, 2]
    simp only [List.map] at this
    simp only [this]
    refine (fl_div (by norm_num)).trans (congrArg fin (by norm_num))
  · have := lsum_map_fin [44, 0]
    simp only [List.map] at this
    simp only [this]
    refine (fl_div (by norm_num)).trans (congrArg fin (by norm_num))

/-- Whatever root `fsolve` finds with positive moduli, `Berryman_sc` lies between the smallest and
the largest modulus of the phases, for any number of phases and any aspect ratios. -/
theorem C82_Berryman_sc_bounds (fsolve : (Fl × Fl → Except PyErr (Fl × Fl)) → Fl × Fl → Fl × Fl)
    (K G : ℝ) (hK : 0 < K) (hG : 0 < G) (ph : List Phase)
    (h : ∀ p ∈ ph, 0 ≤ p.K ∧ 0 ≤ p.G ∧ 0 < p.a ∧ p.a ≤ 1) (hx : ∀ p ∈ ph, 0 ≤ p.x)
    (hx' : ∃ p ∈ ph, 0 < p.x)
    (hf : FindsRoot fsolve)
    (hr : ∃ K' G' as', Berryman_func K' G' (ph.map fun p => fin p.K) (ph.map fun p => fin p.G)
      (ph.map fun p => fin p.x) (ph.map fun p => fin p.a) = .ok (fin 0, fin 0, as'))
    (hsc : Berryman_sc fsolve (ph.map fun p => fin p.K) (ph.map fun p => fin p.G)
      (ph.map fun p => fin p.x) (ph.map fun p => fin p.a) = (fin K, fin G)) :
    (∃ p ∈ ph, p.K ≤ K) ∧ (∃ p ∈ ph, K ≤ p.K) ∧ (∃ p ∈ ph, p.G ≤ G) ∧ (∃ p ∈ ph, G ≤ p.G) := by
  obtain ⟨c, hc, e⟩ := C82_Berryman_func K G hK hG ph h
  obtain ⟨K', G', as', hr⟩ := hr
  unfold Berryman_sc at hsc
  have r := hf (fun p => (Berryman_func p.1 p.2 (ph.map fun p => fin p.K) (ph.map fun p => fin p.G)
    (ph.map fun p => fin p.x) (ph.map fun p => fin p.a)).map fun r => (r.1, r.2.1))
    (mean (ph.map fun p => fin p.K), mean (ph.map fun p => fin p.G))
    ⟨(K', G'), congrArg (Except.map fun r => (r.1, r.2.1)) hr⟩
  rw [hsc, e] at r
  have r' : ((fin (List.zipWith (fun (p : Phase) c => p.x * (p.K - K) * c.1) ph c).sum : Fl),
      (fin (List.zipWith (fun (p : Phase) c => p.x * (p.G - G) * c.2) ph c).sum : Fl))
      = (fin 0, fin 0) := by injection r
  injection r' with r1 r2
  rw [fin_inj] at r1 r2
  have len := hc.length_eq
  have zip : ∀ (F : Phase → ℝ × ℝ → ℝ), List.zipWith F ph c = (List.zip ph c).map fun q => F q.1 q.2 := by
    intro F
    rw [List.zip, List.map_zipWith]
  have pos : ∀ q ∈ List.zip ph c, q.1 ∈ ph ∧ 0 < q.2.1 ∧ 0 < q.2.2 := by
    intro q hq
    obtain ⟨k1, -⟩ := List.of_mem_zip (a := q.1) (b := q.2) hq
    have := (List.forall₂_iff_zip.mp hc).2 (show (q.1, q.2) ∈ List.zip ph c from hq)
    exact ⟨k1, this.1, this.2.1⟩
  obtain ⟨p0, hp0, hpx⟩ := hx'
  have ex : ∃ q ∈ List.zip ph c, 0 < q.1.x := by
    obtain ⟨i, hi, rfl⟩ := List.getElem_of_mem hp0
    refine ⟨(ph[i], c[i]'(len ▸ hi)), ?_, hpx⟩
    rw [← List.getElem_zip (h := by simp [← len, hi])]
    exact List.getElem_mem _
  rw [zip] at r1 r2
  have go : ∀ (d w : Phase × ℝ × ℝ → ℝ), (∀ q ∈ List.zip ph c, 0 < w q) →
      ((List.zip ph c).map fun q => q.1.x * d q * w q).sum = 0 →
      ∃ p ∈ List.zip ph c, d p ≤ 0 := by
    intro d w hw hz
    by_contra hn
    push Not at hn
    refine weighted_bound (l := List.zip ph c) (w := fun q => q.1.x * w q) (d := d) ?_ ?_ ?_ hn
    · exact fun q hq => mul_nonneg (hx _ (pos q hq).1) (hw q hq).le
    · obtain ⟨q, hq, hq'⟩ := ex
      exact ⟨q, hq, mul_pos hq' (hw q hq)⟩
    · rw [← hz]
      congr 1
      exact List.map_congr_left fun q _ => by ring
  have neg : ∀ (d w : Phase × ℝ × ℝ → ℝ), ((List.zip ph c).map fun q => q.1.x * d q * w q).sum = 0 →
      ((List.zip ph c).map fun q => q.1.x * (-d q) * w q).sum = 0 := by
    intro d w hz
    have : ((List.zip ph c).map fun q => q.1.x * (-d q) * w q)
        = ((List.zip ph c).map fun q => -1 * (q.1.x * d q * w q)) :=
      List.map_congr_left fun q _ => by ring
    rw [this, List.sum_map_mul_left, hz, mul_zero]
  refine ⟨?_, ?_, ?_, ?_⟩
  · obtain ⟨q, hq, hd⟩ := go (fun q => q.1.K - K) (fun q => q.2.1) (fun q hq => (pos q hq).2.1) r1
    exact ⟨q.1, (pos q hq).1, by linarith⟩
  · obtain ⟨q, hq, hd⟩ := go _ (fun q => q.2.1) (fun q hq => (pos q hq).2.1)
      (neg (fun q => q.1.K - K) _ r1)
    exact ⟨q.1, (pos q hq).1, by linarith⟩
  · obtain ⟨q, hq, hd⟩ := go (fun q => q.1.G - G) (fun q => q.2.2) (fun q hq => (pos q hq).2.2) r2
    exact ⟨q.1, (pos q hq).1, by linarith⟩
  · obtain ⟨q, hq, hd⟩ := go _ (fun q => q.2.2) (fun q hq => (pos q hq).2.2)
      (neg (fun q => q.1.G - G) _ r2)
    exact ⟨q.1, (pos q hq).1, by linarith⟩

/-- Such an oracle exists, and the equations have roots: three phases of equal moduli. -/
example : (∃ fsolve, FindsRoot fsolve) ∧ ∃ K' G' as',
    Berryman_func K' G' [fin 37, fin 37, fin 37] [fin 44, fin 44, fin 44]
      [fin 0.5, fin 0.3, fin 0.2] [fin 1, fin 0.1, fin 0.01] = .ok (fin 0, fin 0, as') := by
  classical
  refine ⟨⟨fun f y => if h : ∃ r, f r = .ok (fin 0, fin 0) then h.choose else y, ?_⟩, ?_⟩
  · intro f y h
    dsimp only
    rw [dif_pos h]
    exact h.choose_spec
  · obtain ⟨as', e⟩ := C19_Berryman_homogeneous 37 44 [0.5, 0.3, 0.2] [1, 0.1, 0.01] (by norm_num)
      (by norm_num) (by
        intro a ha
        fin_cases ha <;> norm_num) rfl
    exact ⟨_, _, as', e⟩

/-! ## The differential scheme -/

/-- A quantity with `u' = -c u`, `c ≥ 0`, that starts non-negative stays so and never grows. -/
theorem decay {u c : ℝ → ℝ} {T : ℝ} (hu : ∀ t ∈ Icc 0 T, HasDerivWithinAt u (-(c t * u t)) (Icc 0 T) t)
    (hc : ∀ t ∈ Icc 0 T, 0 ≤ c t) (h0 : 0 ≤ u 0) :
    AntitoneOn u (Icc 0 T) ∧ ∀ t ∈ Icc 0 T, 0 ≤ u t := by
  have cont : ContinuousOn u (Icc 0 T) := fun t ht => (hu t ht).continuousWithinAt
  have sq : AntitoneOn (fun t => u t ^ 2) (Icc 0 T) := by
    refine antitoneOn_of_deriv_nonpos (convex_Icc 0 T) (cont.pow 2) ?_ ?_
    · intro t ht
      rw [interior_Icc] at ht
      exact (((hu t (Ioo_subset_Icc_self ht)).hasDerivAt (Icc_mem_nhds ht.1 ht.2)).pow
        2).differentiableAt.differentiableWithinAt
    · intro t ht
      rw [interior_Icc] at ht
      have := ((hu t (Ioo_subset_Icc_self ht)).hasDerivAt (Icc_mem_nhds ht.1 ht.2)).fun_pow 2
      rw [this.deriv]
      have := hc t (Ioo_subset_Icc_self ht)
      simp only [Nat.cast_ofNat, Nat.add_one_sub_one, pow_one]
      nlinarith [mul_nonneg this (sq_nonneg (u t))]
  have nn : ∀ t ∈ Icc 0 T, 0 ≤ u t := by
    intro t ht
    by_contra hn
    push Not at hn
    have sub : Icc 0 t ⊆ Icc 0 T := Icc_subset_Icc_right ht.2
    obtain ⟨s, hs, hs0⟩ := intermediate_value_Icc' ht.1 (cont.mono sub) ⟨hn.le, h0⟩
    have := sq (sub hs) ht hs.2
    dsimp only at this
    rw [hs0] at this
    nlinarith
  refine ⟨?_, nn⟩
  refine antitoneOn_of_deriv_nonpos (convex_Icc 0 T) cont ?_ ?_
  · intro t ht
    rw [interior_Icc] at ht
    exact ((hu t (Ioo_subset_Icc_self ht)).hasDerivAt
      (Icc_mem_nhds ht.1 ht.2)).differentiableAt.differentiableWithinAt
  · intro t ht
    rw [interior_Icc] at ht
    rw [((hu t (Ioo_subset_Icc_self ht)).hasDerivAt (Icc_mem_nhds ht.1 ht.2)).deriv]
    have := mul_nonneg (hc t (Ioo_subset_Icc_self ht)) (nn t (Ioo_subset_Icc_self ht))
    linarith

/-- The equations of the differential scheme: every new portion of inclusions changes the moduli by
the concentration factors of the inclusion in the medium reached so far. -/
theorem C82_DEM (K G Ki Gi t a P Q : ℝ) (hK : 0 < K) (hG : 0 < G) (hKi : 0 ≤ Ki) (hGi : 0 ≤ Gi)
    (h0 : 0 < a) (h1 : a ≤ 1) (ht : t ≠ 1) (h : IsConcentration K G Ki Gi (spheroid a) P Q) :
    DEM (fin K) (fin G) (fin t) (fin Gi) (fin Ki) (fin a)
      = (fin ((Ki - K) * P / (1 - t)), fin ((Gi - G) * Q / (1 - t))) := by
  obtain ⟨P', Q', e, -, -, h'⟩ := C79_oblate K G Ki Gi a hK hG hKi hGi h0 h1
  obtain ⟨rfl, rfl⟩ := h.unique h'
  have : 1 - t ≠ 0 := sub_ne_zero.mpr ht.symm
  unfold DEM
  rw [e]
  fl_eval []
  refine Prod.ext (congrArg fin ?_) (congrArg fin ?_) <;> field

/-- Both moduli of a solution of the differential scheme approach those of the inclusion
monotonically and never pass them. -/
theorem C82_DEM_monotone (Ki Gi a T Km Gm : ℝ) (k g : ℝ → ℝ) (hKi : 0 ≤ Ki) (hGi : 0 ≤ Gi)
    (h0 : 0 < a) (h1 : a ≤ 1) (hT0 : 0 ≤ T) (hT : T < 1)
    (hs : SolvesOn (fun y t => DEM y.1 y.2 t (fin Gi) (fin Ki) (fin a)) T (fin Km, fin Gm) k g)
    (hp : ∀ t ∈ Icc 0 T, 0 < k t ∧ 0 < g t) :
    k 0 = Km ∧ g 0 = Gm ∧
    (Ki ≤ Km → AntitoneOn k (Icc 0 T) ∧ ∀ t ∈ Icc 0 T, Ki ≤ k t ∧ k t ≤ Km) ∧
    (Km ≤ Ki → MonotoneOn k (Icc 0 T) ∧ ∀ t ∈ Icc 0 T, Km ≤ k t ∧ k t ≤ Ki) ∧
    (Gi ≤ Gm → AntitoneOn g (Icc 0 T) ∧ ∀ t ∈ Icc 0 T, Gi ≤ g t ∧ g t ≤ Gm) ∧
    (Gm ≤ Gi → MonotoneOn g (Icc 0 T) ∧ ∀ t ∈ Icc 0 T, Gm ≤ g t ∧ g t ≤ Gi) := by
  obtain ⟨hi, hs⟩ := hs
  injection hi with i1 i2
  rw [fin_inj] at i1 i2
  have key : ∀ t ∈ Icc 0 T, ∃ c d : ℝ, 0 ≤ c ∧ 0 ≤ d ∧
      HasDerivWithinAt k (c * (Ki - k t)) (Icc 0 T) t ∧
      HasDerivWithinAt g (d * (Gi - g t)) (Icc 0 T) t := by
    intro t ht
    obtain ⟨pk, pg⟩ := hp t ht
    obtain ⟨P, Q, -, hP, hQ, con⟩ := C79_oblate (k t) (g t) Ki Gi a pk pg hKi hGi h0 h1
    have t1 : t < 1 := lt_of_le_of_lt ht.2 hT
    obtain ⟨k', g', e, d1, d2⟩ := hs t ht
    dsimp only at e
    rw [C82_DEM (k t) (g t) Ki Gi t a P Q pk pg hKi hGi h0 h1 t1.ne con] at e
    injection e with e1 e2
    rw [fin_inj] at e1 e2
    have n : 0 < 1 - t := by linarith
    refine ⟨P / (1 - t), Q / (1 - t), by positivity, by positivity, ?_, ?_⟩
    · have : P / (1 - t) * (Ki - k t) = k' := by rw [← e1]; ring
      rwa [this]
    · have : Q / (1 - t) * (Gi - g t) = g' := by rw [← e2]; ring
      rwa [this]
  have z : (0 : ℝ) ∈ Icc 0 T := ⟨le_rfl, hT0⟩
  have down : ∀ (y : ℝ → ℝ) (Y : ℝ), (∀ t ∈ Icc 0 T, ∃ c : ℝ, 0 ≤ c ∧
      HasDerivWithinAt y (c * (Y - y t)) (Icc 0 T) t) → Y ≤ y 0 →
      AntitoneOn y (Icc 0 T) ∧ ∀ t ∈ Icc 0 T, Y ≤ y t ∧ y t ≤ y 0 := by
    intro y Y hy h
    choose! c hc hd using hy
    obtain ⟨a1, a2⟩ := decay (u := fun t => y t - Y) (c := c) (T := T)
      (fun t ht => by
        have := (hd t ht).sub_const Y
        have e : c t * (Y - y t) = -(c t * (y t - Y)) := by ring
        rwa [e] at this) hc (by linarith)
    have a1' : AntitoneOn y (Icc 0 T) := fun s hs t ht hst => by
      have := a1 hs ht hst
      dsimp only at this
      linarith
    exact ⟨a1', fun t ht => ⟨by linarith [a2 t ht], a1' z ht ht.1⟩⟩
  have up : ∀ (y : ℝ → ℝ) (Y : ℝ), (∀ t ∈ Icc 0 T, ∃ c : ℝ, 0 ≤ c ∧
      HasDerivWithinAt y (c * (Y - y t)) (Icc 0 T) t) → y 0 ≤ Y →
      MonotoneOn y (Icc 0 T) ∧ ∀ t ∈ Icc 0 T, y 0 ≤ y t ∧ y t ≤ Y := by
    intro y Y hy h
    obtain ⟨a1, a2⟩ := down (fun t => -y t) (-Y) (fun t ht => by
      obtain ⟨c, hc, hd⟩ := hy t ht
      refine ⟨c, hc, ?_⟩
      have := hd.neg
      have e : -(c * (Y - y t)) = c * (-Y - -y t) := by ring
      rwa [e] at this) (by linarith)
    refine ⟨fun s hs t ht hst => ?_, fun t ht => ?_⟩
    · have := a1 hs ht hst
      dsimp only at this
      linarith
    · have := a2 t ht
      exact ⟨by linarith, by linarith⟩
  have kk : ∀ t ∈ Icc 0 T, ∃ c : ℝ, 0 ≤ c ∧ HasDerivWithinAt k (c * (Ki - k t)) (Icc 0 T) t :=
    fun t ht => by
      obtain ⟨c, -, hc, -, hd, -⟩ := key t ht
      exact ⟨c, hc, hd⟩
  have gg : ∀ t ∈ Icc 0 T, ∃ c : ℝ, 0 ≤ c ∧ HasDerivWithinAt g (c * (Gi - g t)) (Icc 0 T) t :=
    fun t ht => by
      obtain ⟨-, d, -, hc, -, hd⟩ := key t ht
      exact ⟨d, hc, hd⟩
  rw [i1, i2]
  exact ⟨rfl, rfl, down k Ki kk, up k Ki kk, down g Gi gg, up g Gi gg⟩

/-- The fractions for which `Berryman_DEM` reports: 0, 0.01, 0.02, ... up to the first one not
below `phi`, which overshoots `phi` unless it is a multiple of 0.01. -/
theorem C82_DEM_fractions (odeint : (Fl × Fl → Fl → Fl × Fl) → Fl × Fl → List Fl → List (Fl × Fl))
    (ceil : Fl → ℕ) (hc : ∀ x : ℝ, ceil (fin x) = ⌈x⌉₊) (Km Gm Ki Gi alpha : Fl) (phi : ℝ)
    (hphi : 0 ≤ phi) :
    ∃ n : ℕ, (Berryman_DEM odeint ceil Km Gm Ki Gi alpha (fin phi)).2.2
        = (List.range (n + 1)).map (fun i : ℕ => fin ((i : ℝ) / 100)) ∧
      phi ≤ n / 100 ∧ (n : ℝ) / 100 < phi + 1 / 100 := by
  refine ⟨⌈phi * 100⌉₊, ?_, ?_, ?_⟩
  · unfold Berryman_DEM arange
    dsimp only
    have e : (((fin phi : Fl) + 0.01 - 0) / 0.01 : Fl) = fin (phi * 100 + 1) := by
      have : (0.01 : ℝ) ≠ 0 := by norm_num
      fl_eval []
      rw [fin_inj]
      norm_num
      ring
    rw [e, hc, Nat.ceil_add_one (by positivity)]
    refine List.map_congr_left fun i _ => ?_
    have : (PyNum.nat i : Fl) = fin i := rfl
    rw [this]
    fl_eval []
    rw [fin_inj]
    norm_num
    ring
  · have := Nat.le_ceil (phi * 100)
    linarith
  · have := Nat.ceil_lt_add_one (a := phi * 100) (by positivity)
    linarith

/-- `Berryman_DEM` with an exact integrator, up to 99 percent inclusions: it starts at the host,
the moduli approach those of the inclusion monotonically and never pass them. -/
theorem C82_Berryman_DEM
    (odeint : (Fl × Fl → Fl → Fl × Fl) → Fl × Fl → List Fl → List (Fl × Fl))
    (ceil : Fl → ℕ) (hc : ∀ x : ℝ, ceil (fin x) = ⌈x⌉₊) (Km Gm Ki Gi a phi : ℝ) (k g : ℝ → ℝ)
    (n : ℕ) (hn : n = ⌈phi * 100⌉₊) (hphi : 0 ≤ phi) (hphi' : phi ≤ 0.99)
    (hKi : 0 ≤ Ki) (hGi : 0 ≤ Gi) (h0 : 0 < a) (h1 : a ≤ 1)
    (hs : SolvesOn (fun y t => DEM y.1 y.2 t (fin Gi) (fin Ki) (fin a)) (n / 100)
      (fin Km, fin Gm) k g)
    (hp : ∀ t ∈ Icc (0 : ℝ) (n / 100), 0 < k t ∧ 0 < g t)
    (hode : odeint (fun y t => DEM y.1 y.2 t (fin Gi) (fin Ki) (fin a)) (fin Km, fin Gm)
        ((List.range (n + 1)).map fun i : ℕ => fin ((i : ℝ) / 100))
      = (List.range (n + 1)).map fun i : ℕ => (fin (k (i / 100)), fin (g (i / 100)))) :
    Berryman_DEM odeint ceil (fin Km) (fin Gm) (fin Ki) (fin Gi) (fin a) (fin phi)
      = ((List.range (n + 1)).map (fun i : ℕ => fin (k (i / 100))),
         (List.range (n + 1)).map (fun i : ℕ => fin (g (i / 100))),
         (List.range (n + 1)).map fun i : ℕ => fin ((i : ℝ) / 100)) ∧
    k 0 = Km ∧ g 0 = Gm ∧
    ∀ i j : ℕ, i ≤ j → j ≤ n →
      (Ki ≤ Km → Ki ≤ k (j / 100) ∧ k (j / 100) ≤ k (i / 100)) ∧
      (Km ≤ Ki → k (i / 100) ≤ k (j / 100) ∧ k (j / 100) ≤ Ki) ∧
      (Gi ≤ Gm → Gi ≤ g (j / 100) ∧ g (j / 100) ≤ g (i / 100)) ∧
      (Gm ≤ Gi → g (i / 100) ≤ g (j / 100) ∧ g (j / 100) ≤ Gi) := by
  have hT : (n : ℝ) / 100 < 1 := by
    have : n ≤ 99 := by
      rw [hn]
      exact Nat.ceil_le.mpr (by norm_num at hphi' ⊢; linarith)
    have : (n : ℝ) ≤ 99 := by exact_mod_cast this
    linarith
  have tt : arange ceil 0 (fin phi + 0.01) 0.01
      = (List.range (n + 1)).map fun i : ℕ => fin ((i : ℝ) / 100) := by
    have e' : (((fin phi : Fl) + 0.01 - 0) / 0.01 : Fl) = fin (phi * 100 + 1) := by
      have : (0.01 : ℝ) ≠ 0 := by norm_num
      fl_eval []
      rw [fin_inj]
      norm_num
      ring
    unfold arange
    rw [e', hc, Nat.ceil_add_one (by positivity), ← hn]
    refine List.map_congr_left fun i _ => ?_
    have : (PyNum.nat i : Fl) = fin i := rfl
    rw [this]
    fl_eval []
    rw [fin_inj]
    norm_num
    ring
  obtain ⟨m1, m2, m3, m4, m5, m6⟩ := C82_DEM_monotone Ki Gi a (n / 100) Km Gm k g hKi hGi h0 h1
    (by positivity) hT hs hp
  refine ⟨?_, m1, m2, fun i j hij hj => ?_⟩
  · unfold Berryman_DEM
    dsimp only
    rw [tt, hode, List.map_map, List.map_map]
    rfl
  have mi : (i : ℝ) / 100 ∈ Icc (0 : ℝ) (n / 100) := by
    have : (i : ℝ) ≤ n := by exact_mod_cast hij.trans hj
    exact ⟨by positivity, by linarith⟩
  have mj : (j : ℝ) / 100 ∈ Icc (0 : ℝ) (n / 100) := by
    have : (j : ℝ) ≤ n := by exact_mod_cast hj
    exact ⟨by positivity, by linarith⟩
  have l : (i : ℝ) / 100 ≤ j / 100 := by
    have : (i : ℝ) ≤ j := by exact_mod_cast hij
    linarith
  refine ⟨fun h => ?_, fun h => ?_, fun h => ?_, fun h => ?_⟩
  · exact ⟨((m3 h).2 _ mj).1, (m3 h).1 mi mj l⟩
  · exact ⟨(m4 h).1 mi mj l, ((m4 h).2 _ mj).2⟩
  · exact ⟨((m5 h).2 _ mj).1, (m5 h).1 mi mj l⟩
  · exact ⟨(m6 h).1 mi mj l, ((m6 h).2 _ mj).2⟩

/-- Spheres in a host of the same shear modulus: the differential scheme is solved by the exact
(Hill) modulus, at which the Hashin-Shtrikman bounds meet. -/
theorem C82_DEM_equal_shear (Km Ki G T : ℝ) (hKm : 0 < Km) (hKi : 0 < Ki) (hG : 0 < G) (hT : T < 1) :
    SolvesOn (fun y t => DEM y.1 y.2 t (fin G) (fin Ki) (fin 1)) T (fin Km, fin G)
      (fun t => hsMean t Ki Km (hsBulk G)) (fun _ => G) ∧
    ∀ t ∈ Icc 0 T, 0 < hsMean t Ki Km (hsBulk G) := by
  have hz := hsBulk_pos hG
  have pos : ∀ t ∈ Icc 0 T, 0 < hsMean t Ki Km (hsBulk G) := by
    intro t ht
    have t1 : t < 1 := lt_of_le_of_lt ht.2 hT
    have d := hsMean_den (z := hsBulk G) (f := t) ht.1 t1.le (by linarith : 0 < Ki + hsBulk G)
      (by linarith : 0 < Km + hsBulk G)
    unfold hsMean
    have e : t / (Ki + hsBulk G) + (1 - t) / (Km + hsBulk G) < 1 / hsBulk G := by
      have l1 : 1 / (Ki + hsBulk G) < 1 / hsBulk G := one_div_lt_one_div_of_lt hz (by linarith)
      have l2 : 1 / (Km + hsBulk G) < 1 / hsBulk G := one_div_lt_one_div_of_lt hz (by linarith)
      have a1 : t / (Ki + hsBulk G) = t * (1 / (Ki + hsBulk G)) := by ring
      have a2 : (1 - t) / (Km + hsBulk G) = (1 - t) * (1 / (Km + hsBulk G)) := by ring
      rw [a1, a2]
      have := mul_le_mul_of_nonneg_left l1.le ht.1
      have := mul_lt_mul_of_pos_left l2 (by linarith : 0 < 1 - t)
      linarith
    have p : 0 < t / (Ki + hsBulk G) + (1 - t) / (Km + hsBulk G) := by
      have := ht.1
      have : 0 < 1 - t := by linarith
      positivity
    have := one_div_lt_one_div_of_lt p e
    rw [one_div_one_div, one_div] at this
    linarith
  refine ⟨⟨?_, fun t ht => ?_⟩, pos⟩
  · refine Prod.ext (congrArg fin ?_) rfl
    unfold hsMean
    simp
  have t1 : t < 1 := lt_of_le_of_lt ht.2 hT
  have n : 0 < 1 - t := by linarith
  obtain ⟨P, Q, -, -, -, con⟩ := C79_oblate (hsMean t Ki Km (hsBulk G)) G Ki G 1 (pos t ht) hG
    hKi.le hG.le one_pos le_rfl
  dsimp only
  refine ⟨_, _, C82_DEM _ G Ki G t 1 P Q (pos t ht) hG hKi.le hG.le one_pos le_rfl t1.ne con, ?_, ?_⟩
  · obtain ⟨eP, -⟩ := sphere_concentration (pos t ht) hG hKi.le hG.le con
    have p : t / (Ki + hsBulk G) + (1 - t) / (Km + hsBulk G) ≠ 0 := by
      have := ht.1
      positivity
    have d : HasDerivAt (fun t => t / (Ki + hsBulk G) + (1 - t) / (Km + hsBulk G))
        (1 / (Ki + hsBulk G) + (-1) / (Km + hsBulk G)) t :=
      ((hasDerivAt_id t).div_const _).add (((hasDerivAt_id t).const_sub 1).div_const _)
    have d2 := (d.inv p).sub_const (hsBulk G)
    have e : (Ki - hsMean t Ki Km (hsBulk G)) * P / (1 - t)
        = -(1 / (Ki + hsBulk G) + (-1) / (Km + hsBulk G))
          / (t / (Ki + hsBulk G) + (1 - t) / (Km + hsBulk G)) ^ 2 := by
      have eP' : P = (hsMean t Ki Km (hsBulk G) + hsBulk G) / (Ki + hsBulk G) := by
        rw [eP]
        generalize hsMean t Ki Km (hsBulk G) = y
        unfold hsBulk
        field
      rw [eP']
      unfold hsMean
      rw [sub_add_cancel]
      have f : Ki - ((t / (Ki + hsBulk G) + (1 - t) / (Km + hsBulk G))⁻¹ - hsBulk G)
          = (Ki + hsBulk G) - (t / (Ki + hsBulk G) + (1 - t) / (Km + hsBulk G))⁻¹ := by ring
      rw [f]
      have i1 : 0 < Ki + hsBulk G := by linarith
      have i2 : 0 < Km + hsBulk G := by linarith
      generalize Ki + hsBulk G = x at *
      generalize Km + hsBulk G = y at *
      have g2 : -(1 / x + -1 / y) = (t / x + (1 - t) / y - 1 / x) / (1 - t) := by field
      rw [g2]
      generalize t / x + (1 - t) / y = D at *
      field
    rw [e]
    exact d2.hasDerivWithinAt
  · rw [sub_self, zero_mul, zero_div]
    exact hasDerivWithinAt_const _ _ _

example : ∃ k g : ℝ → ℝ, SolvesOn (fun y t => DEM y.1 y.2 t (fin 20) (fin 2) (fin 1)) 0.5
    (fin 40, fin 20) k g ∧ ∀ t ∈ Icc (0 : ℝ) 0.5, 0 < k t ∧ 0 < g t := by
  obtain ⟨a, b⟩ := C82_DEM_equal_shear 40 2 20 0.5 (by norm_num) (by norm_num) (by norm_num)
    (by norm_num)
  exact ⟨_, _, a, fun t ht => ⟨b t ht, by norm_num⟩⟩

end RockPhy.Props
