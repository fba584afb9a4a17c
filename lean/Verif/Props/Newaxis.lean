import Verif.Props.Broadcast
import Verif.Model.Arrays

/-!
# C102: loops over arrays, logs, and the functions that reshape their arguments
-/

namespace RockPhy.Props

open Spec Nd

/-! ### Loops and optional arguments -/

theorem SC_elementwise (phi Ks Gs : Nd Fl) (n : ℕ) :
    Elementwise (EM.SC phi Ks Gs (n + 1)).1 [phi, Ks, Gs]
      (fun at_ => (EM.SC (at_ phi) (at_ Ks) (at_ Gs) (n + 1)).1) ∧
    Elementwise (EM.SC phi Ks Gs (n + 1)).2 [phi, Ks, Gs]
      (fun at_ => (EM.SC (at_ phi) (at_ Ks) (at_ Gs) (n + 1)).2) := by
  induction n with
  | zero => refine ⟨?_, ?_⟩ <;> nd_eval [EM.SC, EM.SC_step]
  | succ n ih =>
    obtain ⟨i1, i2⟩ := ih
    have e : ∀ {α : Type} [PyNum α] (phi Ks Gs : α), EM.SC phi Ks Gs (n + 1 + 1)
      = EM.SC_step phi Ks Gs (EM.SC phi Ks Gs (n + 1)) := fun _ _ _ => rfl
    simp only [e]
    have s1 := i1.1
    have s2 := i2.1
    simp only [List.map_cons, List.map_nil, bcs_cons, bcs_nil, bc_nil] at s1 s2
    constructor
    all_goals
      refine Elementwise.of ?_ fun u hu h i => ?_
      · simp only [nd, List.map_cons, List.map_nil, bcs_cons, bcs_nil, EM.SC_step, s1, s2,
          bc_comm, bc_left_comm, bc_self, bc_left_self]
      · have f1 := i1.fits hu h
        have f2 := i2.fits hu h
        have r1 := i1.read hu h i
        have r2 := i2.read hu h i
        simp only [List.forall_mem_cons, List.not_mem_nil, false_imp_iff, implies_true,
          and_true] at h
        simp (disch := simp only [nd, h, f1, f2, fits_one hu, fits_ofNat hu, and_self]) only
          [nd, read_add (u := u), read_mul (u := u), read_div (u := u), EM.SC_step, r1, r2]

theorem SC_flex_elementwise (f Km Ki Gm Gi : Nd Fl) (n : ℕ) :
    Elementwise (EM.SC_flex f (n + 2) Km Ki Gm Gi).1 [f, Km, Ki, Gm, Gi]
      (fun at_ => (EM.SC_flex (at_ f) (n + 2) (at_ Km) (at_ Ki) (at_ Gm) (at_ Gi)).1) ∧
    Elementwise (EM.SC_flex f (n + 2) Km Ki Gm Gi).2 [f, Km, Ki, Gm, Gi]
      (fun at_ => (EM.SC_flex (at_ f) (n + 2) (at_ Km) (at_ Ki) (at_ Gm) (at_ Gi)).2) := by
  induction n with
  | zero => refine ⟨?_, ?_⟩ <;> nd_eval [EM.SC_flex, EM.SC_flex_step]
  | succ n ih =>
    obtain ⟨i1, i2⟩ := ih
    have e : ∀ {α : Type} [PyNum α] (f Km Ki Gm Gi : α), EM.SC_flex f (n + 1 + 2) Km Ki Gm Gi
      = EM.SC_flex_step f Km Ki Gm Gi (EM.SC_flex f (n + 2) Km Ki Gm Gi) := fun _ _ _ _ _ => rfl
    simp only [e]
    have s1 := i1.1
    have s2 := i2.1
    simp only [List.map_cons, List.map_nil, bcs_cons, bcs_nil, bc_nil] at s1 s2
    constructor
    all_goals
      refine Elementwise.of ?_ fun u hu h i => ?_
      · simp only [nd, List.map_cons, List.map_nil, bcs_cons, bcs_nil, EM.SC_flex_step, s1, s2,
          bc_assoc, bc_comm, bc_left_comm, bc_self, bc_left_self]
      · have f1 := i1.fits hu h
        have f2 := i2.fits hu h
        have r1 := i1.read hu h i
        have r2 := i2.read hu h i
        simp only [List.forall_mem_cons, List.not_mem_nil, false_imp_iff, implies_true,
          and_true] at h
        simp (disch := simp only [nd, h, f1, f2, fits_one hu, fits_ofNat hu, fits_sci hu,
            and_self]) only
          [nd, read_add (u := u), read_sub (u := u), read_mul (u := u), read_div (u := u),
            EM.SC_flex_step, r1, r2]

/-- The iterative self-consistent schemes, whatever the number of iterations. -/
theorem C102_EM_loops :
    (∀ (phi Ks Gs : Nd Fl), EM.SC phi Ks Gs 0 = (Ks, Gs)) ∧
    (∀ (phi Ks Gs : Nd Fl) (n : ℕ),
      Elementwise (EM.SC phi Ks Gs (n + 1)).1 [phi, Ks, Gs]
        (fun at_ => (EM.SC (at_ phi) (at_ Ks) (at_ Gs) (n + 1)).1) ∧
      Elementwise (EM.SC phi Ks Gs (n + 1)).2 [phi, Ks, Gs]
        (fun at_ => (EM.SC (at_ phi) (at_ Ks) (at_ Gs) (n + 1)).2)) ∧
    (∀ f Km Ki Gm Gi : Nd Fl, EM.SC_flex f 0 Km Ki Gm Gi = (Km, Km)) ∧
    (∀ f Km Ki Gm Gi : Nd Fl,
      Elementwise (EM.SC_flex f 1 Km Ki Gm Gi).1 [f, Km, Ki]
        (fun at_ => (EM.SC_flex (at_ f) 1 (at_ Km) (at_ Ki) (at_ Gm) (at_ Gi)).1) ∧
      Elementwise (EM.SC_flex f 1 Km Ki Gm Gi).2 [f, Km, Gm, Gi]
        (fun at_ => (EM.SC_flex (at_ f) 1 (at_ Km) (at_ Ki) (at_ Gm) (at_ Gi)).2)) ∧
    (∀ (f Km Ki Gm Gi : Nd Fl) (n : ℕ),
      Elementwise (EM.SC_flex f (n + 2) Km Ki Gm Gi).1 [f, Km, Ki, Gm, Gi]
        (fun at_ => (EM.SC_flex (at_ f) (n + 2) (at_ Km) (at_ Ki) (at_ Gm) (at_ Gi)).1) ∧
      Elementwise (EM.SC_flex f (n + 2) Km Ki Gm Gi).2 [f, Km, Ki, Gm, Gi]
        (fun at_ => (EM.SC_flex (at_ f) (n + 2) (at_ Km) (at_ Ki) (at_ Gm) (at_ Gi)).2)) := by
  refine ⟨fun _ _ _ => rfl, SC_elementwise, fun _ _ _ _ _ => rfl, ?_, SC_flex_elementwise⟩
  intros
  refine ⟨?_, ?_⟩ <;> nd_eval [EM.SC_flex, EM.SC_flex_step]

/-- Live oil with a given gas-oil ratio, and brine with carbon dioxide mixed by a given Brie
exponent, when that argument is a number.  (An array is compared with `None`, which is an error.) -/
theorem C102_BW_options :
    (∀ (P T den G : Nd Fl) (Rg : Fl),
      Elementwise (BW.rho_K_go P T den G (some (num Rg))).1 [T, den, G]
        (fun at_ => (BW.rho_K_go (at_ P) (at_ T) (at_ den) (at_ G) (some Rg)).1) ∧
      Elementwise (BW.rho_K_go P T den G (some (num Rg))).2 [P, T, den, G]
        (fun at_ => (BW.rho_K_go (at_ P) (at_ T) (at_ den) (at_ G) (some Rg)).2)) ∧
    (∀ (T P S Sc : Nd Fl) (e : Fl) (bw : Bool),
      Elementwise (BW.co2_brine T P S Sc (some (num e)) bw).1 [T, P, S, Sc]
        (fun at_ => (BW.co2_brine (at_ T) (at_ P) (at_ S) (at_ Sc) (some e) bw).1) ∧
      Elementwise (BW.co2_brine T P S Sc (some (num e)) bw).2 [T, P, S, Sc]
        (fun at_ => (BW.co2_brine (at_ T) (at_ P) (at_ S) (at_ Sc) (some e) bw).2)) := by
  refine ⟨?_, ?_⟩
  · intros; refine ⟨?_, ?_⟩ <;> nd_eval [BW.rho_K_go]
  · intro T P S Sc e bw
    cases bw <;> refine ⟨?_, ?_⟩ <;> nd_eval [BW.co2_brine, BW.rho_K_brine, BW.v_brine,
      BW.rho_K_water, BW.rho_K_co2, BW.rho_K_reduced, BW.dz_dp, BW.rho_K_gas, BW.pseudo_p_t,
      Bool.false_eq_true, Fluid.Brie]

/-! ### Logs -/

theorem read_vec {n k : ℕ} (f : ℕ → Fl) (hk : k < n) (l : List ℕ) :
    (vec n f).read (k :: l) = f k := by
  show f (if n = 1 then 0 else k) = f k
  split
  · congr 1; omega
  · rfl

theorem bdim_one (m : ℕ) : bdim m 1 = some m := by unfold bdim; split_ifs <;> simp_all

theorem bcs_logs {n : ℕ} {l : List (Option (List ℕ))}
    (h : ∀ a ∈ l, a = some [] ∨ a = some [n]) (hn : some [n] ∈ l) : bcs l = some [n] := by
  have h0 : ∀ l : List (Option (List ℕ)), (∀ a ∈ l, a = some [] ∨ a = some [n]) →
      bcs l = some [] ∨ bcs l = some [n] := by
    intro l h
    induction l with
    | nil => exact Or.inl rfl
    | cons a l ih =>
      rw [bcs_cons]
      rcases h a List.mem_cons_self with rfl | rfl <;>
        rcases ih fun b hb => h b (List.mem_cons_of_mem _ hb) with e | e <;> rw [e]
      · exact Or.inl rfl
      · exact Or.inr (nil_bc _)
      · exact Or.inr (bc_nil _)
      · exact Or.inr (bc_self _)
  rcases h0 l h with e | e
  · have := bc_bcs hn
    rw [e, bc_nil] at this
    exact absurd this (by simp)
  · exact e

/-- A formula that acts entry by entry, on logs of one length and numbers, gives the log of the
numbers it gives for the entries. -/
theorem C102_logs {r : Nd Fl} {args : List (Nd Fl)} {v : (Nd Fl → Fl) → Fl}
    (h : Elementwise r args v) (n : ℕ) (ha : ∀ x ∈ args, (∃ a, x = num a) ∨ ∃ f, x = vec n f)
    (hv : ∃ f, vec n f ∈ args) : IsVec r n fun k => v fun x => x.read [k] := by
  have hs : r.shape = some [n] := by
    rw [h.1]
    obtain ⟨f, hf⟩ := hv
    refine bcs_logs ?_ (List.mem_map.mpr ⟨_, hf, rfl⟩)
    intro a ha'
    obtain ⟨x, hx, rfl⟩ := List.mem_map.mp ha'
    rcases ha x hx with ⟨a, rfl⟩ | ⟨g, rfl⟩
    · exact Or.inl rfl
    · exact Or.inr rfl
  refine ⟨hs, fun k _ => h.2 ?_ [k]⟩
  rw [hs]
  exact fun e => nomatch e

/-- Logs of different lengths raise `ValueError`, unless one of them has a single sample. -/
theorem C102_mismatch {r : Nd Fl} {args : List (Nd Fl)} {v : (Nd Fl → Fl) → Fl}
    (h : Elementwise r args v) {n m : ℕ} {f g : ℕ → Fl} (hf : vec n f ∈ args) (hg : vec m g ∈ args)
    (hn : n ≠ 1) (hm : m ≠ 1) (hnm : n ≠ m) : r = err := by
  have h1 : bc (some [n]) (bcs (args.map shape)) = _ := bc_bcs (List.mem_map.mpr ⟨_, hf, rfl⟩)
  have h2 : bc (some [m]) (bcs (args.map shape)) = _ := bc_bcs (List.mem_map.mpr ⟨_, hg, rfl⟩)
  have h3 : r.shape = none := by
    rw [h.1, ← h1, ← h2, ← bc_assoc]
    have : bc (some [n]) (some [m]) = none := by
      simp [bc, bshape, bdim, hn, hm, hnm]
    rw [this, none_bc]
  cases r with
  | err => rfl
  | arr s g => cases h3

/-- Gassmann's equation on logs of the dry moduli and the porosity, with one mineral and one
fluid. -/
example (n : ℕ) (Kd Gd phi : ℕ → Fl) (K0 Kf : Fl) :
    IsVec (Fluid.Gassmann (vec n Kd) (vec n Gd) (num K0) (num Kf) (vec n phi)).1 n
      fun k => (Fluid.Gassmann (Kd k) (Gd k) K0 Kf (phi k)).1 := by
  have h := C102_logs (C102_Fluid.2.1 (vec n Kd) (vec n Gd) (num K0) (num Kf) (vec n phi)).1 n
    (by simp) ⟨Kd, by simp⟩
  refine ⟨h.1, fun k hk => (h.2 k hk).trans ?_⟩
  simp only [read_vec _ hk, read_num]

/-- Logs of five and seven samples do not fit. -/
example (Kd Gd phi : ℕ → Fl) (K0 Kf : Fl) :
    (Fluid.Gassmann (vec 5 Kd) (vec 5 Gd) (num K0) (num Kf) (vec 7 phi)).1 = err :=
  C102_mismatch (C102_Fluid.2.1 _ _ _ _ _).1 (n := 5) (m := 7) (f := Kd) (g := phi) (by simp)
    (by simp) (by decide) (by decide) (by decide)

end RockPhy.Props
