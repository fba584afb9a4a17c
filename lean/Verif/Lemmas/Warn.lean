import Verif.Model.Warn
import Verif.Spec.Warn

/-!
# The water correlations in a session with warnings
-/

namespace RockPhy.Spec

open Warn

section broadcast

variable {α β γ δ ε : Type}

theorem bzip_fits {T : List α} {P : List β} (h : Fits T P) (f : α → β → γ) :
    bzip f T P = .ok ((entries T P).map fun q => f q.1 q.2) := by
  unfold bzip entries
  by_cases e : T.length = P.length
  · rw [if_pos e, if_pos e, List.map_zip_eq_zipWith]; rfl
  · rw [if_neg e, if_neg e]
    match T, P, h, e with
    | [a], P, _, _ => simp
    | [], [b], _, _ => simp
    | _ :: _ :: _, [b], _, _ => simp
    | [], [], _, e => exact absurd rfl e
    | [], _ :: _ :: _, h, _ => simp [Fits] at h
    | _ :: _ :: _, [], h, _ => simp [Fits] at h
    | _ :: _ :: _, _ :: _ :: _, h, e => simp [Fits] at h e; exact absurd h e

theorem bzip_misfit {T : List α} {P : List β} (h : ¬Fits T P) (f : α → β → γ) :
    ∃ e, bzip f T P = .error e := by
  unfold bzip
  by_cases e : T.length = P.length
  · exact absurd (Or.inl e) h
  · rw [if_neg e]
    match T, P, h, e with
    | [a], P, h, _ => simp [Fits] at h
    | [], [b], h, _ => simp [Fits] at h
    | _ :: _ :: _, [b], h, _ => simp [Fits] at h
    | [], [], _, e => exact absurd rfl e
    | [], _ :: _ :: _, _, _ => exact ⟨_, rfl⟩
    | _ :: _ :: _, [], _, _ => exact ⟨_, rfl⟩
    | _ :: _ :: _, _ :: _ :: _, _, _ => exact ⟨_, rfl⟩

theorem bzip_map (L : List α) (f : α → β) (g : α → γ) (k : β → γ → δ) :
    bzip k (L.map f) (L.map g) = .ok (L.map fun x => k (f x) (g x)) := by
  unfold bzip
  rw [if_pos (by simp)]
  congr 1
  induction L with
  | nil => rfl
  | cons a L ih => simp

theorem bzip_second {T : List α} {P : List β} (h : Fits T P) (f : α × β → γ) (g : β → δ)
    (k : γ → δ → ε) :
    bzip k ((entries T P).map f) (P.map g) = .ok ((entries T P).map fun q => k (f q) (g q.2)) := by
  unfold bzip entries
  by_cases e : T.length = P.length
  · rw [if_pos e, if_pos (by simp [e])]
    congr 1
    clear h
    induction T generalizing P with
    | nil => simp
    | cons a T ih =>
      cases P with
      | nil => simp
      | cons b P => simpa using ih (P := P) (by simpa using e)
  · rw [if_neg e]
    match T, P, h, e with
    | [a], P, _, _ => simp [List.zipWith_map, List.zipWith_self]
    | [], [b], _, _ => simp
    | _ :: _ :: _, [b], _, _ => simp
    | [], [], _, e => exact absurd rfl e
    | [], _ :: _ :: _, h, _ => simp [Fits] at h
    | _ :: _ :: _, [], h, _ => simp [Fits] at h
    | _ :: _ :: _, _ :: _ :: _, h, e => simp [Fits] at h e; exact absurd h e

end broadcast

/-- The session after one `warnings.warn`. -/
def after (s : Sess) : Sess := (warn s).2

theorem warn_ok {s : Sess} (h : s.action ≠ .error) : warn s = (.value (), after s) := by
  obtain ⟨a, r, o, n⟩ := s
  cases a <;> cases r <;> cases o <;> first | rfl | exact absurd rfl h

theorem after_action (s : Sess) : (after s).action = s.action := by
  obtain ⟨a, r, o, n⟩ := s
  cases a <;> cases r <;> cases o <;> rfl

theorem warn_error {s : Sess} (h : s.action = .error) (r : s.registered = false) :
    warn s = (.userWarning, s) := by
  obtain ⟨a, r, o, n⟩ := s
  cases h; cases r; rfl

/-! ## What the functions return -/

section run

variable {α : Type} [PyNum α]

theorem v_water_ok (T P : List α) {s : Sess} (h : s.action ≠ .error) :
    Warn.v_water T P s
      = Run.lift (bzip (fun t p => BW.v_water t p) T P) (if hot P then after s else s) := by
  unfold Warn.v_water Run.bind
  cases hot P
  · rfl
  · simp only [if_true, warn_ok h]

theorem rho_K_water_ok (T P : List α) {s : Sess} (h : s.action ≠ .error) (k : Fits T P) :
    Warn.rho_K_water T P s = (.value ((entries T P).map fun q => (BW.rho_K_water q.1 q.2).1,
      (entries T P).map fun q => (BW.rho_K_water q.1 q.2).2), if hot P then after s else s) := by
  unfold Warn.rho_K_water
  simp only [Run.bind, bzip_fits k, Run.lift, Run.pure, v_water_ok T P h, bzip_map]
  rfl

theorem v_brine_ok (T P : List α) (S : α) {s : Sess} (h : s.action ≠ .error) (k : Fits T P) :
    Warn.v_brine T P S s = (.value ((entries T P).map fun q => BW.v_brine q.1 q.2 S),
      if hot P then after s else s) := by
  unfold Warn.v_brine
  simp only [Run.bind, bzip_fits k, Run.lift, Run.pure, v_water_ok T P h, bzip_map, bzip_second k,
    List.map_map]
  rfl

theorem rho_K_brine_ok (T P : List α) (S : α) {s : Sess} (h : s.action ≠ .error) (k : Fits T P) :
    Warn.rho_K_brine T P S s = (.value ((entries T P).map fun q => (BW.rho_K_brine q.1 q.2 S).1,
      (entries T P).map fun q => (BW.rho_K_brine q.1 q.2 S).2),
      if hot P then after (after s) else s) := by
  have h' : (if hot P then after s else s).action ≠ .error := by
    split_ifs
    · rwa [after_action]
    · exact h
  unfold Warn.rho_K_brine
  simp only [Run.bind, rho_K_water_ok T P h k, bzip_fits k, Run.lift, Run.pure,
    v_brine_ok T P S h' k, bzip_map]
  cases hot P <;> rfl

theorem v_water_misfit (T P : List α) {s : Sess} (h : s.action ≠ .error) (k : ¬Fits T P) :
    Warn.v_water T P s = (.valueError, if hot P then after s else s) := by
  obtain ⟨e, he⟩ := bzip_misfit k (fun t p : α => BW.v_water t p)
  rw [v_water_ok T P h, he]; rfl

theorem rho_K_water_misfit (T P : List α) (s : Sess) (k : ¬Fits T P) :
    Warn.rho_K_water T P s = (.valueError, s) := by
  unfold Warn.rho_K_water Run.bind
  obtain ⟨e, he⟩ := bzip_misfit k (fun T P : α => 1 + 1e-6 * (-80 * T - 3.3 * T ** 2
    + 0.00175 * T ** 3 + 489 * P - 2 * T * P + 0.016 * P * T ** 2 - 1.3e-5 * T ** 3 * P
    - 0.333 * P ** 2 - 0.002 * T * P ** 2))
  rw [he]; rfl

theorem v_brine_misfit (T P : List α) (S : α) {s : Sess} (h : s.action ≠ .error)
    (k : ¬Fits T P) : Warn.v_brine T P S s = (.valueError, if hot P then after s else s) := by
  unfold Warn.v_brine Run.bind
  rw [v_water_misfit T P h k]

theorem rho_K_brine_misfit (T P : List α) (S : α) (s : Sess) (k : ¬Fits T P) :
    Warn.rho_K_brine T P S s = (.valueError, s) := by
  unfold Warn.rho_K_brine Run.bind
  rw [rho_K_water_misfit T P s k]

end run

theorem hot_iff (P : List Np) : hot P = true ↔ TooHigh P := by
  have key (p : Np) : PyNum.lt 100 p = true ↔ p = .inf ∨ ∃ r : ℝ, p = .fin r ∧ 100 < r := by
    cases p with
    | fin r =>
      have : PyNum.lt (100 : Np) (.fin r) = decide ((100 : ℝ) < r) := rfl
      simp [this]
    | inf => exact ⟨fun _ => .inl rfl, fun _ => rfl⟩
    | ninf =>
      exact ⟨fun h => absurd h Bool.false_ne_true, fun h => by rcases h with h | ⟨_, h, _⟩ <;> cases h⟩
    | nan =>
      exact ⟨fun h => absurd h Bool.false_ne_true, fun h => by rcases h with h | ⟨_, h, _⟩ <;> cases h⟩
  simp only [hot, List.any_eq_true, key, TooHigh]

end RockPhy.Spec
