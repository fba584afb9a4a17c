import Verif.Props.Warn

/-!
# C113: any mixture of calls and filters

The filter may be changed between any two calls, also to `error`.
-/

namespace RockPhy.Props

open Spec Warn

/-- A step of a session: a call, or a new filter. -/
inductive Step
  | call (c : Call Np)
  | filter (a : Action)

/-- The session after a step. -/
noncomputable def Step.run : Step → Sess → Sess
  | .call c, s => c.run s
  | .filter a, s => simplefilter a s

/-- How often a step warns. -/
noncomputable def Step.warnings : Step → ℕ
  | .call c => Props.warnings c
  | .filter _ => 0

/-- A computation that leaves the session as it is. -/
def Leaves {β : Type} (m : Run β) (s : Sess) : Prop := (m s).2 = s

theorem leaves_bind {β γ : Type} {m : Run β} {k : β → Run γ} {s : Sess} (h : Leaves m s)
    (g : ∀ b, Leaves (k b) s) : Leaves (Run.bind m k) s := by
  unfold Leaves at h g ⊢
  rcases e : m s with ⟨o, s'⟩
  rw [e] at h
  obtain rfl : s' = s := h
  cases o with
  | value b => simp only [Run.bind, e]; exact g b
  | valueError => simp only [Run.bind, e]
  | userWarning => simp only [Run.bind, e]

theorem leaves_pure {β : Type} (b : β) (s : Sess) : Leaves (Run.pure b) s := rfl

theorem leaves_lift {β : Type} (b : Except PyErr β) (s : Sess) : Leaves (Run.lift b) s := by
  cases b <;> rfl

theorem leaves_warn {s : Sess} (h : s.action = .error) : Leaves warn s := by
  obtain ⟨a, r, o, n⟩ := s
  cases h; cases r <;> rfl

/-- With the filter `error` no call changes the session. -/
theorem C113_error_leaves (c : Call Np) (s : Sess) (h : s.action = .error) : c.run s = s := by
  have w (T P : List Np) : Leaves (Warn.v_water T P) s :=
    leaves_bind (by split_ifs; exacts [leaves_warn h, leaves_pure _ _]) fun _ => leaves_lift _ _
  have w2 (T P : List Np) : Leaves (Warn.rho_K_water T P) s :=
    leaves_bind (leaves_lift _ _) fun _ => leaves_bind (w T P) fun _ =>
      leaves_bind (leaves_lift _ _) fun _ => leaves_pure _ _
  have w3 (T P : List Np) (S : Np) : Leaves (Warn.v_brine T P S) s :=
    leaves_bind (w T P) fun _ => leaves_bind (leaves_lift _ _) fun _ =>
      leaves_bind (leaves_lift _ _) fun _ => leaves_bind (leaves_lift _ _) fun _ => leaves_pure _ _
  cases c with
  | v_water T P => exact w T P
  | rho_K_water T P => exact w2 T P
  | v_brine T P S => exact w3 T P S
  | rho_K_brine T P S =>
    exact leaves_bind (w2 T P) fun _ => leaves_bind (leaves_lift _ _) fun _ =>
      leaves_bind (leaves_lift _ _) fun _ => leaves_bind (w3 T P S) fun _ =>
        leaves_bind (leaves_lift _ _) fun _ => leaves_pure _ _

theorem after_shown (s : Sess) : s.shown ≤ (after s).shown ∧ (after s).shown ≤ s.shown + 1 := by
  obtain ⟨a, r, o, n⟩ := s
  cases a <;> cases r <;> cases o <;>
    first
      | exact ⟨le_refl n, Nat.le_succ n⟩
      | exact ⟨Nat.le_succ n, le_refl (n + 1)⟩

theorem after_iterate_shown (m : ℕ) (s : Sess) :
    s.shown ≤ (after^[m] s).shown ∧ (after^[m] s).shown ≤ s.shown + m := by
  induction m generalizing s with
  | zero => exact ⟨le_refl _, le_refl _⟩
  | succ m ih =>
    rw [Function.iterate_succ_apply]
    have a := after_shown s
    have b := ih (after s)
    omega

/-- Whatever is called and whichever filters are set in between: no message appears without a
warning, and none is taken back. -/
theorem C113_mixed (steps : List Step) (s : Sess) :
    s.shown ≤ (steps.foldl (fun s c => c.run s) s).shown
    ∧ (steps.foldl (fun s c => c.run s) s).shown ≤ s.shown + (steps.map Step.warnings).sum := by
  induction steps generalizing s with
  | nil => exact ⟨le_refl _, le_refl _⟩
  | cons c cs ih =>
    have step : s.shown ≤ (c.run s).shown ∧ (c.run s).shown ≤ s.shown + c.warnings := by
      cases c with
      | filter a => exact ⟨le_refl _, le_refl _⟩
      | call c =>
        by_cases h : s.action = .error
        · have : (Step.call c).run s = s := C113_error_leaves c s h
          rw [this]; exact ⟨le_refl _, Nat.le_add_right _ _⟩
        · have : (Step.call c).run s = after^[warnings c] s := run_warnings c h
          rw [this]; exact after_iterate_shown _ s
    have b := ih (c.run s)
    rw [List.foldl_cons, List.map_cons, List.sum_cons]
    omega

/-- A session in which no pressure is too high shows nothing, under every filter. -/
theorem C113_quiet (steps : List Step) (s : Sess)
    (h : ∀ c, Step.call c ∈ steps → warnings c = 0) :
    (steps.foldl (fun s c => c.run s) s).shown = s.shown := by
  have z : (steps.map Step.warnings).sum = 0 := by
    rw [List.sum_eq_zero_iff]
    intro x hx
    obtain ⟨c, hc, rfl⟩ := List.mem_map.mp hx
    cases c with
    | filter a => rfl
    | call c => exact h c hc
  have := C113_mixed steps s
  omega

/-- A session with three filters: the first and the last call show the message. -/
example : (([.filter .always, .call (.v_water [.fin 50] [.fin 120]), .filter .error,
      .call (.v_water [.fin 50] [.fin 120]), .filter .default,
      .call (.v_water [.fin 50] [.fin 120])] : List Step).foldl (fun s (c : Step) => c.run s)
        ⟨.default, false, false, 0⟩).shown = 2 := by
  have t : TooHigh [Np.fin 120] := ⟨_, List.mem_singleton.mpr rfl, .inr ⟨_, rfl, by norm_num⟩⟩
  have w : warnings (.v_water [.fin 50] [.fin 120]) = 1 := by simp only [warnings, t, if_true]
  have r {s : Sess} (h : s.action ≠ .error) :
      (Call.v_water [Np.fin 50] [Np.fin 120]).run s = after s := by
    rw [run_warnings _ h, w]; rfl
  simp only [List.foldl_cons, List.foldl_nil, Step.run]
  rw [r (s := simplefilter .always _) (by simp [simplefilter]),
    C113_error_leaves _ (simplefilter .error _) rfl, r (by simp [simplefilter])]
  rfl

end RockPhy.Props
