import Verif.Lemmas.Warn

/-!
# C113: the pressure warning of the water correlations

Pressures above 100 MPa give a warning and nothing else: the values are those of the formulas.  How
often a user sees it depends on the history of the session.
-/

namespace RockPhy.Props

open Spec Warn Np

/-! ## The values do not depend on the warning -/

theorem C113_values (T P : List Np) (S : Np) (s : Sess) (h : s.action ≠ .error) (k : Fits T P) :
    (Warn.v_water T P s).1 = .value ((entries T P).map fun q => BW.v_water q.1 q.2)
    ∧ (Warn.rho_K_water T P s).1 = .value ((entries T P).map fun q => (BW.rho_K_water q.1 q.2).1,
        (entries T P).map fun q => (BW.rho_K_water q.1 q.2).2)
    ∧ (Warn.v_brine T P S s).1 = .value ((entries T P).map fun q => BW.v_brine q.1 q.2 S)
    ∧ (Warn.rho_K_brine T P S s).1
        = .value ((entries T P).map fun q => (BW.rho_K_brine q.1 q.2 S).1,
          (entries T P).map fun q => (BW.rho_K_brine q.1 q.2 S).2) := by
  refine ⟨?_, ?_, ?_, ?_⟩
  · rw [v_water_ok T P h, bzip_fits k]; rfl
  · rw [rho_K_water_ok T P h k]
  · rw [v_brine_ok T P S h k]
  · rw [rho_K_brine_ok T P S h k]

theorem C113_shapes (T P : List Np) (S : Np) (s : Sess) (h : s.action ≠ .error) (k : ¬Fits T P) :
    (Warn.v_water T P s).1 = .valueError ∧ (Warn.rho_K_water T P s).1 = .valueError
    ∧ (Warn.v_brine T P S s).1 = .valueError ∧ (Warn.rho_K_brine T P S s).1 = .valueError := by
  refine ⟨?_, ?_, ?_, ?_⟩
  · rw [v_water_misfit T P h k]
  · rw [rho_K_water_misfit T P s k]
  · rw [v_brine_misfit T P S h k]
  · rw [rho_K_brine_misfit T P S s k]

/-! ## Warnings turned into exceptions -/

/-- With the filter `error` the call raises exactly when a pressure is too high, and otherwise
returns the values of the formulas. -/
theorem C113_error (T P : List Np) (S : Np) (s : Sess) (h : s.action = .error)
    (r : s.registered = false) (k : Fits T P) :
    (TooHigh P → Warn.v_water T P s = (.userWarning, s)
      ∧ Warn.rho_K_water T P s = (.userWarning, s)
      ∧ Warn.v_brine T P S s = (.userWarning, s)
      ∧ Warn.rho_K_brine T P S s = (.userWarning, s))
    ∧ (¬TooHigh P →
      Warn.v_water T P s = (.value ((entries T P).map fun q => BW.v_water q.1 q.2), s)
      ∧ Warn.rho_K_water T P s = (.value ((entries T P).map fun q => (BW.rho_K_water q.1 q.2).1,
          (entries T P).map fun q => (BW.rho_K_water q.1 q.2).2), s)
      ∧ Warn.v_brine T P S s = (.value ((entries T P).map fun q => BW.v_brine q.1 q.2 S), s)
      ∧ Warn.rho_K_brine T P S s
          = (.value ((entries T P).map fun q => (BW.rho_K_brine q.1 q.2 S).1,
            (entries T P).map fun q => (BW.rho_K_brine q.1 q.2 S).2), s)) := by
  constructor
  · intro t
    have hh := (hot_iff P).mpr t
    have w : Warn.v_water T P s = (.userWarning, s) := by
      unfold Warn.v_water Run.bind
      simp only [hh, if_true, warn_error h r]
    have w2 : Warn.rho_K_water T P s = (.userWarning, s) := by
      unfold Warn.rho_K_water
      simp only [Run.bind, bzip_fits k, Run.lift, Run.pure, w]
    have w3 : Warn.v_brine T P S s = (.userWarning, s) := by
      unfold Warn.v_brine
      simp only [Run.bind, w]
    refine ⟨w, w2, w3, ?_⟩
    unfold Warn.rho_K_brine
    simp only [Run.bind, w2]
  · intro t
    have hh : hot P = false := by
      rw [Bool.eq_false_iff]; exact fun c => t ((hot_iff P).mp c)
    have w : Warn.v_water T P s = (.value ((entries T P).map fun q => BW.v_water q.1 q.2), s) := by
      unfold Warn.v_water
      simp only [Run.bind, hh, Bool.false_eq_true, if_false, Run.pure, bzip_fits k, Run.lift]
    have w2 : Warn.rho_K_water T P s
        = (.value ((entries T P).map fun q => (BW.rho_K_water q.1 q.2).1,
          (entries T P).map fun q => (BW.rho_K_water q.1 q.2).2), s) := by
      unfold Warn.rho_K_water
      simp only [Run.bind, bzip_fits k, Run.lift, Run.pure, w, bzip_map]
      rfl
    have w3 : Warn.v_brine T P S s
        = (.value ((entries T P).map fun q => BW.v_brine q.1 q.2 S), s) := by
      unfold Warn.v_brine
      simp only [Run.bind, bzip_fits k, Run.lift, Run.pure, w, bzip_map, bzip_second k,
        List.map_map]
      rfl
    refine ⟨w, w2, w3, ?_⟩
    unfold Warn.rho_K_brine
    simp only [Run.bind, w2, bzip_fits k, Run.lift, Run.pure, w3, bzip_map]
    rfl

/-! ## How many messages a history of calls shows -/

open Classical in
/-- How often a call warns.  The brine density and modulus need the water velocity twice; the
functions that compute a density first fail on shapes before they warn. -/
noncomputable def warnings : Call Np → ℕ
  | .v_water _ P => if TooHigh P then 1 else 0
  | .rho_K_water T P => if Fits T P ∧ TooHigh P then 1 else 0
  | .v_brine _ P _ => if TooHigh P then 1 else 0
  | .rho_K_brine T P _ => if Fits T P ∧ TooHigh P then 2 else 0

open Classical in
theorem run_warnings (c : Call Np) {s : Sess} (h : s.action ≠ .error) :
    c.run s = after^[warnings c] s := by
  have e (P : List Np) : (if hot P then after s else s) = if TooHigh P then after s else s := by
    by_cases t : TooHigh P
    · rw [if_pos ((hot_iff P).mpr t), if_pos t]
    · rw [if_neg (fun c => t ((hot_iff P).mp c)), if_neg t]
  cases c with
  | v_water T P =>
    have : (Warn.v_water T P s).2 = if hot P then after s else s := by
      by_cases k : Fits T P
      · rw [v_water_ok T P h, bzip_fits k]; rfl
      · rw [v_water_misfit T P h k]
    simp only [Call.run, this, e, warnings]
    split_ifs <;> rfl
  | rho_K_water T P =>
    by_cases k : Fits T P
    · simp only [Call.run, rho_K_water_ok T P h k, e, warnings, k, true_and]
      split_ifs <;> rfl
    · simp only [Call.run, rho_K_water_misfit T P s k, warnings, k, false_and, if_false]
      rfl
  | v_brine T P S =>
    have : (Warn.v_brine T P S s).2 = if hot P then after s else s := by
      by_cases k : Fits T P
      · rw [v_brine_ok T P S h k]
      · rw [v_brine_misfit T P S h k]
    simp only [Call.run, this, e, warnings]
    split_ifs <;> rfl
  | rho_K_brine T P S =>
    by_cases k : Fits T P
    · simp only [Call.run, rho_K_brine_ok T P S h k, warnings]
      by_cases t : TooHigh P
      · rw [if_pos ((hot_iff P).mpr t), if_pos ⟨k, t⟩]; rfl
      · rw [if_neg (fun c => t ((hot_iff P).mp c)), if_neg (fun c => t c.2)]; rfl
    · simp only [Call.run, rho_K_brine_misfit T P S s k, warnings, k, false_and, if_false]
      rfl

theorem after_iterate_action (n : ℕ) (s : Sess) : (after^[n] s).action = s.action := by
  induction n generalizing s with
  | zero => rfl
  | succ n ih => rw [Function.iterate_succ_apply, ih, after_action]

theorem history_warnings (cs : List (Call Np)) {s : Sess} (h : s.action ≠ .error) :
    history cs s = after^[(cs.map warnings).sum] s := by
  induction cs generalizing s with
  | nil => rfl
  | cons c cs ih =>
    have : history (c :: cs) s = history cs (c.run s) := rfl
    rw [this, run_warnings c h, ih (by rwa [after_iterate_action]), List.map_cons, List.sum_cons,
      Nat.add_comm, Function.iterate_add_apply]

/-- With the filter `always` every warning is shown. -/
theorem C113_always (cs : List (Call Np)) (o : Bool) (n : ℕ) :
    (history cs ⟨.always, false, o, n⟩).shown = n + (cs.map warnings).sum := by
  rw [history_warnings cs (by simp)]
  generalize (cs.map warnings).sum = m
  induction m generalizing n with
  | zero => rfl
  | succ m ih =>
    rw [Function.iterate_succ_apply]
    have : after ⟨.always, false, o, n⟩ = ⟨.always, false, o, n + 1⟩ := rfl
    rw [this, ih]; omega

/-- With the filter `ignore` none is shown. -/
theorem C113_ignore (cs : List (Call Np)) (r o : Bool) (n : ℕ) :
    (history cs ⟨.ignore, r, o, n⟩).shown = n := by
  rw [history_warnings cs (by simp)]
  generalize (cs.map warnings).sum = m
  induction m with
  | zero => rfl
  | succ m ih =>
    rw [Function.iterate_succ_apply]
    have : after ⟨.ignore, r, o, n⟩ = ⟨.ignore, r, o, n⟩ := by cases r <;> rfl
    rw [this, ih]

theorem registered_silent (m : ℕ) {s : Sess} (h : s.registered = true) : after^[m] s = s := by
  induction m with
  | zero => rfl
  | succ m ih =>
    rw [Function.iterate_succ_apply]
    have : after s = s := by simp [after, warn, h]
    rw [this, ih]

theorem warns_iff (cs : List (Call Np)) :
    (∃ c ∈ cs, 0 < warnings c) ↔ 0 < (cs.map warnings).sum := by
  induction cs with
  | nil => simp
  | cons c cs ih =>
    simp only [List.mem_cons, exists_eq_or_imp, ih, List.map_cons, List.sum_cons]
    omega

open Classical in
/-- With Python's own filter a session shows the message once, however many calls are too high. -/
theorem C113_default (cs : List (Call Np)) (o : Bool) (n : ℕ) :
    history cs ⟨.default, false, o, n⟩
      = if ∃ c ∈ cs, 0 < warnings c then ⟨.default, true, o, n + 1⟩ else ⟨.default, false, o, n⟩ := by
  rw [history_warnings cs (by simp)]
  simp only [warns_iff]
  cases (cs.map warnings).sum with
  | zero => rfl
  | succ m =>
    rw [Function.iterate_succ_apply, if_pos (Nat.succ_pos m)]
    exact registered_silent m rfl

open Classical in
/-- Every `warnings.simplefilter("default")` lets the message be shown once more. -/
theorem C113_default_again (css : List (List (Call Np))) (s : Sess) :
    (stretches .default css s).shown
      = s.shown + css.countP fun cs => decide (∃ c ∈ cs, 0 < warnings c) := by
  induction css generalizing s with
  | nil => rfl
  | cons cs css ih =>
    have : stretches .default (cs :: css) s
        = stretches .default css (history cs (simplefilter .default s)) := rfl
    have e : simplefilter .default s = ⟨.default, false, s.onceRegistered, s.shown⟩ := rfl
    rw [this, ih, e, C113_default, List.countP_cons]
    by_cases k : ∃ c ∈ cs, 0 < warnings c
    · simp only [k, if_true, decide_true]; omega
    · simp only [k, if_false, decide_false, Bool.false_eq_true]; omega

theorem once_history (cs : List (Call Np)) (n : ℕ) :
    (history cs ⟨.once, false, true, n⟩).shown = n
    ∧ (history cs ⟨.once, false, true, n⟩).onceRegistered = true := by
  rw [history_warnings cs (by simp)]
  cases (cs.map warnings).sum with
  | zero => exact ⟨rfl, rfl⟩
  | succ m =>
    rw [Function.iterate_succ_apply, registered_silent m rfl]
    exact ⟨rfl, rfl⟩

theorem once_stretches (css : List (List (Call Np))) (s : Sess) (h : s.onceRegistered = true) :
    (stretches .once css s).shown = s.shown := by
  induction css generalizing s with
  | nil => rfl
  | cons cs css ih =>
    have : stretches .once (cs :: css) s
        = stretches .once css (history cs (simplefilter .once s)) := rfl
    have e : simplefilter .once s = ⟨.once, false, true, s.shown⟩ := by
      simp [simplefilter, h]
    rw [this, e, ih _ (once_history cs s.shown).2, (once_history cs s.shown).1]

open Classical in
/-- With the filter `once` the message is shown once in the life of the interpreter, also when the
filter is set again and again. -/
theorem C113_once (css : List (List (Call Np))) (s : Sess) (h : s.onceRegistered = false) :
    (stretches .once css s).shown
      = s.shown + if ∃ cs ∈ css, ∃ c ∈ cs, 0 < warnings c then 1 else 0 := by
  induction css generalizing s with
  | nil => simp [stretches]
  | cons cs css ih =>
    have : stretches .once (cs :: css) s
        = stretches .once css (history cs (simplefilter .once s)) := rfl
    have e : simplefilter .once s = ⟨.once, false, false, s.shown⟩ := by
      simp [simplefilter, h]
    rw [this, e, history_warnings cs (by simp)]
    simp only [List.mem_cons, exists_eq_or_imp, warns_iff cs]
    cases (cs.map warnings).sum with
    | zero =>
      rw [Function.iterate_zero, id, ih _ rfl]
      simp
    | succ m =>
      rw [Function.iterate_succ_apply, registered_silent m rfl, once_stretches _ _ rfl]
      simp [after, warn]

/-! ## Cases that meet the hypotheses -/

/-- 100 MPa itself and a missing value do not warn, a little more does. -/
example : ¬TooHigh [fin 20, fin 100, nan] ∧ TooHigh [fin 20, fin 100.5, nan] := by
  refine ⟨?_, fin 100.5, by simp, .inr ⟨_, rfl, by norm_num⟩⟩
  rintro ⟨p, hp, h | ⟨r, h, k⟩⟩
  · subst h; simp at hp
  · subst h
    simp only [List.mem_cons, Np.fin.injEq, List.not_mem_nil, or_false, reduceCtorEq] at hp
    rcases hp with rfl | rfl <;> norm_num at k

/-- Three calls at high pressure: four warnings, one message with Python's own filter. -/
example : (history [.v_water [fin 50] [fin 120], .rho_K_brine [fin 50] [fin 120] (fin 0.1),
      .v_brine [fin 50] [fin 120] (fin 0.1)] ⟨.always, false, false, 0⟩).shown = 4
    ∧ (history [.v_water [fin 50] [fin 120], .rho_K_brine [fin 50] [fin 120] (fin 0.1),
      .v_brine [fin 50] [fin 120] (fin 0.1)] ⟨.default, false, false, 0⟩).shown = 1 := by
  have t : TooHigh [fin 120] := ⟨_, List.mem_singleton.mpr rfl, .inr ⟨_, rfl, by norm_num⟩⟩
  have k : Fits [fin 50] [fin 120] := .inl rfl
  constructor
  · rw [C113_always]
    simp only [List.map_cons, List.map_nil, List.sum_cons, List.sum_nil, warnings, t, k, and_self,
      if_true, Nat.reduceAdd]
  · rw [C113_default, if_pos ⟨_, List.mem_cons_self, by simp only [warnings, t, if_true]; decide⟩]

end RockPhy.Props
