import Verif.Py.Tactic
import Verif.Spec.SourcePlot

/-!
# Running the source of a plot statement by statement
-/

namespace RockPhy.Py

open Val Draws

variable {α : Type} [PyNum α] {F : Caller α} {G : Drawer α}

theorem draw_step {s : Stmt} {b : Block} {env env' : Env α} {st st' : Nat × List (Cmd α)}
    {r : Res (Env α × Option (Val α)) × Nat × List (Cmd α)}
    (h : execD F G s env st = (.ok (env', .none), st')) (h' : execAllD F G b env' st' = r) :
    execAllD F G (.cons s b) env st = r := by
  rw [execAllD, Draws.bind, h]
  exact h'

theorem draw_return {s : Stmt} {b : Block} {env env' : Env α} {st st' : Nat × List (Cmd α)}
    {v : Val α} (h : execD F G s env st = (.ok (env', some v), st')) :
    execAllD F G (.cons s b) env st = (.ok (env', some v), st') := by
  rw [execAllD, Draws.bind, h]
  rfl

theorem draw_raise {s : Stmt} {b : Block} {env : Env α} {st st' : Nat × List (Cmd α)}
    {e : Err} (h : execD F G s env st = (.error e, st')) :
    execAllD F G (.cons s b) env st = (.error e, st') := by
  rw [execAllD, Draws.bind, h]

theorem draw_end {env : Env α} {st : Nat × List (Cmd α)} :
    execAllD F G .nil env st = (.ok (env, .none), st) := rfl

theorem draw_ite {c : Expr} {t e : Block} {env : Env α} {st : Nat × List (Cmd α)} (v : Bool)
    {r : Res (Env α × Option (Val α)) × Nat × List (Cmd α)}
    (h : (eval F env c).bind truth = .ok v)
    (h' : execAllD F G (cond v t e) env st = r) : execD F G (.ite c t e) env st = r := by
  rw [execD, Draws.bind, Draws.lift, h]
  cases v <;> exact h'

/-- Assigning the result of a function that draws. -/
theorem draw_call {t : Target} {f : Name} {as : Args} {env env' : Env α}
    {st st' : Nat × List (Cmd α)} {g : Draw α} {vs : List (Val α)} {kw : List (Name × Val α)}
    {v : Val α} (hG : G f = some g) (ha : evalArgs F env as = .ok (vs, kw))
    (h : g vs kw st = (.ok v, st')) (hv : assign F env t v = .ok env') :
    execD F G (.assign t (.call f as)) env st = (.ok (env', .none), st') := by
  rw [execD, effect, hG]
  simp only [Draws.bind, Draws.lift, ha, h, hv]
  rfl

/-- What a block returns, `None` if it does not. -/
def ran (F : Caller α) (G : Drawer α) (b : Block) (env : Env α) : Draws α (Val α) :=
  (execAllD F G b env).map fun r => r.2.getD Val.none

theorem ran_step {s : Stmt} {b : Block} {env env' : Env α} {st st' : Nat × List (Cmd α)}
    {r : Res (Val α) × Nat × List (Cmd α)}
    (h : execD F G s env st = (.ok (env', .none), st')) (h' : ran F G b env' st' = r) :
    ran F G (.cons s b) env st = r := by
  rw [ran, Draws.map, Draws.bind, draw_step h rfl]
  exact h'

theorem ran_return {s : Stmt} {b : Block} {env env' : Env α} {st st' : Nat × List (Cmd α)}
    {v : Val α} (h : execD F G s env st = (.ok (env', some v), st')) :
    ran F G (.cons s b) env st = (.ok v, st') := by
  rw [ran, Draws.map, Draws.bind, draw_return h]
  rfl

theorem ran_raise {s : Stmt} {b : Block} {env : Env α} {st st' : Nat × List (Cmd α)}
    {e : Err} (h : execD F G s env st = (.error e, st')) :
    ran F G (.cons s b) env st = (.error e, st') := by
  rw [ran, Draws.map, Draws.bind, draw_raise h]

/-- A call of a function that draws, from the run of its body. -/
theorem draw_fun {g : Fun} {self : List (Name × Val α)} {vs : List (Val α)} {env : Env α}
    {st : Nat × List (Cmd α)} {r : Res (Val α) × Nat × List (Cmd α)}
    (hk : knownKw g.params ([] : List (Name × Val α)) = true)
    (hb : (bindParams g.params vs []).map (bindSelf self) = .ok env)
    (h : ran F G g.body env st = r) : g.draw F G self vs [] st = r := by
  unfold Fun.draw
  simp only [hk]
  cases hb' : bindParams g.params vs [] with
  | error e => rw [hb'] at hb; cases hb
  | ok env0 =>
    rw [hb'] at hb
    cases hb
    rw [← h]
    simp only [cond, Draws.bind, Draws.lift, ran, Draws.map]
    rcases execAllD F G g.body (bindSelf self env0) st with ⟨e | ⟨env, _ | v⟩, st'⟩ <;> rfl

/-- A call of a method, from the run of its body. -/
theorem draw_method {L : Lib α} {d : Nat} {f : Name} {self : List (Name × Val α)}
    {vs : List (Val α)} {g : Fun} {env : Env α} {st : Nat × List (Cmd α)}
    {r : Res (Val α) × Nat × List (Cmd α)} (hg : lookup f Source.methods = some g)
    (hk : knownKw g.params ([] : List (Name × Val α)) = true)
    (hb : (bindParams g.params vs []).map (bindSelf self) = .ok env)
    (h : ran (callFn L Source.program d) (drawer L Source.program Source.methods d) g.body env
      st = r) :
    callMethod L d f self vs st = r := by
  unfold callMethod
  rw [hg]
  exact draw_fun hk hb h

omit [PyNum α] in
/-- A loop, by an invariant that every round preserves; `D` are the commands of a round. -/
theorem draw_loop {step : Env α → Val α → Draws α (Env α × Option (Val α))} {β : Type}
    (v : β → Val α) (I : List β → Env α → Prop) (D : β → List (Cmd α)) {n : Nat}
    (h : ∀ done x env log, I done env → ∃ env',
      step env (v x) (n, log) = (.ok (env', .none), n, D x ++ log) ∧ I (done ++ [x]) env')
    (l : List β) : ∀ done env log, I done env → ∃ env',
      loopD step (l.map v) env (n, log) =
        (.ok (env', .none), n, (l.map D).reverse.flatten ++ log) ∧ I (done ++ l) env' := by
  induction l with
  | nil => exact fun done env log hI => ⟨env, rfl, by rwa [List.append_nil]⟩
  | cons x l ih =>
    intro done env log hI
    obtain ⟨env₁, h₁, hI₁⟩ := h done x env log hI
    obtain ⟨env₂, h₂, hI₂⟩ := ih (done ++ [x]) env₁ (D x ++ log) hI₁
    refine ⟨env₂, ?_, ?_⟩
    · rw [List.map_cons, loopD, Draws.bind, h₁]
      simpa using h₂
    · simpa using hI₂

/-- A loop followed by other statements. -/
theorem ran_each {t : Target} {a : Expr} {body b : Block} {env : Env α} {n : Nat}
    {log : List (Cmd α)} {r : Res (Val α) × Nat × List (Cmd α)} {β : Type} (v : β → Val α)
    (l : List β) (I : List β → Env α → Prop) (D : β → List (Cmd α))
    (hl : (eval F env a).bind items = .ok (l.map v)) (hI : I [] env)
    (h : ∀ done x env log, I done env → ∃ env',
      ((lift (assign F env t (v x))).bind fun env => execAllD F G body env) (n, log) =
        (.ok (env', .none), n, D x ++ log) ∧ I (done ++ [x]) env')
    (hr : ∀ env', I l env' → ran F G b env' (n, (l.map D).reverse.flatten ++ log) = r) :
    ran F G (.cons (.each t a body) b) env (n, log) = r := by
  obtain ⟨env', h', hI'⟩ := draw_loop (step := fun env v => (lift (assign F env t v)).bind fun env =>
    execAllD F G body env) v I D h l [] env log hI
  refine ran_step (env' := env') ?_ (hr env' hI')
  rw [execD, Draws.bind, Draws.lift, hl]
  exact h'

/-- Runs the next statement; the tactic decides the conditions on which the run depends. -/
macro "py_stmt" "using" t:tactic : tactic => `(tactic|
  (py_whnf_arg 4
   first
   | refine ran_step (env' := ?env') (st' := ?st') ?h ?_
   | refine draw_step (env' := ?env') (st' := ?st') ?h ?_
   case h => (py_draw [] using $t); exact rfl))

/-- The next statement returns. -/
macro "py_return" "using" t:tactic : tactic => `(tactic|
  (py_whnf_arg 4
   first
   | refine (ran_return (env' := ?env') (st' := ?st') (v := ?v) ?h).trans ?he
   | refine (draw_return (env' := ?env') (st' := ?st') (v := ?v) ?h).trans ?he
   case h => (py_draw [] using $t); exact rfl
   case he => exact rfl))

/-- The next statement raises an exception. -/
macro "py_raise" "using" t:tactic : tactic => `(tactic|
  (py_whnf_arg 4
   first
   | refine (ran_raise (st' := ?st') (e := ?e) ?h).trans ?he
   | refine (draw_raise (st' := ?st') (e := ?e) ?h).trans ?he
   case h => (py_draw [] using $t); exact rfl
   case he => exact rfl))

/-- The end of a block. -/
macro "py_done" : tactic => `(tactic| (py_whnf_arg 4; refine (draw_end).trans ?he; case he => exact rfl))

/-- The next statement is an `if` with the given outcome; its branch is run by the tactics. -/
macro "py_ite" v:term:max "using" t:tactic "run" ts:tacticSeq : tactic => `(tactic|
  (py_whnf_arg 4
   first
   | refine ran_step (env' := ?env') (st' := ?st') ?h ?_
   | refine draw_step (env' := ?env') (st' := ?st') ?h ?_
   case h =>
     refine draw_ite $v ?c ?b
     case c => (py_draw [] using $t); exact rfl
     case b => $ts))

macro "py_draw" "[" "]" : tactic => `(tactic| py_draw [] using fail)
macro "py_stmt" : tactic => `(tactic| py_stmt using fail)
macro "py_return" : tactic => `(tactic| py_return using fail)
macro "py_raise" : tactic => `(tactic| py_raise using fail)
macro "py_ite" v:term:max "run" ts:tacticSeq : tactic => `(tactic| py_ite $v using fail run $ts)

end RockPhy.Py
