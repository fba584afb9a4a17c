import Verif.Props.SourceCst

/-!
# C105 for the rock physics template of `rockphypy/QI.py`
-/

namespace RockPhy.Props

open RockPhy.Py RockPhy.Py.Val

variable {α : Type} [PyNum α]

set_option maxRecDepth 8000

/-- `Fluid.vels` of arrays. -/
theorem vels_arrays (rock : List (α × α × α)) (K0 D0 Kf Df : α) :
    Computes 2 n!"Fluid.vels" [vec (rock.map (·.1)), vec (rock.map (·.2.1)), num K0, num D0, num Kf,
        num Df, vec (rock.map (·.2.2))]
      (.ok (tup [vec (rock.map fun r => (Fluid.vels r.1 r.2.1 K0 D0 Kf Df r.2.2).1),
        vec (rock.map fun r => (Fluid.vels r.1 r.2.1 K0 D0 Kf Df r.2.2).2.1),
        vec (rock.map fun r => (Fluid.vels r.1 r.2.1 K0 D0 Kf Df r.2.2).2.2)])) := by
  intro L k
  py_arr [bzip_same, List.map_map, Function.comp_def]
  simp only [List.map_map, Function.comp_def]
  kernel_rfl

/-! ## Loops over columns -/

section
variable {F : Caller α} {G : Drawer α}

omit [PyNum α] in
theorem draw_loop_from {step : Env α → Val α → Draws α (Env α × Option (Val α))} {β : Type}
    (v : β → Val α) (I : List β → Env α → Prop) {n : Nat} (all : List β)
    (h : ∀ done x rest env log, done ++ x :: rest = all → I done env → ∃ env',
      step env (v x) (n, log) = (.ok (env', .none), n, log) ∧ I (done ++ [x]) env')
    (l : List β) : ∀ done env log, done ++ l = all → I done env → ∃ env',
      loopD step (l.map v) env (n, log) = (.ok (env', .none), n, log) ∧ I all env' := by
  induction l with
  | nil => exact fun done env log hl hI => ⟨env, rfl, by rwa [← hl, List.append_nil]⟩
  | cons x l ih =>
    intro done env log hl hI
    obtain ⟨env₁, h₁, hI₁⟩ := h done x l env log hl hI
    obtain ⟨env₂, h₂, hI₂⟩ := ih (done ++ [x]) env₁ log (by simpa using hl) hI₁
    refine ⟨env₂, ?_, hI₂⟩
    rw [List.map_cons, loopD, Draws.bind, h₁]
    exact h₂

/-- A loop that draws nothing, followed by other statements. -/
theorem ran_each_from {t : Target} {a : Expr} {body b : Block} {env : Env α} {n : Nat}
    {log : List (Cmd α)} {r : Res (Val α) × Nat × List (Cmd α)} {β : Type} (v : β → Val α)
    (l : List β) (I : List β → Env α → Prop)
    (hl : (eval F env a).bind items = .ok (l.map v)) (hI : I [] env)
    (h : ∀ done x rest env log, done ++ x :: rest = l → I done env → ∃ env',
      ((Draws.lift (assign F env t (v x))).bind fun env => execAllD F G body env) (n, log) =
        (.ok (env', .none), n, log) ∧ I (done ++ [x]) env')
    (hr : ∀ env', I l env' → ran F G b env' (n, log) = r) :
    ran F G (.cons (.each t a body) b) env (n, log) = r := by
  obtain ⟨env', h', hI'⟩ := draw_loop_from (step := fun env v =>
    (Draws.lift (assign F env t v)).bind fun env => execAllD F G body env) v I l h l [] env log rfl hI
  refine ran_step (env' := env') ?_ (hr env' hI')
  rw [execD, Draws.bind, Draws.lift, hl]
  exact h'

/-- Assigning the result of a function that does not draw. -/
theorem draw_plain {t : Target} {f : Name} {as : Args} {env env' : Env α}
    {st : Nat × List (Cmd α)} {v : Val α} (hG : G f = .none)
    (h : eval F env (.call f as) = .ok v) (hv : assign F env t v = .ok env') :
    execD F G (.assign t (.call f as)) env st = (.ok (env', .none), st) := by
  rw [execD, effect, hG]
  simp only [Draws.bind, Draws.lift, h, hv]
  rfl

/-- A call that draws, as a statement. -/
theorem draw_expr {f : Name} {as : Args} {env : Env α} {st st' : Nat × List (Cmd α)} {g : Draw α}
    {vs : List (Val α)} {kw : List (Name × Val α)} {v : Val α} (hG : G f = some g)
    (ha : evalArgs F env as = .ok (vs, kw)) (h : g vs kw st = (.ok v, st')) :
    execD F G (.expr (.call f as)) env st = (.ok (env, .none), st') := by
  rw [execD, effect, hG]
  simp only [Draws.map, Draws.bind, Draws.lift, ha, h]

end

omit [PyNum α] in
theorem run_marks (i : Nat) (l : List (Mark α)) (n : Nat) (log : List (Cmd α)) :
    marks i l (n, log) = (.ok none, n, (l.map (Cmd.draw i)).reverse ++ log) := by
  induction l generalizing log with
  | nil => rfl
  | cons m l ih =>
    rw [marks, Draws.bind, mark]
    simp [ih]

omit [PyNum α] in
theorem lookup_update (x : Name) (id : Nat) (v : Val α) (env : Env α) :
    lookup x (update id v env) =
      (lookup x env).map fun p => (p.1, cond (Nat.beq p.1 id) v p.2) := by
  induction env with
  | nil => rfl
  | cons e env ih =>
    obtain ⟨y, k, w⟩ := e
    rw [update, lookup, lookup]
    cases Nat.beq x y
    · exact ih
    · rfl

omit [PyNum α] in
theorem length_update (id : Nat) (v : Val α) (env : Env α) :
    (update id v env).length = env.length := by
  induction env with
  | nil => rfl
  | cons e env ih => obtain ⟨y, k, w⟩ := e; rw [update, List.length_cons, ih, List.length_cons]

theorem storeAt_column (x : α) (f row : List α) (hk : f.length < row.length)
    (hs : ∀ a ∈ row, PyNum.store a x = x) :
    storeAt x (f ++ row.drop f.length) f.length = .ok (f ++ [x] ++ row.drop (f.length + 1)) := by
  obtain ⟨a, l, e⟩ : ∃ a l, row.drop f.length = a :: l :=
    List.exists_cons_of_ne_nil (by simpa using hk)
  have e' : row.drop (f.length + 1) = l := by rw [← List.drop_drop, e]; rfl
  have ha : a ∈ row := List.mem_of_mem_drop (e ▸ List.mem_cons_self)
  rw [e, e']
  clear e e' hk
  induction f with
  | nil => simp only [List.nil_append, List.length_nil, storeAt, hs a ha, List.singleton_append]
  | cons b f ih =>
    rw [List.cons_append, List.length_cons, storeAt, ih]
    rfl

theorem storeCol_table {ι : Type} (rock : List ι) (e : List (List α)) (f : ι → List α) (g : ι → α)
    (k : Nat) (hl : e.length = rock.length) (hf : ∀ r, (f r).length = k)
    (he : ∀ row ∈ e, k < row.length ∧ ∀ a ∈ row, ∀ x, PyNum.store a x = x) :
    storeCol (.ofNat k) (List.zipWith (fun r row => f r ++ row.drop k) rock e) (rock.map g) =
      .ok (List.zipWith (fun r row => f r ++ [g r] ++ row.drop (k + 1)) rock e) := by
  induction rock generalizing e with
  | nil => rfl
  | cons r rock ih =>
    cases e with
    | nil => cases hl
    | cons row e =>
      obtain ⟨h1, h2⟩ := he row List.mem_cons_self
      have hp : position (f r ++ row.drop k).length (.ofNat k) = .ok k := by
        rw [position, if_pos]
        simp [hf]; omega
      have hst := storeAt_column (g r) (f r) row (by rw [hf]; exact h1) (fun a ha => h2 a ha _)
      rw [hf] at hst
      rw [List.zipWith_cons_cons, List.map_cons, storeCol, hp]
      simp only [Except.bind, hst]
      rw [ih e (by simpa using hl) (fun row hr => he row (List.mem_cons_of_mem _ hr))]
      rfl

omit [PyNum α] in
theorem column_last {ι : Type} (l : List ι) (f : ι → List α) (g : ι → α) :
    column (.negSucc 0) (l.map fun r => f r ++ [g r]) = .ok (l.map g) := by
  have h : ∀ (l : List α) x, nth (l ++ [x]) l.length = .ok x := by
    intro l x
    induction l with
    | nil => rfl
    | cons a l ih => exact ih
  induction l with
  | nil => rfl
  | cons r l ih =>
    rw [List.map_cons, column, position, if_pos (by simp)]
    simp only [Except.bind]
    rw [show (f r ++ [g r]).length - (0 + 1) = (f r).length by simp, h, ih]
    rfl

omit [PyNum α] in
/-- The rows of a table with columns, as the columns of its transpose. -/
theorem transpose_twice {ι κ : Type} (l : List ι) (m : List κ) (hm : m ≠ []) (f : ι → κ → α) :
    transpose (transpose (l.map fun i => m.map (f i))) = l.map fun i => m.map (f i) := by
  have h : ∀ {ι κ : Type} (l : List ι) (m : List κ) (hl : l ≠ []) (f : ι → κ → α),
      transpose (l.map fun i => m.map (f i)) = m.map fun j => l.map fun i => f i j := by
    intro ι κ l m hl f
    obtain ⟨i, l, rfl⟩ := List.exists_cons_of_ne_nil hl
    unfold transpose
    simp only [List.map_cons]
    rw [← List.map_cons (f := fun i => m.map (f i))]
    apply List.ext_getElem
    · simp
    · intro j h1 h2
      simp only [List.length_map] at h2
      simp only [List.getElem_map, List.getElem_range]
      have : ∀ i, (m.map (f i))[j]? = some (f i m[j]) := fun i => by simp [h2]
      rw [List.filterMap_map]
      simp only [Function.comp_def, this]
      rw [← List.map_cons (f := fun i => f i m[j])]
      exact congrFun (List.filterMap_eq_map (f := fun i => f i m[j])) _
  by_cases hl : l = []
  · subst hl; rfl
  · rw [h l m hl, h m l hm]

/-! ## The template -/

/-- The body of the loop of `plot_rpt`. -/
def rptRound : Block := .ofList [
  set! "Kf" := (v!"val" / v!"Kb" + (1 - v!"val") / v!"Khc") ** (-1),
  set! "Df" := v!"val" * v!"Db" + (1 - v!"val") * v!"Dhc",
  set! "vp", "vs", "rho" := c!"Fluid.vels"[v!"Kdry", v!"Gdry", v!"K0", v!"D0", v!"Kf", v!"Df",
    v!"phi"],
  .assign (.idx n!"IP" (.ofList [(.slice .none .none), v!"i"])) (v!"vp" * v!"rho"),
  .assign (.idx n!"PS" (.ofList [(.slice .none .none), v!"i"])) (v!"vp" / v!"vs")]

theorem beq_ne {a b : Nat} (h : a ≠ b) : Nat.beq a b = false := by
  cases e : Nat.beq a b with
  | false => rfl
  | true => exact absurd (Nat.eq_of_beq_eq_true e) h

/-- Variables, their values and objects older than the tables. -/
def Olds (env : Env α) : List (Name × Val α) → Prop
  | [] => True
  | (x, v) :: l => (∃ i, Nat.ble 10 i = false ∧ lookup x env = some (i, v)) ∧ Olds env l

omit [PyNum α] in
theorem Olds.cons {env : Env α} {l : List (Name × Val α)} {y : Name} {w : Val α} {i : Nat}
    (h : Olds env l) (hl : (l.all fun p => !Nat.beq p.1 y) = true) :
    Olds ((y, i, w) :: env) l := by
  induction l with
  | nil => trivial
  | cons p l ih =>
    rw [List.all_cons, Bool.and_eq_true, Bool.not_eq_true'] at hl
    obtain ⟨⟨j, h1, h2⟩, h⟩ := h
    exact ⟨⟨j, h1, by rw [lookup, hl.1]; exact h2⟩, ih h hl.2⟩

omit [PyNum α] in
theorem Olds.update {env : Env α} {l : List (Name × Val α)} {v : Val α} {id : Nat}
    (h : Olds env l) (hi : 10 ≤ id) : Olds (update id v env) l := by
  induction l with
  | nil => trivial
  | cons p l ih =>
    obtain ⟨⟨j, h1, h2⟩, h⟩ := h
    refine ⟨⟨j, h1, ?_⟩, ih h⟩
    rw [lookup_update, h2]
    have : Nat.beq j id = false := by
      have h1 : ¬ 10 ≤ j := fun h => by rw [Nat.ble_eq_true_of_le h] at h1; cases h1
      exact beq_ne (by omega)
    simp [this]

/-- The variables that the loop of `plot_rpt` reads. -/
abbrev rptVars (rock : List (α × α × α)) (K0 D0 Kb Db Khc Dhc : α) : List (Name × Val α) :=
  [(n!"Kdry", vec (rock.map (·.1))), (n!"Gdry", vec (rock.map (·.2.1))), (n!"K0", num K0),
    (n!"D0", num D0), (n!"Kb", num Kb), (n!"Db", num Db), (n!"Khc", num Khc), (n!"Dhc", num Dhc),
    (n!"phi", vec (rock.map (·.2.2)))]

/-- The two tables and the variables that the loop reads. -/
def RptInv (rock : List (α × α × α)) (K0 D0 Kb Db Khc Dhc : α) (T P : List (List α))
    (env : Env α) : Prop :=
  12 ≤ env.length ∧ lookup n!"IP" env = some (10, mat T) ∧ lookup n!"PS" env = some (11, mat P) ∧
    Olds env (rptVars rock K0 D0 Kb Db Khc Dhc)

theorem rpt_round {F : Caller α} {G : Drawer α} {rock : List (α × α × α)}
    {K0 D0 Kb Db Khc Dhc : α} (hG : G n!"Fluid.vels" = .none)
    (hF : ∀ Kf Df, F n!"Fluid.vels" [vec (rock.map (·.1)), vec (rock.map (·.2.1)), num K0, num D0,
        num Kf, num Df, vec (rock.map (·.2.2))] [] =
      .ok (tup [vec (rock.map fun r => (Fluid.vels r.1 r.2.1 K0 D0 Kf Df r.2.2).1),
        vec (rock.map fun r => (Fluid.vels r.1 r.2.1 K0 D0 Kf Df r.2.2).2.1),
        vec (rock.map fun r => (Fluid.vels r.1 r.2.1 K0 D0 Kf Df r.2.2).2.2)]))
    {T T' P P' : List (List α)} {k : Nat} {s : α} {n : Nat}
    (hT : storeCol (.ofNat k) T
      (rock.map fun r => (QI.rpt_entry r.1 r.2.1 K0 D0 Kb Db Khc Dhc r.2.2 s).1) = .ok T')
    (hP : storeCol (.ofNat k) P
      (rock.map fun r => (QI.rpt_entry r.1 r.2.1 K0 D0 Kb Db Khc Dhc r.2.2 s).2) = .ok P')
    (env : Env α) (log : List (Cmd α)) (h : RptInv rock K0 D0 Kb Db Khc Dhc T P env) : ∃ env',
    ((Draws.lift (assign F env (.tuple [n!"i", n!"val"]) (tup [int (.ofNat k), num s]))).bind
      fun env => execAllD F G rptRound env) (n, log) = (.ok (env', .none), n, log) ∧
    RptInv rock K0 D0 Kb Db Khc Dhc T' P' env' := by
  obtain ⟨hN, hI, hS, hO⟩ := h
  obtain ⟨⟨i1, _, h1⟩, ⟨i2, _, h2⟩, ⟨i3, _, h3⟩, ⟨i4, _, h4⟩, ⟨i5, _, h5⟩, ⟨i6, _, h6⟩, ⟨i7, _, h7⟩,
    ⟨i8, _, h8⟩, ⟨i9, _, h9⟩, _⟩ := id hO
  let Kf := inv (s / Kb + (1 - s) / Khc)
  let Df := s * Db + (1 - s) * Dhc
  let v := fun r : α × α × α => Fluid.vels r.1 r.2.1 K0 D0 Kf Df r.2.2
  let env1 : Env α := (n!"rho", env.length + 6, vec (rock.map fun r => (v r).2.2)) ::
    (n!"vs", env.length + 5, vec (rock.map fun r => (v r).2.1)) ::
    (n!"vp", env.length + 4, vec (rock.map fun r => (v r).1)) ::
    (n!"Df", env.length + 3, num Df) :: (n!"Kf", env.length + 2, num Kf) ::
    (n!"val", env.length + 1, num s) :: (n!"i", env.length, int (.ofNat k)) :: env
  have hF := hF Kf Df
  have b1 := bzip_same (fun a b : α => a * b) (fun r => (v r).1) (fun r => (v r).2.2) rock
  have b2 := bzip_same (fun a b : α => a / b) (fun r => (v r).1) (fun r => (v r).2.1) rock
  have hT : storeCol (.ofNat k) T (rock.map fun r => (v r).1 * (v r).2.2) = .ok T' := hT
  have hP : storeCol (.ofNat k) P (rock.map fun r => (v r).1 / (v r).2.1) = .ok P' := hP
  have hO1 : Olds env1 (rptVars rock K0 D0 Kb Db Khc Dhc) :=
    ((((((hO.cons rfl).cons rfl).cons rfl).cons rfl).cons rfl).cons rfl).cons rfl
  have hI1 : lookup n!"IP" env1 = some (10, mat T) := hI
  have hS1 : lookup n!"PS" env1 = some (11, mat P) := hS
  have c1 : lookup n!"vp" env1 = some (env.length + 4, vec (rock.map fun r => (v r).1)) := rfl
  have c2 : lookup n!"vs" env1 = some (env.length + 5, vec (rock.map fun r => (v r).2.1)) := rfl
  have c3 : lookup n!"rho" env1 = some (env.length + 6, vec (rock.map fun r => (v r).2.2)) := rfl
  have c4 : lookup n!"i" env1 = some (env.length, int (.ofNat k)) := rfl
  have hN1 : 12 ≤ env1.length := by simp only [env1, List.length_cons]; omega
  refine ⟨update 11 (mat P') (update 10 (mat T') env1), ?_, ?_, ?_, ?_, ?_⟩
  · refine Eq.trans (b := execAllD F G (Block.rest (Block.rest (Block.rest rptRound))) env1 (n, log)) ?_ ?_
    · refine Eq.trans (b := execAllD F G rptRound ((n!"val", env.length + 1, num s) ::
        (n!"i", env.length, int (.ofNat k)) :: env) (n, log)) rfl ?_
      iterate 2 py_stmt
      py_whnf_arg 4
      refine draw_step (env' := ?e) (draw_plain (v := ?v) hG ?h ?hv) ?hr
      case h => py_draw []; exact hF
      case hv => py_draw []; exact rfl
      case hr => rfl
    · refine draw_step (env' := update 10 (mat T') env1) (st' := (n, log)) ?_
        (draw_step (env' := update 11 (mat P') (update 10 (mat T') env1)) (st' := (n, log)) ?_ rfl)
      · clear_value env1
        py_draw []
        kernel_rfl
      · have d1 : lookup n!"vp" (update 10 (mat T') env1) =
            some (env.length + 4, vec (rock.map fun r => (v r).1)) := by
          rw [lookup_update, c1, Option.map_some, beq_ne (by omega)]; rfl
        have d2 : lookup n!"vs" (update 10 (mat T') env1) =
            some (env.length + 5, vec (rock.map fun r => (v r).2.1)) := by
          rw [lookup_update, c2, Option.map_some, beq_ne (by omega)]; rfl
        have d3 : lookup n!"i" (update 10 (mat T') env1) = some (env.length, int (.ofNat k)) := by
          rw [lookup_update, c4, Option.map_some, beq_ne (by omega)]; rfl
        have d4 : lookup n!"PS" (update 10 (mat T') env1) = some (11, mat P) := by
          rw [lookup_update, hS1]; rfl
        generalize update 10 (mat T') env1 = env2 at d1 d2 d3 d4
        clear hI1 hS1 c1 c2 c3 c4
        py_draw []
        kernel_rfl
  · rwa [length_update, length_update]
  · rw [lookup_update, lookup_update, hI1]; rfl
  · rw [lookup_update, lookup_update, hS1]; rfl
  · exact (hO1.update (by omega)).update (by omega)

omit [PyNum α] in
theorem numbered_zip (sw : List α) (n : Nat) :
    numbered n sw = (sw.zipIdx n).map fun p => tup [int (.ofNat p.2), num p.1] := by
  induction sw generalizing n with
  | nil => rfl
  | cons a l ih => rw [numbered, List.zipIdx_cons, List.map_cons, ih]

/-- What remains of the body of `plot_rpt` after the loop. -/
def rptRest : Block :=
  Block.rest (Block.rest (Block.rest Source.QI.plot_rpt.body))

theorem rpt_rest {F : Caller α} {L : Lib α} {d : Nat} {env : Env α} {T P : List (List α)} {x y : List α}
    {i j : Nat} {blk : Block} (hb : blk = rptRest)
    (hI : lookup n!"IP" env = some (i, mat T)) (hS : lookup n!"PS" env = some (j, mat P))
    (hx : column (.negSucc 0) T = .ok x) (hy : column (.negSucc 0) P = .ok y)
    (hl : x.length = y.length) (n : Nat) (log : List (Cmd α)) :
    ran F (drawer L Source.program Source.methods (d + 1)) blk env (n, log) =
      (.ok (handle "figure" n), n + 1, .draw n (.ylabel "Vp/Vs") ::
        .draw n (.xlabel "Acoustic Impedance") :: .draw n (.line x y "-ok") ::
        (((List.zipWith (Mark.line · · "-ok") (transpose (transpose T))
          (transpose (transpose P))).map (Cmd.draw n)).reverse ++ .figure :: log)) := by
  subst hb
  py_stmt
  py_whnf_arg 4
  refine ran_step (st' := (n + 1, ((List.zipWith (Mark.line · · "-ok") (transpose (transpose T))
    (transpose (transpose P))).map (Cmd.draw n)).reverse ++ .figure :: log))
    (draw_expr (v := .none) (g := ?g) (vs := [mat (transpose T), mat (transpose P), str "-ok"]) (kw := ?kw) ?hG ?ha ?h) ?hr
  case hG => exact rfl
  case ha => py_draw []; exact rfl
  case h =>
    refine Eq.trans (b := marks n (List.zipWith (Mark.line · · "-ok") (transpose (transpose T))
      (transpose (transpose P))) (n + 1, .figure :: log)) ?_ (run_marks _ _ _ _)
    kernel_rfl
  case hr =>
    generalize List.reverse _ ++ _ = log'
    py_stmt using exact hl
    py_stmt
    py_return

/-- For one dry modulus of each kind per porosity; `np.empty` gives a table of the asked size. -/
theorem C105_QI_plot_rpt {L : Lib α} (hL : Empties2 L) (rock : List (α × α × α))
    (K0 D0 Kb Db Khc Dhc : α) (sw : List α) (hw : sw ≠ []) :
    Plots L 2 n!"QI.plot_rpt" []
      [vec (rock.map (·.1)), vec (rock.map (·.2.1)), num K0, num D0, num Kb, num Db, num Khc, num Dhc,
        vec (rock.map (·.2.2)), vec sw] (handle "figure")
      (QI.plot_rpt rock K0 D0 Kb Db Khc Dhc sw) := by
  intro k s
  obtain ⟨e, he, hr, hE⟩ := hL (callFn L Source.program (k + 1)) (rock.map (·.2.2)).length sw.length
  rw [List.length_map] at he
  obtain ⟨sw', s', rfl⟩ : ∃ l a, sw = l ++ [a] :=
    ⟨sw.dropLast, sw.getLast hw, (List.dropLast_append_getLast hw).symm⟩
  let ent := fun (r : α × α × α) s => QI.rpt_entry r.1 r.2.1 K0 D0 Kb Db Khc Dhc r.2.2 s
  let tab := fun (f : α × α → α) (done : List (α × Nat)) =>
    List.zipWith (fun r row => (done.map fun p => f (ent r p.1)) ++ row.drop done.length) rock e
  have full : ∀ f, tab f (sw' ++ [s']).zipIdx = rock.map fun r => (sw' ++ [s']).map fun s => f (ent r s) := by
    intro f
    have h : ∀ (rock : List (α × α × α)) (e : List (List α)), e.length = rock.length →
        (∀ r ∈ e, r.length = (sw' ++ [s']).length) →
        List.zipWith (fun r row => ((sw' ++ [s']).zipIdx.map fun p => f (ent r p.1)) ++
          row.drop (sw' ++ [s']).zipIdx.length) rock e =
        rock.map fun r => (sw' ++ [s']).map fun s => f (ent r s) := by
      intro rock
      induction rock with
      | nil => intro e _ _; rfl
      | cons r rock ih =>
        intro e he hr
        cases e with
        | nil => cases he
        | cons row e =>
          rw [List.zipWith_cons_cons, List.map_cons, ih e (by simpa using he)
            fun r h => hr r (List.mem_cons_of_mem _ h)]
          congr 1
          rw [List.length_zipIdx, ← hr row List.mem_cons_self, List.drop_length, List.append_nil]
          conv_rhs => rw [← List.zipIdx_map_fst 0 (sw' ++ [s'])]
          rw [List.map_map]
          rfl
    exact h rock e he fun r h => (hr r h).1
  have fresh : ∀ f, tab f [] = e := by
    intro f
    have h : ∀ (rock : List (α × α × α)) (e : List (List α)), e.length = rock.length →
        List.zipWith (fun _ row => row) rock e = e := by
      intro rock
      induction rock with
      | nil => intro e he; exact (List.eq_nil_of_length_eq_zero he).symm
      | cons r rock ih =>
        intro e he
        cases e with
        | nil => cases he
        | cons row e => rw [List.zipWith_cons_cons, ih e (by simpa using he)]
    exact h rock e he
  have hrun : ∀ n, callMethod L (k + 2) n!"QI.plot_rpt" []
      [vec (rock.map (·.1)), vec (rock.map (·.2.1)), num K0, num D0, num Kb, num Db, num Khc, num Dhc,
        vec (rock.map (·.2.2)), vec (sw' ++ [s'])] (n, []) =
      (.ok (handle "figure" n), n + 1, .draw n (.ylabel "Vp/Vs") ::
        .draw n (.xlabel "Acoustic Impedance") ::
        .draw n (.line (rock.map fun r => (ent r s').1) (rock.map fun r => (ent r s').2) "-ok") ::
        (((rock.map fun r => Mark.line ((sw' ++ [s']).map fun s => (ent r s).1)
          ((sw' ++ [s']).map fun s => (ent r s).2) "-ok").map (Cmd.draw n)).reverse ++ [.figure])) := by
    intro n
    refine draw_method (g := ?g) (env := ?env) ?hg ?hk ?hb ?hx
    case hg => exact rfl
    case hk => exact rfl
    case hb => py_draw []; exact rfl
    case hx =>
      py_stmt
      py_stmt
      py_whnf_arg 4
      refine ran_each_from (n := n) (fun p : α × Nat => tup [int (.ofNat p.2), num p.1]) (sw' ++ [s']).zipIdx
        (fun done env => RptInv rock K0 D0 Kb Db Khc Dhc (tab Prod.fst done) (tab Prod.snd done) env)
        ?hl ?hI ?h ?hr
      case hl =>
        rw [← numbered_zip]
        kernel_rfl
      case hI =>
        refine ⟨Nat.le_refl 12, ?_, ?_, ?_⟩
        · rw [fresh]; kernel_rfl
        · rw [fresh]; kernel_rfl
        · repeat' first | exact trivial | exact ⟨_, rfl, rfl⟩ | constructor
      case h =>
        intro done x rest env log hd hI
        obtain ⟨a, i⟩ := x
        have hi : i = done.length := by
          have := congrArg (·[done.length]?) hd
          simp only [List.getElem?_append_right le_rfl, Nat.sub_self, List.getElem?_cons_zero,
            List.getElem?_zipIdx] at this
          obtain ⟨b, _, hb⟩ := Option.map_eq_some_iff.mp this.symm
          simpa using (congrArg Prod.snd hb).symm
        subst hi
        have hlt : done.length < (sw' ++ [s']).length := by
          have := congrArg List.length hd
          simp only [List.length_append, List.length_cons, List.length_zipIdx] at this ⊢
          omega
        have next : ∀ f : α × α → α, storeCol (.ofNat done.length) (tab f done)
            (rock.map fun r => f (ent r a)) = .ok (tab f (done ++ [(a, done.length)])) := by
          intro f
          have := storeCol_table rock e (fun r => done.map fun p => f (ent r p.1))
            (fun r => f (ent r a)) done.length he (fun _ => List.length_map _)
            (fun row h => ⟨(hr row h).1 ▸ hlt, (hr row h).2⟩)
          refine this.trans ?_
          simp [tab]
        exact rpt_round (by kernel_rfl) (fun Kf Df => vels_arrays rock K0 D0 Kf Df L k) (next Prod.fst)
          (next Prod.snd) env log hI
      case hr =>
        intro env' h'
        obtain ⟨_, hI, hS, _⟩ := h'
        rw [full] at hI hS
        refine (rpt_rest (blk := ?blk) ?hb hI hS (x := rock.map fun r => (ent r s').1) (y := rock.map fun r => (ent r s').2) ?hx ?hy ?hl n []).trans ?he
        case hb => kernel_rfl
        case hx => simpa only [List.map_append, List.map_cons, List.map_nil] using column_last rock (fun r => sw'.map fun s => (ent r s).1) (fun r => (ent r s').1)
        case hy => simpa only [List.map_append, List.map_cons, List.map_nil] using column_last rock (fun r => sw'.map fun s => (ent r s).2) (fun r => (ent r s').2)
        case hl => simp
        case he =>
          rw [transpose_twice rock _ (by simp) fun r s => (ent r s).1,
            transpose_twice rock _ (by simp) fun r s => (ent r s).2, List.zipWith_map, List.zipWith_self]
  refine (onFigures_eq hrun _).trans ?_
  rw [outcome_shows (shows_plot_rpt rock K0 D0 Kb Db Khc Dhc sw' s')]
  rw [shown_length]
  simp only [ends, shown_new]
  refine congrArg (Prod.mk _) (Eq.trans ?_ (replay_new s _))
  simp [shownMark, Function.comp_def, ent]

/-- A library that satisfies the hypothesis. -/
example : Empties2 (α := Fl) (fun _ _ vs _ => match vs with
    | [.tup [.int (.ofNat m), .int (.ofNat n)]] => .ok (.mat (List.replicate m (List.replicate n 7)))
    | _ => .error .stuck) :=
  fun _ m n => ⟨List.replicate m (List.replicate n 7), List.length_replicate, fun r h => by
    rw [List.eq_of_mem_replicate h]
    exact ⟨List.length_replicate, fun _ _ _ => rfl⟩, rfl⟩

end RockPhy.Props
