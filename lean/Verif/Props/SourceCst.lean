import Verif.Props.SourcePlot
import Verif.Props.SourceQI
import Verif.Props.SourceEM

/-!
# C105 for the cement diagnostics of `rockphypy/QI.py`
-/

namespace RockPhy.Props

open RockPhy.Py RockPhy.Py.Val

variable {α : Type} [PyNum α]

set_option maxRecDepth 8000

/-- A variable and its value. -/
def Has (env : Env α) (x : Name) (v : Val α) : Prop := ∃ i, lookup x env = some (i, v)

omit [PyNum α] in
theorem Has.cons {env : Env α} {x y : Name} {v w : Val α} {i : Nat} (h : Has env x v)
    (hx : Nat.beq x y = false) : Has ((y, i, w) :: env) x v := by
  obtain ⟨j, h⟩ := h
  exact ⟨j, by rw [lookup, hx]; exact h⟩

/-- Several variables and their values. -/
def Holds (env : Env α) : List (Name × Val α) → Prop
  | [] => True
  | (x, v) :: l => Has env x v ∧ Holds env l

omit [PyNum α] in
theorem Holds.cons {env : Env α} {l : List (Name × Val α)} {y : Name} {w : Val α} {i : Nat}
    (h : Holds env l) (hl : (l.all fun p => !Nat.beq p.1 y) = true) :
    Holds ((y, i, w) :: env) l := by
  induction l with
  | nil => trivial
  | cons p l ih =>
    rw [List.all_cons, Bool.and_eq_true, Bool.not_eq_true'] at hl
    exact ⟨h.1.cons hl.1, ih h.2 hl.2⟩

/-- The body of the loop of `cst_plot`. -/
def cstRound : Block := .ofList [
  .expr (.meth v!"ax" n!"plot" (.ofKw [v!"phi", (.idx c!"QI.cst_vels"[v!"i", v!"K0", v!"D0",
    v!"G0", v!"phi", v!"phi_c", v!"Cn", v!"Kc", v!"Gc", v!"Db", v!"Kb", v!"scheme", v!"vsh",
    v!"Dsh", v!"Dqz", v!"Dc"] (.ofList [0])), (.str "--k")] [(n!"lw", 2), (n!"alpha", 0.7)]))]

/-- The variables that the loop of `cst_plot` reads. -/
abbrev cstVars (K0 D0 G0 : α) (phi : List α) (phi_c Cn Kc Gc Db Kb : α) (scheme : Int)
    (vsh Dsh Dqz Dc : α) (m : Nat) : List (Name × Val α) :=
  [(n!"K0", num K0), (n!"D0", num D0), (n!"G0", num G0), (n!"phi", vec phi), (n!"phi_c", num phi_c),
    (n!"Cn", num Cn), (n!"Kc", num Kc), (n!"Gc", num Gc), (n!"Db", num Db), (n!"Kb", num Kb),
    (n!"scheme", int scheme), (n!"vsh", num vsh), (n!"Dsh", num Dsh), (n!"Dqz", num Dqz),
    (n!"Dc", num Dc), (n!"ax", handle "axes" m), (n!"fig", handle "figure" m)]

theorem cst_round {F : Caller α} {G : Drawer α} {K0 D0 G0 : α} {phi : List α}
    {phi_c Cn Kc Gc Db Kb : α} {scheme : Int} {vsh Dsh Dqz Dc : α} {m n : Nat}
    {v : α → List α × List α}
    (hF : ∀ b, F n!"QI.cst_vels" [num b, num K0, num D0, num G0, vec phi, num phi_c, num Cn, num Kc,
      num Gc, num Db, num Kb, int scheme, num vsh, num Dsh, num Dqz, num Dc] [] =
      .ok (tup [vec (v b).1, vec (v b).2]))
    (hl : ∀ b, phi.length = (v b).1.length) (b : α) (env : Env α) (log : List (Cmd α))
    (h : Holds env (cstVars K0 D0 G0 phi phi_c Cn Kc Gc Db Kb scheme vsh Dsh Dqz Dc m)) : ∃ env',
    ((Draws.lift (assign F env (.var n!"i") (num b))).bind fun env => execAllD F G cstRound env)
      (n, log) = (.ok (env', .none), n, [.draw m (.line phi (v b).1 "--k")] ++ log) ∧
    Holds env' (cstVars K0 D0 G0 phi phi_c Cn Kc Gc Db Kb scheme vsh Dsh Dqz Dc m) := by
  have h' := h
  obtain ⟨⟨i1, h1⟩, ⟨i2, h2⟩, ⟨i3, h3⟩, ⟨i4, h4⟩, ⟨i5, h5⟩, ⟨i6, h6⟩, ⟨i7, h7⟩, ⟨i8, h8⟩, ⟨i9, h9⟩,
    ⟨i10, h10⟩, ⟨i11, h11⟩, ⟨i12, h12⟩, ⟨i13, h13⟩, ⟨i14, h14⟩, ⟨i15, h15⟩, ⟨i16, h16⟩, _⟩ := h'
  have hF := hF b
  refine ⟨(n!"i", env.length, num b) :: env, ?_, ?_⟩
  · have hl := hl b
    clear h
    py_draw [] using exact hl
    exact rfl
  · exact h.cons rfl

/-- What the body of `cst_plot` draws. -/
theorem cst_run {F : Caller α} {L : Lib α} {k : Nat}
    {Dqz Kqz Gqz Dsh Ksh Gsh Dc Kc Gc Db Kb phib : α} (phib_p : List α)
    {phi_c sigma vsh Cn : α} {scheme : Int} {f kv kr K0 gv gr G0 : α}
    {phi vp1 vp2 vp3 vs1 vs2 vs3 : List α} {v : α → List α × List α}
    (hK : F n!"EM.VRH" [vec [vsh, 1 - vsh], vec [Ksh, Kqz]] [] = .ok (tup [num kv, num kr, num K0]))
    (hG : F n!"EM.VRH" [vec [vsh, 1 - vsh], vec [Gsh, Gqz]] [] = .ok (tup [num gv, num gr, num G0]))
    (hr : F n!"QI.screening" [num Dqz, num Kqz, num Gqz, num Dsh, num Ksh, num Gsh, num Dc, num Kc,
      num Gc, num Db, num Kb, num phib, num phi_c, num sigma, num vsh, int scheme, num f, num Cn] [] =
      .ok (tup [vec phi, vec vp1, vec vp2, vec vp3, vec vs1, vec vs2, vec vs3]))
    (hF : ∀ b, F n!"QI.cst_vels" [num b, num K0, num (Dsh * vsh + Dqz * (1 - vsh)), num G0, vec phi,
      num phi_c, num Cn, num Kc, num Gc, num Db, num Kb, int scheme, num vsh, num Dsh, num Dqz,
      num Dc] [] = .ok (tup [vec (v b).1, vec (v b).2]))
    (h1 : phi.length = vp1.length) (h3 : phi.length = vp3.length)
    (hl : ∀ b, phi.length = (v b).1.length) (n : Nat) (log : List (Cmd α)) :
    ran F (drawer L Source.program Source.methods (k + 1)) Source.QI.cst_plot.body
      [(n!"Dqz", 18, num Dqz), (n!"Kqz", 17, num Kqz), (n!"Gqz", 16, num Gqz),
       (n!"Dsh", 15, num Dsh), (n!"Ksh", 14, num Ksh), (n!"Gsh", 13, num Gsh),
       (n!"Dc", 12, num Dc), (n!"Kc", 11, num Kc), (n!"Gc", 10, num Gc), (n!"Db", 9, num Db),
       (n!"Kb", 8, num Kb), (n!"phib", 7, num phib), (n!"phib_p", 6, vec phib_p),
       (n!"phi_c", 5, num phi_c), (n!"sigma", 4, num sigma), (n!"vsh", 3, num vsh),
       (n!"Cn", 2, num Cn), (n!"scheme", 1, int scheme), (n!"f", 0, num f)] (n, log) =
      (.ok (tup [handle "figure" n, handle "axes" n]), n + 1,
        .draw n .grid :: .draw n (.xlabel "porosity") :: .draw n (.ylabel "Vp (m/s)") ::
        ((phib_p.map fun b => [.draw n (.line phi (v b).1 "--k")]).reverse.flatten ++
          .draw n (.line phi vp1 "-k") :: .draw n (.line phi vp3 "-k") :: .figure :: log)) := by
  iterate 7 py_stmt using first | exact h1 | exact h3
  py_whnf_arg 4
  refine ran_each (n := n + 1) num phib_p (fun _ env => Holds env (cstVars K0
    (Dsh * vsh + Dqz * (1 - vsh)) G0 phi phi_c Cn Kc Gc Db Kb scheme vsh Dsh Dqz Dc n))
    (fun b => [.draw n (.line phi (v b).1 "--k")]) ?_ ?_ (fun _ b env log h => cst_round hF hl b env log h) ?_
  · kernel_rfl
  · repeat' first | exact trivial | exact ⟨_, rfl⟩ | constructor
  · intro env' h
    obtain ⟨_, _, _, _, _, _, _, _, _, _, _, _, _, _, _, ⟨i16, h16⟩, ⟨i17, h17⟩, _⟩ := h
    generalize List.flatten _ ++ _ = log'
    iterate 3 py_stmt
    py_return

omit [PyNum α] in
theorem outcome_shows {p : QI.Plt α Nat} {f : QI.Figure α} (h : Spec.Shows p f)
    (s : List (QI.Figure α)) : Spec.outcome p s = (.ok s.length, s ++ [f]) := h s

omit [PyNum α] in
/-- Commands that draw on a new figure. -/
theorem replay_new (s : List (QI.Figure α)) (l : List (Mark α)) :
    replay ((l.map (Cmd.draw s.length)).reverse ++ [.figure]) (shown s) = shown s ++ [l] := by
  have h : ∀ l : List (Mark α), replay (l.map (Cmd.draw s.length) ++ [.figure]) (shown s) =
      shown s ++ [l.reverse] := by
    intro l
    induction l with
    | nil => rfl
    | cons m l ih =>
      rw [List.map_cons, List.cons_append, replay, ih, modify_shown, List.reverse_cons]
  rw [← List.map_reverse, h, List.reverse_reverse]

/-- What `cst_plot` draws, in the source and in the model. -/
theorem cst_both (L : Lib α) (k : Nat) (Dqz Kqz Gqz Dsh Ksh Gsh Dc Kc Gc Db Kb phib : α)
    (phib_p : List α) (phi_c sigma vsh Cn : α) (scheme : Int) (f : α)
    (hs : ∀ a b : α, PyNum.store (sqrt a * b) QI.npnan = QI.npnan) : ∃ fig : QI.Figure α,
    Spec.Shows (QI.cst_plot Dqz Kqz Gqz Dsh Ksh Gsh Dc Kc Gc Db Kb phib phib_p phi_c sigma vsh Cn
      scheme f) fig ∧
    ∀ n log, Source.QI.cst_plot.draw (callFn L Source.program (k + 4))
      (drawer L Source.program Source.methods (k + 4)) []
      [num Dqz, num Kqz, num Gqz, num Dsh, num Ksh, num Gsh, num Dc, num Kc, num Gc, num Db, num Kb,
        num phib, vec phib_p, num phi_c, num sigma, num vsh, num Cn, int scheme, num f] [] (n, log) =
      (.ok (tup [handle "figure" n, handle "axes" n]), n + 1,
        ((fig.map shownMark).map (Cmd.draw n)).reverse ++ .figure :: log) := by
  obtain ⟨rows, hr⟩ := screening_ok Dqz Kqz Gqz Dsh Ksh Gsh Dc Kc Gc Db Kb phib phi_c sigma vsh
    scheme f Cn
  have v2 : ∀ a b x y : α, ∃ v r h, EM.VRH [a, b] [x, y] = .ok (v, r, h) :=
    fun _ _ _ _ => ⟨_, _, _, rfl⟩
  obtain ⟨kv, kr, K0, hK⟩ := v2 vsh (1 - vsh) Ksh Kqz
  obtain ⟨gv, gr, G0, hG⟩ := v2 vsh (1 - vsh) Gsh Gqz
  have hc := fun b p => cst_vels_ok b K0 (Dsh * vsh + Dqz * (1 - vsh)) G0 p phi_c Cn Kc Gc Db Kb
    scheme vsh Dsh Dqz Dc
  choose v hv using hc
  have hm : ∀ b, (rows.map (·.1)).mapM (fun p => QI.cst_vels b K0 (Dsh * vsh + Dqz * (1 - vsh)) G0 p
      phi_c Cn Kc Gc Db Kb scheme vsh Dsh Dqz Dc) = .ok ((rows.map (·.1)).map (v b)) :=
    fun b => Props.mapM_ok fun p _ => hv b p
  have e1 := C105_EM_VRH [vsh, 1 - vsh] [Ksh, Kqz] L (k + 3)
  have e2 := C105_EM_VRH [vsh, 1 - vsh] [Gsh, Gqz] L (k + 3)
  have e3 := C105_QI_screening Dqz Kqz Gqz Dsh Ksh Gsh Dc Kc Gc Db Kb phib phi_c sigma vsh scheme f Cn
    hs L k
  have e4 := fun b => C105_QI_cst_vels b K0 (Dsh * vsh + Dqz * (1 - vsh)) G0 phi_c Cn Kc Gc Db Kb
    (rows.map (·.1)) scheme vsh Dsh Dqz Dc hs L k
  simp only [hm] at e4
  rw [hK] at e1
  rw [hG] at e2
  rw [hr] at e3
  refine ⟨_, shows_cst_plot phib_p hK hG hr hv, fun n log => ?_⟩
  refine draw_fun (env := ?env) ?hk ?hb ?hx
  case hk => exact rfl
  case hb => py_draw []; exact rfl
  case hx =>
    refine (cst_run (K0 := K0) (G0 := G0) (v := fun b =>
      (((rows.map Prod.fst).map (v b)).map Prod.fst, ((rows.map Prod.fst).map (v b)).map Prod.snd)) phib_p e1 e2 e3 e4 (by simp) (by simp)
      (fun b => by simp) n log).trans ?_
    simp [shownMark, List.flatten_reverse, flatten_singletons, Function.comp_def]

/-- `hs`: `np.nan` can be stored in an array of computed velocities. -/
theorem C105_QI_cst_plot (L : Lib α) (Dqz Kqz Gqz Dsh Ksh Gsh Dc Kc Gc Db Kb phib : α)
    (phib_p : List α) (phi_c sigma vsh Cn : α) (scheme : Int) (f : α)
    (hs : ∀ a b : α, PyNum.store (sqrt a * b) QI.npnan = QI.npnan) :
    Plots L 4 n!"QI.cst_plot" []
      [num Dqz, num Kqz, num Gqz, num Dsh, num Ksh, num Gsh, num Dc, num Kc, num Gc, num Db, num Kb,
        num phib, vec phib_p, num phi_c, num sigma, num vsh, num Cn, int scheme, num f]
      (fun i => tup [handle "figure" i, handle "axes" i])
      (QI.cst_plot Dqz Kqz Gqz Dsh Ksh Gsh Dc Kc Gc Db Kb phib phib_p phi_c sigma vsh Cn scheme f) := by
  intro k s
  obtain ⟨fig, h1, h2⟩ := cst_both L k Dqz Kqz Gqz Dsh Ksh Gsh Dc Kc Gc Db Kb phib phib_p phi_c sigma
    vsh Cn scheme f hs
  rw [outcome_shows h1]
  refine (onFigures_eq (fun n => h2 n []) _).trans ?_
  simp only [shown_length, ends, replay_new, shown_new]

omit [PyNum α] in
theorem relabel_last (t u : String) (l : List (Mark α)) :
    relabel t (l ++ [.colorbar u]) = l ++ [.colorbar t] := by
  induction l with
  | nil => rfl
  | cons m l ih =>
    cases l with
    | nil => cases m <;> rfl
    | cons m' l =>
      rw [List.cons_append, List.cons_append, relabel, ← List.cons_append, ih]
      · rfl
      · rintro _ _ ⟨⟩

/-- The statements of a block after the first. -/
def Block.rest : Block → Block
  | .nil => .nil
  | .cons _ b => b

theorem diag_rest {F : Caller α} {L : Lib α} {k : Nat} {env : Env α} {n : Nat}
    {Phi Vp vcem : List α} {blk : Block} (hb : blk = Block.rest Source.QI.cement_diag_plot.body)
    (h : Holds env [(n!"fig", handle "figure" n), (n!"vcem", vec vcem),
      (n!"self.phi", vec Phi), (n!"self.Vp", vec Vp)])
    (hc : lookup n!"cmap_cem" env = .none)
    (hp : Phi.length = Vp.length ∧ Phi.length = vcem.length) (log : List (Cmd α)) :
    ran F (drawer L Source.program Source.methods k) blk env
      (n + 1, log) = (.ok (handle "figure" n), n + 1, .draw n (.xlim (-0.007) 0.507) ::
        .draw n (.ylim 1500 6500) :: .draw n (.xlabel "Porosity") :: .label n "$\\rm V_{CEM}$" ::
        .draw n (.colorbar "") :: .draw n (.points Phi Vp vcem 0 0.1 "cmap_cem") :: log) := by
  obtain ⟨⟨i1, h1⟩, ⟨i2, h2⟩, ⟨i3, h3⟩, ⟨i4, h4⟩, _⟩ := h
  subst hb
  cases k <;>
  · iterate 7 py_stmt using exact hp
    py_return

theorem diag_rest_error {F : Caller α} {L : Lib α} {k : Nat} {env : Env α} {n : Nat}
    {Phi Vp vcem : List α} {blk : Block} (hb : blk = Block.rest Source.QI.cement_diag_plot.body)
    (h : Holds env [(n!"fig", handle "figure" n), (n!"vcem", vec vcem),
      (n!"self.phi", vec Phi), (n!"self.Vp", vec Vp)])
    (hc : lookup n!"cmap_cem" env = .none)
    (hp : ¬ (Phi.length = Vp.length ∧ Phi.length = vcem.length)) (log : List (Cmd α)) :
    ran F (drawer L Source.program Source.methods k) blk env
      (n + 1, log) = (.error (.py .ValueError), n + 1, log) := by
  obtain ⟨⟨i1, h1⟩, ⟨i2, h2⟩, ⟨i3, h3⟩, ⟨i4, h4⟩, _⟩ := h
  subst hb
  cases k <;>
  · py_stmt
    py_raise using exact hp

/-- `hs`: `np.nan` can be stored in an array of computed velocities. -/
theorem C105_QI_cement_diag_plot (L : Lib α) (q : QI.Obj α) (vcem : List α)
    (Dqz Kqz Gqz Dsh Ksh Gsh Dc Kc Gc Db Kb phib : α) (phib_p : List α) (phi_c sigma vsh Cn : α)
    (scheme : Int) (f : α) (hs : ∀ a b : α, PyNum.store (sqrt a * b) QI.npnan = QI.npnan) :
    Plots L 5 n!"QI.cement_diag_plot" (attributesOf q)
      [vec vcem, num Dqz, num Kqz, num Gqz, num Dsh, num Ksh, num Gsh, num Dc, num Kc, num Gc, num Db,
        num Kb, num phib, vec phib_p, num phi_c, num sigma, num vsh, num Cn, int scheme, num f]
      (handle "figure")
      (QI.cement_diag_plot q vcem Dqz Kqz Gqz Dsh Ksh Gsh Dc Kc Gc Db Kb phib phib_p phi_c sigma vsh Cn
        scheme f) := by
  intro k s
  obtain ⟨fig, h1, h2⟩ := cst_both L k Dqz Kqz Gqz Dsh Ksh Gsh Dc Kc Gc Db Kb phib phib_p phi_c sigma
    vsh Cn scheme f hs
  obtain ⟨Vp, Phi, Vsh, Vs, den, eff, tvd⟩ := q
  unfold QI.cement_diag_plot
  by_cases hp : Phi.length = Vp.length ∧ Phi.length = vcem.length
  · plot_method
      py_whnf_arg 4
      refine ran_step (env' := ?env') (draw_call (g := Source.QI.cst_plot.draw (callFn L Source.program (k + 4))
        (drawer L Source.program Source.methods (k + 4)) [])
        (vs := [num Dqz, num Kqz, num Gqz, num Dsh, num Ksh, num Gsh, num Dc, num Kc, num Gc, num Db, num Kb,
          num phib, vec phib_p, num phi_c, num sigma, num vsh, num Cn, int scheme, num f]) (kw := []) ?hg ?ha (h2 _ []) ?hv) ?hr
      case hg => kernel_rfl
      case ha => kernel_rfl
      case hv => py_draw []; exact rfl
      case hr =>
        refine (diag_rest (blk := ?blk) ?hb ?hh ?hc hp _).trans ?he
        case hb => kernel_rfl
        case hh => repeat' first | exact trivial | exact ⟨_, rfl⟩ | constructor
        case hc => kernel_rfl
        case he => exact rfl
    plot_eq [outcome_shows h1, outcome_scatter s _ hp, replay_new, relabel_last, List.map_append]
  · plot_method
      py_whnf_arg 4
      refine ran_step (env' := ?env2) (draw_call (g := Source.QI.cst_plot.draw (callFn L Source.program (k + 4))
        (drawer L Source.program Source.methods (k + 4)) [])
        (vs := [num Dqz, num Kqz, num Gqz, num Dsh, num Ksh, num Gsh, num Dc, num Kc, num Gc, num Db, num Kb,
          num phib, vec phib_p, num phi_c, num sigma, num vsh, num Cn, int scheme, num f]) (kw := []) ?hg2 ?ha2 (h2 _ []) ?hv2) ?hr2
      case hg2 => kernel_rfl
      case ha2 => kernel_rfl
      case hv2 => py_draw []; exact rfl
      case hr2 =>
        refine (diag_rest_error (blk := ?blk2) ?hb2 ?hh2 ?hc2 hp _).trans ?he2
        case hb2 => kernel_rfl
        case hh2 => repeat' first | exact trivial | exact ⟨_, rfl⟩ | constructor
        case hc2 => kernel_rfl
        case he2 => exact rfl
    simp only [outcome_bind, outcome_shows h1, outcome_scatter_error s _ hp, ends, shown_new,
      shown_length, replay_new]

/-- The hypothesis holds in the arithmetic with infinities and nan. -/
example : ∀ a b : Fl, PyNum.store (sqrt a * b) QI.npnan = QI.npnan := fun _ _ => rfl

end RockPhy.Props
