import Verif.Spec.Calls
import Verif.Spec.Source
import Verif.Props.SourceEM
import Verif.Py.Plot

/-!
# C106: calling the functions of the package
-/

namespace RockPhy.Py

open RockPhy.Spec

variable {α : Type} [PyNum α]

theorem lookup_eq {β : Type} (x : Name) (l : List (Name × β)) : lookup x l = l.lookup x := by
  induction l with
  | nil => rfl
  | cons a l ih =>
    rw [lookup, List.lookup_cons, ih]
    cases h : x == a.1 with
    | true => simp [beq_iff_eq.mp h]
    | false =>
      have : Nat.beq x a.1 = false := by
        rw [beq_eq_false_iff_ne] at h
        exact Bool.eq_false_iff.mpr fun e => h (Nat.eq_of_beq_eq_true e)
      simp [this]

/-- A default value that is a literal or a colour map. -/
def isLit : Option Expr → Bool
  | .none => true
  | some (.int _) => true
  | some (.str _) => true
  | some (.bool _) => true
  | some .none => true
  | some (.var x) => x == n!"cmap_sand" || x == n!"cmap_kde"
  | _ => false

/-- The variables at the start of a call. -/
def start : List Param → List (Val α) → Env α
  | [], _ => []
  | _ :: _, [] => []
  | p :: ps, v :: vs => (p.name, (start ps vs).length, v) :: start ps vs

omit [PyNum α] in
theorem lookup_none {β : Type} {x : Name} {l : List (Name × β)} (h : x ∉ l.map (·.1)) :
    lookup x l = .none := by
  rw [lookup_eq, List.lookup_eq_none_iff]
  intro p hp
  simp only [bne_iff_ne, ne_eq]
  rintro rfl
  exact h (List.mem_map_of_mem hp)

theorem lookup_some {β : Type} {x : Name} {l : List (Name × β)} (h : x ∈ l.map (·.1)) :
    ∃ v, lookup x l = some v := by
  cases e : lookup x l with
  | some v => exact ⟨v, rfl⟩
  | none =>
    rw [lookup_eq, List.lookup_eq_none_iff] at e
    obtain ⟨p, hp, rfl⟩ := List.mem_map.mp h
    simpa using e p hp

theorem eval_literal {F : Caller α} {d : Expr} (h : isLit (some d) = true) :
    eval F [] d = .ok (literal (some d)) := by
  cases d with
  | var x =>
    simp only [isLit, Bool.or_eq_true, beq_iff_eq] at h
    rcases h with rfl | rfl <;> rfl
  | _ => first | rfl | cases h

omit [PyNum α] in
theorem knownKw_iff (ps : List Param) (kw : List (Name × Val α)) :
    knownKw ps kw = true ↔ ∀ x ∈ kw.map (·.1), x ∈ ps.map (·.name) := by
  induction kw with
  | nil => simp [knownKw]
  | cons a l ih =>
    obtain ⟨x, v⟩ := a
    simp only [knownKw, Bool.and_eq_true, ih, List.map_cons, List.mem_cons, forall_eq_or_imp]
    refine and_congr_left fun _ => ?_
    simp [List.any_eq_true, List.mem_map]

/-- The conditions on the call that binding checks. -/
def Binds (ps : List Param) (n : Nat) (kw : List Name) : Prop :=
  n ≤ ps.length ∧ (∀ x ∈ kw, x ∉ (ps.take n).map (·.name)) ∧
    ∀ p ∈ ps.drop n, p.dflt = .none → p.name ∈ kw

theorem bind_ok (ps : List Param) (vs : List (Val α)) (kw : List (Name × Val α))
    (hl : ∀ p ∈ ps, isLit p.dflt = true) (h : Binds ps vs.length (kw.map (·.1))) :
    bindParams ps vs kw = .ok (start ps (values ps vs kw)) := by
  induction ps generalizing vs with
  | nil =>
    cases vs with
    | nil => rfl
    | cons v vs => exact absurd h.1 (by simp)
  | cons p ps ih =>
    cases vs with
    | cons v vs =>
      have hn : lookup p.name kw = .none :=
        lookup_none fun hm => h.2.1 _ hm (by simp)
      have hb : Binds ps vs.length (kw.map (·.1)) :=
        ⟨by simpa using h.1, fun x hx hm => h.2.1 x hx (by
          simp only [List.length_cons, List.take_succ_cons, List.map_cons, List.mem_cons]
          exact .inr hm), by simpa using h.2.2⟩
      rw [bindParams, hn]
      simp only [ih vs (fun q hq => hl q (.tail _ hq)) hb]
      rfl
    | nil =>
      have hb : Binds ps ([] : List (Val α)).length (kw.map (·.1)) :=
        ⟨by simp, by simp, fun q hq hd => h.2.2 q (by simp at hq ⊢; exact .inr hq) hd⟩
      have ih' := ih [] (fun q hq => hl q (.tail _ hq)) hb
      rw [bindParams, values, ← lookup_eq]
      cases e : lookup p.name kw with
      | some v => simp only [ih']; rfl
      | none =>
        cases d : p.dflt with
        | none =>
          obtain ⟨v, hv⟩ := lookup_some (h.2.2 p (by simp) d)
          rw [e] at hv; cases hv
        | some x =>
          have := hl p (.head _)
          rw [d] at this
          simp only [eval_literal this, ih']
          rfl

theorem bind_error (ps : List Param) (vs : List (Val α)) (kw : List (Name × Val α))
    (hl : ∀ p ∈ ps, isLit p.dflt = true) (h : ¬ Binds ps vs.length (kw.map (·.1))) :
    bindParams ps vs kw = .error (.py .TypeError) := by
  induction ps generalizing vs with
  | nil =>
    cases vs with
    | nil => exact absurd ⟨le_rfl, by simp, by simp⟩ h
    | cons v vs => rfl
  | cons p ps ih =>
    cases vs with
    | cons v vs =>
      rw [bindParams]
      cases e : lookup p.name kw with
      | some w => rfl
      | none =>
        have hp : p.name ∉ kw.map (·.1) := fun hm => by
          obtain ⟨v, hv⟩ := lookup_some hm
          rw [e] at hv; cases hv
        have hb : ¬ Binds ps vs.length (kw.map (·.1)) := by
          rintro ⟨h1, h2, h3⟩
          refine h ⟨by simpa using h1, fun x hx hm => ?_, by simpa using h3⟩
          simp only [List.length_cons, List.take_succ_cons, List.map_cons, List.mem_cons] at hm
          rcases hm with rfl | hm
          · exact hp hx
          · exact h2 x hx hm
        simp only [ih vs (fun q hq => hl q (.tail _ hq)) hb]
        rfl
    | nil =>
      rw [bindParams]
      by_cases hb : Binds ps ([] : List (Val α)).length (kw.map (·.1))
      · cases e : lookup p.name kw with
        | some v =>
          refine absurd ⟨by simp, by simp, fun q hq hd => ?_⟩ h
          simp only [List.length_nil, List.drop_zero, List.mem_cons] at hq
          rcases hq with rfl | hq
          · by_contra hm
            rw [lookup_none hm] at e; cases e
          · exact hb.2.2 q (by simpa using hq) hd
        | none =>
          cases d : p.dflt with
          | none => rfl
          | some x =>
            refine absurd ⟨by simp, by simp, fun q hq hd => ?_⟩ h
            simp only [List.length_nil, List.drop_zero, List.mem_cons] at hq
            rcases hq with rfl | hq
            · rw [d] at hd; cases hd
            · exact hb.2.2 q (by simpa using hq) hd
      · have ih' := ih [] (fun q hq => hl q (.tail _ hq)) hb
        cases e : lookup p.name kw with
        | some v => simp only [ih']; rfl
        | none =>
          cases d : p.dflt with
          | none => rfl
          | some x =>
            have := hl p (.head _)
            rw [d] at this
            simp only [eval_literal this, ih']
            rfl

omit [PyNum α] in
theorem values_length (ps : List Param) (vs : List (Val α)) (kw : List (Name × Val α)) :
    (values ps vs kw).length = ps.length := by
  induction ps generalizing vs with
  | nil => rfl
  | cons p ps ih => cases vs <;> simp [values, ih]

omit [PyNum α] in
theorem values_all (ps : List Param) (vs : List (Val α)) (h : vs.length = ps.length) :
    values ps vs [] = vs := by
  induction ps generalizing vs with
  | nil => exact (List.length_eq_zero_iff.mp h).symm
  | cons p ps ih =>
    cases vs with
    | nil => cases h
    | cons v vs => rw [values, ih vs (by simpa using h)]

omit [PyNum α] in
theorem lookup_perm {kw kw' : List (Name × Val α)} (h : kw.Perm kw')
    (nd : (kw.map (·.1)).Nodup) (x : Name) : kw.lookup x = kw'.lookup x := by
  have key : ∀ l : List (Name × Val α), (l.map (·.1)).Nodup → ∀ v,
      (l.lookup x = some v ↔ (x, v) ∈ l) := by
    intro l
    induction l with
    | nil => simp
    | cons a l ih =>
      intro nd v
      rw [List.map_cons, List.nodup_cons] at nd
      rw [List.lookup_cons]
      by_cases e : x = a.1
      · subst e
        have : (a.1, v) ∉ l := fun hm => nd.1 (List.mem_map.mpr ⟨_, hm, rfl⟩)
        simp only [beq_self_eq_true, Option.some.injEq, List.mem_cons, this, or_false]
        exact ⟨fun h => by rw [← h], fun h => by rw [← h]⟩
      · have hb : (x == a.1) = false := by simpa using e
        simp only [hb, ih nd.2, List.mem_cons]
        refine ⟨.inr, fun h => h.resolve_left ?_⟩
        rintro rfl
        exact e rfl
  have nd' : (kw'.map (·.1)).Nodup := (h.map (·.1)).nodup_iff.mp nd
  apply Option.ext
  intro v
  rw [key kw nd, key kw' nd', h.mem_iff]

omit [PyNum α] in
theorem values_perm (ps : List Param) (vs : List (Val α)) {kw kw' : List (Name × Val α)}
    (h : kw.Perm kw') (nd : (kw.map (·.1)).Nodup) : values ps vs kw = values ps vs kw' := by
  induction ps generalizing vs with
  | nil => rfl
  | cons p ps ih => cases vs <;> simp only [values, ih, lookup_perm h nd]

theorem program_lookup {f : Name} {g : Fun} (h : (f, g) ∈ Source.program) :
    lookup f Source.program = some g := by
  have nd : (Source.program.map (·.1)).Nodup := by decide +kernel
  rw [lookup_eq]
  generalize Source.program = P at *
  induction P with
  | nil => cases h
  | cons a l ih =>
    rw [List.map_cons, List.nodup_cons] at nd
    rcases List.mem_cons.mp h with e | h
    · subst e; simp
    · have : (f == a.1) = false := by
        rw [beq_eq_false_iff_ne]
        rintro rfl
        exact nd.1 (List.mem_map.mpr ⟨_, h, rfl⟩)
      rw [List.lookup_cons, this]
      exact ih h nd.2

theorem program_literal {f : Name} {g : Fun} (h : (f, g) ∈ Source.program) :
    ∀ p ∈ g.params, isLit p.dflt = true := by
  have : (Source.program.all fun a => a.2.params.all fun p => isLit p.dflt) = true := by
    decide +kernel
  rw [List.all_eq_true] at this
  have := this _ h
  rwa [List.all_eq_true] at this

theorem methods_literal {f : Name} {g : Fun} (h : (f, g) ∈ Source.methods) :
    ∀ p ∈ g.params, isLit p.dflt = true := by
  have : (Source.methods.all fun a => a.2.params.all fun p => isLit p.dflt) = true := by
    decide +kernel
  rw [List.all_eq_true] at this
  have := this _ h
  rwa [List.all_eq_true] at this

omit [PyNum α] in
theorem accepted_perm (ps : List Param) (n : Nat) {kw kw' : List (Name × Val α)}
    (h : kw.Perm kw') : Accepted ps n (kw.map (·.1)) ↔ Accepted ps n (kw'.map (·.1)) := by
  have hp : ∀ x, x ∈ kw.map (·.1) ↔ x ∈ kw'.map (·.1) := fun x => (h.map (·.1)).mem_iff
  exact ⟨fun ⟨a, b, c, d⟩ => ⟨a, fun x hx => b x ((hp x).mpr hx), fun x hx => c x ((hp x).mpr hx),
        fun p hm hd => (hp _).mp (d p hm hd)⟩,
      fun ⟨a, b, c, d⟩ => ⟨a, fun x hx => b x ((hp x).mp hx), fun x hx => c x ((hp x).mp hx),
        fun p hm hd => (hp _).mpr (d p hm hd)⟩⟩

end RockPhy.Py

namespace RockPhy.Props

open RockPhy.Py RockPhy.Py.Val RockPhy.Spec

variable {α : Type} [PyNum α]

/-- Whatever the function, a call that Python's rules do not accept raises `TypeError`. -/
theorem C106_rejected {f : Py.Name} {g : Fun} (hf : (f, g) ∈ Source.program) (L : Lib α) (k : Nat)
    (vs : List (Val α)) (kw : List (Py.Name × Val α))
    (h : ¬ Accepted g.params vs.length (kw.map (·.1))) :
    callFn L Source.program (k + 1) f vs kw = .error (.py .TypeError) := by
  simp only [callFn, program_lookup hf]
  unfold Fun.run
  cases hk : knownKw g.params kw with
  | false => rfl
  | true =>
    rw [knownKw_iff] at hk
    rw [bind_error g.params vs kw (program_literal hf)
      fun ⟨h1, h2, h3⟩ => h ⟨h1, hk, h2, h3⟩]
    rfl

/-- Whatever the function, an accepted call is the call by position with the values that the
parameters get. -/
theorem C106_accepted {f : Py.Name} {g : Fun} (hf : (f, g) ∈ Source.program) (L : Lib α) (k : Nat)
    (vs : List (Val α)) (kw : List (Py.Name × Val α))
    (h : Accepted g.params vs.length (kw.map (·.1))) :
    callFn L Source.program (k + 1) f vs kw =
      callFn L Source.program (k + 1) f (values g.params vs kw) [] := by
  simp only [callFn, program_lookup hf]
  unfold Fun.run
  rw [(knownKw_iff g.params kw).mpr h.known, (knownKw_iff g.params []).mpr (by simp),
    bind_ok _ _ _ (program_literal hf) ⟨h.few, h.once, h.all⟩,
    bind_ok _ (values g.params vs kw) [] (program_literal hf)
      ⟨(values_length _ _ _).le, by simp, by rw [values_length, List.drop_length]; simp⟩,
    values_all _ _ (values_length _ _ _)]

/-- The order of the keyword arguments does not matter. -/
theorem C106_order {f : Py.Name} {g : Fun} (hf : (f, g) ∈ Source.program) (L : Lib α) (k : Nat)
    (vs : List (Val α)) {kw kw' : List (Py.Name × Val α)} (h : kw.Perm kw')
    (nd : (kw.map (·.1)).Nodup) :
    callFn L Source.program (k + 1) f vs kw = callFn L Source.program (k + 1) f vs kw' := by
  have hi := accepted_perm g.params vs.length h
  by_cases ha : Accepted g.params vs.length (kw.map (·.1))
  · rw [C106_accepted hf L k vs kw ha, C106_accepted hf L k vs kw' (hi.mp ha),
      values_perm _ _ h nd]
  · rw [C106_rejected hf L k vs kw ha, C106_rejected hf L k vs kw' (mt hi.mpr ha)]

omit [PyNum α] in
/-- All parameters that may be left out, with the values they then have. -/
theorem C106_defaults :
    (Source.program.filterMap fun (f, g) =>
      match g.params.filter (·.dflt.isSome) with
      | [] => Option.none
      | ps => some (f, ps.map fun p => (p.name, (literal p.dflt : Val α)))) =
    [(n!"EM.cripor_reuss", [(n!"den", bool false)]),
      (n!"EM.HS", [(n!"bound", str "upper")]),
      (n!"EM.Eshelby_Cheng", [(n!"mat", bool false)]),
      (n!"EM.hudson", [(n!"order", int 1), (n!"axis", int 3)]),
      (n!"AVO.EI_ref", [(n!"norm", bool true)]),
      (n!"Anisotropy.Bond_trans", [(n!"axis", int 3)]),
      (n!"BW.co2_brine", [(n!"brie_component", none), (n!"bw", bool false)]),
      (n!"GM.johnson", [(n!"path", str "together")]),
      (n!"Empirical.ramm_porosity", [(n!"HB", bool true)]),
      (n!"Empirical.empirical_StPeter", [(n!"sample", int 1)])] := by
  kernel_rfl

/-- A call of a method (other than `QI.__init__`, which takes any keyword) that Python's rules do not
accept raises `TypeError`, and no figure is opened. -/
theorem C106_methods_rejected {f : Py.Name} {g : Fun} (hf : (f, g) ∈ Source.methods)
    (_ : f ≠ n!"QI.__init__") (F : Caller α) (G : Drawer α) (self : List (Py.Name × Val α))
    (vs : List (Val α)) (kw : List (Py.Name × Val α))
    (h : ¬ Accepted g.params vs.length (kw.map (·.1))) :
    g.runSelf F self vs kw = .error (.py .TypeError) ∧
    ∀ s, g.draw F G self vs kw s = (.error (.py .TypeError), s) := by
  unfold Fun.runSelf Fun.draw
  cases hk : knownKw g.params kw with
  | false => exact ⟨rfl, fun _ => rfl⟩
  | true =>
    rw [knownKw_iff] at hk
    rw [bind_error g.params vs kw (methods_literal hf)
      fun ⟨h1, h2, h3⟩ => h ⟨h1, hk, h2, h3⟩]
    exact ⟨rfl, fun _ => rfl⟩

/-- An accepted call of a method is the call by position with the values that the parameters get. -/
theorem C106_methods_accepted {f : Py.Name} {g : Fun} (hf : (f, g) ∈ Source.methods)
    (_ : f ≠ n!"QI.__init__") (F : Caller α) (G : Drawer α) (self : List (Py.Name × Val α))
    (vs : List (Val α)) (kw : List (Py.Name × Val α))
    (h : Accepted g.params vs.length (kw.map (·.1))) :
    g.runSelf F self vs kw = g.runSelf F self (values g.params vs kw) [] ∧
    g.draw F G self vs kw = g.draw F G self (values g.params vs kw) [] := by
  unfold Fun.runSelf Fun.draw
  rw [(knownKw_iff g.params kw).mpr h.known, (knownKw_iff g.params []).mpr (by simp),
    bind_ok _ _ _ (methods_literal hf) ⟨h.few, h.once, h.all⟩,
    bind_ok _ (values g.params vs kw) [] (methods_literal hf)
      ⟨(values_length _ _ _).le, by simp, by rw [values_length, List.drop_length]; simp⟩,
    values_all _ _ (values_length _ _ _)]
  exact ⟨rfl, rfl⟩

/-- The order of the keyword arguments of a method does not matter. -/
theorem C106_methods_order {f : Py.Name} {g : Fun} (hf : (f, g) ∈ Source.methods)
    (hi : f ≠ n!"QI.__init__") (F : Caller α) (G : Drawer α) (self : List (Py.Name × Val α))
    (vs : List (Val α)) {kw kw' : List (Py.Name × Val α)} (h : kw.Perm kw')
    (nd : (kw.map (·.1)).Nodup) :
    g.runSelf F self vs kw = g.runSelf F self vs kw' ∧
    g.draw F G self vs kw = g.draw F G self vs kw' := by
  have hp := accepted_perm g.params vs.length h
  by_cases ha : Accepted g.params vs.length (kw.map (·.1))
  · obtain ⟨a, b⟩ := C106_methods_accepted hf hi F G self vs kw ha
    obtain ⟨c, d⟩ := C106_methods_accepted hf hi F G self vs kw' (hp.mp ha)
    rw [a, b, c, d, values_perm _ _ h nd]
    exact ⟨rfl, rfl⟩
  · obtain ⟨a, b⟩ := C106_methods_rejected hf hi F G self vs kw ha
    obtain ⟨c, d⟩ := C106_methods_rejected hf hi F G self vs kw' (mt hp.mpr ha)
    exact ⟨a.trans c.symm, funext fun s => (b s).trans (d s).symm⟩

omit [PyNum α] in
/-- All parameters of methods that may be left out, with the values they then have. -/
theorem C106_methods_defaults :
    (Source.methods.filterMap fun (f, g) =>
      match g.params.filter (·.dflt.isSome) with
      | [] => Option.none
      | ps => some (f, ps.map fun p => (p.name, (literal p.dflt : Val α)))) =
    [(n!"QI.screening_plot", [(n!"cmap", str "cmap_sand")]),
      (n!"QI.kde_plot", [(n!"cmap", str "cmap_kde"), (n!"vels", str "Vp"), (n!"n", int 64)])] := by
  kernel_rfl

/-- A misspelt keyword of a plot. -/
example (F : Caller α) (G : Drawer α) (self : List (Py.Name × Val α)) (phi v1 v2 v3 : List α)
    (s : Nat × List (Cmd α)) :
    Source.QI.screening_plot.draw F G self [vec phi, vec v1, vec v2, vec v3]
      [(n!"colormap", str "viridis")] s = (.error (.py .TypeError), s) :=
  (C106_methods_rejected (f := n!"QI.screening_plot") (by simp [Source.methods]) (by decide) F G
    self _ _ fun h => absurd (h.known n!"colormap" (by simp))
      (by simp [Source.QI.screening_plot])).2 s

/-- `EM.HS` without `bound` is the upper bound, for every input. -/
theorem C106_EM_HS (f K1 K2 G1 G2 : α) (L : Lib α) (k : Nat) :
    callFn L Source.program (k + 1) n!"EM.HS" [num f, num K1, num K2, num G1, num G2] [] =
      returns (EM.HS f K1 K2 G1 G2 "upper") := by
  rw [C106_accepted (g := Source.EM.HS) (by simp [Source.program]) L k _ _
    ⟨by simp [Source.EM.HS], by simp, by simp, by simp [Source.EM.HS]⟩]
  exact C105_EM_HS f K1 K2 G1 G2 "upper" L k

/-- The same by keyword, in another order. -/
example (f K1 K2 G1 G2 : α) (L : Lib α) (k : Nat) :
    callFn L Source.program (k + 1) n!"EM.HS" [num f]
        [(n!"bound", str "lower"), (n!"K1", num K1), (n!"G1", num G1), (n!"K2", num K2),
          (n!"G2", num G2)] =
      returns (EM.HS f K1 K2 G1 G2 "lower") := by
  rw [C106_accepted (g := Source.EM.HS) (by simp [Source.program]) L k _ _
    ⟨by simp [Source.EM.HS], by simp [Source.EM.HS], by simp [Source.EM.HS],
      by simp [Source.EM.HS]⟩]
  exact C105_EM_HS f K1 K2 G1 G2 "lower" L k

/-- An argument is missing. -/
example (f K1 K2 : α) (L : Lib α) (k : Nat) :
    callFn L Source.program (k + 1) n!"EM.HS" [num f, num K1, num K2] [(n!"G1", num K1)] =
      .error (.py .TypeError) :=
  C106_rejected (g := Source.EM.HS) (by simp [Source.program]) L k _ _
    fun h => absurd (h.all ⟨n!"G2", Option.none⟩ (by simp [Source.EM.HS]) rfl) (by simp)

end RockPhy.Props
