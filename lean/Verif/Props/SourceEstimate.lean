import Verif.Props.SourceRpt

/-!
# C105 for `QI.estimate_cem` and `QI.__init__` of `rockphypy/QI.py`
-/

namespace RockPhy.Props

open RockPhy.Py RockPhy.Py.Val

variable {α : Type} [PyNum α]

set_option maxRecDepth 8000

/-! ## Loops that may raise an exception -/

omit [PyNum α] in
/-- A loop in which the round of `x` computes `g x`. -/
theorem loop_mapM {step : Env α → Val α → Res (Env α × Option (Val α))} {β γ : Type}
    (v : β → Val α) (g : β → Except PyErr γ) (I : List β → List γ → Env α → Prop) (all : List β)
    (h : ∀ done ys x rest env, done ++ x :: rest = all → I done ys env → match g x with
      | .ok y => ∃ env', step env (v x) = .ok (env', .none) ∧ I (done ++ [x]) (ys ++ [y]) env'
      | .error e => step env (v x) = .error (.py e))
    (l : List β) : ∀ done ys env, done ++ l = all → I done ys env → match l.mapM g with
      | .ok zs => ∃ env', loop step (l.map v) env = .ok (env', .none) ∧ I all (ys ++ zs) env'
      | .error e => loop step (l.map v) env = .error (.py e) := by
  induction l with
  | nil => exact fun done ys env hl hI => ⟨env, rfl, by simpa [← hl] using hI⟩
  | cons x l ih =>
    intro done ys env hl hI
    have h₁ := h done ys x l env hl hI
    rw [List.mapM_cons, List.map_cons, loop]
    cases hg : g x with
    | error e =>
      rw [hg] at h₁
      simp only at h₁
      rw [h₁]
      rfl
    | ok y =>
      rw [hg] at h₁
      obtain ⟨env₁, h₁, hI₁⟩ := h₁
      rw [h₁]
      have h₂ := ih (done ++ [x]) (ys ++ [y]) env₁ (by simpa using hl) hI₁
      change match (l.mapM g >>= fun ys => pure (y :: ys)) with | .ok _ => _ | .error _ => _
      cases hm : l.mapM g with
      | error e => rw [hm] at h₂; exact h₂
      | ok zs =>
        rw [hm] at h₂
        obtain ⟨env₂, h₂, hI₂⟩ := h₂
        exact ⟨env₂, h₂, by simpa using hI₂⟩

/-! ## One sample -/

/-- The body of the second loop of `estimate_cem`. -/
def cemRound : Block := .ofList [
  set! "array" := c!"np.array"[(.idx (.attr v!"df" n!"iloc") (.ofList [v!"i", (.slice .none
    (-1))]))],
  .ite (.cmp .le v!"val" (.idx v!"array" (.ofList [0])))
    (.ofList [
      .assign (.cell n!"df" "vcem" (.ofList [v!"i"])) (0)])
    (.ofList [
      .ite (.cmp .ge v!"val" (.idx v!"array" (.ofList [-1])))
        (.ofList [
          .assign (.cell n!"df" "vcem" (.ofList [v!"i"])) (0.1)])
        (.ofList [
          set! "big" := (.meth (.idx v!"array" (.ofList [(.cmp .lt v!"array" v!"val")]))
            n!"max" (.ofList [])),
          set! "small" := (.meth (.idx v!"array" (.ofList [(.cmp .gt v!"array" v!"val")]))
            n!"min" (.ofList [])),
          .assign (.cell n!"df" "vcem" (.ofList [v!"i"])) ((v!"val" - v!"small") / (v!"big" -
            v!"small") * ((.idx v!"vcem_seeds" (.ofList [(.cmp .eq v!"array" v!"big")])) -
            (.idx v!"vcem_seeds" (.ofList [(.cmp .eq v!"array" v!"small")]))) + (.idx
            v!"vcem_seeds" (.ofList [(.cmp .eq v!"array" v!"small")])))])])]

omit [PyNum α] in
theorem select_py (a : List α) (m : List Bool) : Val.select a m = ofPy (QI.select a m) := by
  by_cases h : a.length = m.length
  · obtain ⟨p, rfl, rfl⟩ := columns2 a m h
    rw [select_map]
    unfold QI.select
    rw [if_pos (by simp)]
    refine congrArg Except.ok ?_
    clear h
    induction p with
    | nil => rfl
    | cons x p ih =>
      rw [List.map_cons, List.map_cons, List.filter_cons]
      cases h : x.2
      · rw [Empirical.getMask, ← ih]; rfl
      · rw [Empirical.getMask, ← ih]; rfl
  · rw [select_short (Ne.symm h), QI.select, if_neg h]
    rfl

omit [PyNum α] in
theorem nth_last (a : α) (l : List α) {last : α} (h : (a :: l).getLast? = some last) :
    nth (a :: l) l.length = .ok last := by
  induction l generalizing a with
  | nil => simpa [nth] using h
  | cons b l ih => exact ih b (by simpa using h)

theorem largest_py (l : List α) : largest l = ofPy (QI.npmax l) := by
  cases l <;> rfl

theorem smallest_py (l : List α) : smallest l = ofPy (QI.npmin l) := by
  cases l <;> rfl

/-- The round of the sample at a position. -/
abbrev cemStep (F : Caller α) (env : Env α) (i : Nat) (val : α) : Res (Env α × Option (Val α)) :=
  (assign F env (.tuple [n!"i", n!"val"]) (tup [int (.ofNat i), num val])).bind fun env =>
    execAll F cemRound env

theorem cem_round {F : Caller α} {seeds array col : List α} {asArray : Bool} {val : α} {i j D : Nat}
    {fr : List (String × List α)} {col' : α → List α} {env : Env α} (hj : Nat.beq j D = false)
    (hd : lookup n!"df" env = some (D, frame fr))
    (hs : lookup n!"vcem_seeds" env = some (j, seedsVal asArray seeds))
    (hrow : index (frame fr) [int (.ofNat i), tup [Val.none, int (.negSucc 0)]] = .ok (vec array))
    (hcol : frameCol "vcem" fr = .ok (vec col))
    (hp : position col.length (.ofNat i) = .ok i)
    (hst : ∀ x, storeAt x col i = .ok (col' x)) (ha : array ≠ []) :
    match QI.cem_of_row seeds asArray array val with
    | .ok x => ∃ env', cemStep F env i val = .ok (env', .none) ∧
        lookup n!"df" env' = some (D, frame (setCol "vcem" (col' x) fr)) ∧
        lookup n!"vcem_seeds" env' = some (j, seedsVal asArray seeds)
    | .error e => cemStep F env i val = .error (.py e) := by
  obtain ⟨first, rest, rfl⟩ := List.exists_cons_of_ne_nil ha
  obtain ⟨last, hl⟩ : ∃ last, (first :: rest).getLast? = some last :=
    ⟨_, List.getLast?_eq_some_getLast ha⟩
  have r1 : index (vec (first :: rest)) [int (.negSucc 0)] = .ok (num last) := by
    rw [index, position, if_pos (by simp)]
    simp only [Except.bind]
    rw [show (first :: rest).length - (0 + 1) = rest.length by simp, nth_last first rest hl]
    rfl
  have r0 : index (vec (first :: rest)) [int (.ofNat 0)] = .ok (num first) := by
    rfl
  have fin : ∀ (e : Env α) (x : α), lookup n!"df" e = some (D, frame fr) →
      lookup n!"vcem_seeds" e = some (j, seedsVal asArray seeds) →
      lookup n!"df" (update D (frame (setCol "vcem" (col' x) fr)) e) =
        some (D, frame (setCol "vcem" (col' x) fr)) ∧
      lookup n!"vcem_seeds" (update D (frame (setCol "vcem" (col' x) fr)) e) =
        some (j, seedsVal asArray seeds) := by
    intro e x h1 h2
    rw [lookup_update, lookup_update, h1, h2]
    simp [hj]
  unfold QI.cem_of_row
  rw [hl, show (first :: rest).head? = some first from rfl]
  generalize first :: rest = array at *
  simp only
  let env1 : Env α := (n!"array", env.length + 2, vec array) :: (n!"val", env.length + 1, num val) ::
    (n!"i", env.length, int (.ofNat i)) :: env
  have hd1 : lookup n!"df" env1 = some (D, frame fr) := hd
  have hs1 : lookup n!"vcem_seeds" env1 = some (j, seedsVal asArray seeds) := hs
  cases h1 : PyNum.le val first with
  | true =>
    simp only [if_true]
    refine ⟨_, ?_, fin env1 0 hd1 hs1⟩
    have hst := hst 0
    clear hd1 hs1
    py_with []
    kernel_rfl
  | false =>
    simp only [Bool.false_eq_true, if_false]
    cases h2 : PyNum.le last val with
    | true =>
      simp only [if_true]
      refine ⟨_, ?_, fin env1 0.1 hd1 hs1⟩
      have hst := hst 0.1
      clear hd1 hs1
      py_with []
      kernel_rfl
    | false =>
      simp only [Bool.false_eq_true, if_false]
      have m1 : select array (array.map fun x => cmpNum .lt x val) =
          .ok (array.filter fun x => PyNum.lt x val) := by
        have := select_map id (fun x => PyNum.lt x val) array
        simp only [List.map_id] at this
        exact this
      have m2 : select array (array.map fun x => cmpNum .gt x val) =
          .ok (array.filter fun x => PyNum.lt val x) := by
        have := select_map id (fun x => PyNum.lt val x) array
        simp only [List.map_id] at this
        exact this
      have n1 := largest_py (array.filter fun x => PyNum.lt x val)
      have n2 := smallest_py (array.filter fun x => PyNum.lt val x)
      cases hb : QI.npmax (array.filter fun x => PyNum.lt x val) with
      | error e =>
        rw [hb] at n1
        change cemStep F env i val = .error (.py e)
        clear hd1 hs1
        py_with []
        kernel_rfl
      | ok big =>
        rw [hb] at n1
        cases hm : QI.npmin (array.filter fun x => PyNum.lt val x) with
        | error e =>
          rw [hm] at n2
          change cemStep F env i val = .error (.py e)
          clear hd1 hs1
          py_with []
          kernel_rfl
        | ok small =>
          rw [hm] at n2
          cases asArray with
          | false =>
            change cemStep F env i val = .error (.py .TypeError)
            clear hd1 hs1
            py_with []
            kernel_rfl
          | true =>
            have s1 : select seeds (array.map fun x => cmpNum .eq x big) = _ :=
              select_py seeds (array.map fun x => PyNum.eq x big)
            have s2 : select seeds (array.map fun x => cmpNum .eq x small) = _ :=
              select_py seeds (array.map fun x => PyNum.eq x small)
            cases e1 : QI.select seeds (array.map fun x => PyNum.eq x big) with
            | error e =>
              rw [e1] at s1
              simp only [Bool.not_true, Bool.false_eq_true, if_false, except_ok_bind, except_error_bind, e1]
              clear hd1 hs1
              py_with []
              kernel_rfl
            | ok sb =>
              rw [e1] at s1
              cases e2 : QI.select seeds (array.map fun x => PyNum.eq x small) with
              | error e =>
                rw [e2] at s2
                simp only [Bool.not_true, Bool.false_eq_true, if_false, except_ok_bind, except_error_bind, e1, e2]
                clear hd1 hs1
                py_with []
                kernel_rfl
              | ok ss =>
                rw [e2] at s2
                cases e3 : bzip (fun a b : α => a - b) sb ss with
                | error e =>
                  simp only [Bool.not_true, Bool.false_eq_true, if_false, except_ok_bind, except_error_bind, e1, e2, e3]
                  clear hd1 hs1
                  py_with []
                  kernel_rfl
                | ok diff =>
                  cases e4 : bzip (fun a b : α => a + b)
                      (diff.map fun s => (val - small) / (big - small) * s) ss with
                  | error e =>
                    simp only [Bool.not_true, Bool.false_eq_true, if_false, except_ok_bind, except_error_bind, e1, e2, e3, e4]
                    clear hd1 hs1
                    py_with []
                    kernel_rfl
                  | ok r =>
                    simp only [Bool.not_true, Bool.false_eq_true, if_false, except_ok_bind, e1, e2, e3, e4]
                    rcases r with _ | ⟨x, _ | ⟨y, l⟩⟩
                    · change cemStep F env i val = .error (.py .ValueError)
                      clear hd1 hs1
                      py_with []
                      kernel_rfl
                    · refine ⟨_, ?_, fin ((n!"small", env.length + 4, num small) ::
                        (n!"big", env.length + 3, num big) :: env1) x hd1 hs1⟩
                      have hst := hst x
                      clear hd1 hs1
                      py_with []
                      kernel_rfl
                    · change cemStep F env i val = .error (.py .ValueError)
                      clear hd1 hs1
                      py_with []
                      kernel_rfl

/-! ## Data frames -/

section frames

variable {β ι : Type}

theorem setCol_new {name : String} (v : List β) {cols : List (String × List β)}
    (h : ∀ c ∈ cols, c.1 ≠ name) : setCol name v cols = cols ++ [(name, v)] := by
  induction cols with
  | nil => rfl
  | cons c cols ih =>
    rw [setCol, if_neg (h c (by simp)), ih fun d hd => h d (by simp [hd])]
    rfl

theorem setCol_last {name : String} (v w : List β) {cols : List (String × List β)}
    (h : ∀ c ∈ cols, c.1 ≠ name) : setCol name v (cols ++ [(name, w)]) = cols ++ [(name, v)] := by
  induction cols with
  | nil => exact if_pos rfl
  | cons c cols ih =>
    rw [List.cons_append, setCol, if_neg (h c (by simp)), ih fun d hd => h d (by simp [hd])]
    rfl

theorem setCol_known {f : ι → String} {g : ι → List β} {a : ι} {l : List ι} (ha : a ∈ l)
    (h : ∀ b ∈ l, f b = f a → b = a) :
    setCol (f a) (g a) (l.map fun b => (f b, g b)) = l.map fun b => (f b, g b) := by
  induction l with
  | nil => cases ha
  | cons b l ih =>
    rw [List.map_cons, setCol]
    by_cases e : f b = f a
    · rw [if_pos e, h b (by simp) e]
    · rw [if_neg e, ih ((List.mem_cons.1 ha).resolve_left fun h => e (by rw [h]))
        fun c hc => h c (by simp [hc])]

omit [PyNum α] in
theorem frameCol_last {name : String} (w : List α) {cols : List (String × List α)}
    (h : ∀ c ∈ cols, c.1 ≠ name) : frameCol name (cols ++ [(name, w)]) = .ok (vec w) := by
  induction cols with
  | nil => exact if_pos rfl
  | cons c cols ih =>
    rw [List.cons_append, frameCol, if_neg (h c (by simp)), ih fun d hd => h d (by simp [hd])]

theorem frameRow_last {k : Nat} {f : ι → String} {g : ι → List β} {r : ι → β} {l : List ι}
    {x : String × List β} (h : ∀ b ∈ l, nth (g b) k = .ok (r b)) :
    frameRow k (l.map (fun b => (f b, g b)) ++ [x]) = .ok (l.map r) := by
  induction l with
  | nil => rfl
  | cons b l ih =>
    have h₁ : frameRow k ((b :: l).map (fun b => (f b, g b)) ++ [x]) =
        (nth (g b) k).bind fun a =>
          (frameRow k (l.map (fun b => (f b, g b)) ++ [x])).map (a :: ·) := by
      cases l <;> rfl
    rw [h₁, h b (by simp), ih fun c hc => h c (by simp [hc])]
    rfl

theorem store_frame (name : String) (v : List α) {cols : List (String × List α)}
    (h : ∀ c ∈ cols, c.2.length = v.length) :
    store (frame cols) [str name] (vec v) = .ok (frame (setCol name v cols)) := by
  cases cols with
  | nil => rfl
  | cons c cols =>
    have : Nat.beq v.length (frameRows (c :: cols)) = true := by
      rw [frameRows, h c (by simp), Nat.beq_eq]
    rw [store, this]
    · rfl
    · simp

theorem store_const (name : String) (x : α) (cols : List (String × List α)) :
    store (frame cols) [str name] (num x) =
      .ok (frame (setCol name (List.replicate (frameRows cols) x) cols)) := by
  cases cols <;> rfl

end frames

/-! ## The columns of the seeds -/

theorem columns_append (done : List α) (s : α) :
    QI.columns (done ++ [s]) =
      if (QI.columns done).any (PyNum.eq s) then QI.columns done else QI.columns done ++ [s] := by
  rw [QI.columns, List.foldl_append]
  rfl

theorem columns_sub (done : List α) : ∀ a ∈ QI.columns done, a ∈ done := by
  induction done using List.reverseRecOn with
  | nil => exact fun a h => h
  | append_singleton l s ih =>
    intro a h
    rw [columns_append] at h
    split at h
    · exact List.mem_append_left _ (ih a h)
    · rcases List.mem_append.1 h with h | h
      · exact List.mem_append_left _ (ih a h)
      · exact List.mem_append_right _ h

/-- The data frame with the columns of some seeds. -/
def cemFrame (name : α → String) (line : α → List α) (seeds : List α) : List (String × List α) :=
  (QI.columns seeds).map fun a => ("vcem_vp" ++ name a, line a)

theorem cemFrame_append {name : α → String} {line : α → List α} {done : List α} {s : α}
    (h : Distinct name (done ++ [s])) :
    setCol ("vcem_vp" ++ name s) (line s) (cemFrame name line done) =
      cemFrame name line (done ++ [s]) := by
  have hs : s ∈ done ++ [s] := by simp
  have hsub : ∀ b ∈ QI.columns done, b ∈ done ++ [s] := fun b hb =>
    List.mem_append_left _ (columns_sub done b hb)
  have hname : ∀ b ∈ QI.columns done, "vcem_vp" ++ name b = "vcem_vp" ++ name s → b = s :=
    fun b hb e => (h b (hsub b hb) s hs).1 (by
      have := congrArg String.toList e
      simpa [String.toList_inj] using this)
  unfold cemFrame
  rw [columns_append]
  split
  · rename_i ha
    obtain ⟨b, hb, e⟩ := List.any_eq_true.1 ha
    have e : s = b := (h s hs b (hsub b hb)).2.1 e
    subst e
    exact setCol_known (f := fun a => "vcem_vp" ++ name a) (g := line) hb hname
  · rename_i ha
    rw [List.map_append, setCol_new]
    · rfl
    · intro c hc e
      obtain ⟨b, hb, rfl⟩ := List.mem_map.1 hc
      have e := hname b hb e
      subst e
      exact ha (List.any_eq_true.2 ⟨b, hb, (h b hs b hs).2.2 rfl⟩)

theorem cemFrame_names {name : α → String} {line : α → List α} {seeds : List α} :
    ∀ c ∈ cemFrame name line seeds, c.1 ≠ "vcem" := by
  intro c hc e
  obtain ⟨b, hb, rfl⟩ := List.mem_map.1 hc
  have := congrArg String.length e
  simp only [String.length_append] at this
  have h1 : "vcem_vp".length = 7 := rfl
  have h2 : "vcem".length = 4 := rfl
  omega

/-! ## The loop over the seeds -/

/-- Variables, their values and objects older than `D`. -/
def OldVars (D : Nat) (env : Env α) : List (Name × Val α) → Prop
  | [] => True
  | (x, v) :: l => (∃ i, i < D ∧ lookup x env = some (i, v)) ∧ OldVars D env l

omit [PyNum α] in
theorem OldVars.cons {D : Nat} {env : Env α} {l : List (Name × Val α)} {y : Name} {w : Val α}
    {i : Nat} (h : OldVars D env l) (hl : (l.all fun p => !Nat.beq p.1 y) = true) :
    OldVars D ((y, i, w) :: env) l := by
  induction l with
  | nil => trivial
  | cons p l ih =>
    rw [List.all_cons, Bool.and_eq_true, Bool.not_eq_true'] at hl
    obtain ⟨⟨j, h1, h2⟩, h⟩ := h
    exact ⟨⟨j, h1, by rw [lookup, hl.1]; exact h2⟩, ih h hl.2⟩

omit [PyNum α] in
theorem OldVars.update {D : Nat} {env : Env α} {l : List (Name × Val α)} {v : Val α}
    (h : OldVars D env l) : OldVars D (update D v env) l := by
  induction l with
  | nil => trivial
  | cons p l ih =>
    obtain ⟨⟨j, h1, h2⟩, h⟩ := h
    refine ⟨⟨j, h1, ?_⟩, ih h⟩
    rw [lookup_update, h2]
    simp [beq_ne (Nat.ne_of_lt h1)]

/-- The body of the first loop of `estimate_cem`. -/
def cemLine : Block := .ofList [
  set! "VP", "VS" := c!"QI.cal_v_const"[v!"Dqz", v!"Kqz", v!"Gqz", v!"Dsh", v!"Ksh", v!"Gsh",
    v!"Dc", v!"Kc", v!"Gc", v!"Db", v!"Kb", v!"phi_c" - v!"i", v!"phi_c", v!"vsh",
    v!"self.phi", v!"scheme"],
  .assign (.idx n!"df" (.ofList [(.str "vcem_vp") + c!"str"[v!"i"]])) (v!"VP")]

/-- The variables that the loops of `estimate_cem` read. -/
abbrev cemVars (Vp phi seeds : List α) (asArray : Bool)
    (Kqz Gqz Ksh Gsh phi_c Kc Gc Db Kb : α) (scheme : Int) (vsh Dsh Dqz Dc : α) :
    List (Name × Val α) :=
  [(n!"Dqz", num Dqz), (n!"Kqz", num Kqz), (n!"Gqz", num Gqz), (n!"Dsh", num Dsh),
    (n!"Ksh", num Ksh), (n!"Gsh", num Gsh), (n!"Dc", num Dc), (n!"Kc", num Kc), (n!"Gc", num Gc),
    (n!"Db", num Db), (n!"Kb", num Kb), (n!"phi_c", num phi_c), (n!"vsh", num vsh),
    (n!"self.phi", vec phi), (n!"scheme", int scheme), (n!"self.Vp", vec Vp),
    (n!"vcem_seeds", seedsVal asArray seeds)]

theorem cem_line {F : Caller α} {name : α → String} {line vs : α → List α}
    {Vp phi seeds : List α} {asArray : Bool} {Kqz Gqz Ksh Gsh phi_c Kc Gc Db Kb : α}
    {scheme : Int} {vsh Dsh Dqz Dc : α}
    (hc : ∀ s, F n!"QI.cal_v_const" [num Dqz, num Kqz, num Gqz, num Dsh, num Ksh, num Gsh, num Dc,
        num Kc, num Gc, num Db, num Kb, num (phi_c - s), num phi_c, num vsh, vec phi, int scheme] [] =
      .ok (tup [vec (line s), vec (vs s)]))
    (hn : ∀ s, F n!"str" [num s] [] = .ok (str (name s))) (hlen : ∀ s, (line s).length = phi.length)
    {D : Nat} {env : Env α} {done : List α} {s : α} (hd : Distinct name (done ++ [s]))
    (hD : D < env.length)
    (hf : lookup n!"df" env = some (D, frame (cemFrame name line done)))
    (ha : lookup n!"np.nan" env = .none)
    (ho : OldVars D env (cemVars Vp phi seeds asArray Kqz Gqz Ksh Gsh phi_c Kc Gc Db Kb scheme vsh Dsh
      Dqz Dc)) :
    ∃ env', ((assign F env (.var n!"i") (num s)).bind fun env => execAll F cemLine env) =
        .ok (env', .none) ∧ D < env'.length ∧
      lookup n!"df" env' = some (D, frame (cemFrame name line (done ++ [s]))) ∧
      lookup n!"np.nan" env' = .none ∧
      OldVars D env' (cemVars Vp phi seeds asArray Kqz Gqz Ksh Gsh phi_c Kc Gc Db Kb scheme vsh Dsh
        Dqz Dc) := by
  have hst : store (frame (cemFrame name line done)) [str ("vcem_vp" ++ name s)] (vec (line s)) =
      .ok (frame (cemFrame name line (done ++ [s]))) := by
    rw [store_frame, cemFrame_append hd]
    intro c hc
    obtain ⟨b, hb, rfl⟩ := List.mem_map.1 hc
    rw [hlen, hlen]
  have hc := hc s
  have hn := hn s
  let env1 : Env α := (n!"VS", env.length + 2, vec (vs s)) :: (n!"VP", env.length + 1, vec (line s)) ::
    (n!"i", env.length, num s) :: env
  refine ⟨update D (frame (cemFrame name line (done ++ [s]))) env1, ?_, ?_, ?_, ?_, ?_⟩
  · obtain ⟨⟨_, _, h1⟩, ⟨_, _, h2⟩, ⟨_, _, h3⟩, ⟨_, _, h4⟩, ⟨_, _, h5⟩, ⟨_, _, h6⟩, ⟨_, _, h7⟩,
      ⟨_, _, h8⟩, ⟨_, _, h9⟩, ⟨_, _, h10⟩, ⟨_, _, h11⟩, ⟨_, _, h12⟩, ⟨_, _, h13⟩, ⟨_, _, h14⟩,
      ⟨_, _, h15⟩, _⟩ := ho
    clear hlen hd hD
    py_with []
    kernel_rfl
  · rw [length_update]
    simp only [env1, List.length_cons]
    omega
  · rw [lookup_update, show lookup n!"df" env1 = lookup n!"df" env from rfl, hf]
    simp
  · rw [lookup_update, show lookup n!"np.nan" env1 = lookup n!"np.nan" env from rfl, ha]
    rfl
  · exact OldVars.update (((ho.cons rfl).cons rfl).cons rfl)

/-! ## The loop over the samples -/

omit [PyNum α] in
/-- A loop every round of which succeeds. -/
theorem loop_all {step : Env α → Val α → Res (Env α × Option (Val α))} {β : Type}
    (v : β → Val α) (I : List β → Env α → Prop) (all : List β)
    (h : ∀ done x rest env, done ++ x :: rest = all → I done env →
      ∃ env', step env (v x) = .ok (env', .none) ∧ I (done ++ [x]) env')
    {env : Env α} (hI : I [] env) :
    ∃ env', loop step (all.map v) env = .ok (env', .none) ∧ I all env' := by
  have := loop_mapM (γ := Unit) v (fun _ => .ok ()) (fun d _ e => I d e) all
    (fun done _ x rest env hd hI => h done x rest env hd hI) all [] [] env rfl hI
  rwa [mapM_ok (g := fun _ => ()) fun _ _ => rfl] at this

theorem storeAt_fresh {nan x : α} (hs : PyNum.store nan x = x) (ys : List α) (m : Nat) :
    storeAt x (ys ++ List.replicate (m + 1) nan) ys.length =
      .ok (ys ++ [x] ++ List.replicate m nan) := by
  induction ys with
  | nil => rw [List.nil_append, List.replicate_succ, List.length_nil, storeAt, hs]; rfl
  | cons y ys ih => rw [List.cons_append, List.length_cons, storeAt, ih]; rfl

omit [PyNum α] in
theorem nth_getElem? {l : List α} {k : Nat} {a : α} (h : l[k]? = some a) : nth l k = .ok a := by
  induction l generalizing k with
  | nil => simp at h
  | cons b l ih =>
    cases k with
    | zero => simp at h; rw [h]; rfl
    | succ k => exact ih (by simpa using h)

omit [PyNum α] in
theorem zipIdx_mapM {β γ : Type} (f : β → Except PyErr γ) (l : List β) (n : Nat) :
    (l.zipIdx n).mapM (fun x => f x.1) = l.mapM f := by
  induction l generalizing n with
  | nil => rfl
  | cons a l ih => rw [List.zipIdx_cons, List.mapM_cons, List.mapM_cons, ih]

theorem columns_ne {seeds : List α} (h : seeds ≠ []) : QI.columns seeds ≠ [] := by
  obtain ⟨l, s, rfl⟩ := List.eq_nil_or_concat seeds |>.resolve_left h
  rw [List.concat_eq_append, columns_append]
  split
  · rename_i ha
    intro e
    rw [e] at ha
    simp at ha
  · simp

theorem position_ok {n k : Nat} (h : k < n) : position n (.ofNat k) = .ok k := if_pos h

/-- The estimate of one sample, from the lines of the seeds. -/
theorem estimate_cem_entry_row {Kqz Gqz Ksh Gsh phi_c Cn Kc Gc Db Kb : α} {scheme : Int}
    {vsh Dsh Dqz Dc : α} {g : α → α → α × α} (seeds : List α) (asArray : Bool) (p val : α)
    (hg : ∀ s p, QI.cal_v_const Dqz Kqz Gqz Dsh Ksh Gsh Dc Kc Gc Db Kb (phi_c - s) phi_c vsh p
      scheme = .ok (g s p)) :
    QI.estimate_cem_entry p val seeds asArray Kqz Gqz Ksh Gsh phi_c Cn Kc Gc Db Kb scheme vsh Dsh Dqz
      Dc = QI.cem_of_row seeds asArray ((QI.columns seeds).map fun s => (g s p).1) val := by
  unfold QI.estimate_cem_entry
  simp only [hg, except_ok_bind]
  rw [mapM_ok (f := fun s => (pure (g s p).1 : Except PyErr α)) (g := fun s => (g s p).1)
    fun _ _ => rfl]
  rfl

theorem cem_samples {F : Caller α} {name : α → String} {g : α → α → α × α}
    (hst : ∀ x : α, PyNum.store QI.npnan x = x) {samples : List (α × α)} {seeds : List α}
    {asArray : Bool} {env : Env α} {D j R : Nat} (hj : j < D)
    (hR : R = if seeds = [] then 0 else samples.length)
    (hd : lookup n!"df" env = some (D, frame
      (cemFrame name (fun s => samples.map fun p => (g s p.2).1) seeds ++
        [("vcem", List.replicate R QI.npnan)])))
    (hs : lookup n!"vcem_seeds" env = some (j, seedsVal asArray seeds)) :
    match samples.mapM fun p =>
      QI.cem_of_row seeds asArray ((QI.columns seeds).map fun s => (g s p.2).1) p.1 with
    | .ok ys => ∃ env',
        loop (fun env v => (assign F env (.tuple [n!"i", n!"val"]) v).bind fun env =>
          execAll F cemRound env)
          (samples.zipIdx.map fun p => tup [int (.ofNat p.2), num p.1.1]) env = .ok (env', .none) ∧
        lookup n!"df" env' = some (D, frame
          (cemFrame name (fun s => samples.map fun p => (g s p.2).1) seeds ++ [("vcem", ys)]))
    | .error e =>
        loop (fun env v => (assign F env (.tuple [n!"i", n!"val"]) v).bind fun env =>
          execAll F cemRound env)
          (samples.zipIdx.map fun p => tup [int (.ofNat p.2), num p.1.1]) env = .error (.py e) := by
  set C := cemFrame name (fun s => samples.map fun p => (g s p.2).1) seeds with hC
  have hR' : R ≤ samples.length := by rw [hR]; split <;> simp
  have main := loop_mapM
    (step := fun env v => (assign F env (.tuple [n!"i", n!"val"]) v).bind fun env =>
      execAll F cemRound env)
    (fun p : (α × α) × Nat => tup [int (.ofNat p.2), num p.1.1])
    (fun x => QI.cem_of_row seeds asArray ((QI.columns seeds).map fun s => (g s x.1.2).1) x.1.1)
    (fun done ys env => done.length = ys.length ∧
      lookup n!"df" env = some (D, frame (C ++ [("vcem", ys ++ List.replicate (R - ys.length)
        QI.npnan)])) ∧
      lookup n!"vcem_seeds" env = some (j, seedsVal asArray seeds))
    samples.zipIdx ?round samples.zipIdx [] [] env rfl ⟨rfl, by simpa using hd, hs⟩
  case round =>
    intro done ys x rest env hall hI
    obtain ⟨hk, hd, hs⟩ := hI
    have hx : samples[done.length]? = some x.1 ∧ x.2 = done.length := by
      have := congrArg (·[done.length]?) hall
      simp only [List.getElem?_append_right le_rfl, Nat.sub_self, List.getElem?_cons_zero,
        List.getElem?_zipIdx] at this
      cases h : samples[done.length]? with
      | none => rw [h] at this; simp at this
      | some y =>
        rw [h] at this
        simp only [Option.map_some, Option.some.injEq, Nat.zero_add] at this
        rw [this]
        exact ⟨rfl, rfl⟩
    obtain ⟨⟨val, p⟩, i⟩ := x
    obtain ⟨hx, rfl⟩ := hx
    simp only at hx ⊢
    have hlt : done.length < samples.length := (List.getElem?_eq_some_iff.1 hx).1
    by_cases he : seeds = []
    · subst he
      simp only [if_true] at hR
      subst hR
      have hidx : index (frame (C ++ [("vcem", ys ++ List.replicate (0 - ys.length) QI.npnan)]))
          [int (.ofNat done.length), tup [Val.none, int (.negSucc 0)]] = .error (.py .IndexError) := by
        have : position (frameRows (C ++ [("vcem", ys ++ List.replicate (0 - ys.length)
            (QI.npnan : α))])) (.ofNat done.length) = .error (.py .IndexError) := by
          refine if_neg ?_
          have : frameRows (C ++ [("vcem", ys ++ List.replicate (0 - ys.length)
            (QI.npnan : α))]) = ys.length := by
            rw [hC]
            simp [cemFrame, QI.columns, frameRows]
          rw [this]
          omega
        rw [index, this]
        rfl
      change cemStep F env done.length val = .error (.py .IndexError)
      clear hs hall hlt hx hk hst hC
      py_with []
      kernel_rfl
    · rw [if_neg he] at hR
      subst hR
      obtain ⟨m, hm⟩ : ∃ m, samples.length - ys.length = m + 1 :=
        ⟨samples.length - ys.length - 1, by omega⟩
      rw [hm] at hd
      have r := cem_round (F := F) (val := val) (i := done.length)
        (array := (QI.columns seeds).map fun s => (g s p).1)
        (col' := fun x => ys ++ [x] ++ List.replicate m QI.npnan)
        (beq_ne (Nat.ne_of_lt hj)) hd hs ?_ (frameCol_last _ cemFrame_names)
        (position_ok (by simp; omega)) (fun x => by rw [hk]; exact storeAt_fresh (hst x) ys m)
        (by simpa using columns_ne he)
      · split at r
        · rename_i y hy
          obtain ⟨env', h1, h2, h3⟩ := r
          refine ⟨env', h1, by simp [hk], ?_, h3⟩
          rw [h2, setCol_last _ _ cemFrame_names, List.length_append, List.length_singleton,
            show samples.length - (ys.length + 1) = m by omega]
        · rename_i e hy
          exact r
      · have hrows : frameRows (C ++ [("vcem", ys ++ List.replicate (m + 1) (QI.npnan : α))]) =
            samples.length := by
          rw [hC, cemFrame]
          cases h : QI.columns seeds with
          | nil => exact absurd h (columns_ne he)
          | cons a l => simp [frameRows]
        rw [index, hrows, position_ok hlt]
        refine congrArg (Except.map vec) (frameRow_last ?_)
        intro b _
        refine nth_getElem? ?_
        rw [List.getElem?_map, hx]
        rfl
  rw [zipIdx_mapM (fun p : α × α => QI.cem_of_row seeds asArray ((QI.columns seeds).map fun s =>
    (g s p.2).1) p.1)] at main
  split
  · rename_i ys hy
    rw [hy] at main
    obtain ⟨env', h1, h2, h3, _⟩ := main
    refine ⟨env', h1, ?_⟩
    rw [h3]
    rw [List.length_zipIdx, List.nil_append] at h2
    rw [List.nil_append, show R - ys.length = 0 by omega]
    simp
  · rename_i e hy
    rw [hy] at main
    exact main

/-! ## The whole method -/

omit [PyNum α] in
theorem items_seeds (asArray : Bool) (seeds : List α) :
    items (seedsVal asArray seeds) = .ok (seeds.map num) := by
  cases asArray <;> rfl

theorem exec_step {F : Caller α} {s : Stmt} {b : Block} {env env' : Env α}
    (h : exec F s env = .ok (env', .none)) : execAll F (.cons s b) env = execAll F b env' := by
  rw [execAll, h]
  rfl

theorem exec_each {F : Caller α} {t : Target} {a : Expr} {body b : Block} {env env' : Env α}
    {l : List (Val α)} (hl : (eval F env a).bind items = .ok l)
    (h : loop (fun env v => (assign F env t v).bind fun env => execAll F body env) l env =
      .ok (env', .none)) : execAll F (.cons (.each t a body) b) env = execAll F b env' := by
  refine exec_step ?_
  rw [exec]
  cases he : eval F env a with
  | error e => rw [he] at hl; cases hl
  | ok v =>
    rw [he] at hl
    change ((items v).bind _) = _
    rw [show items v = .ok l from hl]
    exact h

theorem exec_each_raise {F : Caller α} {t : Target} {a : Expr} {body b : Block} {env : Env α}
    {l : List (Val α)} {e : Err} (hl : (eval F env a).bind items = .ok l)
    (h : loop (fun env v => (assign F env t v).bind fun env => execAll F body env) l env =
      .error e) : execAll F (.cons (.each t a body) b) env = .error e := by
  rw [execAll, exec]
  cases he : eval F env a with
  | error e => rw [he] at hl; cases hl
  | ok v =>
    rw [he] at hl
    change ((items v).bind _).bind _ = _
    rw [show items v = .ok l from hl]
    change (loop _ _ _).bind _ = _
    rw [h]
    rfl

theorem estimate_run {F : Caller α} {name : α → String} {g : α → α → α × α}
    (hst : ∀ x : α, PyNum.store QI.npnan x = x) {samples : List (α × α)} {seeds : List α}
    {asArray : Bool} {q : QI.Obj α} (hV : q.Vp = samples.map Prod.fst)
    (hp : q.phi = samples.map Prod.snd)
    {Kqz Gqz Ksh Gsh phi_c Cn Kc Gc Db Kb : α}
    {scheme : Int} {vsh Dsh Dqz Dc a1 a2 a3 b1 b2 b3 : α}
    (hK : F n!"EM.VRH" [vec [vsh, 1 - vsh], vec [Ksh, Kqz]] [] = .ok (tup [num a1, num a2, num a3]))
    (hG : F n!"EM.VRH" [vec [vsh, 1 - vsh], vec [Gsh, Gqz]] [] = .ok (tup [num b1, num b2, num b3]))
    (hc : ∀ s, F n!"QI.cal_v_const" [num Dqz, num Kqz, num Gqz, num Dsh, num Ksh, num Gsh, num Dc,
        num Kc, num Gc, num Db, num Kb, num (phi_c - s), num phi_c, num vsh,
        vec (samples.map Prod.snd), int scheme] [] =
      .ok (tup [vec (samples.map fun p => (g s p.2).1), vec (samples.map fun p => (g s p.2).2)]))
    (hn : ∀ s, F n!"str" [num s] [] = .ok (str (name s))) (hd : Distinct name seeds) :
    (Source.QI.estimate_cem.runSelf F (attributesOf q)
      [seedsVal asArray seeds, num Kqz, num Gqz, num Ksh, num Gsh, num phi_c, num Cn, num Kc,
        num Gc, num Db, num Kb, int scheme, num vsh, num Dsh, num Dqz, num Dc] []).map (·.2) =
      (ofPy (samples.mapM fun p => QI.cem_of_row seeds asArray ((QI.columns seeds).map fun s =>
        (g s p.2).1) p.1)).map fun ys => some (vec ys) := by
  obtain ⟨Vp, phi, Vsh, Vs, den, eff, TVD⟩ := q
  simp only at hV hp
  subst hV hp
  set line : α → List α := fun s => samples.map fun p => (g s p.2).1 with hline
  let env0 : Env α := [(n!"df", 30, frame []), (n!"D0", 29, num (Dsh * vsh + Dqz * (1 - vsh))),
    (n!"G0", 28, num b3), (n!"_", 27, num b2), (n!"_", 26, num b1),
    (n!"K0", 25, num a3), (n!"_", 24, num a2), (n!"_", 23, num a1),
    (n!"self.TVD", 22, optVec TVD), (n!"self.eff_stress", 21, optVec eff),
    (n!"self.den", 20, optVec den), (n!"self.Vs", 19, optVec Vs), (n!"self.Vsh", 18, optVec Vsh),
    (n!"self.phi", 17, vec (samples.map Prod.snd)), (n!"self.Vp", 16, vec (samples.map Prod.fst)),
    (n!"vcem_seeds", 15, seedsVal asArray seeds), (n!"Kqz", 14, num Kqz), (n!"Gqz", 13, num Gqz),
    (n!"Ksh", 12, num Ksh), (n!"Gsh", 11, num Gsh), (n!"phi_c", 10, num phi_c), (n!"Cn", 9, num Cn),
    (n!"Kc", 8, num Kc), (n!"Gc", 7, num Gc), (n!"Db", 6, num Db), (n!"Kb", 5, num Kb),
    (n!"scheme", 4, int scheme), (n!"vsh", 3, num vsh), (n!"Dsh", 2, num Dsh), (n!"Dqz", 1, num Dqz),
    (n!"Dc", 0, num Dc)]
  have hl1 := loop_all
    (step := fun env v => (assign F env (.var n!"i") v).bind fun env => execAll F cemLine env)
    num (fun done env => 30 < env.length ∧
      lookup n!"df" env = some (30, frame (cemFrame name line done)) ∧
      lookup n!"np.nan" env = .none ∧
      OldVars 30 env (cemVars (samples.map Prod.fst) (samples.map Prod.snd) seeds asArray Kqz Gqz Ksh
        Gsh phi_c Kc Gc Db Kb scheme vsh Dsh Dqz Dc)) seeds ?round (env := env0) ?start
  case start =>
    refine ⟨Nat.lt_succ_self 30, rfl, rfl, ?_⟩
    repeat' first | exact trivial | exact ⟨_, by decide, rfl⟩ | constructor
  case round =>
    intro done s rest env hall ⟨hD, hf, ha, ho⟩
    refine cem_line hc hn (fun s => by simp) ?_ hD hf ha ho
    intro a ha b hb
    exact hd a (by rw [← hall]; simp at ha ⊢; tauto) b (by rw [← hall]; simp at hb ⊢; tauto)
  obtain ⟨env1, l1, hD, hf, ha, ho⟩ := hl1
  have hi := items_seeds asArray seeds
  obtain ⟨_, _, _, _, _, _, _, _, _, _, _, _, _, _, _, ⟨j, hj, hVp⟩, ⟨j', hj', hs⟩, _⟩ := ho
  set R := frameRows (cemFrame name line seeds) with hR
  have hR' : R = if seeds = [] then 0 else samples.length := by
    rw [hR, cemFrame]
    by_cases he : seeds = []
    · rw [he]; rfl
    · rw [if_neg he]
      cases h : QI.columns seeds with
      | nil => exact absurd h (columns_ne he)
      | cons a l => simp [frameRows, hline]
  have hset : setCol "vcem" (List.replicate R QI.npnan) (cemFrame name line seeds) =
    cemFrame name line seeds ++ [("vcem", List.replicate R QI.npnan)] := setCol_new _ cemFrame_names
  have hstore : store (frame (cemFrame name line seeds)) [str "vcem"]
      (num (PyNum.nat 0 / PyNum.nat 0)) =
        .ok (frame (cemFrame name line seeds ++ [("vcem", List.replicate R QI.npnan)])) := by
    rw [← hset]
    exact store_const ..
  have hnum : samples.zipIdx.map (fun p => tup [int (.ofNat p.2), num p.1.1]) =
      numbered 0 (samples.map Prod.fst) := by
    rw [numbered_zip, List.zipIdx_map, List.map_map]
    rfl
  have hVp' : lookup n!"self.Vp" (update 30
      (frame (cemFrame name line seeds ++ [("vcem", List.replicate R QI.npnan)])) env1) =
        some (j, vec (samples.map Prod.fst)) := by
    rw [lookup_update, hVp]; simp [beq_ne (Nat.ne_of_lt hj)]
  have l2 := cem_samples (F := F) (name := name) (g := g) hst (samples := samples) (seeds := seeds)
    (asArray := asArray) (env := update 30
      (frame (cemFrame name line seeds ++ [("vcem", List.replicate R QI.npnan)])) env1)
    (D := 30) (j := j') hj' hR'
    (by rw [lookup_update, hf]; rfl)
    (by rw [lookup_update, hs]; simp [beq_ne (Nat.ne_of_lt hj')])
  rw [hnum, ← hline] at l2
  have run1 : Source.QI.estimate_cem.runSelf F (attributesOf ⟨samples.map Prod.fst,
      samples.map Prod.snd, Vsh, Vs, den, eff, TVD⟩)
      [seedsVal asArray seeds, num Kqz, num Gqz, num Ksh, num Gsh, num phi_c, num Cn, num Kc,
        num Gc, num Db, num Kb, int scheme, num vsh, num Dsh, num Dqz, num Dc] [] =
      execAll F (Block.rest (Block.rest (Block.rest (Block.rest Source.QI.estimate_cem.body)))) env0 := by
    change execAll F _ _ = _
    refine (exec_step (env' := env0.drop 5) ?_).trans ((exec_step (env' := env0.drop 2) ?_).trans
      ((exec_step (env' := env0.drop 1) ?_).trans (exec_step (env' := env0) ?_)))
    · clear l1 hf hVp hs hi hR' hset hstore hnum hVp' l2 hG
      simp only [env0, List.drop]
      py_with []
      kernel_rfl
    · clear l1 hf hVp hs hi hR' hset hstore hnum hVp' l2 hK
      simp only [env0, List.drop]
      py_with []
      kernel_rfl
    · kernel_rfl
    · kernel_rfl
  have run2 : execAll F (Block.rest (Block.rest (Block.rest (Block.rest
      Source.QI.estimate_cem.body)))) env0 = execAll F (Block.rest (Block.rest (Block.rest (Block.rest
        (Block.rest Source.QI.estimate_cem.body))))) env1 := exec_each hi l1
  rw [run1, run2]
  clear_value R line
  clear hst hc hn hd hset hnum hs hj hj' hVp hline hR run1 run2 l1 env0
  refine (congrArg (Except.map (·.2)) (exec_step (env' := update 30
      (frame (cemFrame name line seeds ++ [("vcem", List.replicate R QI.npnan)])) env1) ?_)).trans ?_
  · clear l2 hR' hVp' hi
    py_with []
    kernel_rfl
  have hit : (eval F (update 30
      (frame (cemFrame name line seeds ++ [("vcem", List.replicate R QI.npnan)])) env1)
      c!"enumerate"[v!"self.Vp"]).bind items = .ok (numbered 0 (samples.map Prod.fst)) := by
    clear l2 hR' hi hstore
    py_with []
    kernel_rfl
  cases hm : samples.mapM fun p => QI.cem_of_row seeds asArray ((QI.columns seeds).map fun s =>
      (g s p.2).1) p.1 with
  | error e =>
    rw [hm] at l2
    exact congrArg (Except.map (·.2)) (exec_each_raise hit l2)
  | ok ys =>
    rw [hm] at l2
    obtain ⟨env3, l2, h3⟩ := l2
    refine (congrArg (Except.map (·.2)) (exec_each hit l2)).trans ?_
    have hcol : frameCol "vcem" (cemFrame name line seeds ++ [("vcem", ys)]) = .ok (vec ys) :=
      frameCol_last _ cemFrame_names
    clear hR' hm hit l2 hi hVp' hstore
    py_with []
    kernel_rfl

omit [PyNum α] in
theorem zip_pairs (l : List (α × α)) : (l.map Prod.fst).zip (l.map Prod.snd) = l := by
  induction l with
  | nil => rfl
  | cons a l ih => rw [List.map_cons, List.map_cons, List.zip_cons_cons, ih]

omit [PyNum α] in
theorem map_twice {β γ δ : Type} (f : β → γ) (g : γ → δ) (x : Res β) :
    (x.map f).map g = x.map fun a => g (f a) := by
  cases x <;> rfl

theorem cal_v_const_ok (Dqz Kqz Gqz Dsh Ksh Gsh Dc Kc Gc Db Kb phi_c vsh : α) (scheme : Int) :
    ∃ g : α → α → α × α, ∀ s p, QI.cal_v_const Dqz Kqz Gqz Dsh Ksh Gsh Dc Kc Gc Db Kb (phi_c - s) phi_c
      vsh p scheme = .ok (g s p) :=
  ⟨_, fun _ _ => rfl⟩

/-- `hst`: an array created with `np.nan` stores every number. -/
theorem C105_QI_estimate_cem {L : Lib α} {name : α → String} (hL : Strs L name) (q : QI.Obj α)
    (hq : q.Vp.length = q.phi.length) (seeds : List α) (hd : Distinct name seeds)
    (hst : ∀ x : α, PyNum.store QI.npnan x = x) (asArray : Bool)
    (Kqz Gqz Ksh Gsh phi_c Cn Kc Gc Db Kb : α) (scheme : Int) (vsh Dsh Dqz Dc : α) (k : Nat) :
    callSelf L (k + 4) n!"QI.estimate_cem" (attributesOf q)
      [seedsVal asArray seeds, num Kqz, num Gqz, num Ksh, num Gsh, num phi_c, num Cn, num Kc,
        num Gc, num Db, num Kb, int scheme, num vsh, num Dsh, num Dqz, num Dc] =
      outcome (QI.estimate_cem q.Vp q.phi seeds asArray Kqz Gqz Ksh Gsh phi_c Cn Kc Gc Db Kb scheme
        vsh Dsh Dqz Dc) := by
  obtain ⟨samples, hV, hp⟩ := columns2 q.Vp q.phi hq
  obtain ⟨g, hg⟩ := cal_v_const_ok Dqz Kqz Gqz Dsh Ksh Gsh Dc Kc Gc Db Kb phi_c vsh scheme
  have hrun := estimate_run (F := callFn L Source.program (k + 4)) (name := name) (g := g)
    (seeds := seeds) (asArray := asArray) (Cn := Cn) (Kc := Kc) (Gc := Gc) (Db := Db)
    (Kb := Kb) (scheme := scheme) (phi_c := phi_c) (Dsh := Dsh) (Dqz := Dqz) (Dc := Dc) hst hV hp
    (C105_EM_VRH [vsh, 1 - vsh] [Ksh, Kqz] L (k + 3))
    (C105_EM_VRH [vsh, 1 - vsh] [Gsh, Gqz] L (k + 3)) ?_ (fun s => hL _ s) hd
  · have hmodel : QI.estimate_cem q.Vp q.phi seeds asArray Kqz Gqz Ksh Gsh phi_c Cn Kc Gc Db Kb scheme
        vsh Dsh Dqz Dc = samples.mapM fun p => QI.cem_of_row seeds asArray
          ((QI.columns seeds).map fun s => (g s p.2).1) p.1 := by
      unfold QI.estimate_cem
      rw [hV, hp, zip_pairs]
      exact congrArg (fun f => samples.mapM f) (funext fun p =>
        estimate_cem_entry_row seeds asArray p.2 p.1 hg)
    rw [hmodel, callSelf, show lookup n!"QI.estimate_cem" Source.methods =
      some Source.QI.estimate_cem from rfl]
    simp only
    refine Eq.trans ?_ ((congrArg (Except.map fun o => o.getD Val.none) hrun).trans ?_)
    · exact (map_twice (fun x : Env α × Option (Val α) => x.2) (fun o => o.getD Val.none) _).symm
    · cases samples.mapM fun p => QI.cem_of_row seeds asArray ((QI.columns seeds).map fun s =>
        (g s p.2).1) p.1 <;> rfl
  · intro s
    refine (C105_QI_cal_v_const Dqz Kqz Gqz Dsh Ksh Gsh Dc Kc Gc Db Kb (phi_c - s) phi_c vsh
      (samples.map Prod.snd) scheme L k).trans ?_
    simp only [hg]
    rw [mapM_ok (g := g s) fun _ _ => rfl]
    simp only [arrays2, ofPy_ok, Except.map, List.map_map, Function.comp_def]

omit [PyNum α] in
theorem getItem_dict (key : String) (kwargs : List (String × List α)) :
    getItem key (kwargs.map fun p => tup [str p.1, vec p.2]) =
      .ok (optVec (kwargs.lookup key)) := by
  induction kwargs with
  | nil => rfl
  | cons p l ih =>
    rw [List.map_cons, getItem, List.lookup_cons]
    by_cases h : p.1 = key
    · rw [if_pos h, h]; simp [optVec]
    · rw [if_neg h, ih, beq_eq_false_iff_ne.2 (Ne.symm h)]

/-- The attributes of the new object. -/
theorem C105_QI_init (F : Caller α) (Vp phi : List α) (kwargs : List (String × List α)) :
    ∃ env, Source.QI.init.runSelf F [] [vec Vp, vec phi, dict kwargs] [] = .ok (env, .none) ∧
      ∀ p ∈ attributesOf (QI.init Vp phi fun key => kwargs.lookup key),
        (lookup p.1 env).map Prod.snd = some p.2 := by
  have h1 := getItem_dict "Vsh" kwargs
  have h2 := getItem_dict "Vs" kwargs
  have h3 := getItem_dict "den" kwargs
  have h4 := getItem_dict "eff_stress" kwargs
  have h5 := getItem_dict "TVD" kwargs
  refine ⟨[(n!"self.TVD", 9, optVec (kwargs.lookup "TVD")),
    (n!"self.eff_stress", 8, optVec (kwargs.lookup "eff_stress")),
    (n!"self.den", 7, optVec (kwargs.lookup "den")), (n!"self.Vs", 6, optVec (kwargs.lookup "Vs")),
    (n!"self.Vsh", 5, optVec (kwargs.lookup "Vsh")), (n!"self.phi", 1, vec phi),
    (n!"self.Vp", 2, vec Vp), (n!"Vp", 2, vec Vp), (n!"phi", 1, vec phi),
    (n!"kwargs", 0, dict kwargs)], ?_, ?_⟩
  · py_with []
    kernel_rfl
  · simp only [attributesOf, QI.init, List.forall_mem_cons]
    exact ⟨rfl, rfl, rfl, rfl, rfl, rfl, rfl, by simp⟩

/-! ## The hypotheses can be met -/

/-- A function that prints two seeds as Python does. -/
noncomputable def printed (a : Fl) : String := if PyNum.eq a (.fin 0) then "0.0" else "0.05"

example : Strs (α := Fl) (fun _ _ vs _ => match vs with
    | [.num a] => .ok (.str (printed a))
    | _ => .error .stuck) printed := fun _ _ => rfl

example : Distinct printed [.fin 0, .fin 0.05] := by
  have h : printed (.fin 0) = "0.0" := by simp [printed, fl_eq]
  have h' : printed (.fin 0.05) = "0.05" := by
    unfold printed
    rw [if_neg]
    rw [fl_eq]
    norm_num
  intro a ha b hb
  simp only [List.mem_cons, List.not_mem_nil, or_false] at ha hb
  rcases ha with rfl | rfl <;> rcases hb with rfl | rfl <;>
    simp only [h, h', fl_eq, Fl.fin.injEq, iff_self, and_true] <;> decide

example : ∀ x : Fl, PyNum.store QI.npnan x = x := fun _ => rfl

end RockPhy.Props
