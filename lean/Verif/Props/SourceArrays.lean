import Verif.Py.Tactic
import Verif.Spec.Source
import Verif.Lemmas.PyLoop
import Verif.Lemmas.PyArray
import Verif.Model.EM
import Verif.Model.Anisotropy

/-!
# C105 for functions with loops and arrays of any length

The loop of `EM.SC` is followed by an invariant, and arrays of any length by the rules of
`Verif/Lemmas/PyArray.lean`.
-/

namespace RockPhy.Props

open RockPhy.Py RockPhy.Py.Val

variable {α : Type} [PyNum α]

set_option maxRecDepth 8000

/-- The body of the loop of `EM.SC`. -/
def SC_body : Block :=
  .ofList [
    set! "K_eff" := (1 / v!"Ks" + (1 / v!"K_eff" + 3 / (4 * v!"G_eff")) * v!"phi") ** (-1),
    set! "G_eff" := (1 / v!"Gs" + (15 * v!"K_eff" + 20 * v!"G_eff") / (9 * v!"K_eff" + 8 *
      v!"G_eff") * v!"phi" / v!"G_eff") ** (-1)]

/-- What the variables of `EM.SC` hold after `m` rounds. -/
def SC_vars (phi Ks Gs : α) (m : Nat) (env : Env α) : Prop :=
  ∃ i1 i2 i3 i4 i5, lookup n!"phi" env = some (i1, num phi) ∧
    lookup n!"Ks" env = some (i2, num Ks) ∧ lookup n!"Gs" env = some (i3, num Gs) ∧
    lookup n!"K_eff" env = some (i4, num (EM.SC phi Ks Gs m).1) ∧
    lookup n!"G_eff" env = some (i5, num (EM.SC phi Ks Gs m).2)

theorem SC_round (F : Caller α) (phi Ks Gs : α) (m : Nat) (env : Env α) (v : Val α)
    (h : SC_vars phi Ks Gs m env) : ∃ env',
      ((assign F env (.var n!"i") v).bind fun env => execAll F SC_body env) =
        .ok (env', Option.none) ∧ SC_vars phi Ks Gs (m + 1) env' := by
  obtain ⟨i1, i2, i3, i4, i5, h1, h2, h3, h4, h5⟩ := h
  refine ⟨(n!"G_eff", env.length + 2, num (EM.SC phi Ks Gs (m + 1)).2) ::
      (n!"K_eff", env.length + 1, num (EM.SC phi Ks Gs (m + 1)).1) ::
      (n!"i", env.length, v) :: env, ?_, i1, i2, i3, env.length + 1, env.length + 2, ?_, ?_, ?_,
      ?_, ?_⟩
  · py_eq
  · rw [← h1]; kernel_rfl
  · rw [← h2]; kernel_rfl
  · rw [← h3]; kernel_rfl
  · kernel_rfl
  · kernel_rfl

theorem C105_EM_SC (phi Ks Gs : α) (n : Nat) :
    Computes 1 n!"EM.SC" [num phi, num Ks, num Gs, int (.ofNat n)]
      (returns (EM.SC phi Ks Gs n)) := by
  intro L k
  obtain ⟨env, h, i1, i2, i3, i4, i5, _, _, _, hK, hG⟩ := loop_inv
    (fun env v => (assign (callFn L Source.program k) env (.var n!"i") v).bind fun env =>
      execAll (callFn L Source.program k) SC_body env) (SC_vars phi Ks Gs)
    (SC_round (callFn L Source.program k) phi Ks Gs)
    ((List.range n).map fun i => int (.ofNat i)) 0
    [(n!"G_eff", 1, num Gs), (n!"K_eff", 2, num Ks), (n!"phi", 3, num phi), (n!"Ks", 2, num Ks),
      (n!"Gs", 1, num Gs), (n!"iter_n", 0, int (.ofNat n))]
    ⟨3, 2, 1, 2, 1, by kernel_rfl, by kernel_rfl, by kernel_rfl, by kernel_rfl, by kernel_rfl⟩
  rw [Nat.zero_add, List.length_map, List.length_range] at hK hG
  py_eq

theorem C105_Anisotropy_Backus (V lamda G : List α) :
    Computes 1 n!"Anisotropy.Backus" [vec V, vec lamda, vec G]
      (outcome (Anisotropy.Backus V lamda G)) := by
  intro L k
  unfold Anisotropy.Backus
  rcases shapes2 lamda G with h | ⟨a, rfl, h⟩ | ⟨b, rfl, h⟩ | ⟨h, h1, h2⟩
  · by_cases hV : V.length = G.length
    · py_both [] using (simp [h, hV])
      obtain ⟨p, rfl, rfl⟩ := columns2 lamda G h
      simp only [List.map_map, List.zipWith_map, List.zipWith_self, Function.comp_def]
      kernel_rfl
    · py_both [] using (simp [h, hV])
      kernel_rfl
  · by_cases hV : V.length = G.length
    · py_both [] using (simp [Ne.symm h, hV])
      simp only [List.map_map, List.zipWith_map, List.zipWith_self, Function.comp_def]
      kernel_rfl
    · py_both [] using (simp [Ne.symm h, hV])
      kernel_rfl
  · match lamda, h with
    | [], h =>
      by_cases hV : V.length = 0
      · py_both [] using (simp [hV])
        kernel_rfl
      · py_both [] using (simp [hV])
        kernel_rfl
    | c :: d :: l, h =>
      by_cases hV : V.length = l.length + 2
      · py_both [] using (simp [hV])
        kernel_rfl
      · py_both [] using (simp [hV])
        kernel_rfl
  · have e1 := bzip_misfit (fun l g : α => l + g) lamda (G.map (2 * ·)) (by simpa using h) h1 (by simpa)
    have e2 := bzip_misfit (fun l g : α => 1 / (l + 2 * g)) lamda G h h1 h2
    py_eq

theorem C105_Anisotropy_Backus_log (Vp Vs Den Depth : List α) :
    Computes 2 n!"Anisotropy.Backus_log" [vec Vp, vec Vs, vec Den, vec Depth]
      (outcome (Anisotropy.Backus_log Vp Vs Den Depth)) := by
  intro L k
  unfold Anisotropy.Backus_log
  have e1 := bzip_map_right (· * ·) (fun v : α => v ** 2) Den Vs
  have e2 := bzip_map_right (· * ·) (fun v : α => v ** 2) Den Vp
  cases h1 : bzip (fun d v : α => d * v ** 2) Den Vs with
  | error e => rw [h1] at e1; py_eq
  | ok G =>
    rw [h1] at e1
    cases h2 : bzip (fun d v : α => d * v ** 2) Den Vp with
    | error e => rw [h2] at e2; py_eq
    | ok M =>
      rw [h2] at e2
      cases h3 : bzip (fun a b : α => a - b) M (G.map (2 * ·)) with
      | error e => py_eq
      | ok lamda =>
        have h4 := C105_Anisotropy_Backus
          ((Anisotropy.diff Depth).map (· / lsum (Anisotropy.diff Depth))) lamda G L k
        cases h5 : Anisotropy.Backus
            ((Anisotropy.diff Depth).map (· / lsum (Anisotropy.diff Depth))) lamda G with
        | error e => rw [h5] at h4; py_eq
        | ok C =>
          obtain ⟨C11, C33, C13, C44, C66⟩ := C
          rw [h5] at h4
          cases h6 : dot ((Anisotropy.diff Depth).map (· / lsum (Anisotropy.diff Depth))) Den <;>
            py_eq

theorem source_PQ_vectorize_fit (Km Gm : α) (Ki Gi alpha : List α) (hG : Gi.length = Ki.length)
    (ha : alpha.length = Ki.length) (ho : ∀ a ∈ EM.PQ_vectorize_alpha alpha, Ordered a 1)
    (hdiv : ∀ a b x : α, PyNum.store (a / b) x = x) (L : Lib α) (hL : Empties L) (k : Nat) :
    callFn L Source.program (k + 2) n!"EM.PQ_vectorize"
      [num Km, num Gm, vec Ki, vec Gi, vec alpha] [] =
      outcome ((EM.PQ_vectorize Km Gm Ki Gi alpha).map fun r => (r.1, r.2.1)) := by
  obtain ⟨e, he, hf, hE⟩ := hL (callFn L Source.program k) Ki.length
  obtain ⟨l, rfl, rfl, rfl, rfl⟩ : ∃ l : List (α × α × α × α), Ki = l.map (fun p => p.1) ∧
      Gi = l.map (fun p => p.2.1) ∧ alpha = l.map (fun p => p.2.2.1) ∧
      e = l.map (fun p => p.2.2.2) := by
    obtain ⟨l1, rfl, rfl⟩ := columns2 alpha e (ha.trans he.symm)
    obtain ⟨l2, rfl, rfl⟩ := columns2 Gi l1 (by simpa using hG.trans ha.symm)
    obtain ⟨l3, rfl, rfl⟩ := columns2 Ki l2 (by simpa using hG.symm)
    exact ⟨l3, rfl, by simp, by simp, by simp⟩
  py_arr [bzip_same, select_map, fill_map, fillWith_map, List.map_map, Function.comp_def]
  have hM : EM.PQ_vectorize Km Gm (l.map (fun p => p.1)) (l.map (fun p => p.2.1))
      (l.map (fun p => p.2.2.1)) = .ok (l.map fun p => (EM.PQ_vectorize_entry Km Gm p.1 p.2.1
        (if PyNum.eq p.2.2.1 1 then PyNum.store p.2.2.1 0.999 else p.2.2.1)).1, l.map fun p =>
          (EM.PQ_vectorize_entry Km Gm p.1 p.2.1 
        (if PyNum.eq p.2.2.1 1 then PyNum.store p.2.2.1 0.999 else p.2.2.1)).2, EM.PQ_vectorize_alpha (l.map (fun p => p.2.2.1))) := by
    simp [EM.PQ_vectorize, EM.PQ_vectorize_alpha, List.zip, List.zipWith_map, List.zipWith_self, Function.comp_def]
    rfl
  rw [hM]
  simp only [Except.map, outcome, ofPy, Ret.ret, Rets.rets]
  simp only [Except.ok.injEq, Val.tup.injEq, List.cons.injEq, Val.vec.injEq, and_true]
  constructor
  all_goals
    apply List.map_congr_left
    intro p hp
    have h1 := ho (if PyNum.eq p.2.2.1 1 then PyNum.store p.2.2.1 0.999 else p.2.2.1) (by
      simp only [EM.PQ_vectorize_alpha, List.map_map, List.mem_map]
      exact ⟨p, hp, rfl⟩)
    have h2 := hf p.2.2.2 (List.mem_map.2 ⟨p, hp, rfl⟩)
    obtain ⟨ki, gi, a, e⟩ := p
    dsimp only at h1 h2 ⊢
    have hb : (bif cmpNum Cmp.eq a (ofInt (Int.ofNat 1)) then PyNum.store a (PyNum.sci 999 true 3) else a) = (if PyNum.eq a 1 then PyNum.store a 0.999 else a) := by
      cases h : PyNum.eq a 1
      · change (bif PyNum.eq a 1 then _ else _) = _
        rw [h]; rfl
      · change (bif PyNum.eq a 1 then _ else _) = _
        rw [h]; rfl
    rw [hb]
    generalize (if PyNum.eq a 1 then PyNum.store a 0.999 else a) = b at h1 ⊢
    unfold EM.PQ_vectorize_entry EM.PQ_theta
    have c1 : cmpNum Cmp.eq b (ofInt (Int.ofNat 1)) = PyNum.eq b 1 := rfl
    have c2 : cmpNum Cmp.lt b (ofInt (Int.ofNat 1)) = PyNum.lt b 1 := rfl
    have c3 : cmpNum Cmp.gt b (ofInt (Int.ofNat 1)) = PyNum.lt 1 b := rfl
    rw [c1, c2, c3]
    rcases h1 with ⟨h3, h4, h5⟩ | ⟨h3, h4, h5⟩ | ⟨h3, h4, h5⟩ <;>
    · rw [h3, h4, h5]
      simp only [cond_true, cond_false, if_true, if_false, Bool.false_eq_true, h2, hdiv]
      kernel_rfl

theorem source_PQ_vectorize_few (Km Gm : α) (Ki Gi alpha : List α) (ha : alpha.length ≠ Ki.length)
    (L : Lib α) (hL : Empties L) (k : Nat) :
    callFn L Source.program (k + 2) n!"EM.PQ_vectorize"
      [num Km, num Gm, vec Ki, vec Gi, vec alpha] [] = .error (.py .IndexError) := by
  obtain ⟨e, he, hf, hE⟩ := hL (callFn L Source.program k) Ki.length
  obtain ⟨l, rfl, -⟩ := columns2 alpha alpha rfl
  rw [List.length_map] at ha
  py_arr [bzip_same, select_map, fill_map, fillWith_short, List.map_map, Function.comp_def,
    List.length_map, he, ha, ne_eq, not_false_eq_true]
  rfl

theorem source_PQ_vectorize_misfit (Km Gm : α) (Ki Gi alpha : List α) (ha : alpha.length = Ki.length)
    (hG : Gi.length ≠ Ki.length) (h1 : Gi.length ≠ 1) (h2 : Ki.length ≠ 1)
    (L : Lib α) (hL : Empties L) (k : Nat) :
    callFn L Source.program (k + 2) n!"EM.PQ_vectorize"
      [num Km, num Gm, vec Ki, vec Gi, vec alpha] [] = .error (.py .ValueError) := by
  obtain ⟨e, he, hf, hE⟩ := hL (callFn L Source.program k) Ki.length
  obtain ⟨l, rfl, rfl, rfl⟩ : ∃ l : List (α × α × α), Ki = l.map (fun p => p.1) ∧
      alpha = l.map (fun p => p.2.1) ∧ e = l.map (fun p => p.2.2) := by
    obtain ⟨l1, rfl, rfl⟩ := columns2 alpha e (ha.trans he.symm)
    obtain ⟨l3, rfl, rfl⟩ := columns2 Ki l1 (by simpa using ha.symm)
    exact ⟨l3, rfl, by simp, by simp⟩
  rw [List.length_map] at hG h2
  have h3 := Ne.symm hG
  py_arr [bzip_same, select_map, fill_map, fillWith_map, bzip_misfit, List.map_map, Function.comp_def,
    List.length_map, hG, h3, h1, h2, ne_eq, not_false_eq_true]
  rfl

theorem source_PQ_vectorize_one_shear (Km Gm g : α) (Ki alpha : List α) (ha : alpha.length = Ki.length)
    (h2 : Ki.length ≠ 1) (L : Lib α) (hL : Empties L) (k : Nat) :
    callFn L Source.program (k + 2) n!"EM.PQ_vectorize"
      [num Km, num Gm, vec Ki, vec [g], vec alpha] [] = .error (.py .IndexError) := by
  obtain ⟨e, he, hf, hE⟩ := hL (callFn L Source.program k) Ki.length
  obtain ⟨l, rfl, rfl, rfl⟩ : ∃ l : List (α × α × α), Ki = l.map (fun p => p.1) ∧
      alpha = l.map (fun p => p.2.1) ∧ e = l.map (fun p => p.2.2) := by
    obtain ⟨l1, rfl, rfl⟩ := columns2 alpha e (ha.trans he.symm)
    obtain ⟨l3, rfl, rfl⟩ := columns2 Ki l1 (by simpa using ha.symm)
    exact ⟨l3, rfl, by simp, by simp⟩
  rw [List.length_map] at h2
  py_arr [bzip_same, select_map, fill_map, fillWith_map, bzip_one_left, bzip_one_right, select_short,
    List.map_map, Function.comp_def, List.length_map, List.length_cons, List.length_nil, zero_add,
    List.map_cons, List.map_nil, h2, ne_eq, not_false_eq_true]
  rfl

theorem bzip_single_left {β γ δ : Type} (op : β → γ → δ) {x : List β} (y : List γ)
    (h : x.length = 1) :
    bzip op x y = .ok (y.map (op (x.head (List.ne_nil_of_length_eq_add_one h)))) := by
  obtain ⟨a, rfl⟩ := List.length_eq_one_iff.mp h
  exact bzip_one_left op a y

theorem bzip_single_right {β γ δ : Type} (op : β → γ → δ) (x : List β) {y : List γ}
    (h : y.length = 1) :
    bzip op x y = .ok (x.map fun a => op a (y.head (List.ne_nil_of_length_eq_add_one h))) := by
  obtain ⟨a, rfl⟩ := List.length_eq_one_iff.mp h
  exact bzip_one_right op x a

theorem source_PQ_vectorize_one_bulk (Km Gm : α) (Ki Gi alpha : List α) (ha : alpha.length = Ki.length)
    (h1 : Gi.length ≠ 1) (h2 : Ki.length = 1) (L : Lib α) (hL : Empties L) (k : Nat) :
    callFn L Source.program (k + 2) n!"EM.PQ_vectorize"
      [num Km, num Gm, vec Ki, vec Gi, vec alpha] [] = .error (.py .IndexError) := by
  obtain ⟨e, he, hf, hE⟩ := hL (callFn L Source.program k) Ki.length
  obtain ⟨l, rfl, rfl, rfl⟩ : ∃ l : List (α × α × α), Ki = l.map (fun p => p.1) ∧
      alpha = l.map (fun p => p.2.1) ∧ e = l.map (fun p => p.2.2) := by
    obtain ⟨l1, rfl, rfl⟩ := columns2 alpha e (ha.trans he.symm)
    obtain ⟨l3, rfl, rfl⟩ := columns2 Ki l1 (by simpa using ha.symm)
    exact ⟨l3, rfl, by simp, by simp⟩
  rw [List.length_map] at h2
  have h3 := Ne.symm h1
  py_arr [bzip_same, select_map, fill_map, fillWith_map, bzip_single_left, bzip_single_right,
    fillWith_short, List.map_map, Function.comp_def, List.length_map, h1, h2, h3, ne_eq,
    not_false_eq_true]
  rfl

theorem C105_EM_PQ_vectorize (Km Gm : α) (Ki Gi alpha : List α)
    (ho : ∀ a ∈ EM.PQ_vectorize_alpha alpha, Ordered a 1)
    (hdiv : ∀ a b x : α, PyNum.store (a / b) x = x) (L : Lib α) (hL : Empties L) (k : Nat) :
    callFn L Source.program (k + 2) n!"EM.PQ_vectorize"
      [num Km, num Gm, vec Ki, vec Gi, vec alpha] [] =
      outcome ((EM.PQ_vectorize Km Gm Ki Gi alpha).map fun r => (r.1, r.2.1)) := by
  by_cases ha : alpha.length = Ki.length
  · by_cases hG : Gi.length = Ki.length
    · exact source_PQ_vectorize_fit Km Gm Ki Gi alpha hG ha ho hdiv L hL k
    unfold EM.PQ_vectorize
    rw [if_neg (not_not.mpr ha), if_pos hG]
    by_cases h1 : Gi.length = 1
    · rw [if_pos (.inl h1)]
      obtain ⟨g, rfl⟩ := List.length_eq_one_iff.mp h1
      exact source_PQ_vectorize_one_shear Km Gm g Ki alpha ha (fun h => hG (h1.trans h.symm)) L hL k
    by_cases h2 : Ki.length = 1
    · rw [if_pos (.inr h2)]
      exact source_PQ_vectorize_one_bulk Km Gm Ki Gi alpha ha h1 h2 L hL k
    rw [if_neg (by rintro (h | h) <;> contradiction)]
    exact source_PQ_vectorize_misfit Km Gm Ki Gi alpha ha hG h1 h2 L hL k
  · unfold EM.PQ_vectorize
    rw [if_pos ha]
    exact source_PQ_vectorize_few Km Gm Ki Gi alpha ha L hL k

/-- A library that answers `np.empty` with zeros, and aspect ratios below, at and above 1: the
value 1 is overwritten by 0.999. -/
example : Empties (α := Fl) (fun _ _ vs _ => match vs with
      | [.int (.ofNat n)] => .ok (vec (List.replicate n 0))
      | _ => .error .stuck) ∧
    (∀ a ∈ EM.PQ_vectorize_alpha (α := Fl) [.fin (1 / 2), .fin 1, .fin 2], Ordered a 1) ∧
    ∀ a b x : Fl, PyNum.store (a / b) x = x := by
  refine ⟨fun F n => ⟨List.replicate n 0, List.length_replicate, fun _ _ _ => rfl, rfl⟩, ?_,
    fun _ _ _ => rfl⟩
  intro a ha
  simp only [EM.PQ_vectorize_alpha, List.map_cons, List.map_nil, List.mem_cons,
    List.not_mem_nil, or_false] at ha
  rcases ha with rfl | rfl | rfl
  · left; fl_eval []; norm_num [fl, ← Bool.not_eq_true]
  · left; fl_eval []; norm_num [fl, ← Bool.not_eq_true]
  · right; right; fl_eval []; norm_num [fl, ← Bool.not_eq_true]

end RockPhy.Props
