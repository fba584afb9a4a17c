import Verif.Spec.Memory
import Verif.Props.Inclusion

/-! # C103: which arrays a call shares, overwrites or creates -/

namespace RockPhy.Props

open Fl Spec Run

section calls

variable {β γ δ : Type}

theorem call_pure (x : γ) (m : Mem β) : call (pure x : Run β γ) m = (.ok x, m) := rfl

theorem call_throw (e : PyErr) (m : Mem β) : call (throw e : Run β γ) m = (.error e, m) := rfl

theorem call_bind (p : Run β γ) (f : γ → Run β δ) (m : Mem β) :
    call (p >>= f) m = match call p m with
      | (.ok x, m') => call (f x) m'
      | (.error e, m') => (.error e, m') := by
  show (StateT.run (ExceptT.run (p >>= f)) m) = _
  simp only [ExceptT.run_bind, StateT.run_bind, call]
  rcases StateT.run (ExceptT.run p) m with ⟨_ | _, _⟩ <;> rfl

theorem call_new (l : List β) (m : Mem β) : call (new l) m = (.ok m.length, m ++ [l]) := rfl

theorem call_read (r : Ref) (m : Mem β) : call (read r) m = (.ok (m.getD r []), m) := rfl

theorem call_write (r : Ref) (l : List β) (m : Mem β) :
    call (write r l) m = (.ok (), m.set r l) := rfl

theorem call_lift_ok (x : γ) (m : Mem β) : call (lift (.ok x) : Run β γ) m = (.ok x, m) := rfl

theorem call_lift_error (e : PyErr) (m : Mem β) :
    call (lift (.error e) : Run β γ) m = (.error e, m) := rfl

theorem call_fill {conv : β → β → β} {r : Ref} {mask : List Bool} {x : β} {m : Mem β}
    (h : mask.length = (m.getD r []).length) : call (fill conv r mask x) m
      = (.ok (), m.set r (List.zipWith (fun y b => if b then conv y x else y) (m.getD r []) mask)) := by
  unfold fill
  rw [call_bind, call_read]
  dsimp only
  rw [if_neg (not_not.mpr h)]
  rfl

theorem call_put {r : Ref} {mask : List Bool} {v l : List β} {m : Mem β}
    (h : mask.length = (m.getD r []).length) (hv : maskPut (m.getD r []) mask v = .ok l) :
    call (put r mask v) m = (.ok (), m.set r l) := by
  unfold put
  rw [call_bind, call_read]
  dsimp only
  rw [if_neg (not_not.mpr h), hv]
  rfl

theorem call_put_index {r : Ref} {mask : List Bool} {v : List β} {m : Mem β}
    (h : mask.length ≠ (m.getD r []).length) : call (put r mask v) m = (.error .IndexError, m) := by
  unfold put
  rw [call_bind, call_read]
  dsimp only
  rw [if_pos h]
  rfl

end calls

section masks

variable {β γ : Type}

/-- Filling the selected positions with a function of the entries selected by the same mask. -/
theorem maskPut_maskGet (g : γ → β) (a : List β) (zs : List γ) (mask : List Bool)
    (h : mask.length = a.length) (h' : zs.length = a.length) :
    maskPut a mask ((maskGet zs mask).map g)
      = .ok (List.zipWith (fun y (bz : Bool × γ) => if bz.1 then g bz.2 else y) a
        (List.zip mask zs)) := by
  induction a generalizing zs mask with
  | nil => cases mask <;> cases zs <;> simp_all [maskPut, maskGet]
  | cons y a ih =>
    cases mask with
    | nil => simp at h
    | cons b mask =>
      cases zs with
      | nil => simp at h'
      | cons z zs =>
        have ih := ih zs mask (by simpa using h) (by simpa using h')
        cases b <;> simp [maskPut, maskGet, ih, Except.map]

theorem maskPut_map (b : γ → Bool) (g : γ → β) (a : List β) (zs : List γ)
    (h : zs.length = a.length) :
    maskPut a (zs.map b) ((maskGet zs (zs.map b)).map g)
      = .ok (List.zipWith (fun y z => if b z then g z else y) a zs) := by
  rw [maskPut_maskGet g a zs _ (by simpa using h) h]
  congr 1
  clear h
  induction a generalizing zs with
  | nil => rfl
  | cons y a ih => cases zs <;> simp_all

theorem maskGet_none (zs : List γ) (mask : List Bool) (h : ∀ b ∈ mask, b = false) :
    maskGet zs mask = [] := by
  induction zs generalizing mask with
  | nil => cases mask <;> rfl
  | cons z zs ih =>
    cases mask with
    | nil => rfl
    | cons b mask =>
      have hb : b = false := h b List.mem_cons_self
      subst hb
      exact ih mask fun b hb => h b (List.mem_cons_of_mem _ hb)

theorem maskPut_none (a : List β) (mask : List Bool) (h : ∀ b ∈ mask, b = false)
    (hl : mask.length = a.length) : maskPut a mask [] = .ok a := by
  induction a generalizing mask with
  | nil => cases mask <;> rfl
  | cons y a ih =>
    cases mask with
    | nil => simp at hl
    | cons b mask =>
      have hb : b = false := h b List.mem_cons_self
      subst hb
      simp [maskPut, ih mask (fun b hb => h b (List.mem_cons_of_mem _ hb)) (by simpa using hl),
        Except.map]

end masks


section memory

variable {β : Type}

theorem getD_of_get {m : Mem β} {r : Ref} {l : List β} (h : m[r]? = some l) : m.getD r [] = l := by
  simp [List.getD_eq_getElem?_getD, h]

theorem get_append {m : Mem β} {r : Ref} {l : List β} (h : m[r]? = some l) (n : Mem β) :
    (m ++ n)[r]? = some l := by
  have := (List.getElem?_eq_some_iff.mp h).1
  rw [List.getElem?_append_left this, h]

theorem lt_of_get {m : Mem β} {r : Ref} {l : List β} (h : m[r]? = some l) : r < m.length :=
  (List.getElem?_eq_some_iff.mp h).1

theorem set_append_lt {m : Mem β} {r : Ref} (h : r < m.length) (n : Mem β) (l : List β) :
    (m ++ n).set r l = m.set r l ++ n := by
  rw [List.set_append_left _ _ h]

theorem set_append_last (m : Mem β) (a l : List β) :
    (m ++ [a]).set m.length l = m ++ [l] := by
  simp

theorem Untouched.append (m n : Mem β) : Untouched m (m ++ n) := fun _ _ h => get_append h n

theorem Untouched.trans {m m' m'' : Mem β} (h : Untouched m m') (h' : Untouched m' m'') :
    Untouched m m'' := fun r l hl => h' r l (h r l hl)

end memory

/-! ## `PQ_vectorize` -/

theorem clipped_eq (as : List Fl) : EM.PQ_vectorize_alpha as = clipped as := by
  unfold EM.PQ_vectorize_alpha clipped
  apply List.map_congr_left
  intro a _
  cases a with
  | bad => simp [fl]
  | fin a =>
    by_cases h : a = 1
    · subst h; simp [fl, PyNum.store]
    · simp [fl, h]

theorem clipped_ne (as : List Fl) : ∀ x ∈ clipped as, x ≠ fin 1 := by
  intro x hx
  unfold clipped at hx
  obtain ⟨a, -, rfl⟩ := List.mem_map.mp hx
  by_cases h : a = fin 1
  · rw [if_pos h, Ne, fin_inj]; norm_num
  · rw [if_neg h]; exact h

theorem eq_one_false {x : Fl} (h : x ≠ fin 1) : PyNum.eq x 1 = false := by
  cases x with
  | bad => rfl
  | fin a =>
    rw [← Bool.not_eq_true]
    simp only [fl]
    rintro rfl
    exact h rfl

theorem clipped_idem (as : List Fl) : clipped (clipped as) = clipped as := by
  conv_rhs => rw [← List.map_id (clipped as)]
  conv_lhs => unfold clipped
  apply List.map_congr_left
  intro x hx
  rw [if_neg (clipped_ne as x hx)]; rfl

theorem clipped_length (as : List Fl) : (clipped as).length = as.length := by
  simp [clipped]

/-- The angle term of the spheroid as `PQ_vectorize` leaves it in the array `theta`: the memory the
array was made from shows through where the aspect ratio is neither below nor above one. -/
noncomputable def thetaOf (x t : Fl) : Fl :=
  if PyNum.lt 1 x then x / (x ** 2 - 1) **. (3.0 / 2.0) * (x * (x ** 2 - 1) **. 0.5 - inv (cosh x))
  else if PyNum.lt x 1 then
    x / (1.0 - x ** 2) **. (3.0 / 2.0) * (arccos x - x * sqrt (1.0 - x ** 2))
  else t

theorem PQ_core_bad (Km Gm k g t : Fl) : EM.PQ_core Km Gm k g bad t = (bad, bad) := by
  simp [EM.PQ_core, fl]

theorem PQ_entry_junk (Km Gm k g x t : Fl) (hx : x ≠ fin 1) :
    EM.PQ_core Km Gm k g x (thetaOf x t) = EM.PQ_vectorize_entry Km Gm k g x := by
  unfold EM.PQ_vectorize_entry
  rw [eq_one_false hx]
  cases x with
  | bad => rw [PQ_core_bad]; simp [PQ_core_bad]
  | fin a =>
    have h1 : a ≠ 1 := fun h => hx (by rw [h])
    rw [if_neg (by simp)]
    congr 1
    unfold thetaOf EM.PQ_theta
    rcases lt_or_gt_of_ne h1 with h | h
    · rw [if_neg (by simp only [fl]; exact h.not_gt), if_pos (by simp only [fl]; exact h),
        if_pos (by simp only [fl]; exact h)]
    · rw [if_pos (by simp only [fl]; exact h), if_neg (by simp only [fl]; exact h.not_gt)]

theorem zip_theta (a js : List Fl) (h : a.length = js.length) :
    List.zipWith (fun y z => if PyNum.lt 1 z then
        z / (z ** 2 - 1) **. (3.0 / 2.0) * (z * (z ** 2 - 1) **. 0.5 - inv (cosh z)) else y)
      (List.zipWith (fun y z => if PyNum.lt z 1 then
        z / (1.0 - z ** 2) **. (3.0 / 2.0) * (arccos z - z * sqrt (1.0 - z ** 2)) else y) js a) a
      = List.zipWith thetaOf a js := by
  induction a generalizing js with
  | nil => simp
  | cons x a ih =>
    cases js with
    | nil => simp at h
    | cons j js =>
      simp only [List.zipWith_cons_cons, ih js (by simpa using h)]
      congr 1

theorem zip_entries (Km Gm : Fl) (kg : List (Fl × Fl)) (a js : List Fl) (h : a.length = js.length)
    (ha : ∀ x ∈ a, x ≠ fin 1) :
    List.zipWith (fun (kg : Fl × Fl) (at_ : Fl × Fl) => EM.PQ_core Km Gm kg.1 kg.2 at_.1 at_.2) kg
        (List.zip a (List.zipWith thetaOf a js))
      = List.zipWith (fun (kg : Fl × Fl) x => EM.PQ_vectorize_entry Km Gm kg.1 kg.2 x) kg a := by
  induction a generalizing js kg with
  | nil => simp
  | cons x a ih =>
    cases js with
    | nil => simp at h
    | cons j js =>
      cases kg with
      | nil => rfl
      | cons p kg =>
        simp only [List.zipWith_cons_cons, List.zip_cons_cons]
        rw [ih kg js (by simpa using h) (fun x hx => ha x (List.mem_cons_of_mem _ hx)),
          PQ_entry_junk _ _ _ _ _ _ (ha x List.mem_cons_self)]

theorem fill_one (as : List Fl) :
    List.zipWith (fun y b => if b then PyNum.store y (0.999 : Fl) else y) as
      (as.map fun a => PyNum.eq a 1) = clipped as := by
  rw [← clipped_eq]
  unfold EM.PQ_vectorize_alpha
  induction as with
  | nil => rfl
  | cons a as ih => simp only [List.map_cons, List.zipWith_cons_cons, ih]

theorem set_get_length {m : Mem Fl} {alpha r : Ref} {as l : List Fl} (ha : m[alpha]? = some as)
    (h : (m.set alpha (clipped as))[r]? = some l) : ∃ l', m[r]? = some l' ∧ l'.length = l.length := by
  by_cases hr : r = alpha
  · subst hr
    refine ⟨as, ha, ?_⟩
    rw [List.getElem?_set_self (lt_of_get ha)] at h
    injection h with h
    rw [← h, clipped_length]
  · rw [List.getElem?_set_ne (Ne.symm hr)] at h
    exact ⟨l, h, rfl⟩

theorem call_PQ (junk : ℕ → Fl) (Km Gm : Fl) {Ki Gi alpha : Ref} {m : Mem Fl} {as ki gi : List Fl}
    (ha : m[alpha]? = some as) (hk : (m.set alpha (clipped as))[Ki]? = some ki)
    (hg : (m.set alpha (clipped as))[Gi]? = some gi) (h1 : gi.length = ki.length)
    (h2 : as.length = ki.length) :
    ∃ j P Q, EM.PQ_vectorize Km Gm ki gi (clipped as) = .ok (P, Q, clipped as) ∧
      P.length = as.length ∧ Q.length = as.length ∧
      call (EM.PQ_vectorize_mem junk Km Gm Ki Gi alpha) m
        = (.ok (m.length + 1, m.length + 2), m.set alpha (clipped as) ++ [j, P, Q]) := by
  obtain ⟨ki0, hk0, hkl⟩ := set_get_length ha hk
  have hlt := lt_of_get ha
  set m1 := m.set alpha (clipped as) with hm1
  have hm1l : m1.length = m.length := by simp [hm1]
  have ham : m1[alpha]? = some (clipped as) := by rw [hm1, List.getElem?_set_self hlt]
  set js := (List.range ki.length).map junk with hjs
  have hjl : js.length = ki.length := by simp [hjs]
  have hcl := clipped_length as
  set kg := List.zip ki gi
  set PQs := List.zipWith (fun (kg : Fl × Fl) x => EM.PQ_vectorize_entry Km Gm kg.1 kg.2 x) kg
    (clipped as) with hPQs
  have hPl : PQs.length = as.length := by simp [hPQs, kg, h1, h2, hcl]
  have hones : ∀ b ∈ (clipped as).map (fun x => PyNum.eq x (1 : Fl)), b = false := by
    intro b hb
    obtain ⟨x, hx, rfl⟩ := List.mem_map.mp hb
    exact eq_one_false (clipped_ne as x hx)
  refine ⟨List.zipWith thetaOf (clipped as) js, PQs.map Prod.fst, PQs.map Prod.snd, ?_, by simp [hPl],
    by simp [hPl], ?_⟩
  · rw [EM.PQ_vectorize_fit _ _ h1 (by rw [hcl, h2]), clipped_eq, clipped_idem]
  unfold EM.PQ_vectorize_mem
  rw [call_bind, call_read, getD_of_get hk0]
  dsimp only
  rw [hkl, ← hjs, call_bind, call_new]
  dsimp only
  rw [call_bind, call_read, getD_of_get (get_append ha _)]
  dsimp only
  rw [call_bind, call_fill (by rw [getD_of_get (get_append ha _)]; simp), getD_of_get (get_append ha _),
    fill_one, set_append_lt hlt, ← hm1]
  dsimp only
  rw [call_bind, call_read, getD_of_get (get_append ham _)]
  dsimp only
  have t0 : (m1 ++ [js])[m.length]? = some js := by rw [← hm1l]; simp
  rw [call_bind, call_put (by rw [getD_of_get t0]; simp [hcl, hjl, h2])
    (by rw [getD_of_get t0]; exact maskPut_map _ _ _ _ (by rw [hcl, hjl, h2]))]
  dsimp only
  rw [← hm1l, set_append_last, call_bind]
  set js1 := List.zipWith (fun y z => if PyNum.lt z 1 then
        z / (1.0 - z ** 2) **. (3.0 / 2.0) * (arccos z - z * sqrt (1.0 - z ** 2)) else y) js
        (clipped as) with hjs1
  have t1 : (m1 ++ [js1])[m1.length]? = some js1 := by simp
  have hj1 : js1.length = as.length := by simp [hjs1, hjl, h2, hcl]
  rw [call_put (by rw [getD_of_get t1]; simp [hcl, hj1])
    (by rw [getD_of_get t1]; exact maskPut_map _ _ _ _ (by rw [hcl, hj1]))]
  dsimp only
  rw [set_append_last, hjs1, zip_theta _ _ (by rw [hcl, hjl, h2]), call_bind, call_read]
  set th := List.zipWith thetaOf (clipped as) js
  have t2 : (m1 ++ [th])[m1.length]? = some th := by simp
  rw [getD_of_get t2]
  dsimp only
  rw [call_bind, call_read, getD_of_get (get_append hk _)]
  dsimp only
  rw [call_bind, call_read, getD_of_get (get_append hg _)]
  dsimp only
  rw [if_neg (not_not.mpr h1), zip_entries _ _ _ _ _ (by rw [hcl, hjl, h2]) (clipped_ne as), ← hPQs,
    call_bind, call_new]
  dsimp only
  rw [call_bind, call_new]
  dsimp only
  rw [call_bind, call_read, List.append_assoc, List.append_assoc, getD_of_get (get_append ham _)]
  dsimp only
  rw [call_bind, call_read, getD_of_get (get_append hk _)]
  dsimp only
  rw [maskGet_none _ _ hones, List.map_nil]
  simp only [List.cons_append, List.nil_append, List.length_append, List.length_cons,
    List.length_nil, Nat.reduceAdd]
  have tP : (m1 ++ [th, PQs.map Prod.fst, PQs.map Prod.snd])[m1.length + 1]?
    = some (PQs.map Prod.fst) := by simp
  have tQ : (m1 ++ [th, PQs.map Prod.fst, PQs.map Prod.snd])[m1.length + 2]?
    = some (PQs.map Prod.snd) := by simp
  have sP : (m1 ++ [th, PQs.map Prod.fst, PQs.map Prod.snd]).set (m1.length + 1) (PQs.map Prod.fst)
    = m1 ++ [th, PQs.map Prod.fst, PQs.map Prod.snd] := by simp
  have sQ : (m1 ++ [th, PQs.map Prod.fst, PQs.map Prod.snd]).set (m1.length + 2) (PQs.map Prod.snd)
    = m1 ++ [th, PQs.map Prod.fst, PQs.map Prod.snd] := by simp
  rw [call_bind, call_put (by rw [getD_of_get tP]; simp [hPl, hcl])
    (by rw [getD_of_get tP]; exact maskPut_none _ _ hones (by simp [hPl, hcl]))]
  dsimp only
  rw [sP, call_bind, call_read, getD_of_get (get_append hg _)]
  dsimp only
  rw [maskGet_none _ _ hones, List.map_nil, call_bind,
    call_put (by rw [getD_of_get tQ]; simp [hPl, hcl])
      (by rw [getD_of_get tQ]; exact maskPut_none _ _ hones (by simp [hPl, hcl]))]
  dsimp only
  rw [sQ]
  rfl

theorem call_PQ_error (junk : ℕ → Fl) (Km Gm : Fl) {Ki Gi alpha : Ref} {m : Mem Fl}
    {as ki gi : List Fl} (ha : m[alpha]? = some as) (hk : (m.set alpha (clipped as))[Ki]? = some ki)
    (hg : (m.set alpha (clipped as))[Gi]? = some gi)
    (h : gi.length ≠ ki.length ∨ as.length ≠ ki.length) :
    ∃ n, call (EM.PQ_vectorize_mem junk Km Gm Ki Gi alpha) m
        = (.error (if as.length = ki.length then
            if gi.length = 1 ∨ ki.length = 1 then .IndexError else .ValueError else .IndexError),
          m.set alpha (clipped as) ++ n) := by
  obtain ⟨ki0, hk0, hkl⟩ := set_get_length ha hk
  have hlt := lt_of_get ha
  set m1 := m.set alpha (clipped as) with hm1
  have hm1l : m1.length = m.length := by simp [hm1]
  have ham : m1[alpha]? = some (clipped as) := by rw [hm1, List.getElem?_set_self hlt]
  set js := (List.range ki.length).map junk with hjs
  have hjl : js.length = ki.length := by simp [hjs]
  have hcl := clipped_length as
  unfold EM.PQ_vectorize_mem
  rw [call_bind, call_read, getD_of_get hk0]
  dsimp only
  rw [hkl, ← hjs, call_bind, call_new]
  dsimp only
  rw [call_bind, call_read, getD_of_get (get_append ha _)]
  dsimp only
  rw [call_bind, call_fill (by rw [getD_of_get (get_append ha _)]; simp), getD_of_get (get_append ha _),
    fill_one, set_append_lt hlt, ← hm1]
  dsimp only
  rw [call_bind, call_read, getD_of_get (get_append ham _)]
  dsimp only
  have t0 : (m1 ++ [js])[m.length]? = some js := by rw [← hm1l]; simp
  by_cases h2 : as.length = ki.length
  · have h1 := h.resolve_right (not_not.mpr h2)
    rw [call_bind, call_put (by rw [getD_of_get t0]; simp [hcl, hjl, h2])
      (by rw [getD_of_get t0]; exact maskPut_map _ _ _ _ (by rw [hcl, hjl, h2]))]
    dsimp only
    rw [← hm1l, set_append_last, call_bind]
    set js1 := List.zipWith (fun y z => if PyNum.lt z 1 then
          z / (1.0 - z ** 2) **. (3.0 / 2.0) * (arccos z - z * sqrt (1.0 - z ** 2)) else y) js
          (clipped as) with hjs1
    have t1 : (m1 ++ [js1])[m1.length]? = some js1 := by simp
    have hj1 : js1.length = as.length := by simp [hjs1, hjl, h2, hcl]
    rw [call_put (by rw [getD_of_get t1]; simp [hcl, hj1])
      (by rw [getD_of_get t1]; exact maskPut_map _ _ _ _ (by rw [hcl, hj1]))]
    dsimp only
    rw [set_append_last, call_bind, call_read]
    dsimp only
    rw [call_bind, call_read, getD_of_get (get_append hk _)]
    dsimp only
    rw [call_bind, call_read, getD_of_get (get_append hg _)]
    dsimp only
    rw [if_pos h1, if_pos h2]
    exact ⟨_, rfl⟩
  · rw [call_bind, call_put_index (by rw [getD_of_get t0]; simp [hcl, hjl, h2]), if_neg h2]
    exact ⟨_, rfl⟩

theorem set_untouched {m : Mem Fl} {alpha : Ref} (c : List Fl) (n : Mem Fl) :
    UntouchedBut alpha m (m.set alpha c ++ n) := by
  intro r l hr hl
  exact get_append (by rw [List.getElem?_set_ne (Ne.symm hr)]; exact hl) n

/-- Contents of an array after `alpha` has been overwritten. -/
theorem get_set {m : Mem Fl} {alpha r : Ref} {as l : List Fl} (ha : m[alpha]? = some as)
    (h : m[r]? = some l) :
    (m.set alpha (clipped as))[r]? = some (if r = alpha then clipped as else l) := by
  by_cases hr : r = alpha
  · subst hr
    rw [List.getElem?_set_self (lt_of_get ha), if_pos rfl]
  · rw [List.getElem?_set_ne (Ne.symm hr), if_neg hr, h]

theorem PQ_vectorize_clipped (Km Gm : Fl) (ki gi as : List Fl) :
    EM.PQ_vectorize Km Gm ki gi (clipped as) = EM.PQ_vectorize Km Gm ki gi as := by
  unfold EM.PQ_vectorize
  simp only [clipped_eq, clipped_idem, clipped_length]

/-- `PQ_vectorize` writes 0.999 over every one in the caller's array of aspect ratios, changes no
other array, and returns two new arrays with the factors of the entries as they are after this
write.  All of this holds whichever of the three arrays are the same, and whatever the memory taken
for the uninitialised array `theta` contains. -/
theorem C103_PQ_vectorize (junk : ℕ → Fl) (Km Gm : Fl) (Ki Gi alpha : Ref) (m : Mem Fl)
    (ki gi as : List Fl) (hk : m[Ki]? = some ki) (hg : m[Gi]? = some gi)
    (ha : m[alpha]? = some as) (h1 : gi.length = ki.length) (h2 : as.length = ki.length) :
    ∃ P Q p q m', call (EM.PQ_vectorize_mem junk Km Gm Ki Gi alpha) m = (.ok (P, Q), m') ∧
      m'[alpha]? = some (clipped as) ∧ UntouchedBut alpha m m' ∧
      IsNew m m' P p ∧ IsNew m m' Q q ∧ P ≠ Q ∧
      EM.PQ_vectorize Km Gm (if Ki = alpha then clipped as else ki)
        (if Gi = alpha then clipped as else gi) as = .ok (p, q, clipped as) := by
  have hk' := get_set ha hk
  have hg' := get_set ha hg
  have hl : ∀ r : Ref, ∀ l : List Fl, m[r]? = some l →
      (if r = alpha then clipped as else l).length = l.length := by
    intro r l h
    by_cases hr : r = alpha
    · subst hr
      rw [ha] at h
      injection h with h
      rw [if_pos rfl, clipped_length, h]
    · rw [if_neg hr]
  obtain ⟨j, p, q, hpq, -, -, hc⟩ := call_PQ junk Km Gm ha hk' hg'
    (by rw [hl _ _ hk, hl _ _ hg, h1]) (by rw [hl _ _ hk, h2])
  have hml : (m.set alpha (clipped as)).length = m.length := by simp
  refine ⟨m.length + 1, m.length + 2, p, q, _, hc, ?_, set_untouched _ _, ⟨?_, ?_⟩, ⟨?_, ?_⟩, fun h => by have : m.length + 1 = m.length + 2 := h; omega,
    by rw [← PQ_vectorize_clipped]; exact hpq⟩
  · exact get_append (by rw [List.getElem?_set_self (lt_of_get ha)]) _
  · simp
  · rw [← hml]; simp
  · simp
  · rw [← hml]; simp

example : ∃ m : Mem Fl, ∃ Ki Gi alpha : Ref, Ki = alpha ∧ m[Ki]? = some [fin 1, fin 2] ∧
    m[Gi]? = some [fin 3, fin 4] ∧ m[alpha]? = some [fin 1, fin 2] :=
  ⟨[[fin 1, fin 2], [fin 3, fin 4]], 0, 1, 0, rfl, rfl, rfl, rfl⟩

/-- When the lengths do not match, the call raises, but not before it has overwritten the caller's
array. -/
theorem C103_PQ_vectorize_fails (junk : ℕ → Fl) (Km Gm : Fl) (Ki Gi alpha : Ref) (m : Mem Fl)
    (ki gi as : List Fl) (hk : m[Ki]? = some ki) (hg : m[Gi]? = some gi)
    (ha : m[alpha]? = some as) (h : gi.length ≠ ki.length ∨ as.length ≠ ki.length) :
    ∃ e m', call (EM.PQ_vectorize_mem junk Km Gm Ki Gi alpha) m = (.error e, m') ∧
      EM.PQ_vectorize Km Gm ki gi as = .error e ∧
      m'[alpha]? = some (clipped as) ∧ UntouchedBut alpha m m' := by
  have hk' := get_set ha hk
  have hg' := get_set ha hg
  have hl : ∀ r : Ref, ∀ l : List Fl, m[r]? = some l →
      (if r = alpha then clipped as else l).length = l.length := by
    intro r l h
    by_cases hr : r = alpha
    · subst hr
      rw [ha] at h
      injection h with h
      rw [if_pos rfl, clipped_length, h]
    · rw [if_neg hr]
  obtain ⟨n, hc⟩ := call_PQ_error junk Km Gm ha hk' hg'
    (by rw [hl _ _ hk, hl _ _ hg]; exact h)
  rw [hl _ _ hk, hl _ _ hg] at hc
  refine ⟨_, _, hc, ?_, get_append (by rw [List.getElem?_set_self (lt_of_get ha)]) _, set_untouched _ _⟩
  unfold EM.PQ_vectorize
  by_cases h2 : as.length = ki.length
  · rw [if_neg (not_not.mpr h2), if_pos h2, if_pos (h.resolve_right (not_not.mpr h2))]
    rfl
  · rw [if_pos h2, if_neg h2]
    rfl

example : ∃ m : Mem Fl, m[0]? = some [fin 1, fin 2] ∧ m[1]? = some [fin 3] :=
  ⟨[[fin 1, fin 2], [fin 3]], rfl, rfl⟩

/-- A second call with the same arrays changes nothing any more and returns new arrays with the same
factors, provided the moduli are not kept in the array of aspect ratios. -/
theorem C103_PQ_vectorize_twice (junk junk' : ℕ → Fl) (Km Gm : Fl) (Ki Gi alpha P Q : Ref)
    (m m' : Mem Fl) (ki gi as : List Fl) (hk : m[Ki]? = some ki) (hg : m[Gi]? = some gi)
    (ha : m[alpha]? = some as) (hka : Ki ≠ alpha) (hga : Gi ≠ alpha)
    (h1 : gi.length = ki.length) (h2 : as.length = ki.length)
    (h : call (EM.PQ_vectorize_mem junk Km Gm Ki Gi alpha) m = (.ok (P, Q), m')) :
    ∃ P' Q' p q m'', call (EM.PQ_vectorize_mem junk' Km Gm Ki Gi alpha) m' = (.ok (P', Q'), m'') ∧
      Untouched m' m'' ∧ IsNew m m' P p ∧ IsNew m m' Q q ∧ IsNew m' m'' P' p ∧ IsNew m' m'' Q' q ∧
      EM.PQ_vectorize Km Gm ki gi as = .ok (p, q, clipped as) := by
  obtain ⟨P1, Q1, p, q, m1, hc, hca, hun, hP, hQ, -, hv⟩ :=
    C103_PQ_vectorize junk Km Gm Ki Gi alpha m ki gi as hk hg ha h1 h2
  rw [h] at hc
  obtain ⟨hPQ, rfl⟩ := Prod.mk.inj hc
  obtain ⟨rfl, rfl⟩ := Prod.mk.inj (Except.ok.inj hPQ)
  obtain ⟨P2, Q2, p2, q2, m2, hc2, hca2, hun2, hP2, hQ2, -, hv2⟩ :=
    C103_PQ_vectorize junk' Km Gm Ki Gi alpha m' ki gi (clipped as) (hun _ _ hka hk) (hun _ _ hga hg)
      hca h1 (by rw [clipped_length, h2])
  rw [if_neg hka, if_neg hga] at hv hv2
  rw [PQ_vectorize_clipped, clipped_idem, hv] at hv2
  obtain ⟨rfl, hh⟩ := Prod.mk.inj (Except.ok.inj hv2)
  obtain ⟨rfl, -⟩ := Prod.mk.inj hh
  refine ⟨P2, Q2, p, q, m2, hc2, ?_, hP, hQ, hP2, hQ2, hv⟩
  intro r l hl
  by_cases hr : r = alpha
  · subst hr
    rw [hca] at hl
    rw [hca2, clipped_idem, hl]
  · exact hun2 r l hr hl

/-! ## Berryman's self consistent scheme -/

theorem residuals_clipped (ki gi xi as : List Fl) :
    residuals ki gi xi (clipped as) = residuals ki gi xi as := by
  funext p
  unfold residuals EM.Berryman_func
  rw [PQ_vectorize_clipped]

theorem call_Berryman (junk : ℕ → Fl) (p : Fl × Fl) {K G X alpha : Ref} {m : Mem Fl}
    {as ki gi xi : List Fl} (ha : m[alpha]? = some as)
    (hk : (m.set alpha (clipped as))[K]? = some ki) (hg : (m.set alpha (clipped as))[G]? = some gi)
    (hx : (m.set alpha (clipped as))[X]? = some xi) (h1 : gi.length = ki.length)
    (h2 : as.length = ki.length) :
    ∃ n, call (EM.Berryman_func_mem junk p K G X alpha) m
      = (residuals ki gi xi as p, m.set alpha (clipped as) ++ n) := by
  obtain ⟨j, P, Q, hv, -, -, hc⟩ := call_PQ junk p.1 p.2 ha hk hg h1 h2
  have hml : (m.set alpha (clipped as)).length = m.length := by simp
  set m1 := m.set alpha (clipped as)
  refine ⟨[j, P, Q], ?_⟩
  unfold EM.Berryman_func_mem
  rw [call_bind, hc]
  dsimp only
  have tP : (m1 ++ [j, P, Q])[m.length + 1]? = some P := by rw [← hml]; simp
  have tQ : (m1 ++ [j, P, Q])[m.length + 2]? = some Q := by rw [← hml]; simp
  rw [call_bind, call_read, getD_of_get (get_append hk _)]
  dsimp only
  rw [call_bind, call_read, getD_of_get (get_append hg _)]
  dsimp only
  rw [call_bind, call_read, getD_of_get (get_append hx _)]
  dsimp only
  rw [← residuals_clipped]
  unfold residuals EM.Berryman_func
  rw [hv]
  rw [call_bind, call_read, getD_of_get tP]
  dsimp only
  rw [call_bind, call_read, getD_of_get tQ, except_ok_bind]
  dsimp only
  rw [call_bind]
  cases bzip (· * ·) xi (ki.map (· - p.1)) with
  | error e => rfl
  | ok a =>
  simp only [except_ok_bind]
  cases bzip (· * ·) a P with
  | error e => rfl
  | ok b =>
  show call _ _ = _
  rw [call_bind]
  simp only [except_ok_bind]
  cases bzip (· * ·) xi (gi.map (· - p.2)) with
  | error e => rfl
  | ok a =>
  simp only [except_ok_bind]
  cases bzip (· * ·) a Q <;> rfl

/-- Whatever the solver does, it sees the residuals of the overwritten aspect ratios, and the only
array that changes is the one holding them. -/
theorem call_solver (junk : ℕ → Fl) {K G X alpha : Ref} {as ki gi xi : List Fl}
    (h1 : gi.length = ki.length) (h2 : as.length = ki.length) (s : EM.Solver Fl) :
    ∀ (m : Mem Fl) (bs : List Fl), m[alpha]? = some bs → clipped bs = clipped as →
      (m.set alpha (clipped as))[K]? = some ki → (m.set alpha (clipped as))[G]? = some gi →
      (m.set alpha (clipped as))[X]? = some xi →
      ∃ m', call (s.run fun p => EM.Berryman_func_mem junk p K G X alpha) m
          = (solve (residuals ki gi xi as) s, m') ∧
        ((∃ x, s = .stop x) ∧ m' = m ∨
          (∃ x f, s = .ask x f) ∧ ∃ n, m' = m.set alpha (clipped as) ++ n) := by
  induction s with
  | stop x => intro m bs _ _ _ _ _; exact ⟨m, rfl, .inl ⟨⟨x, rfl⟩, rfl⟩⟩
  | ask x next ih =>
    intro m bs hb hbc hk hg hx
    have hbl : bs.length = as.length := by rw [← clipped_length bs, hbc, clipped_length]
    rw [← hbc] at hk hg hx
    obtain ⟨n, hc⟩ := call_Berryman junk x hb hk hg hx h1 (by rw [hbl, h2])
    have hr : residuals ki gi xi bs = residuals ki gi xi as := by
      rw [← residuals_clipped, hbc, residuals_clipped]
    rw [hr, hbc] at hc
    rw [hbc] at hk hg hx
    have ham : (m.set alpha (clipped as))[alpha]? = some (clipped as) := by
      rw [List.getElem?_set_self (lt_of_get hb)]
    have hself : ∀ n, (m.set alpha (clipped as) ++ n).set alpha (clipped as)
        = m.set alpha (clipped as) ++ n := by
      intro n
      rw [set_append_lt (by simpa using lt_of_get hb), List.set_set]
    unfold EM.Solver.run solve
    rw [call_bind, hc]
    cases hres : residuals ki gi xi as x with
    | error e => exact ⟨_, rfl, .inr ⟨⟨_, _, rfl⟩, n, rfl⟩⟩
    | ok r =>
      dsimp only
      obtain ⟨m', hm', hh⟩ := ih r (m.set alpha (clipped as) ++ n) (clipped as)
        (get_append ham n) (clipped_idem as)
        (by rw [hself]; exact get_append hk n) (by rw [hself]; exact get_append hg n)
        (by rw [hself]; exact get_append hx n)
      refine ⟨m', hm', .inr ⟨⟨_, _, rfl⟩, ?_⟩⟩
      rcases hh with ⟨-, rfl⟩ | ⟨-, n', rfl⟩
      · exact ⟨n, rfl⟩
      · exact ⟨n ++ n', by rw [hself, List.append_assoc]⟩

/-- Making an array of an argument. -/
theorem call_asanyarray {m : Mem Fl} {A : Arg Fl} {l : List Fl} (h : Gives m A l) :
    ∃ r n, call (asanyarray A) m = (.ok r, m ++ n) ∧ (m ++ n)[r]? = some l ∧
      (A = .array r ∨ r = m.length ∧ ∃ l, A = .list l) := by
  cases A with
  | list l' =>
    cases h
    exact ⟨m.length, [l], rfl, by simp, .inr ⟨rfl, l, rfl⟩⟩
  | array r => exact ⟨r, [], by rw [List.append_nil]; rfl, by rw [List.append_nil]; exact h, .inl rfl⟩

theorem gives_append {m : Mem Fl} {A : Arg Fl} {l : List Fl} (h : Gives m A l) (n : Mem Fl) :
    Gives (m ++ n) A l := by
  cases A with
  | list l' => exact h
  | array r => exact get_append h n

/-- The self consistent moduli are what the solver makes of the residuals of the given entries,
however the entries are given.  When the aspect ratios are given as a list, no array of the caller
changes.  When they are given as an array, this array is the only one that may change, and it is
overwritten with 0.999 in place of one as soon as the solver evaluates the residuals once. -/
theorem C103_Berryman_sc (junk : ℕ → Fl) (fsolve : Fl × Fl → EM.Solver Fl) (K G X Alpha : Arg Fl)
    (m : Mem Fl) (ki gi xi as : List Fl) (hk : Gives m K ki) (hg : Gives m G gi) (hx : Gives m X xi)
    (ha : Gives m Alpha as) (hka : Apart K Alpha) (hga : Apart G Alpha) (hxa : Apart X Alpha)
    (h1 : gi.length = ki.length) (h2 : as.length = ki.length) :
    ∃ m', call (EM.Berryman_sc_mem junk fsolve K G X Alpha) m
        = (solve (residuals ki gi xi as) (fsolve (EM.mean ki, EM.mean gi)), m') ∧
      ((∃ l, Alpha = .list l) → Untouched m m') ∧
      (∀ a, Alpha = .array a → UntouchedBut a m m' ∧
        ((∃ x f, fsolve (EM.mean ki, EM.mean gi) = .ask x f) → m'[a]? = some (clipped as)) ∧
        ((∃ x, fsolve (EM.mean ki, EM.mean gi) = .stop x) → m'[a]? = some as)) := by
  obtain ⟨rk, n1, c1, g1, e1⟩ := call_asanyarray hk
  obtain ⟨rg, n2, c2, g2, e2⟩ := call_asanyarray (gives_append hg n1)
  obtain ⟨rx, n3, c3, g3, e3⟩ := call_asanyarray (gives_append (gives_append hx n1) n2)
  obtain ⟨ra, n4, c4, g4, e4⟩ := call_asanyarray (gives_append (gives_append (gives_append ha n1) n2) n3)
  have g1' := get_append (get_append (get_append g1 n2) n3) n4
  have g2' := get_append (get_append g2 n3) n4
  have g3' := get_append g3 n4
  -- the array of aspect ratios is none of the others
  have apart : ∀ (A : Arg Fl) (r k : ℕ) (l : List Fl), Gives m A l → Apart A Alpha →
      (A = .array r ∨ r = k ∧ ∃ l, A = .list l) → m.length ≤ k →
      r < (m ++ n1 ++ n2 ++ n3).length → r ≠ ra := by
    intro A r k l hA hap he hk hlt hr
    rcases e4 with h4 | ⟨h4, -⟩
    · rcases he with he | ⟨he, -⟩
      · rw [he, h4] at hap; exact hap hr
      · have hl : ra < m.length := by
          rw [h4] at ha; exact lt_of_get ha
        subst he
        subst hr
        exact absurd hl (not_lt.mpr hk)
    · exact absurd (hr.trans h4) (Nat.ne_of_lt hlt)
  have hkne := apart K rk m.length ki hk hka e1 le_rfl (by
    have := lt_of_get (get_append (get_append g1 n2) n3); exact this)
  have hgne := apart G rg _ gi hg hga e2 (by simp) (by
    have := lt_of_get (get_append g2 n3); exact this)
  have hxne := apart X rx _ xi hx hxa e3 (by simp only [List.length_append]; omega) (lt_of_get g3)
  set M := m ++ n1 ++ n2 ++ n3 ++ n4 with hM
  have hMm : M = m ++ (n1 ++ n2 ++ n3 ++ n4) := by simp [hM]
  obtain ⟨m', hc, hh⟩ := call_solver junk (K := rk) (G := rg) (X := rx) (alpha := ra) (xi := xi)
    h1 h2 (fsolve (EM.mean ki, EM.mean gi)) M as g4 rfl
    (by rw [List.getElem?_set_ne (Ne.symm hkne)]; exact g1')
    (by rw [List.getElem?_set_ne (Ne.symm hgne)]; exact g2')
    (by rw [List.getElem?_set_ne (Ne.symm hxne)]; exact g3')
  refine ⟨m', ?_, ?_, ?_⟩
  · unfold EM.Berryman_sc_mem
    rw [call_bind, c1]
    dsimp only
    rw [call_bind, c2]
    dsimp only
    rw [call_bind, c3]
    dsimp only
    rw [call_bind, c4]
    dsimp only
    rw [call_bind, call_read, getD_of_get g1']
    dsimp only
    rw [call_bind, call_read, getD_of_get g2']
    dsimp only
    exact hc
  · rintro ⟨l, hl⟩
    have hra : ra = (m ++ n1 ++ n2 ++ n3).length := by
      rcases e4 with h4 | ⟨h4, -⟩
      · rw [hl] at h4; exact absurd h4 (by simp)
      · exact h4
    intro r l' hr
    have hrM : M[r]? = some l' := by rw [hMm]; exact get_append hr _
    have hlt := lt_of_get hr
    rcases hh with ⟨-, rfl⟩ | ⟨-, n, rfl⟩
    · exact hrM
    · refine get_append ?_ n
      have hne : ra ≠ r := (Nat.lt_of_lt_of_le hlt (by
        rw [hra]
        simp only [List.append_assoc, List.length_append]
        exact Nat.le_add_right _ _)).ne'
      rw [List.getElem?_set_ne hne, hrM]
  · intro a hA
    have hra : ra = a := by
      rcases e4 with h4 | ⟨-, l, h4⟩
      · rw [hA] at h4; exact (Arg.array.inj h4).symm
      · rw [hA] at h4; exact absurd h4 (by simp)
    subst hra
    refine ⟨?_, ?_, ?_⟩
    · intro r l' hne hr
      have hrM : M[r]? = some l' := by rw [hMm]; exact get_append hr _
      rcases hh with ⟨-, rfl⟩ | ⟨-, n, rfl⟩
      · exact hrM
      · exact get_append (by rw [List.getElem?_set_ne (Ne.symm hne)]; exact hrM) n
    · rintro ⟨x, f, hf⟩
      rcases hh with ⟨⟨y, hy⟩, -⟩ | ⟨-, n, rfl⟩
      · rw [hf] at hy; exact absurd hy (by simp)
      · exact get_append (by rw [List.getElem?_set_self (lt_of_get g4)]) n
    · rintro ⟨x, hf⟩
      rcases hh with ⟨-, rfl⟩ | ⟨⟨y, f, hy⟩, -⟩
      · exact g4
      · rw [hf] at hy; exact absurd hy (by simp)

example : Gives ([[fin 1, fin 0.5]] : Mem Fl) (.array 0) [fin 1, fin 0.5] ∧
    Gives ([[fin 1, fin 0.5]] : Mem Fl) (.list [fin 36, fin 0]) [fin 36, fin 0] ∧
    Apart (.list [fin 36, fin 0]) (.array 0 : Arg Fl) := ⟨rfl, rfl, trivial⟩

/-! ## Functions that return an argument -/

/-- `Gassmann` returns the caller's array of dry shear moduli as the saturated ones, not a copy; the
bulk moduli are a new array.  Nothing is overwritten. -/
theorem C103_Gassmann (K_dry G_dry phi : Ref) (K_mat Kf : Fl) (m : Mem Fl) (kd gd ph : List Fl)
    (hk : m[K_dry]? = some kd) (hg : m[G_dry]? = some gd) (hp : m[phi]? = some ph) :
    ∃ K_sat m', call (Fluid.Gassmann_mem K_dry G_dry K_mat Kf phi) m = (.ok (K_sat, G_dry), m') ∧
      Untouched m m' ∧ IsNew m m' K_sat
        (List.zipWith (fun (d : Fl × Fl) p => (Fluid.Gassmann d.1 d.2 K_mat Kf p).1)
          (List.zip kd gd) ph) := by
  refine ⟨m.length, m ++ [_], ?_, Untouched.append m _, by simp, List.getElem?_concat_length⟩
  unfold Fluid.Gassmann_mem
  rw [call_bind, call_read, getD_of_get hk]
  dsimp only
  rw [call_bind, call_read, getD_of_get hg]
  dsimp only
  rw [call_bind, call_read, getD_of_get hp]
  dsimp only
  rfl

/-- So writing into the saturated shear moduli changes the dry ones. -/
theorem C103_Gassmann_write (K_dry G_dry phi K_sat G_sat : Ref) (K_mat Kf : Fl) (m m' : Mem Fl)
    (kd gd ph new : List Fl) (hk : m[K_dry]? = some kd) (hg : m[G_dry]? = some gd)
    (hp : m[phi]? = some ph)
    (h : call (Fluid.Gassmann_mem K_dry G_dry K_mat Kf phi) m = (.ok (K_sat, G_sat), m')) :
    (call (write G_sat new) m').2[G_dry]? = some new ∧ (call (write K_sat new) m').2[K_dry]? = some kd := by
  obtain ⟨K, m1, hc, hu, hn⟩ := C103_Gassmann K_dry G_dry phi K_mat Kf m kd gd ph hk hg hp
  rw [hc] at h
  obtain ⟨h1, rfl⟩ := Prod.mk.inj h
  obtain ⟨rfl, rfl⟩ := Prod.mk.inj (Except.ok.inj h1)
  constructor
  · rw [call_write, List.getElem?_set_self (lt_of_get (hu _ _ hg))]
  · have : K ≠ K_dry := by rintro rfl; rw [hn.1] at hk; exact absurd hk (by simp)
    rw [call_write, List.getElem?_set_ne this]
    exact hu _ _ hk

/-- Without an iteration the self consistent scheme returns the caller's arrays themselves; with at
least one it returns new arrays, whose entries are those of the scheme.  Nothing is overwritten. -/
theorem C103_SC (phi : Fl) (Ks Gs : Ref) (m : Mem Fl) (ks gs : List Fl) (hk : m[Ks]? = some ks)
    (hg : m[Gs]? = some gs) (hl : gs.length = ks.length) (n : ℕ) :
    ∃ K G m', call (EM.SC_mem phi Ks Gs n) m = (.ok (K, G), m') ∧ Untouched m m' ∧
      (n = 0 → K = Ks ∧ G = Gs ∧ m' = m) ∧
      (n ≠ 0 → IsNew m m' K (List.zipWith (fun k g => (EM.SC phi k g n).1) ks gs) ∧
        IsNew m m' G (List.zipWith (fun k g => (EM.SC phi k g n).2) ks gs) ∧ K ≠ G) := by
  have key : ∀ n, ∃ K G m', call (EM.SC_mem phi Ks Gs n) m = (.ok (K, G), m') ∧
      (∃ x, m' = m ++ x) ∧
      m'[K]? = some (List.zipWith (fun k g => (EM.SC phi k g n).1) ks gs) ∧
      m'[G]? = some (List.zipWith (fun k g => (EM.SC phi k g n).2) ks gs) ∧
      (n = 0 → K = Ks ∧ G = Gs ∧ m' = m) ∧ (n ≠ 0 → m[K]? = none ∧ m[G]? = none ∧ K ≠ G) := by
    intro n
    induction n with
    | zero =>
      refine ⟨Ks, Gs, m, rfl, ⟨[], by simp⟩, ?_, ?_, fun _ => ⟨rfl, rfl, rfl⟩, fun h => absurd rfl h⟩
      · rw [hk]; congr 1
        show ks = List.zipWith (fun k _ => k) ks gs
        apply List.ext_getElem <;> simp [hl]
      · rw [hg]; congr 1
        show gs = List.zipWith (fun _ g => g) ks gs
        apply List.ext_getElem <;> simp [hl]
    | succ n ih =>
      obtain ⟨K, G, m', hc, ⟨x, rfl⟩, hK, hG, -, -⟩ := ih
      have hs : List.zipWith (fun (a : Fl × Fl) (e : Fl × Fl) => EM.SC_step phi a.1 a.2 e)
          (List.zip ks gs) (List.zip (List.zipWith (fun k g => (EM.SC phi k g n).1) ks gs)
            (List.zipWith (fun k g => (EM.SC phi k g n).2) ks gs))
          = List.zipWith (fun k g => EM.SC phi k g (n + 1)) ks gs := by
        apply List.ext_getElem
        · simp
        · intro i _ _; simp [EM.SC]
      set s := List.zipWith (fun k g => EM.SC phi k g (n + 1)) ks gs with hsdef
      refine ⟨(m ++ x).length, (m ++ x).length + 1, m ++ x ++ [s.map Prod.fst, s.map Prod.snd], ?_,
        ⟨x ++ [s.map Prod.fst, s.map Prod.snd], List.append_assoc _ _ _⟩, ?_, ?_,
        fun h => absurd h (by simp), fun _ => ⟨by simp, by simp; omega, ?_⟩⟩
      · rw [EM.SC_mem, call_bind, hc]
        dsimp only
        rw [call_bind, call_read, getD_of_get (get_append hk _)]
        dsimp only
        rw [call_bind, call_read, getD_of_get (get_append hg _)]
        dsimp only
        rw [call_bind, call_read, getD_of_get hK]
        dsimp only
        rw [call_bind, call_read, getD_of_get hG]
        dsimp only
        rw [hs, call_bind, call_new]
        dsimp only
        rw [call_bind, call_new]
        dsimp only
        rw [call_pure, List.length_append (as := m ++ x), List.append_assoc (m ++ x)]
        rfl
      · rw [hsdef, List.map_zipWith, List.map_zipWith, List.getElem?_append_right le_rfl]; simp
      · rw [hsdef, List.map_zipWith, List.map_zipWith, List.getElem?_append_right (Nat.le_succ _)]
        simp
      · exact (Nat.succ_ne_self _).symm
  obtain ⟨K, G, m', hc, ⟨x, rfl⟩, hK, hG, h0, h1⟩ := key n
  exact ⟨K, G, _, hc, Untouched.append m x, h0, fun h =>
    ⟨⟨(h1 h).1, hK⟩, ⟨(h1 h).2.1, hG⟩, (h1 h).2.2⟩⟩

example : ∃ m : Mem Fl, m[0]? = some [fin 36, fin 37] ∧ m[1]? = some [fin 45, fin 44] ∧
    m[2]? = some [fin 0.2, fin 0.3] :=
  ⟨[[fin 36, fin 37], [fin 45, fin 44], [fin 0.2, fin 0.3]], rfl, rfl, rfl⟩

/-! ## Functions that write into arrays of their own -/

section own

variable {β : Type}

theorem getD_own (m l : Mem β) (i : ℕ) : (m ++ l).getD (m.length + i) [] = l.getD i [] := by
  rw [List.getD_eq_getElem?_getD, List.getD_eq_getElem?_getD,
    List.getElem?_append_right (Nat.le_add_right _ _), Nat.add_sub_cancel_left]

theorem getD_own0 (m l : Mem β) : (m ++ l).getD m.length [] = l.getD 0 [] := by
  simpa using getD_own m l 0

theorem set_own (m l : Mem β) (i : ℕ) (x : List β) :
    (m ++ l).set (m.length + i) x = m ++ l.set i x := by
  simp

theorem set_own0 (m l : Mem β) (x : List β) : (m ++ l).set m.length x = m ++ l.set 0 x := by
  simp

end own

/-- `ramm_porosity_segment` changes no array of the caller and returns a new one. -/
theorem C103_ramm_porosity_segment (Z : Ref) (m : Mem Fl) (z : List Fl) (hz : m[Z]? = some z) :
    ∃ r l m', call (Empirical.ramm_porosity_segment_mem Z) m = (.ok r, m') ∧ Untouched m m' ∧
      IsNew m m' r l ∧ Empirical.ramm_porosity_segment z = .ok l := by
  have same : ∀ (a v : List Fl) (mask : List Bool), mask.length = a.length →
      maskPut a mask v = Empirical.setMask a mask v := by
    intro a
    induction a with
    | nil =>
      intro v mask h
      rw [List.length_eq_zero_iff.mp h]
      cases v <;> rfl
    | cons x a ih =>
      intro v mask h
      cases mask with
      | nil => simp at h
      | cons b mask =>
        have h' : mask.length = a.length := by simpa using h
        cases b
        · simp only [maskPut, Empirical.setMask, ih _ _ h']
        · cases v with
          | nil => rfl
          | cons y v => simp only [maskPut, Empirical.setMask, ih _ _ h']
  have same' : ∀ (a : List Fl) (mask : List Bool), maskGet a mask = Empirical.getMask a mask := by
    intro a
    induction a with
    | nil => intro mask; cases mask <;> rfl
    | cons x a ih =>
      intro mask
      cases mask with
      | nil => rfl
      | cons b mask => cases b <;> simp only [maskGet, Empirical.getMask, ih]
  set p1 : List Fl := z.map fun z => 45 * exp (-0.00025 * z) with hp1
  set p2 : List Fl := z.map fun z => 25 - 0.013 * (z - 2500) with hp2
  set mask := List.zipWith (fun x y => PyNum.lt y x) p1 p2 with hmask
  have hmask' : List.zipWith (fun y x => PyNum.lt y x) p2 p1 = mask := by
    rw [hmask, List.zipWith_comm]
  have hl : mask.length = p1.length := by simp [hmask, hp1, hp2]
  have hput := maskPut_maskGet (id : Fl → Fl) p1 p2 mask hl (by simp [hp1, hp2])
  rw [List.map_id] at hput
  set l := List.zipWith (fun y (bz : Bool × Fl) => if bz.1 then id bz.2 else y) p1 (List.zip mask p2)
  refine ⟨m.length, l, m ++ [l, p2], ?_, Untouched.append m _, ⟨by simp, by simp⟩, ?_⟩
  · unfold Empirical.ramm_porosity_segment_mem
    simp only [call_bind, call_read, call_new, getD_of_get hz, ← hp1, ← hp2, List.append_assoc,
      List.cons_append, List.nil_append, List.length_append, List.length_cons, List.length_nil,
      getD_own0, getD_own, List.getD_cons_zero, List.getD_cons_succ, Nat.zero_add, ← hmask, hmask']
    rw [call_put (by rw [getD_own0]; exact hl) (by rw [getD_own0]; exact hput), set_own0]
    rfl
  · unfold Empirical.ramm_porosity_segment
    simp only [← hp1, ← hp2, ← hmask]
    rw [← same _ _ _ hl, ← same', hput]

/-- `diluting` changes no array of the caller and returns a new one. -/
theorem C103_diluting (isnan : Fl → Bool) (k sigma0 : Fl) (sigma : Ref) (e : Fl) (m : Mem Fl)
    (s : List Fl) (hs : m[sigma]? = some s) :
    ∃ r m', call (GM.diluting_mem isnan k sigma0 sigma e) m = (.ok r, m') ∧ Untouched m m' ∧
      IsNew m m' r (s.map fun x => GM.diluting isnan k sigma0 x e) := by
  refine ⟨m.length, m ++ [s.map fun x => GM.diluting isnan k sigma0 x e], ?_, Untouched.append m _,
    by simp, by simp⟩
  unfold GM.diluting_mem
  simp only [call_bind, call_read, call_new, getD_of_get hs, getD_own0, List.getD_cons_zero]
  rw [call_fill (by simp), getD_own0]
  dsimp only
  rw [set_own0, call_pure]
  simp only [List.getD_cons_zero, List.set_cons_zero, List.map_map]
  congr 3
  apply List.ext_getElem <;> simp [GM.diluting, PyNum.store, fl]

/-- The viscodynamic operator of Biot's theory is computed in new arrays; the entries are those of
the formula for one frequency. -/
theorem C103_Biot_F (jv0 jv1 : Cx Fl → Cx Fl) (zeta : List Fl) (m : Mem (Cx Fl)) :
    ∃ r m', call (Fluid.Biot_F_mem jv0 jv1 zeta) m = (.ok r, m') ∧ Untouched m m' ∧
      IsNew m m' r (zeta.map (Fluid.Biot_F jv0 jv1)) := by
  unfold Fluid.Biot_F_mem
  simp only [call_bind, call_new]
  rw [call_put (by rw [getD_own0]; simp)
    (by rw [getD_own0]; exact maskPut_map _ _ _ _ (by simp)), set_own0]
  simp only [List.getD_cons_zero, List.set_cons_zero]
  rw [call_fill (by rw [getD_own0]; simp), set_own0, getD_own0]
  simp only [List.getD_cons_zero, List.set_cons_zero, call_read, getD_own0, List.append_assoc,
    List.cons_append, List.nil_append, List.length_append, List.length_cons, List.length_nil,
    Nat.zero_add]
  rw [call_fill (by rw [getD_own]; simp), set_own, getD_own]
  refine ⟨m.length + 1, m ++ [_, _], rfl, Untouched.append m _, ⟨by simp, ?_⟩⟩
  simp only [List.getD_cons_zero, List.getD_cons_succ]
  rw [List.getElem?_append_right (Nat.le_add_right _ _), Nat.add_sub_cancel_left]
  simp only [List.getElem?_cons_succ, List.getElem?_cons_zero, Option.some.injEq]
  apply List.ext_getElem
  · simp
  · intro i h1 h2
    simp only [List.getElem_zipWith, List.getElem_map, Fluid.Biot_F]

end RockPhy.Props
