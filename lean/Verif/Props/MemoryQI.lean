import Verif.Props.Memory
import Verif.Props.Plot

/-! # C103, continued: the arrays of the quantitative interpretation functions -/

namespace RockPhy.Props

open Fl Spec Run QI

theorem call_fill' {β : Type} (conv : β → β → β) (r : Ref) (mask : List Bool) (x : β) (m : Mem β) :
    call (fill conv r mask x) m = if mask.length = (m.getD r []).length then
      (.ok (), m.set r (List.zipWith (fun y b => if b then conv y x else y) (m.getD r []) mask))
      else (.error .IndexError, m) := by
  by_cases h : mask.length = (m.getD r []).length
  · rw [if_pos h, call_fill h]
  · rw [if_neg h]
    unfold fill
    rw [call_bind, call_read]
    dsimp only
    rw [if_pos h]
    rfl

theorem store_fl (x y : Fl) : PyNum.store x y = y := rfl

theorem VRH2_ok (a b c d : Fl) : ∃ v, EM.VRH [a, b] [c, d] = .ok v := ⟨_, rfl⟩

theorem VRH3_ok (a b c d e f : Fl) : ∃ v, EM.VRH [a, b, c] [d, e, f] = .ok v := ⟨_, rfl⟩

theorem den_matrix_ok (vsh phi_c p a b c : Fl) : ∃ v, den_matrix vsh phi_c p a b c = .ok v :=
  ⟨_, rfl⟩

theorem matrix_modulus_ok (vsh phi_c p a b c : Fl) :
    ∃ v, matrix_modulus vsh phi_c p a b c = .ok v := by
  unfold matrix_modulus
  by_cases h : PyNum.eq vsh 0 = true
  · simp only [if_pos h]; exact ⟨_, rfl⟩
  · simp only [if_neg h]; exact ⟨_, rfl⟩

/-- `cst_vels` changes no array of the caller and returns two new arrays, whose entries are the
velocities of the single porosities. -/
theorem C103_cst_vels (phi_b K0 D0 G0 : Fl) (phi : Ref) (phi_c Cn Kc Gc Db Kb : Fl) (scheme : ℤ)
    (vsh Dsh Dqz Dc : Fl) (m : Mem Fl) (ph : List Fl) (hp : m[phi]? = some ph) :
    ∃ vp vs v m', call (cst_vels_mem phi_b K0 D0 G0 phi phi_c Cn Kc Gc Db Kb scheme vsh Dsh Dqz Dc) m
        = (.ok (vp, vs), m') ∧ Untouched m m' ∧
      IsNew m m' vp (v.map Prod.fst) ∧ IsNew m m' vs (v.map Prod.snd) ∧ vp ≠ vs ∧
      ph.mapM (fun p => cst_vels phi_b K0 D0 G0 p phi_c Cn Kc Gc Db Kb scheme vsh Dsh Dqz Dc)
        = .ok v := by
  obtain ⟨D, hD⟩ := den_matrix_ok vsh phi_c phi_b Dsh Dqz Dc
  let g : Fl → Fl × Fl := fun p =>
    let dry := GM.constantcement phi_b K0 G0 Kc Gc p phi_c Cn scheme
    let v := Fluid.vels dry.1 dry.2 K0 D Kb Db p
    (if PyNum.lt phi_b p then npnan else v.1, if PyNum.lt phi_b p then npnan else v.2.1)
  refine ⟨m.length, m.length + 1, ph.map g,
    m ++ [(ph.map g).map Prod.fst, (ph.map g).map Prod.snd], ?_, Untouched.append m _,
    ⟨by simp, by simp⟩, ⟨by simp, by simp⟩, (Nat.succ_ne_self _).symm, ?_⟩
  · unfold cst_vels_mem
    simp only [call_bind, call_read, getD_of_get hp, getD_of_get (get_append hp _), hD, call_lift_ok,
      call_new, call_fill', List.append_assoc, List.cons_append, List.nil_append, List.length_append,
      List.length_cons, List.length_nil, Nat.reduceAdd, getD_own, getD_own0, List.getD_cons_zero,
      List.getD_cons_succ, List.length_map, List.length_zipWith, min_self, if_true, set_own, set_own0,
      List.set_cons_zero, List.set_cons_succ, call_pure]
    congr 2
    congr 1
    · apply List.ext_getElem
      · simp
      · intro i h1 h2
        simp [g, store_fl]
    · congr 1
      apply List.ext_getElem
      · simp
      · intro i h1 h2
        simp [g, store_fl]
  · refine mapM_ok fun p _ => ?_
    unfold cst_vels
    rw [hD]
    rfl

/-- `screening` changes no array of the caller and returns seven different new arrays, whose entries
are the rows of the curves. -/
theorem C103_screening (Dqz Kqz Gqz Dsh Ksh Gsh Dc Kc Gc Db Kb phib_p phi_c sigma vsh : Fl)
    (scheme : ℤ) (f Cn : Fl) (m : Mem Fl) :
    ∃ phi vp1 vp2 vp3 vs1 vs2 vs3 rows m',
      call (screening_mem Dqz Kqz Gqz Dsh Ksh Gsh Dc Kc Gc Db Kb phib_p phi_c sigma vsh scheme f Cn) m
        = (.ok (phi, vp1, vp2, vp3, vs1, vs2, vs3), m') ∧ Untouched m m' ∧
      screening Dqz Kqz Gqz Dsh Ksh Gsh Dc Kc Gc Db Kb phib_p phi_c sigma vsh scheme f Cn = .ok rows ∧
      IsNew m m' phi (rows.map fun r => r.1) ∧ IsNew m m' vp1 (rows.map fun r => r.2.1) ∧
      IsNew m m' vp2 (rows.map fun r => r.2.2.1) ∧ IsNew m m' vp3 (rows.map fun r => r.2.2.2.1) ∧
      IsNew m m' vs1 (rows.map fun r => r.2.2.2.2.1) ∧ IsNew m m' vs2 (rows.map fun r => r.2.2.2.2.2.1) ∧
      IsNew m m' vs3 (rows.map fun r => r.2.2.2.2.2.2) ∧
      [phi, vp1, vp2, vp3, vs1, vs2, vs3].Nodup := by
  obtain ⟨k, hk⟩ := VRH2_ok vsh (1 - vsh) Ksh Kqz
  obtain ⟨g, hg⟩ := VRH2_ok vsh (1 - vsh) Gsh Gqz
  choose km hkm using fun p => matrix_modulus_ok vsh phi_c p Ksh Kqz Kc
  choose dm hdm using fun p => den_matrix_ok vsh phi_c p Dsh Dqz Dc
  have hkm' : ∀ l : List Fl, l.mapM (fun p => (.ok (km p) : Except PyErr Fl)) = .ok (l.map km) :=
    fun l => mapM_ok fun p _ => rfl
  have hdm' : ∀ l : List Fl, l.mapM (fun p => (.ok (dm p) : Except PyErr Fl)) = .ok (l.map dm) :=
    fun l => mapM_ok fun p _ => rfl
  unfold screening_mem screening screening_entry Fluid.Gassmann_mem
  generalize linspace (1e-7 : Fl) phi_c 100 = ph
  simp only [hk, hg, hkm, hdm, hkm', hdm', call_bind, call_read, call_lift_ok,
      call_new, call_fill', List.append_assoc, List.cons_append, List.nil_append, List.length_append,
      List.length_cons, List.length_nil, Nat.reduceAdd, getD_own, getD_own0, List.getD_cons_zero,
      List.getD_cons_succ, List.length_map, List.length_zipWith, min_self, if_true, set_own,
      List.set_cons_zero, List.set_cons_succ, call_pure, List.length_zip, except_ok_bind]
  refine ⟨_, _, _, _, _, _, _, _, _, rfl, Untouched.append m _, mapM_ok fun p _ => rfl, ?_⟩
  refine ⟨⟨by simp, ?_⟩, ⟨by simp, ?_⟩, ⟨by simp, ?_⟩, ⟨by simp, ?_⟩, ⟨by simp, ?_⟩, ⟨by simp, ?_⟩,
    ⟨by simp, ?_⟩, ?_⟩
  · rw [List.getElem?_append_right (le_refl _), Nat.sub_self]
    exact congrArg some (List.ext_getElem (by simp) fun i h1 h2 => by simp)
  iterate 6
    rw [List.getElem?_append_right (Nat.le_add_right _ _), Nat.add_sub_cancel_left]
    exact congrArg some (List.ext_getElem (by simp) fun i h1 h2 => by
      simp [store_fl, Fluid.Gassmann])
  simp

/-- The loop over the samples of the velocity log, with the cells `done` already assigned. -/
theorem call_estimate_loop (seeds : List Fl) (a : Bool) (rows : List (List Fl)) (m : Mem Fl)
    (vals done : List Fl) (k : ℕ) (hk : rows.length = done.length + k) :
    (∀ e, (List.zip vals (rows.drop done.length)).mapM (fun x => cem_of_row seeds a x.2 x.1)
        = .error e → ∃ l, call (estimate_loop seeds a rows m.length done.length vals)
          (m ++ [done ++ List.replicate k npnan]) = (.error e, m ++ [l])) ∧
    (∀ xs, (List.zip vals (rows.drop done.length)).mapM (fun x => cem_of_row seeds a x.2 x.1)
        = .ok xs →
      (vals.length ≤ k → call (estimate_loop seeds a rows m.length done.length vals)
          (m ++ [done ++ List.replicate k npnan])
            = (.ok (), m ++ [done ++ xs ++ List.replicate (k - vals.length) npnan])) ∧
      (k < vals.length → ∃ l, call (estimate_loop seeds a rows m.length done.length vals)
          (m ++ [done ++ List.replicate k npnan]) = (.error .IndexError, m ++ [l]))) := by
  induction vals generalizing done k with
  | nil =>
    refine ⟨fun e he => by simp [pure, Except.pure] at he, fun xs hx => ⟨fun _ => ?_, fun h => by simp at h⟩⟩
    have : xs = [] := by simpa [pure, Except.pure, eq_comm] using hx
    subst this
    simp [estimate_loop, call_pure]
  | cons v vals ih =>
    cases k with
    | zero =>
      have h0 : rows[done.length]? = none := by simp [hk]
      have hd : rows.drop done.length = [] := by simp [hk]
      refine ⟨fun e he => by simp [hd, pure, Except.pure] at he,
        fun xs hx => ⟨fun h => by simp at h, fun _ => ⟨done, ?_⟩⟩⟩
      simp [estimate_loop, h0, call_throw]
    | succ k =>
      have hlt : done.length < rows.length := by omega
      have hr : rows[done.length]? = some rows[done.length] := List.getElem?_eq_getElem hlt
      have hd : rows.drop done.length = rows[done.length] :: rows.drop (done.length + 1) :=
        List.drop_eq_getElem_cons hlt
      rw [hd, List.zip_cons_cons, List.mapM_cons]
      cases hc : cem_of_row seeds a rows[done.length] v with
      | error e =>
        refine ⟨fun e' he => ⟨done ++ List.replicate (k + 1) npnan, ?_⟩, fun xs hx => by
          simp [bind, Except.bind] at hx⟩
        have : e = e' := by simpa [bind, Except.bind] using he
        subst this
        simp only [estimate_loop, hr, call_bind, hc, call_lift_error]
      | ok x =>
        have step : call (estimate_loop seeds a rows m.length done.length (v :: vals))
            (m ++ [done ++ List.replicate (k + 1) npnan])
            = call (estimate_loop seeds a rows m.length (done ++ [x]).length vals)
              (m ++ [(done ++ [x]) ++ List.replicate k npnan]) := by
          simp only [estimate_loop, hr, call_bind, hc, call_lift_ok, call_read, call_write, getD_own0,
            List.getD_cons_zero, set_own0, List.set_cons_zero]
          simp [List.replicate_succ]
        obtain ⟨ih1, ih2⟩ := ih (done ++ [x]) k (by simp; omega)
        rw [step]
        have hl : (done ++ [x]).length = done.length + 1 := by simp
        cases hm : (List.zip vals (rows.drop (done.length + 1))).mapM
            (fun x => cem_of_row seeds a x.2 x.1) with
        | error e =>
          refine ⟨fun e' he => ?_, fun xs hx => by simp [bind, Except.bind] at hx⟩
          have : e = e' := by simpa [bind, Except.bind] using he
          subst this
          exact ih1 e (hl ▸ hm)
        | ok ys =>
          refine ⟨fun e' he => by simp [bind, Except.bind, pure, Except.pure] at he, fun xs hx => ?_⟩
          have : x :: ys = xs := by simpa [bind, Except.bind, pure, Except.pure] using hx
          subst this
          obtain ⟨g1, g2⟩ := ih2 ys (hl ▸ hm)
          refine ⟨fun h => ?_, fun h => g2 (by simpa using h)⟩
          rw [g1 (by simpa using h)]
          simp

/-- `estimate_cem` changes neither the logs nor the seeds and returns a new array with an entry for
every porosity.  Without velocity at the end of the logs the entries stay undefined; a velocity
without porosity, and any velocity when there are no seeds, raises `IndexError`, unless an earlier
sample raises already. -/
theorem C103_estimate_cem (self : Logs) (vcem_seeds : Arg Fl)
    (Kqz Gqz Ksh Gsh phi_c Cn Kc Gc Db Kb : Fl) (scheme : ℤ) (vsh Dsh Dqz Dc : Fl) (m : Mem Fl)
    (v p s : List Fl) (hv : m[self.Vp]? = some v) (hp : m[self.phi]? = some p)
    (hs : Gives m vcem_seeds s) :
    let out := call (estimate_cem_mem self vcem_seeds Kqz Gqz Ksh Gsh phi_c Cn Kc Gc Db Kb scheme vsh
      Dsh Dqz Dc) m
    let pure := estimate_cem v p s (vcem_seeds matches .array _) Kqz Gqz Ksh Gsh phi_c Cn Kc Gc Db Kb
      scheme vsh Dsh Dqz Dc
    Untouched m out.2 ∧
    (s ≠ [] → ∀ e, pure = .error e → out.1 = .error e) ∧
    (s ≠ [] → ∀ xs, pure = .ok xs →
      (v.length ≤ p.length → ∃ r, out.1 = .ok r ∧
        IsNew m out.2 r (xs ++ List.replicate (p.length - v.length) npnan)) ∧
      (p.length < v.length → out.1 = .error .IndexError)) ∧
    (s = [] → (v = [] → ∃ r, out.1 = .ok r ∧ IsNew m out.2 r []) ∧
      (v ≠ [] → out.1 = .error .IndexError)) := by
  have hcol : ∀ ph i, ∃ x, (do
      let v ← cal_v_const Dqz Kqz Gqz Dsh Ksh Gsh Dc Kc Gc Db Kb (phi_c - i) phi_c vsh ph scheme
      return v.1 : Except PyErr Fl) = .ok x := by
    intro ph i
    unfold cal_v_const
    obtain ⟨k, hk⟩ := VRH2_ok vsh (1 - vsh) Ksh Kqz
    obtain ⟨g, hg⟩ := VRH2_ok vsh (1 - vsh) Gsh Gqz
    rw [hk, hg]
    exact ⟨_, rfl⟩
  choose col hcol using hcol
  have hrow : ∀ ph, (columns s).mapM (fun i => (do
      let v ← cal_v_const Dqz Kqz Gqz Dsh Ksh Gsh Dc Kc Gc Db Kb (phi_c - i) phi_c vsh ph scheme
      return v.1 : Except PyErr Fl)) = .ok ((columns s).map (col ph)) :=
    fun ph => mapM_ok fun i _ => hcol ph i
  have hrows : p.mapM (fun ph => (columns s).mapM (fun i => (do
      let v ← cal_v_const Dqz Kqz Gqz Dsh Ksh Gsh Dc Kc Gc Db Kb (phi_c - i) phi_c vsh ph scheme
      return v.1 : Except PyErr Fl))) = .ok (p.map fun ph => (columns s).map (col ph)) :=
    mapM_ok fun ph _ => hrow ph
  generalize ha : (vcem_seeds matches .array _) = a
  have hpure : estimate_cem v p s a Kqz Gqz Ksh Gsh phi_c Cn Kc Gc Db Kb scheme vsh Dsh Dqz Dc
      = (List.zip v (p.map fun ph => (columns s).map (col ph))).mapM
        (fun x => cem_of_row s a x.2 x.1) := by
    unfold estimate_cem estimate_cem_entry
    simp only [hrow, except_ok_bind, List.zip_map_right, List.mapM_map]
    rfl
  generalize hR : (if s.length = 0 then [] else p.map fun ph => (columns s).map (col ph)) = R
  have hcall : call (estimate_cem_mem self vcem_seeds Kqz Gqz Ksh Gsh phi_c Cn Kc Gc Db Kb scheme vsh
      Dsh Dqz Dc) m = match call (estimate_loop s a R m.length 0 v)
        (m ++ [[] ++ List.replicate R.length npnan]) with
        | (.ok _, m') => (.ok m.length, m')
        | (.error e, m') => (.error e, m') := by
    have hmap : (R.map fun _ => (npnan : Fl)) = [] ++ List.replicate R.length npnan := by simp
    cases vcem_seeds with
    | list l =>
      have hl : l = s := hs
      subst hl
      have ha : a = false := by simpa using ha.symm
      subst ha
      unfold estimate_cem_mem
      simp only [call_bind, call_pure, call_read, getD_of_get hp,
        getD_of_get (get_append hv _), call_lift_ok, hrows, call_new, hR, hmap]
      generalize call (estimate_loop _ _ R m.length 0 v) _ = x
      rcases x with ⟨_ | _, _⟩ <;> rfl
    | array r =>
      have hl : m[r]? = some s := hs
      have ha : a = true := by simpa using ha.symm
      subst ha
      unfold estimate_cem_mem
      simp only [call_bind, call_pure, call_read, getD_of_get hp, getD_of_get hl,
        getD_of_get (get_append hv _), call_lift_ok, hrows, call_new, hR, hmap]
      generalize call (estimate_loop _ _ R m.length 0 v) _ = x
      rcases x with ⟨_ | _, _⟩ <;> rfl
  obtain ⟨h1, h2⟩ := call_estimate_loop s a R m v [] R.length (by simp)
  simp only [List.length_nil, List.drop_zero, List.nil_append] at h1 h2
  simp only [List.nil_append] at hcall
  dsimp only
  rw [hcall, hpure]
  have new' : ∀ l : List Fl, IsNew m (m ++ [l]) m.length l := fun l => ⟨by simp, by simp⟩
  by_cases he : s = []
  · subst he
    have hR : R = [] := by simpa using hR.symm
    subst hR
    obtain ⟨g1, g2⟩ := h2 [] (by simp [List.zip, pure, Except.pure])
    refine ⟨?_, fun h => absurd rfl h, fun h => absurd rfl h, fun _ => ⟨fun h => ?_, fun h => ?_⟩⟩
    · by_cases hv0 : v.length ≤ ([] : List (List Fl)).length
      · rw [g1 hv0]; exact Untouched.append m _
      · obtain ⟨l, hl⟩ := g2 (not_le.mp hv0)
        rw [hl]; exact Untouched.append m _
    · rw [g1 (by simp [h])]
      exact ⟨_, rfl, by simpa [h] using new' []⟩
    · obtain ⟨l, hl⟩ := g2 (List.length_pos_iff.mpr h)
      rw [hl]
  · rw [if_neg (by simpa using he)] at hR
    subst hR
    simp only [List.length_map] at h1 h2 ⊢
    refine ⟨?_, fun _ e h => ?_, fun _ xs h => ⟨fun hl => ?_, fun hl => ?_⟩, fun h => absurd h he⟩
    · cases hc : (List.zip v (p.map fun ph => (columns s).map (col ph))).mapM
          (fun x => cem_of_row s a x.2 x.1) with
      | error e =>
        obtain ⟨l, hl⟩ := h1 e hc
        rw [hl]; exact Untouched.append m _
      | ok xs =>
        obtain ⟨g1, g2⟩ := h2 xs hc
        by_cases hv0 : v.length ≤ p.length
        · rw [g1 hv0]; exact Untouched.append m _
        · obtain ⟨l, hl⟩ := g2 (not_le.mp hv0)
          rw [hl]; exact Untouched.append m _
    · obtain ⟨l, hl⟩ := h1 e h
      rw [hl]
    · rw [(h2 xs h).1 hl]
      exact ⟨_, rfl, new' _⟩
    · obtain ⟨l, hl⟩ := (h2 xs h).2 hl
      rw [hl]

/-- A `QI` object keeps the arrays it is given: two objects made of the same arrays share them,
making an object changes nothing, and what is written into an array afterwards is what
`estimate_cem` works on. -/
theorem C103_object (Vp phi : Ref) (m : Mem Fl) (v v' p s : List Fl) (hv : m[Vp]? = some v)
    (hp : m[phi]? = some p) (hne : Vp ≠ phi) (hl : v'.length = p.length) (hs : s ≠ [])
    (Kqz Gqz Ksh Gsh phi_c Cn Kc Gc Db Kb : Fl) (scheme : ℤ) (vsh Dsh Dqz Dc : Fl) (seeds : Ref)
    (hsd : m[seeds]? = some s) (hns : seeds ≠ Vp) (xs : List Fl)
    (hx : estimate_cem v' p s true Kqz Gqz Ksh Gsh phi_c Cn Kc Gc Db Kb scheme vsh Dsh Dqz Dc
      = .ok xs) :
    ∃ r m', call (do
        let q := init_mem Vp phi
        write Vp v'
        estimate_cem_mem q (.array seeds) Kqz Gqz Ksh Gsh phi_c Cn Kc Gc Db Kb scheme vsh Dsh Dqz Dc) m
      = (.ok r, m') ∧ m'[r]? = some xs ∧ UntouchedBut Vp m m' ∧ m'[Vp]? = some v' := by
  have hlt := lt_of_get hv
  have get' : ∀ (r : Ref) (l : List Fl), r ≠ Vp → m[r]? = some l → (m.set Vp v')[r]? = some l := by
    intro r l h1 h2
    rw [List.getElem?_set_ne h1.symm, h2]
  have hv' : (m.set Vp v')[Vp]? = some v' := by
    rw [List.getElem?_set_self hlt]
  obtain ⟨h1, _, h3, _⟩ := C103_estimate_cem (init_mem Vp phi) (.array seeds) Kqz Gqz Ksh Gsh phi_c Cn
    Kc Gc Db Kb scheme vsh Dsh Dqz Dc (m.set Vp v') v' p s hv' (get' phi p hne.symm hp)
    (get' seeds s hns hsd)
  obtain ⟨r, hr, hn⟩ := (h3 hs xs hx).1 hl.le
  rw [hl, Nat.sub_self, List.replicate_zero, List.append_nil] at hn
  refine ⟨r, _, ?_, hn.2, fun r l hr h => h1 r l (get' r l hr h), h1 _ _ hv'⟩
  simp only [call_bind, call_write]
  exact Prod.ext hr rfl

/-- The sample of `quartz_estimate`, with a velocity written into the log after the object was made. -/
example (v : ℝ) : ∃ x r m', (x = fin 0 ∨ x = fin 0.1) ∧ call (do
    let q := init_mem 0 1
    write 0 [fin v]
    estimate_cem_mem q (.array 2) (fin 36.6) (fin 45) (fin 36.6) (fin 45) (fin 0.4) (fin 8.6)
      (fin 36.6) (fin 45) (fin 1) (fin 2.5) 2 (fin 0.25) (fin 2.65) (fin 2.65) (fin 2.65))
    [[bad], [fin 0.2], [fin 0.1]] = (.ok r, m') ∧ m'[r]? = some [x] := by
  obtain ⟨x, hx, he⟩ := quartz_estimate v
  obtain ⟨r, m', h1, h2, -⟩ := C103_object 0 1 [[bad], [fin 0.2], [fin 0.1]] [bad] [fin v] [fin 0.2]
    [fin 0.1] rfl rfl (by decide) rfl (by simp) _ _ _ _ _ _ _ _ _ _ _ _ _ _ _ 2 rfl (by decide) [x] he
  exact ⟨x, r, m', hx, h1, h2⟩

/-- The density shown by `kde_plot` is a new array; the one returned by `kde2d` is left as it is. -/
theorem C103_kde_density (density : Ref) (m : Mem Fl) (d d' : List Fl) (hd : m[density]? = some d)
    (h : normalize d = .ok d') :
    ∃ r m', call (kde_density_mem density) m = (.ok r, m') ∧ Untouched m m' ∧
      IsNew m m' r (d'.map fun x => if PyNum.lt x 0.0001 then 0 else x) := by
  refine ⟨m.length, m ++ [d'.map fun x => if PyNum.lt x 0.0001 then 0 else x], ?_,
    Untouched.append m _, ⟨by simp, by simp⟩⟩
  unfold kde_density_mem
  simp only [call_bind, call_read, getD_of_get hd, h, call_lift_ok, call_new, call_fill', getD_own0,
    List.getD_cons_zero, List.length_map, if_true, set_own0, List.set_cons_zero, call_pure]
  congr 3
  exact List.ext_getElem (by simp) fun i h1 h2 => by simp [store_fl]

example : ∃ r m', call (kde_density_mem 0) [[1, 4, 2].map fin] = (.ok r, m') ∧
    m'[0]? = some ([1, 4, 2].map fin) := by
  obtain ⟨r, m', h, hu, -⟩ := C103_kde_density 0 [[1, 4, 2].map fin] _ _ rfl
    (C73_normalize (d := [1, 4, 2]) (m := 4) (by simp) (by intro x hx; simp at hx; rcases hx with rfl | rfl | rfl <;> norm_num)
      (by norm_num)).1
  exact ⟨r, m', h, hu 0 _ rfl⟩

/-- The tables of `plot_rpt` do not depend on what `np.empty` found in memory: every cell is
assigned. -/
theorem C103_plot_rpt {n k : ℕ} (IP0 PS0 : Fin n → Fin k → Fl) (rock : Fin n → Fl × Fl × Fl)
    (K0 D0 Kb Db Khc Dhc : Fl) (sw : Fin k → Fl) (r : Fin n) (c : Fin k) :
    let t := rpt_tables IP0 PS0 rock K0 D0 Kb Db Khc Dhc sw
    (t.1 r c, t.2 r c)
      = rpt_entry (rock r).1 (rock r).2.1 K0 D0 Kb Db Khc Dhc (rock r).2.2 (sw c) := by
  have key : ∀ (l : List (Fin k)) (t : (Fin n → Fin k → Fl) × (Fin n → Fin k → Fl)),
      (c ∈ l ∨ (t.1 r c, t.2 r c)
        = rpt_entry (rock r).1 (rock r).2.1 K0 D0 Kb Db Khc Dhc (rock r).2.2 (sw c)) →
      let u := l.foldl (fun (t : (Fin n → Fin k → Fl) × (Fin n → Fin k → Fl)) i =>
        let Kf := inv (sw i / Kb + (1 - sw i) / Khc)
        let Df := sw i * Db + (1 - sw i) * Dhc
        let v := fun r => Fluid.vels (rock r).1 (rock r).2.1 K0 D0 Kf Df (rock r).2.2
        (fun r c => if c = i then (v r).1 * (v r).2.2 else t.1 r c,
         fun r c => if c = i then (v r).1 / (v r).2.1 else t.2 r c)) t
      (u.1 r c, u.2 r c)
        = rpt_entry (rock r).1 (rock r).2.1 K0 D0 Kb Db Khc Dhc (rock r).2.2 (sw c) := by
    intro l
    induction l with
    | nil => intro t h; simpa using h
    | cons i l ih =>
      intro t h
      refine ih _ ?_
      by_cases hi : c = i
      · right
        subst hi
        simp only [if_true]
        rfl
      · rcases h with h | h
        · left
          simpa [hi] using h
        · right
          simpa only [if_neg hi] using h
  exact key _ _ (Or.inl (List.mem_finRange c))

end RockPhy.Props
