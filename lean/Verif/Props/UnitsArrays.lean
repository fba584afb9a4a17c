import Verif.Props.Units
import Verif.Props.BrownKorringa
import Verif.Props.Perm
import Verif.Props.Johnson

/-!
# C108: results do not depend on the system of units (arrays, matrices and templates)
-/

namespace RockPhy.Props

open Spec Units Fl GM

/-- Layered rocks: thicknesses in units of length, and logs of velocity and density. -/
theorem C108_Backus (U : Units) :
    (∀ V lamda G : List Fl, Anisotropy.Backus (V.map U.len) (lamda.map U.stress) (G.map U.stress)
      = (Anisotropy.Backus V lamda G).map (on5 U.stress)) ∧
    (∀ Vp Vs Den Depth : List Fl, Anisotropy.Backus_log (Vp.map U.velocity) (Vs.map U.velocity)
        (Den.map U.density) (Depth.map U.len)
      = (Anisotropy.Backus_log Vp Vs Den Depth).map fun r =>
          (U.stress r.1, U.stress r.2.1, U.stress r.2.2.1, U.stress r.2.2.2.1, U.stress r.2.2.2.2.1,
           U.density r.2.2.2.2.2)) := by
  have hw : ∀ (a b c : ℤ) (V : List Fl),
      (V.map (U.conv a b c)).map (· / lsum (V.map (U.conv a b c))) = V.map (· / lsum V) := by
    intro a b c V
    rw [lsum_map, List.map_map]
    congr 1; funext x
    simp only [Function.comp_def, un, neg_add_cancel]
  have hB : ∀ V lamda G : List Fl, Anisotropy.Backus V (lamda.map U.stress) (G.map U.stress)
      = (Anisotropy.Backus V lamda G).map (on5 U.stress) := by
    intro V lamda G
    have h1 := bzip_map U.stress U.stress U.compliance (fun l g => 1 / (l + 2 * g))
      (fun l g => 1 / (l + 2 * g)) (by intros; un_eval []) lamda G
    have h2 := bzip_map U.stress U.stress (U.conv 0 0 0) (fun l g => l / (l + 2 * g))
      (fun l g => l / (l + 2 * g)) (by intros; un_eval []) lamda G
    have h3 := bzip_map U.stress U.stress U.stress (fun l g => 4 * g * (l + g) / (l + 2 * g))
      (fun l g => 4 * g * (l + g) / (l + 2 * g)) (by intros; un_eval []) lamda G
    have h4 : (G.map U.stress).map (fun g => 1 / g) = (G.map (fun g => 1 / g)).map U.compliance := by
      simp only [List.map_map]; congr 1; funext g; un_eval [Function.comp_def]
    unfold Anisotropy.Backus
    rw [h1, h2, h3, h4]
    generalize V.map (· / lsum V) = W
    cases bzip (fun l g => 1 / (l + 2 * g)) lamda G with
    | error e => rfl
    | ok b1 =>
    cases bzip (fun l g => l / (l + 2 * g)) lamda G with
    | error e =>
      simp only [Except.map, except_ok_bind, dot_map]
      cases dot W b1 with
      | error e => rfl
      | ok d1 =>
      simp only [except_ok_bind]
      cases dot W (G.map (fun g => 1 / g)) with
      | error e => rfl
      | ok d2 =>
      simp only [except_ok_bind]
      cases dot W G with
      | error e => rfl
      | ok d3 => rfl
    | ok b2 =>
    cases bzip (fun l g => 4 * g * (l + g) / (l + 2 * g)) lamda G with
    | error e =>
      simp only [Except.map, except_ok_bind, dot_map]
      cases dot W b1 with
      | error e => rfl
      | ok d1 =>
      simp only [except_ok_bind]
      cases dot W (G.map (fun g => 1 / g)) with
      | error e => rfl
      | ok d2 =>
      simp only [except_ok_bind]
      cases dot W G with
      | error e => rfl
      | ok d3 =>
      cases dot W b2 with
      | error e => rfl
      | ok d3 => rfl
    | ok b3 =>
      simp only [Except.map, except_ok_bind, dot_map]
      cases dot W b1 with
      | error e => rfl
      | ok d1 =>
      simp only [except_ok_bind]
      cases dot W (G.map (fun g => 1 / g)) with
      | error e => rfl
      | ok d2 =>
      simp only [except_ok_bind]
      cases dot W G with
      | error e => rfl
      | ok d3 =>
      simp only [except_ok_bind]
      cases dot W b2 with
      | error e => rfl
      | ok d4 =>
      simp only [except_ok_bind]
      cases dot W b3 with
      | error e => rfl
      | ok d5 =>
      show Except.ok _ = Except.ok _
      un_eval []
  refine ⟨fun V lamda G => ?_, fun Vp Vs Den Depth => ?_⟩
  · have e : Anisotropy.Backus (V.map U.len) (lamda.map U.stress) (G.map U.stress)
        = Anisotropy.Backus V (lamda.map U.stress) (G.map U.stress) := by
      unfold Anisotropy.Backus
      rw [hw]
    rw [e, hB]
  · have hd : Anisotropy.diff (Depth.map U.len) = (Anisotropy.diff Depth).map U.len := by
      simp only [Anisotropy.diff, ← List.map_tail, List.zipWith_map, List.map_zipWith]
      congr 1; funext x y; un_eval []
    have h1 := fun l m => bzip_map U.density U.velocity U.stress (fun d v => d * v ** 2)
      (fun d v => d * v ** 2) (by intros; un_eval []) l m
    have h2 := fun l m => bzip_map U.stress U.stress U.stress (· - ·) (· - ·)
      (by intros; un_eval []) l m
    have h3 : ∀ G : List Fl, (G.map U.stress).map (2 * ·) = (G.map (2 * ·)).map U.stress := by
      intro G; simp only [List.map_map]; congr 1; funext g; un_eval [Function.comp_def]
    unfold Anisotropy.Backus_log
    simp only [hd, h1]
    rw [hw]
    generalize (Anisotropy.diff Depth).map (· / lsum (Anisotropy.diff Depth)) = W
    cases bzip (fun d v => d * v ** 2) Den Vs with
    | error e => rfl
    | ok G =>
    cases bzip (fun d v => d * v ** 2) Den Vp with
    | error e => rfl
    | ok M =>
    simp only [Except.map, except_ok_bind, h3, h2]
    cases bzip (· - ·) M (G.map (2 * ·)) with
    | error e => rfl
    | ok L =>
    simp only [Except.map, except_ok_bind, hB]
    cases Anisotropy.Backus W L G with
    | error e => rfl
    | ok c =>
    simp only [Except.map, except_ok_bind, dot_map]
    cases dot W Den with
    | error e => rfl
    | ok d => rfl

/-- The mean of a log. -/
theorem mean_map (U : Units) (a b c : ℤ) (l : List Fl) :
    AVO.mean (l.map (U.conv a b c)) = U.conv a b c (AVO.mean l) := by
  simp only [AVO.mean, lsum_map, List.length_map, un]

/-- Normalised elastic impedances are impedances. -/
theorem C108_EI_ref (U : Units) (Vp Vs rho : List Fl) (theta SP : Fl) :
    AVO.EI_ref (Vp.map U.velocity) (Vs.map U.velocity) (rho.map U.density) theta SP true
      = (AVO.EI_ref Vp Vs rho theta SP true).map (on5 U.impedance) := by
  unfold AVO.EI_ref
  simp only [mean_map, List.zip_map, List.map_map, if_true]
  congr 1
  funext ⟨vp, vs, r⟩
  un_eval [Function.comp_def, Prod.map, AVO.EI_ref_entry, if_true]

/-- The matrix modulus and density, the velocities of cemented sands, and the template. -/
theorem C108_QI (U : Units) :
    (∀ vsh phi_c phi_0 M_sh M_g M_c, QI.matrix_modulus vsh phi_c phi_0 (U.stress M_sh) (U.stress M_g)
        (U.stress M_c) = (QI.matrix_modulus vsh phi_c phi_0 M_sh M_g M_c).map U.stress) ∧
    (∀ vsh phi_c phi_0 D_sh D_g D_c, QI.den_matrix vsh phi_c phi_0 (U.density D_sh) (U.density D_g)
        (U.density D_c) = (QI.den_matrix vsh phi_c phi_0 D_sh D_g D_c).map U.density) ∧
    (∀ phi_b K0 D0 G0 phi phi_c Cn Kc Gc Db Kb scheme vsh Dsh Dqz Dc, QI.cst_vels phi_b (U.stress K0)
        (U.density D0) (U.stress G0) phi phi_c Cn (U.stress Kc) (U.stress Gc) (U.density Db)
        (U.stress Kb) scheme vsh (U.density Dsh) (U.density Dqz) (U.density Dc)
      = (QI.cst_vels phi_b K0 D0 G0 phi phi_c Cn Kc Gc Db Kb scheme vsh Dsh Dqz Dc).map
          (on2 U.velocity)) ∧
    (∀ Dqz Kqz Gqz Dsh Ksh Gsh Dc Kc Gc Db Kb phib_p phi_c sigma vsh scheme f Cn phi,
      QI.screening_entry (U.density Dqz) (U.stress Kqz) (U.stress Gqz) (U.density Dsh) (U.stress Ksh)
        (U.stress Gsh) (U.density Dc) (U.stress Kc) (U.stress Gc) (U.density Db) (U.stress Kb) phib_p
        phi_c (U.stress sigma) vsh scheme f Cn phi
      = (QI.screening_entry Dqz Kqz Gqz Dsh Ksh Gsh Dc Kc Gc Db Kb phib_p phi_c sigma vsh scheme f Cn
          phi).map fun r => (U.velocity r.1, on5 U.velocity r.2)) ∧
    (∀ Kdry Gdry K0 D0 Kb Db Khc Dhc phi sw, QI.rpt_entry (U.stress Kdry) (U.stress Gdry)
        (U.stress K0) (U.density D0) (U.stress Kb) (U.density Db) (U.stress Khc) (U.density Dhc) phi
        sw
      = (U.impedance (QI.rpt_entry Kdry Gdry K0 D0 Kb Db Khc Dhc phi sw).1,
         (QI.rpt_entry Kdry Gdry K0 D0 Kb Db Khc Dhc phi sw).2)) := by
  obtain ⟨hV, -⟩ := C108_bounds U
  obtain ⟨-, -, hcc, -, hss, -, -, hct, hmu, -⟩ := C108_GM U
  obtain ⟨-, hG, -, -, hv, -⟩ := C108_Fluid U
  obtain ⟨hUV, -⟩ := C108_utils U
  have h2 : ∀ (a b c : ℤ) v x y, EM.VRH v [U.conv a b c x, U.conv a b c y]
      = (EM.VRH v [x, y]).map (on3 (U.conv a b c)) := fun a b c v x y => hV a b c v [x, y]
  have h3 : ∀ (a b c : ℤ) v x y z, EM.VRH v [U.conv a b c x, U.conv a b c y, U.conv a b c z]
      = (EM.VRH v [x, y, z]).map (on3 (U.conv a b c)) := fun a b c v x y z => hV a b c v [x, y, z]
  have hm : ∀ vsh phi_c phi_0 M_sh M_g M_c, QI.matrix_modulus vsh phi_c phi_0 (U.stress M_sh)
        (U.stress M_g) (U.stress M_c)
      = (QI.matrix_modulus vsh phi_c phi_0 M_sh M_g M_c).map U.stress := by
    intro vsh phi_c phi_0 M_sh M_g M_c
    unfold QI.matrix_modulus
    simp only [h2, h3]
    split
    · cases EM.VRH [(1 - phi_c - vsh) / (1 - phi_0), (phi_c - phi_0) / (1 - phi_0)] [M_g, M_c] <;> rfl
    · cases EM.VRH [vsh / (1 - phi_0), (1 - phi_c - vsh) / (1 - phi_0), (phi_c - phi_0) / (1 - phi_0)]
        [M_sh, M_g, M_c] <;> rfl
  have hd : ∀ vsh phi_c phi_0 D_sh D_g D_c, QI.den_matrix vsh phi_c phi_0 (U.density D_sh)
        (U.density D_g) (U.density D_c)
      = (QI.den_matrix vsh phi_c phi_0 D_sh D_g D_c).map U.density := by
    intro vsh phi_c phi_0 D_sh D_g D_c
    unfold QI.den_matrix
    simp only [h3]
    cases EM.VRH [vsh / (1 - phi_0), (1 - phi_c - vsh) / (1 - phi_0), (phi_c - phi_0) / (1 - phi_0)]
      [D_sh, D_g, D_c] <;> rfl
  refine ⟨hm, hd, ?_, ?_, ?_⟩
  · intro phi_b K0 D0 G0 phi phi_c Cn Kc Gc Db Kb scheme vsh Dsh Dqz Dc
    unfold QI.cst_vels
    simp only [hct, hd, on2]
    cases QI.den_matrix vsh phi_c phi_b Dsh Dqz Dc with
    | error e => rfl
    | ok D =>
      show Except.ok _ = Except.ok _
      un_eval [hv, QI.npnan]
  · intro Dqz Kqz Gqz Dsh Ksh Gsh Dc Kc Gc Db Kb phib_p phi_c sigma vsh scheme f Cn phi
    unfold QI.screening_entry
    simp only [h2, hm, hd]
    cases EM.VRH [vsh, 1 - vsh] [Ksh, Kqz] with
    | error e => rfl
    | ok K =>
    cases EM.VRH [vsh, 1 - vsh] [Gsh, Gqz] with
    | error e => rfl
    | ok G =>
    cases QI.matrix_modulus vsh phi_c phi Ksh Kqz Kc with
    | error e => rfl
    | ok M =>
    cases QI.den_matrix vsh phi_c phi Dsh Dqz Dc with
    | error e => rfl
    | ok D =>
      show Except.ok _ = Except.ok _
      un_eval [hss, hcc, hmu, hG, hUV, QI.npnan]
  · intros; un_eval [QI.rpt_entry, hv]

theorem mapM_map_ok {α β γ : Type} (u : β → γ) (g : α → Except PyErr β) (l : List α) :
    l.mapM (fun i => (g i).map u) = (l.mapM g).map (List.map u) := by
  induction l with
  | nil => rfl
  | cons x l ih =>
    rw [List.mapM_cons, List.mapM_cons, ih]
    cases g x with
    | error e => rfl
    | ok y =>
      cases l.mapM g with
      | error e => rfl
      | ok ys => rfl

theorem foldl_maximum_map (U : Units) (a b c : ℤ) (x : Fl) (l : List Fl) :
    (l.map (U.conv a b c)).foldl maximum (U.conv a b c x) = U.conv a b c (l.foldl maximum x) := by
  induction l generalizing x with
  | nil => rfl
  | cons y l ih =>
    rw [List.map_cons, List.foldl_cons, List.foldl_cons, ← ih]
    congr 1
    un_eval [maximum]

theorem foldl_minimum_map (U : Units) (a b c : ℤ) (x : Fl) (l : List Fl) :
    (l.map (U.conv a b c)).foldl minimum (U.conv a b c x) = U.conv a b c (l.foldl minimum x) := by
  induction l generalizing x with
  | nil => rfl
  | cons y l ih =>
    rw [List.map_cons, List.foldl_cons, List.foldl_cons, ← ih]
    congr 1
    un_eval [minimum]

theorem npmax_map (U : Units) (a b c : ℤ) (l : List Fl) :
    QI.npmax (l.map (U.conv a b c)) = (QI.npmax l).map (U.conv a b c) := by
  cases l with
  | nil => rfl
  | cons x l => exact congrArg Except.ok (foldl_maximum_map U a b c x l)

theorem npmin_map (U : Units) (a b c : ℤ) (l : List Fl) :
    QI.npmin (l.map (U.conv a b c)) = (QI.npmin l).map (U.conv a b c) := by
  cases l with
  | nil => rfl
  | cons x l => exact congrArg Except.ok (foldl_minimum_map U a b c x l)

/-- The cement estimate is a volume fraction: it does not depend on the units of the velocity log. -/
theorem C108_estimate_cem (U : Units) (Vp phi seeds : List Fl) (seedsArray : Bool)
    (Kqz Gqz Ksh Gsh phi_c Cn Kc Gc Db Kb : Fl) (scheme : Int) (vsh Dsh Dqz Dc : Fl) :
    QI.estimate_cem (Vp.map U.velocity) phi seeds seedsArray (U.stress Kqz) (U.stress Gqz)
        (U.stress Ksh) (U.stress Gsh) phi_c Cn (U.stress Kc) (U.stress Gc) (U.density Db)
        (U.stress Kb) scheme vsh (U.density Dsh) (U.density Dqz) (U.density Dc)
      = QI.estimate_cem Vp phi seeds seedsArray Kqz Gqz Ksh Gsh phi_c Cn Kc Gc Db Kb scheme vsh Dsh
          Dqz Dc := by
  obtain ⟨hV, -⟩ := C108_bounds U
  obtain ⟨-, -, -, -, -, -, -, hct, -⟩ := C108_GM U
  obtain ⟨-, -, -, -, hv, -⟩ := C108_Fluid U
  have h2 : ∀ (a b c : ℤ) v x y, EM.VRH v [U.conv a b c x, U.conv a b c y]
      = (EM.VRH v [x, y]).map (on3 (U.conv a b c)) := fun a b c v x y => hV a b c v [x, y]
  have hc : ∀ i ph, QI.cal_v_const (U.density Dqz) (U.stress Kqz) (U.stress Gqz) (U.density Dsh)
        (U.stress Ksh) (U.stress Gsh) (U.density Dc) (U.stress Kc) (U.stress Gc) (U.density Db)
        (U.stress Kb) i phi_c vsh ph scheme
      = (QI.cal_v_const Dqz Kqz Gqz Dsh Ksh Gsh Dc Kc Gc Db Kb i phi_c vsh ph scheme).map
          (on2 U.velocity) := by
    intro i ph
    unfold QI.cal_v_const
    simp only [h2]
    cases EM.VRH [vsh, 1 - vsh] [Ksh, Kqz] with
    | error e => rfl
    | ok K =>
    cases EM.VRH [vsh, 1 - vsh] [Gsh, Gqz] with
    | error e => rfl
    | ok G =>
      show Except.ok _ = Except.ok _
      un_eval [hct, hv]
  have hr : ∀ (array : List Fl) val, QI.cem_of_row seeds seedsArray (array.map U.velocity)
      (U.velocity val) = QI.cem_of_row seeds seedsArray array val := by
    intro array val
    have f1 : (array.map U.velocity).filter (fun x => PyNum.lt x (U.velocity val))
        = (array.filter fun x => PyNum.lt x val).map U.velocity := by
      rw [List.filter_map]; congr 2; funext x; un_eval [Function.comp_def]
    have f2 : (array.map U.velocity).filter (fun x => PyNum.lt (U.velocity val) x)
        = (array.filter fun x => PyNum.lt val x).map U.velocity := by
      rw [List.filter_map]; congr 2; funext x; un_eval [Function.comp_def]
    unfold QI.cem_of_row
    rw [List.head?_map, List.getLast?_map]
    cases array.head? with
    | none => rfl
    | some first => cases array.getLast? with
      | none => rfl
      | some last =>
        simp only [Option.map_some, le_conv, f1, f2, npmax_map, npmin_map]
        split_ifs
        · rfl
        · rfl
        · cases QI.npmax (array.filter fun x => PyNum.lt x val) with
          | error e => rfl
          | ok big => cases QI.npmin (array.filter fun x => PyNum.lt val x) with
            | error e => rfl
            | ok small =>
              simp only [Except.map, except_ok_bind, List.map_map, Function.comp_def, eq_conv]
              un_eval []
        · cases QI.npmax (array.filter fun x => PyNum.lt x val) with
          | error e => rfl
          | ok big => cases QI.npmin (array.filter fun x => PyNum.lt val x) with
            | error e => rfl
            | ok small =>
              simp only [Except.map, except_ok_bind, List.map_map, Function.comp_def, eq_conv]
              un_eval []
  unfold QI.estimate_cem
  rw [List.zip_map_left, List.mapM_map]
  congr 1
  funext ⟨val, ph⟩
  show QI.estimate_cem_entry ph (U.velocity val) seeds seedsArray (U.stress Kqz) (U.stress Gqz)
        (U.stress Ksh) (U.stress Gsh) phi_c Cn (U.stress Kc) (U.stress Gc) (U.density Db)
        (U.stress Kb) scheme vsh (U.density Dsh) (U.density Dqz) (U.density Dc)
      = QI.estimate_cem_entry ph val seeds seedsArray Kqz Gqz Ksh Gsh phi_c Cn Kc Gc Db Kb scheme vsh
          Dsh Dqz Dc
  unfold QI.estimate_cem_entry
  have e : (fun i => do
        let v ← QI.cal_v_const (U.density Dqz) (U.stress Kqz) (U.stress Gqz) (U.density Dsh)
          (U.stress Ksh) (U.stress Gsh) (U.density Dc) (U.stress Kc) (U.stress Gc) (U.density Db)
          (U.stress Kb) (phi_c - i) phi_c vsh ph scheme
        return v.1)
      = fun i => (do
        let v ← QI.cal_v_const Dqz Kqz Gqz Dsh Ksh Gsh Dc Kc Gc Db Kb (phi_c - i) phi_c vsh ph scheme
        return v.1 : Except PyErr Fl).map U.velocity := by
    funext i
    rw [hc]
    cases QI.cal_v_const Dqz Kqz Gqz Dsh Ksh Gsh Dc Kc Gc Db Kb (phi_c - i) phi_c vsh ph scheme <;> rfl
  rw [e, mapM_map_ok]
  have key : ∀ r : Except PyErr (List Fl), (r.map (List.map U.velocity) >>= fun array =>
      QI.cem_of_row seeds seedsArray array (U.velocity val))
      = r >>= fun array => QI.cem_of_row seeds seedsArray array val := by
    intro r
    cases r with
    | error e => rfl
    | ok array => exact hr array val
  exact key _

/-- The equations that `Berryman_sc` solves. -/
theorem C108_Berryman_func (U : Units) (K_sc G_sc : Fl) (K G X Alpha : List Fl) :
    EM.Berryman_func (U.stress K_sc) (U.stress G_sc) (K.map U.stress) (G.map U.stress) X Alpha
      = (EM.Berryman_func K_sc G_sc K G X Alpha).map fun r =>
          (U.stress r.1, U.stress r.2.1, r.2.2) := by
  have hp : EM.PQ_vectorize (U.stress K_sc) (U.stress G_sc) (K.map U.stress) (G.map U.stress) Alpha
      = EM.PQ_vectorize K_sc G_sc K G Alpha := by
    have he : ∀ a b c, EM.PQ_vectorize_entry (U.stress K_sc) (U.stress G_sc) (U.stress a)
        (U.stress b) c = EM.PQ_vectorize_entry K_sc G_sc a b c := fun a b c =>
      C108_PQ U K_sc G_sc a b c
    unfold EM.PQ_vectorize
    simp only [List.length_map, List.zip_map, List.zipWith_map_left, Prod.map, he]
  have hm : ∀ (l : List Fl) m, (l.map U.stress).map (· - U.stress m)
      = (l.map (· - m)).map U.stress := by
    intro l m; simp only [List.map_map]; congr 1; funext x; un_eval [Function.comp_def]
  have hx : ∀ x l : List Fl, bzip (· * ·) x (l.map U.stress)
      = (bzip (· * ·) x l).map (List.map U.stress) := by
    intro x l
    have := bzip_map id U.stress U.stress (· * ·) (· * ·) (by intros; un_eval [id]) x l
    simpa only [List.map_id] using this
  have hy : ∀ l p : List Fl, bzip (· * ·) (l.map U.stress) p
      = (bzip (· * ·) l p).map (List.map U.stress) := by
    intro l p
    have := bzip_map U.stress id U.stress (· * ·) (· * ·) (by intros; un_eval [id]) l p
    simpa only [List.map_id] using this
  unfold EM.Berryman_func
  rw [hp]
  cases EM.PQ_vectorize K_sc G_sc K G Alpha with
  | error e => rfl
  | ok pq =>
    obtain ⟨P, Q, A⟩ := pq
    simp only [except_ok_bind, hm, hx]
    cases bzip (· * ·) X (K.map (· - K_sc)) with
    | error e => rfl
    | ok k =>
    simp only [Except.map, except_ok_bind, hy]
    cases bzip (· * ·) k P with
    | error e => rfl
    | ok k2 =>
    simp only [except_ok_bind]
    cases bzip (· * ·) X (G.map (· - G_sc)) with
    | error e => rfl
    | ok g =>
    simp only [Except.map, except_ok_bind, hy]
    cases bzip (· * ·) g Q with
    | error e => rfl
    | ok g2 =>
      show Except.ok _ = Except.ok _
      simp only [lsum_map]

/-- A strained pack of spheres: the stiffness, and the stresses of the first two paths. -/
theorem C108_johnson (U : Units) (K0 G0 n phi epsilon epsilon_axial : Fl) (path : String)
    (hp : path ≠ "iso-uni") :
    GM.johnson (U.stress K0) (U.stress G0) n phi epsilon epsilon_axial path
      = (GM.johnson K0 G0 n phi epsilon epsilon_axial path).map fun r =>
          (onM U.stress r.1, on2 U.stress r.2) := by
  have hw := (C108_utils U).2.2.2.2.2.2.1
  unfold GM.johnson
  split_ifs
  · un_eval [Except.map, utils.poi, ← hw]
  · un_eval [Except.map, utils.poi, ← hw]
  · rfl

/-- On the remaining path the horizontal stress of any compressed pack depends on the units: converted
moduli give the converted stress only if the unit of stress is unchanged. -/
theorem C108_johnson_violated (U : Units) {K0 G0 n φ ε ε₃ : ℝ} (h : Compressed K0 G0 n φ ε ε₃) :
    (GM.johnson (U.stress (fin K0)) (U.stress (fin G0)) (fin n) (fin φ) (fin ε) (fin ε₃) "iso-uni"
      = (GM.johnson (fin K0) (fin G0) (fin n) (fin φ) (fin ε) (fin ε₃) "iso-uni").map fun r =>
          (onM U.stress r.1, on2 U.stress r.2)) ↔ U.factor 1 (-1) (-2) = 1 := by
  have hw := (C108_utils U).2.2.2.2.2.2.1
  have hs := factor_pos U 1 (-1) (-2)
  constructor
  · intro e
    have h' : Compressed (U.factor 1 (-1) (-2) * K0) (U.factor 1 (-1) (-2) * G0) n φ ε ε₃ :=
      ⟨mul_pos hs h.bulk, mul_pos hs h.shear, h.coord, h.por, h.iso, h.axial⟩
    have hn : nu (U.factor 1 (-1) (-2) * K0) (U.factor 1 (-1) (-2) * G0) = nu K0 G0 := by
      unfold nu
      have := h.bulk; have := h.shear
      field_simp
    rw [show U.stress (fin K0) = fin (U.factor 1 (-1) (-2) * K0) from rfl,
      show U.stress (fin G0) = fin (U.factor 1 (-1) (-2) * G0) from rfl, johnson_eval h',
      johnson_eval h] at e
    simp only [if_false, if_true, String.reduceEq] at e
    have e := congrArg (fun r => r.toOption.map fun r => r.2.2) e
    simp only [Except.map, Except.toOption, Option.map_some, Option.some.injEq, on2] at e
    rw [show U.stress (fin _) = fin (U.factor 1 (-1) (-2) * _) from rfl, Fl.fin.injEq] at e
    have e1 : jCt (U.factor 1 (-1) (-2) * K0) (U.factor 1 (-1) (-2) * G0)
        = U.factor 1 (-1) (-2) * jCt K0 G0 := by unfold jCt; rw [hn]; ring
    have e2 : jCn (U.factor 1 (-1) (-2) * K0) (U.factor 1 (-1) (-2) * G0)
        = U.factor 1 (-1) (-2) * jCn K0 G0 := by unfold jCn; rw [hn]; ring
    rw [e1, e2] at e
    have ha : 0 < Real.sqrt (ε / ε₃) := Real.sqrt_pos.mpr h.ratio
    generalize Real.sqrt (ε / ε₃) = a at *
    have q := jQ_pos ha
    have cn := jCn_pos h
    have ct := jCt_pos h
    have hT : jT n φ ε a ≠ 0 := by
      have := h.coord
      have : 0 < 1 - φ := by linarith [h.por]
      have : 0 < -ε := by linarith [h.iso]
      have := Real.pi_pos
      unfold jT
      have p : 0 < (-ε) ^ ((3 : ℝ) / 2) * (1 - φ) * n / (4 * Real.pi * a ^ 3) := by positivity
      rw [neg_mul, neg_mul, neg_div]
      linarith
    generalize jT n φ ε a = T at *
    generalize jQ a = Q at *
    generalize jCn K0 G0 = Cn at *
    generalize jCt K0 G0 = Ct at *
    generalize U.factor 1 (-1) (-2) = s at *
    have e' : T * (Cn * Ct * Q * s) * (s - 1) = 0 := by linear_combination -e
    rcases mul_eq_zero.1 e' with h0 | h0
    · exact absurd h0 (mul_ne_zero hT (by positivity))
    · linarith
  · intro e
    have hc : ∀ x, U.stress x = x := by
      intro x; cases x with
      | bad => rfl
      | fin x => show fin (U.factor 1 (-1) (-2) * x) = _; rw [e, one_mul]
    have hc' : U.stress = id := funext hc
    simp only [hc, on2]
    have : onM U.stress = id := by rw [hc']; rfl
    rw [this]
    cases GM.johnson (fin K0) (fin G0) (fin n) (fin φ) (fin ε) (fin ε₃) "iso-uni" <;> rfl

/-- `Fredrich` is no permeability: in other units of length it gives another rock another result. -/
theorem C108_Fredrich_violated (U : Units) {φ d b : ℝ} (h0 : φ ≠ 0) (h : φ ≠ 1) (hd : d ≠ 0)
    (hb : b ≠ 0) :
    Permeability.Fredrich (fin φ) (U.len (fin d)) (fin b)
      = U.perm (Permeability.Fredrich (fin φ) (fin d) (fin b)) ↔ U.length = 1 := by
  have n : 1 - φ ≠ 0 := sub_ne_zero.mpr h.symm
  rw [C108_Fredrich, (C59_value h0 h hd hb).1]
  have hr : φ ^ 3 / (90 * b * (1 - φ) ^ 2 * d ^ 2) ≠ 0 := by positivity
  generalize φ ^ 3 / (90 * b * (1 - φ) ^ 2 * d ^ 2) = r at *
  show fin _ = fin _ ↔ _
  rw [Fl.fin.injEq, mul_left_inj' hr]
  have hl := U.length_pos
  simp only [factor, zpow_zero, one_mul, mul_one]
  constructor
  · intro e
    have e4 : U.length ^ 4 = 1 := by
      have e2 : (U.length ^ 2)⁻¹ = U.length ^ 2 := by exact_mod_cast e
      field_simp at e2
      nlinarith [e2]
    exact (pow_eq_one_iff_of_nonneg hl.le (by norm_num)).1 e4
  · intro e; rw [e]; norm_num

theorem EI_pp_eval {x y z θ : ℝ} (hx : 0 < x) (hy : 0 < y) (hz : 0 < z)
    (hc : Real.cos (θ * (Real.pi / 180)) ≠ 0) :
    (AVO.EI_ref [fin x] [fin y] [fin z] (fin θ) (fin 0) false).map (·.1)
      = [fin (x ^ (1 + Real.tan (θ * (Real.pi / 180)) ^ 2) * z)] := by
  unfold AVO.EI_ref
  simp only [List.zip_cons_cons, List.zip_nil_left, List.map_cons, List.map_nil, AVO.EI_ref_entry,
    Bool.false_eq_true, if_false, deg2rad]
  fl_eval [hx, hy, hz, hc]
  simp

/-- Without normalisation the elastic impedance has no dimension at all: no exponents of mass, length
and time convert it at every angle. -/
theorem C108_EI_ref_unnormalised : ¬ ∃ a b c : ℤ, ∀ (U : Units) (Vp Vs rho theta SP : Fl),
    (AVO.EI_ref [U.velocity Vp] [U.velocity Vs] [U.density rho] theta SP false).map (·.1)
      = ((AVO.EI_ref [Vp] [Vs] [rho] theta SP false).map (·.1)).map (U.conv a b c) := by
  rintro ⟨a, b, c, h⟩
  let U : Units := ⟨1, 2, 1, by norm_num, by norm_num, by norm_num⟩
  have v : U.velocity (fin 1) = fin 2 := by simp [conv, factor, U]
  have d : U.density (fin 1) = fin (1 / 8) := by simp [conv, factor, U]; norm_num
  have w : ∀ x, U.conv a b c (fin x) = fin (U.factor a b c * x) := fun _ => rfl
  have e45 : (45 : ℝ) * (Real.pi / 180) = Real.pi / 4 := by ring
  have c0 : Real.cos (0 * (Real.pi / 180)) ≠ 0 := by simp
  have c45 : Real.cos (45 * (Real.pi / 180)) ≠ 0 := by rw [e45, Real.cos_pi_div_four]; positivity
  have h1 := h U (fin 1) (fin 1) (fin 1) (fin 0) (fin 0)
  have h2 := h U (fin 1) (fin 1) (fin 1) (fin 45) (fin 0)
  rw [v, d, EI_pp_eval (by norm_num) (by norm_num) (by norm_num) c0,
    EI_pp_eval (by norm_num) (by norm_num) (by norm_num) c0, List.map_singleton, w,
    List.singleton_inj, Fl.fin.injEq] at h1
  rw [v, d, EI_pp_eval (by norm_num) (by norm_num) (by norm_num) c45,
    EI_pp_eval (by norm_num) (by norm_num) (by norm_num) c45, List.map_singleton, w,
    List.singleton_inj, Fl.fin.injEq, e45, Real.tan_pi_div_four] at h2
  norm_num at h1 h2
  linarith

/-- Anisotropic fluid substitution, with an exact matrix inverse. -/
theorem C108_Brown_Korringa (U : Units) {linv : Mat6 Fl → Except PyErr (Mat6 Fl)}
    (hl : InvOracle linv) {K0 G0 : ℝ} (hK : K0 ≠ 0) (hG : G0 ≠ 0) (S : Mat6 Fl) (Kfl phi : Fl) :
    Fluid.Brown_Korringa_dry2sat linv (onM U.compliance S) (U.stress (fin K0)) (U.stress (fin G0))
        (U.stress Kfl) phi
      = (Fluid.Brown_Korringa_dry2sat linv S (fin K0) (fin G0) Kfl phi).map (onM U.compliance) ∧
    Fluid.Brown_Korringa_sat2dry linv (onM U.compliance S) (U.stress (fin K0)) (U.stress (fin G0))
        (U.stress Kfl) phi
      = (Fluid.Brown_Korringa_sat2dry linv S (fin K0) (fin G0) Kfl phi).map (onM U.compliance) := by
  have hs := factor_pos U 1 (-1) (-2)
  have hi : linv (utils.write_iso (U.stress (fin K0)) (U.stress (fin G0)))
      = (linv (utils.write_iso (fin K0) (fin G0))).map (onM U.compliance) := by
    rw [show U.stress (fin K0) = fin (U.factor 1 (-1) (-2) * K0) from rfl,
      show U.stress (fin G0) = fin (U.factor 1 (-1) (-2) * G0) from rfl, utils.write_iso_eval,
      utils.write_iso_eval, hl _ _ (isoMatrix_mul_isoCompliance hK hG),
      hl _ _ (isoMatrix_mul_isoCompliance (mul_ne_zero hs.ne' hK) (mul_ne_zero hs.ne' hG))]
    show Except.ok _ = Except.ok _
    congr 1
    have hf : U.factor (-1) 1 2 = (U.factor 1 (-1) (-2))⁻¹ := by
      simpa using factor_neg U 1 (-1) (-2)
    generalize U.factor 1 (-1) (-2) = s at *
    funext i j
    fin_cases i <;> fin_cases j <;>
      simp [isoCompliance, orthoMatrix, onM, conv, hf] <;> field_simp
  unfold Fluid.Brown_Korringa_dry2sat Fluid.Brown_Korringa_sat2dry
  rw [hi]
  cases linv (utils.write_iso (fin K0) (fin G0)) with
  | error e => exact ⟨rfl, rfl⟩
  | ok S0 =>
    constructor
    · show Except.ok _ = Except.ok _
      un_eval [Fluid.rows3, Fluid.sum33]
      rfl
    · show Except.ok _ = Except.ok _
      un_eval [Fluid.rows3, Fluid.sum33]
      rfl

/-- Substituting one fluid by another, when the stiffness before and the compliance after can be
inverted. -/
theorem C108_Brown_Korringa_sub (U : Units) {linv : Mat6 Fl → Except PyErr (Mat6 Fl)}
    (hl : InvOracle linv) {K0 G0 : ℝ} (hK : K0 ≠ 0) (hG : G0 ≠ 0) (Kfl1 Kfl2 phi : Fl)
    {C S C' S' : Mat6 ℝ} (hC : C * S = 1) (hC' : C' * S' = 1)
    (h : Fluid.Brown_Korringa_sub linv (C.map fin) (fin K0) (fin G0) Kfl1 Kfl2 phi
      = .ok (C'.map fin, S'.map fin)) :
    Fluid.Brown_Korringa_sub linv (onM U.stress (C.map fin)) (U.stress (fin K0)) (U.stress (fin G0))
        (U.stress Kfl1) (U.stress Kfl2) phi
      = .ok (onM U.stress (C'.map fin), onM U.compliance (S'.map fin)) := by
  have hs := factor_pos U 1 (-1) (-2)
  have hf : U.factor (-1) 1 2 = (U.factor 1 (-1) (-2))⁻¹ := by
    simpa using factor_neg U 1 (-1) (-2)
  have m1 : ∀ M : Mat6 ℝ, onM U.stress (M.map fin) = (U.factor 1 (-1) (-2) • M).map fin := by
    intro M; rfl
  have m2 : ∀ M : Mat6 ℝ, onM U.compliance (M.map fin)
      = ((U.factor 1 (-1) (-2))⁻¹ • M).map fin := by
    intro M; rw [← hf]; rfl
  have i1 : linv (onM U.stress (C.map fin)) = .ok (onM U.compliance (S.map fin)) := by
    rw [m1, m2]
    refine hl _ _ ?_
    rw [Matrix.smul_mul, Matrix.mul_smul, smul_smul, hC, mul_inv_cancel₀ hs.ne', one_smul]
  have i2 : linv (onM U.compliance (S'.map fin)) = .ok (onM U.stress (C'.map fin)) := by
    rw [m1, m2]
    refine hl _ _ ?_
    rw [Matrix.smul_mul, Matrix.mul_smul, smul_smul, mul_eq_one_comm.mp hC', inv_mul_cancel₀ hs.ne',
      one_smul]
  unfold Fluid.Brown_Korringa_sub at h ⊢
  rw [hl _ _ hC, except_ok_bind] at h
  rw [i1, except_ok_bind, (C108_Brown_Korringa U hl hK hG _ _ _).2]
  cases h1 : Fluid.Brown_Korringa_sat2dry linv (S.map fin) (fin K0) (fin G0) Kfl1 phi with
  | error e => rw [h1] at h; cases h
  | ok D =>
    rw [h1, except_ok_bind] at h
    show (Fluid.Brown_Korringa_dry2sat linv (onM U.compliance D) _ _ _ phi >>= _) = _
    rw [(C108_Brown_Korringa U hl hK hG _ _ _).1]
    cases h2 : Fluid.Brown_Korringa_dry2sat linv D (fin K0) (fin G0) Kfl2 phi with
    | error e => rw [h2] at h; cases h
    | ok S2 =>
      rw [h2, except_ok_bind] at h
      cases h3 : linv S2 with
      | error e => rw [h3] at h; cases h
      | ok C2 =>
        rw [h3, except_ok_bind, except_pure] at h
        injection h with h
        injection h with hc hss
        subst hss
        show (linv (onM U.compliance _) >>= _) = _
        rw [i2]; rfl

/-! ## The hypotheses are met -/

/-- From metre, kilogram and second to centimetre, gram and second. -/
noncomputable def cgs : Units := ⟨1000, 100, 1, by norm_num, by norm_num, by norm_num⟩

example : cgs.stress (fin 1) = fin 10 ∧ cgs.density (fin 2650) = fin 2.65
    ∧ cgs.velocity (fin 6050) = fin 605000 ∧ cgs.perm (fin 1) = fin 10000 := by
  simp only [cgs, conv, factor, Fl.fin.injEq]; norm_num

example : utils.V (cgs.stress (fin 37)) (cgs.stress (fin 44)) (cgs.density (fin 2.65))
    = on2 cgs.velocity (utils.V (fin 37) (fin 44) (fin 2.65)) :=
  (C108_utils cgs).1 _ _ _

example : GM.johnson (cgs.stress (fin 36.6)) (cgs.stress (fin 45)) (fin 9) (fin 0.36) (fin (-0.001))
      (fin (-0.002)) "iso-uni"
    ≠ (GM.johnson (fin 36.6) (fin 45) (fin 9) (fin 0.36) (fin (-0.001)) (fin (-0.002))
        "iso-uni").map fun r => (onM cgs.stress r.1, on2 cgs.stress r.2) := by
  rw [Ne, C108_johnson_violated cgs
    ⟨by norm_num, by norm_num, by norm_num, by norm_num, by norm_num, by norm_num⟩]
  simp only [cgs, factor]; norm_num

example : ∃ linv, InvOracle linv ∧ Fluid.Brown_Korringa_dry2sat linv (onM cgs.compliance
      (utils.write_VTI_compliance (fin 0.03) (fin (-0.01)) (fin (-0.005)) (fin 0.04) (fin 0.08)))
      (cgs.stress (fin 36)) (cgs.stress (fin 44)) (cgs.stress (fin 2.2)) (fin 0.2)
    = (Fluid.Brown_Korringa_dry2sat linv (utils.write_VTI_compliance (fin 0.03) (fin (-0.01))
        (fin (-0.005)) (fin 0.04) (fin 0.08)) (fin 36) (fin 44) (fin 2.2) (fin 0.2)).map
          (onM cgs.compliance) := by
  obtain ⟨linv, hl⟩ := InvOracle.exists
  exact ⟨linv, hl, (C108_Brown_Korringa cgs hl (by norm_num) (by norm_num) _ _ _).1⟩

example : Permeability.Fredrich (fin 0.2) (cgs.len (fin 3)) (fin 2)
    ≠ cgs.perm (Permeability.Fredrich (fin 0.2) (fin 3) (fin 2)) := by
  rw [Ne, C108_Fredrich_violated cgs (by norm_num) (by norm_num) (by norm_num) (by norm_num)]
  simp only [cgs]; norm_num

end RockPhy.Props
