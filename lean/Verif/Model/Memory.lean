import Verif.Model.QI
import Verif.Model.Dispersion

/-! # Arrays in memory

The other files of the model describe what a function computes.  This one describes which arrays it
reads, shares, overwrites or creates.  Memory is the list of all arrays that exist; a variable that
holds an array holds a position in this list, so that two variables can hold the same array.  An
exception leaves memory as it is at that moment.

Only the functions that assign to parts of an array, or that return one of their arguments, need
this; every other function of the library consists of expressions, which create new arrays.
Temporary arrays that no variable holds are left out. -/

namespace RockPhy

/-- A variable holding an array: its position in memory. -/
abbrev Ref := Nat

/-- All arrays that exist, with their contents. -/
abbrev Mem (β : Type) := List (List β)

/-- A computation that works on memory and may raise. -/
abbrev Run (β γ : Type) := ExceptT PyErr (StateM (Mem β)) γ

namespace Run

variable {β γ : Type}

/-- A new array. -/
def new (l : List β) : Run β Ref := do
  let m : Mem β ← get
  set (m ++ [l])
  return m.length

/-- The contents of an array. -/
def read (r : Ref) : Run β (List β) := do
  let m : Mem β ← get
  return m.getD r []

/-- Replace the contents of an array. -/
def write (r : Ref) (l : List β) : Run β Unit :=
  modify fun m : Mem β => m.set r l

/-- Either raise or go on with a value. -/
def lift (x : Except PyErr γ) : Run β γ :=
  match x with
  | .ok v => return v
  | .error e => throw e

end Run

/-- `a[mask]` for arrays of equal length. -/
def maskGet {β : Type} : List β → List Bool → List β
  | a :: as, true :: m => a :: maskGet as m
  | _ :: as, false :: m => maskGet as m
  | _, _ => []

/-- The contents of `a` after `a[mask] = v`, for arrays `a` and `mask` of equal length: the selected
positions are filled in order with the entries of `v`. -/
def maskPut {β : Type} : List β → List Bool → List β → Except PyErr (List β)
  | _ :: as, true :: m, x :: v => (maskPut as m v).map (x :: ·)
  | _ :: _, true :: _, [] => .error .ValueError
  | a :: as, false :: m, v => (maskPut as m v).map (a :: ·)
  | _, _, [] => .ok []
  | _, _, _ :: _ => .error .ValueError

namespace Run

variable {β : Type}

/-- `r[mask] = v` for an array `v`; `IndexError` when the mask has another length,
`ValueError` when the number of values is wrong. -/
def put (r : Ref) (mask : List Bool) (v : List β) : Run β Unit := do
  let a ← read r
  if mask.length ≠ a.length then throw .IndexError
  write r (← lift (maskPut a mask v))

/-- `r[mask] = x` for a number `x`; `conv` converts to the type of the entries of `r`. -/
def fill (conv : β → β → β) (r : Ref) (mask : List Bool) (x : β) : Run β Unit := do
  let a ← read r
  if mask.length ≠ a.length then throw .IndexError
  write r (List.zipWith (fun y b => if b then conv y x else y) a mask)

end Run

/-- An argument that may be given as a list or as an array. -/
inductive Arg (β : Type)
  | list (l : List β)
  | array (r : Ref)

/-- `np.asanyarray`: a list is copied into a new array, an array is returned as it is. -/
def asanyarray {β : Type} : Arg β → Run β Ref
  | .list l => Run.new l
  | .array r => return r

variable {α : Type} [PyNum α]

namespace EM

open Run

/-- `EM.PQ_vectorize`, EM.py:470-524, for arrays in memory.  `junk` is what `np.empty(dim)` finds in
the memory given to `theta` (the arrays `P` and `Q` made in lines 492-493 are never used: lines
518-519 rebind the names).  `alpha_` is the array `alpha` itself (line 495). -/
def PQ_vectorize_mem (junk : Nat → α) (Km Gm : α) (Ki Gi alpha : Ref) : Run α (Ref × Ref) := do
  let dim := (← read Ki).length
  let theta ← new ((List.range dim).map junk)
  let alpha_ := alpha
  fill PyNum.store alpha_ ((← read alpha).map fun a => PyNum.eq a 1) 0.999
  let a := ← read alpha_
  let below := a.map fun x => PyNum.lt x 1
  let above := a.map fun x => PyNum.lt 1 x
  put theta below ((maskGet a below).map fun x =>
    x / (1.0 - x ** 2) **. (3.0 / 2.0) * (arccos x - x * sqrt (1.0 - x ** 2)))
  put theta above ((maskGet a above).map fun x =>
    x / (x ** 2 - 1) **. (3.0 / 2.0) * (x * (x ** 2 - 1) **. 0.5 - inv (cosh x)))
  let th ← read theta
  let ki ← read Ki
  let gi ← read Gi
  if gi.length ≠ ki.length then
    throw (if gi.length = 1 ∨ ki.length = 1 then .IndexError else .ValueError)
  let PQs := List.zipWith (fun (kg : α × α) (at_ : α × α) =>
    PQ_core Km Gm kg.1 kg.2 at_.1 at_.2) (List.zip ki gi) (List.zip a th)
  let P ← new (PQs.map Prod.fst)
  let Q ← new (PQs.map Prod.snd)
  let ones := (← read alpha).map fun x => PyNum.eq x 1
  put P ones ((maskGet (← read Ki) ones).map fun k => (PQ_sphere Km Gm k 0).1)
  put Q ones ((maskGet (← read Gi) ones).map fun g => (PQ_sphere Km Gm 0 g).2)
  return (P, Q)

/-- `EM.Berryman_func`, EM.py:527-553, for arrays in memory. -/
def Berryman_func_mem (junk : Nat → α) (p : α × α) (K G X Alpha : Ref) : Run α (α × α) := do
  let (P, Q) ← PQ_vectorize_mem junk p.1 p.2 K G Alpha
  let k ← read K
  let g ← read G
  let x ← read X
  let P ← read P
  let Q ← read Q
  let eq1 ← lift (do bzip (· * ·) (← bzip (· * ·) x (k.map (· - p.1))) P)
  let eq2 ← lift (do bzip (· * ·) (← bzip (· * ·) x (g.map (· - p.2))) Q)
  return (lsum eq1, lsum eq2)

/-- What `scipy.optimize.fsolve` may do: evaluate the residuals at a point, look at them, and go on
accordingly, until it stops with an answer. -/
inductive Solver (α : Type)
  | stop (x : α × α)
  | ask (x : α × α) (next : α × α → Solver α)

/-- Let the solver work on residuals that live in memory. -/
def Solver.run (f : α × α → Run α (α × α)) : Solver α → Run α (α × α)
  | .stop x => return x
  | .ask x next => do
    let r ← f x
    Solver.run f (next r)

/-- `EM.Berryman_sc`, EM.py:443-467, for arrays in memory; `fsolve` is told where to start. -/
def Berryman_sc_mem (junk : Nat → α) (fsolve : α × α → Solver α) (K G X Alpha : Arg α) :
    Run α (α × α) := do
  let K ← asanyarray K
  let G ← asanyarray G
  let X ← asanyarray X
  let Alpha ← asanyarray Alpha
  let start := (mean (← read K), mean (← read G))
  (fsolve start).run fun p => Berryman_func_mem junk p K G X Alpha

/-- `EM.SC`, EM.py:582-606, for arrays `Ks` and `Gs` of the same length: `K_eff=Ks` and `G_eff=Gs`
bind the names to the arguments, and every pass through the loop binds them to new arrays. -/
def SC_mem (phi : α) (Ks Gs : Ref) : (iter_n : Nat) → Run α (Ref × Ref)
  | 0 => return (Ks, Gs)
  | n + 1 => do
    let (K_eff, G_eff) ← SC_mem phi Ks Gs n
    let ks ← read Ks
    let gs ← read Gs
    let s := List.zipWith (fun (m : α × α) (e : α × α) => SC_step phi m.1 m.2 e)
      (List.zip ks gs) (List.zip (← read K_eff) (← read G_eff))
    let K_eff ← new (s.map Prod.fst)
    let G_eff ← new (s.map Prod.snd)
    return (K_eff, G_eff)

end EM

namespace Fluid

open Run

/-- `Fluid.Gassmann`, Fluid.py:238-265, for arrays `K_dry`, `G_dry` and `phi` of the same length:
`G_sat = G_dry` binds the name to the argument. -/
def Gassmann_mem (K_dry G_dry : Ref) (K_mat Kf : α) (phi : Ref) : Run α (Ref × Ref) := do
  let kd ← read K_dry
  let gd ← read G_dry
  let ph ← read phi
  let K_sat ← new (List.zipWith (fun (d : α × α) p => (Gassmann d.1 d.2 K_mat Kf p).1)
    (List.zip kd gd) ph)
  let G_sat := G_dry
  return (K_sat, G_sat)

/-- The viscodynamic operator of `Fluid.Biot` on an array of frequencies, Fluid.py:89-96. -/
def Biot_F_mem (jv0 jv1 : Cx α → Cx α) (zeta : List α) : Run (Cx α) Ref := do
  let T ← new (zeta.map fun _ => Cx.ofR 0)
  let low := zeta.map fun z => PyNum.le z 1e3
  let high := zeta.map fun z => PyNum.lt 1e3 z
  put T low ((maskGet zeta low).map fun z =>
    Cx.exp (Cx.I * Cx.ofR 3 * Cx.ofR pi / Cx.ofR 4)
        * jv1 (Cx.ofR z * Cx.exp (-Cx.I * Cx.ofR pi / Cx.ofR 4))
      / jv0 (Cx.ofR z * Cx.exp (-Cx.I * Cx.ofR pi / Cx.ofR 4)))
  fill (fun _ x => x) T high ((Cx.ofR 1 + Cx.I) / Cx.ofR (sqrt 2))
  let t ← read T
  let F ← new (List.zipWith (fun z t => Cx.ofR (1 / 4)
    * (Cx.ofR z * t / (Cx.ofR 1 + Cx.ofR 2 * Cx.I * t / Cx.ofR z))) zeta t)
  fill (fun _ x => x) F (zeta.map fun z => PyNum.lt z 1e-1) (Cx.ofR 1)
  return F

end Fluid

namespace Empirical

open Run

/-- `Empirical.ramm_porosity_segment`, Emp.py:153-169, for an array in memory. -/
def ramm_porosity_segment_mem (Z : Ref) : Run α Ref := do
  let z ← read Z
  let phi1 ← new (z.map fun z => 45 * exp (-0.00025 * z))
  let phi2 ← new (z.map fun z => 25 - 0.013 * (z - 2500))
  let p1 ← read phi1
  let p2 ← read phi2
  let values := maskGet p2 (List.zipWith (fun y x => PyNum.lt y x) p2 p1)
  put phi1 (List.zipWith (fun x y => PyNum.lt y x) p1 p2) values
  return phi1

end Empirical

namespace GM

open Run

/-- `GM.diluting`, GM.py:620-641, for an array `sigma` of stresses in memory. -/
def diluting_mem (isnan : α → Bool) (k sigma0 : α) (sigma : Ref) (m : α) : Run α Ref := do
  let s ← read sigma
  let alpha ← new (s.map fun s => k * (1 - s / sigma0) **. m)
  fill PyNum.store alpha ((← read alpha).map isnan) 0
  return alpha

end GM

namespace QI

open Run

/-- `QI.screening`, QI.py:183-216, with its arrays in memory; returns the arrays
`phi, vp1, vp2, vp3, vs1, vs2, vs3`. -/
def screening_mem (Dqz Kqz Gqz Dsh Ksh Gsh Dc Kc Gc Db Kb phib_p phi_c sigma vsh : α)
    (scheme : Int) (f Cn : α) : Run α (Ref × Ref × Ref × Ref × Ref × Ref × Ref) := do
  let K0 := (← lift (EM.VRH [vsh, 1 - vsh] [Ksh, Kqz])).2.2
  let G0 := (← lift (EM.VRH [vsh, 1 - vsh] [Gsh, Gqz])).2.2
  let D0 := Dsh * vsh + Dqz * (1 - vsh)
  let phi ← new (linspace 1e-7 phi_c 100)
  let ph ← read phi
  let dry1 := ph.map fun p => GM.softsand K0 G0 p phi_c Cn sigma f
  let Kdry1 ← new (dry1.map Prod.fst)
  let Gdry1 ← new (dry1.map Prod.snd)
  let dry3 := ph.map fun p => GM.contactcement K0 G0 Kc Gc p phi_c Cn scheme
  let Kdry3 ← new (dry3.map Prod.fst)
  let Gdry3 ← new (dry3.map Prod.snd)
  let K_mat ← new (← lift (ph.mapM fun p => matrix_modulus vsh phi_c p Ksh Kqz Kc))
  let Den_mat ← new (← lift (ph.mapM fun p => den_matrix vsh phi_c p Dsh Dqz Dc))
  let (Ksat1, Gsat1) ← Fluid.Gassmann_mem Kdry1 Gdry1 K0 Kb phi
  -- `Fluid.Gassmann` with one matrix modulus per porosity
  let km ← read K_mat
  let Ksat3 ← new (List.zipWith
    (fun (d : (α × α) × α) p => (Fluid.Gassmann d.1.1 d.1.2 d.2 Kb p).1)
    (List.zip (List.zip (← read Kdry3) (← read Gdry3)) km) ph)
  let Gsat3 := Gdry3
  let rho := ph.map fun p => D0 * (1 - p) + Db * p
  let rho_cst := List.zipWith (fun d p => d * (1 - p) + Db * p) (← read Den_mat) ph
  let v (K G : List α) (rho : List α) : List (α × α) :=
    List.zipWith (fun (m : α × α) d => utils.V m.1 m.2 d) (List.zip K G) rho
  let v1 := v (← read Ksat1) (← read Gsat1) rho
  let vp1 ← new (v1.map Prod.fst)
  let vs1 ← new (v1.map Prod.snd)
  let v3 := v (← read Ksat3) (← read Gsat3) rho_cst
  let vp3 ← new (v3.map Prod.fst)
  let vs3 ← new (v3.map Prod.snd)
  fill PyNum.store vp3 ((← read phi).map fun p => PyNum.lt p phib_p) npnan
  fill PyNum.store vs3 ((← read phi).map fun p => PyNum.lt p phib_p) npnan
  let dry2 := ph.map fun p => GM.MUHS K0 G0 Kc Gc p phib_p phi_c Cn scheme
  let Kdry2 ← new (dry2.map Prod.fst)
  let Gdry2 ← new (dry2.map Prod.snd)
  let (Ksat2, Gsat2) ← Fluid.Gassmann_mem Kdry2 Gdry2 K0 Kb phi
  let v2 := v (← read Ksat2) (← read Gsat2) rho
  let vp2 ← new (v2.map Prod.fst)
  let vs2 ← new (v2.map Prod.snd)
  fill PyNum.store vp2 ((← read phi).map fun p => PyNum.lt phib_p p) npnan
  fill PyNum.store vs2 ((← read phi).map fun p => PyNum.lt phib_p p) npnan
  return (phi, vp1, vp2, vp3, vs1, vs2, vs3)

/-- `QI.cst_vels`, QI.py:325-375, for an array of porosities in memory. -/
def cst_vels_mem (phi_b K0 _D0 G0 : α) (phi : Ref) (phi_c Cn Kc Gc Db Kb : α) (scheme : Int)
    (vsh Dsh Dqz Dc : α) : Run α (Ref × Ref) := do
  let ph ← read phi
  let dry := ph.map fun p => GM.constantcement phi_b K0 G0 Kc Gc p phi_c Cn scheme
  let D ← lift (den_matrix vsh phi_c phi_b Dsh Dqz Dc)
  let v := List.zipWith (fun (d : α × α) p => Fluid.vels d.1 d.2 K0 D Kb Db p) dry ph
  let vp ← new (v.map fun x => x.1)
  let vs ← new (v.map fun x => x.2.1)
  fill PyNum.store vp ((← read phi).map fun p => PyNum.lt phi_b p) npnan
  fill PyNum.store vs ((← read phi).map fun p => PyNum.lt phi_b p) npnan
  return (vp, vs)

/-- The density shown by `QI.kde_plot`, QI.py:300-304, on the flattened array `density` returned by
`kde2d`: `QI.normalize` makes a new array, which is then cut off. -/
def kde_density_mem (density : Ref) : Run α Ref := do
  let density ← new (← lift (normalize (← read density)))
  fill PyNum.store density ((← read density).map fun d => PyNum.lt d 0.0001) 0
  return density

/-- The logs of a `QI` object as arrays in memory, `QI.__init__`, QI.py:39-40: the object keeps the
arrays it is given. -/
structure Logs where
  Vp : Ref
  phi : Ref

/-- `QI.__init__`, QI.py:29-46. -/
def init_mem (Vp phi : Ref) : Logs := ⟨Vp, phi⟩

/-- The loop of `QI.estimate_cem`, QI.py:562-574: sample after sample, the cell `vcem[i]` is
assigned.  `rows` are the velocities of the constant cement lines, one row per porosity;
`df.iloc[i, :-1]` raises `IndexError` when there is no such row. -/
def estimate_loop (seeds : List α) (seedsArray : Bool) (rows : List (List α)) (vcem : Ref) :
    (i : Nat) → List α → Run α Unit
  | _, [] => return ()
  | i, val :: vals => do
    match rows[i]? with
    | none => throw .IndexError
    | some array =>
      let x ← lift (cem_of_row seeds seedsArray array val)
      write vcem ((← read vcem).set i x)
      estimate_loop seeds seedsArray rows vcem (i + 1) vals

/-- `QI.estimate_cem`, QI.py:505-575, for the logs of an object in memory.  The data frame has one
row per porosity, and none at all when there are no seeds.  `vcem_seeds` is a list or an array. -/
def estimate_cem_mem (self : Logs) (vcem_seeds : Arg α)
    (Kqz Gqz Ksh Gsh phi_c _Cn Kc Gc Db Kb : α) (scheme : Int) (vsh Dsh Dqz Dc : α) :
    Run α Ref := do
  let (seeds, seedsArray) ← match vcem_seeds with
    | .list l => pure (l, false)
    | .array r => do pure (← read r, true)
  let ph ← read self.phi
  let rows ← lift (ph.mapM fun p => (columns seeds).mapM fun i => do
    let v ← cal_v_const Dqz Kqz Gqz Dsh Ksh Gsh Dc Kc Gc Db Kb (phi_c - i) phi_c vsh p scheme
    return v.1)
  let rows := if seeds.length = 0 then [] else rows
  let vcem ← new (rows.map fun _ => npnan)
  estimate_loop seeds seedsArray rows vcem 0 (← read self.Vp)
  return vcem

/-- The tables of `QI.plot_rpt`, QI.py:677-688: `IP` and `PS` are made by `np.empty` (`IP0` and
`PS0` are what it finds in memory) and filled column by column.  `rock` are the dry moduli and the
porosity of each sample. -/
def rpt_tables {n k : Nat} (IP0 PS0 : Fin n → Fin k → α) (rock : Fin n → α × α × α)
    (K0 D0 Kb Db Khc Dhc : α) (sw : Fin k → α) : (Fin n → Fin k → α) × (Fin n → Fin k → α) :=
  (List.finRange k).foldl (fun t i =>
    let Kf := inv (sw i / Kb + (1 - sw i) / Khc)
    let Df := sw i * Db + (1 - sw i) * Dhc
    let v := fun r => Fluid.vels (rock r).1 (rock r).2.1 K0 D0 Kf Df (rock r).2.2
    (fun r c => if c = i then (v r).1 * (v r).2.2 else t.1 r c,
     fun r c => if c = i then (v r).1 / (v r).2.1 else t.2 r c)) (IP0, PS0)

end QI

end RockPhy
