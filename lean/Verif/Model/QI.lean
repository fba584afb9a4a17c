import Verif.Model.Utils
import Verif.Model.EM
import Verif.Model.Emp
import Verif.Model.Fluid

/-! # Model of `rockphypy/QI.py` (the computing functions; for the plots see `Plot.lean`) -/

namespace RockPhy.QI

variable {α : Type} [PyNum α]

/-- `np.nan`. -/
def npnan : α := 0 / 0

/-- `QI.matrix_modulus`, QI.py:48-88, for one entry of the array `phi_0`. -/
def matrix_modulus (vsh phi_c phi_0 M_sh M_g M_c : α) : Except PyErr α := do
  let fc := phi_c - phi_0
  let vsh_s := vsh / (1 - phi_0)
  let fgs := (1 - phi_c - vsh) / (1 - phi_0)
  let fcs := fc / (1 - phi_0)
  if PyNum.eq vsh 0 then
    let m ← EM.VRH [fgs, fcs] [M_g, M_c]
    return m.2.2
  else
    let m ← EM.VRH [vsh_s, fgs, fcs] [M_sh, M_g, M_c]
    return m.2.2

/-- `QI.den_matrix`, QI.py:91-124, for one entry of the array `phi_0`. -/
def den_matrix (vsh phi_c phi_0 den_sh den_g den_c : α) : Except PyErr α := do
  let fc := phi_c - phi_0
  let vsh_s := vsh / (1 - phi_0)
  let fgs := (1 - phi_c - vsh) / (1 - phi_0)
  let fcs := fc / (1 - phi_0)
  let m ← EM.VRH [vsh_s, fgs, fcs] [den_sh, den_g, den_c]
  return m.1

/-- `np.linspace(start, stop, num)` for `num ≥ 2`: evenly spaced, the last entry is `stop`. -/
def linspace (start stop : α) (num : Nat) : List α :=
  (List.range num).map fun i =>
    if i + 1 = num then stop
    else PyNum.nat i * ((stop - start) / PyNum.nat (num - 1)) + start

/-- One porosity of `QI.screening`, QI.py:183-216; returns `(vp1, vp2, vp3, vs1, vs2, vs3)`. -/
def screening_entry (Dqz Kqz Gqz Dsh Ksh Gsh Dc Kc Gc Db Kb phib_p phi_c sigma vsh : α)
    (scheme : Int) (f Cn phi : α) : Except PyErr (α × α × α × α × α × α) := do
  let K0 := (← EM.VRH [vsh, 1 - vsh] [Ksh, Kqz]).2.2
  let G0 := (← EM.VRH [vsh, 1 - vsh] [Gsh, Gqz]).2.2
  let D0 := Dsh * vsh + Dqz * (1 - vsh)
  let dry1 := GM.softsand K0 G0 phi phi_c Cn sigma f
  let dry3 := GM.contactcement K0 G0 Kc Gc phi phi_c Cn scheme
  let K_mat ← matrix_modulus vsh phi_c phi Ksh Kqz Kc
  let Den_mat ← den_matrix vsh phi_c phi Dsh Dqz Dc
  let sat1 := Fluid.Gassmann dry1.1 dry1.2 K0 Kb phi
  let sat3 := Fluid.Gassmann dry3.1 dry3.2 K_mat Kb phi
  let rho := D0 * (1 - phi) + Db * phi
  let rho_cst := Den_mat * (1 - phi) + Db * phi
  let v1 := utils.V sat1.1 sat1.2 rho
  let v3 := utils.V sat3.1 sat3.2 rho_cst
  let vp3 := if PyNum.lt phi phib_p then npnan else v3.1
  let vs3 := if PyNum.lt phi phib_p then npnan else v3.2
  let dry2 := GM.MUHS K0 G0 Kc Gc phi phib_p phi_c Cn scheme
  let sat2 := Fluid.Gassmann dry2.1 dry2.2 K0 Kb phi
  let v2 := utils.V sat2.1 sat2.2 rho
  let vp2 := if PyNum.lt phib_p phi then npnan else v2.1
  let vs2 := if PyNum.lt phib_p phi then npnan else v2.2
  return (v1.1, vp2, vp3, v1.2, vs2, vs3)

/-- `QI.screening`, QI.py:127-216; the seven arrays are returned as one list of rows
`(phi, vp1, vp2, vp3, vs1, vs2, vs3)`. -/
def screening (Dqz Kqz Gqz Dsh Ksh Gsh Dc Kc Gc Db Kb phib_p phi_c sigma vsh : α)
    (scheme : Int) (f Cn : α) : Except PyErr (List (α × α × α × α × α × α × α)) :=
  (linspace 1e-7 phi_c 100).mapM fun phi => do
    let v ← screening_entry Dqz Kqz Gqz Dsh Ksh Gsh Dc Kc Gc Db Kb phib_p phi_c sigma vsh
      scheme f Cn phi
    return (phi, v)

/-- `np.max` of a one dimensional array; `ValueError` on an empty one. -/
def npmax : List α → Except PyErr α
  | [] => .error .ValueError
  | a :: l => .ok (l.foldl maximum a)

/-- `np.min` of a one dimensional array; `ValueError` on an empty one. -/
def npmin : List α → Except PyErr α
  | [] => .error .ValueError
  | a :: l => .ok (l.foldl minimum a)

/-- `QI.normalize`, QI.py:252-262, on the flattened array. -/
def normalize (density : List α) : Except PyErr (List α) := do
  let den_max ← npmax density
  return density.map fun d => 1 - (den_max - d) / den_max

/-- `QI.cst_vels`, QI.py:325-375, for one entry of the array `phi`.  (`D0` is not used by the
source either.) -/
def cst_vels (phi_b K0 _D0 G0 phi phi_c Cn Kc Gc Db Kb : α) (scheme : Int) (vsh Dsh Dqz Dc : α) :
    Except PyErr (α × α) := do
  let dry := GM.constantcement phi_b K0 G0 Kc Gc phi phi_c Cn scheme
  let D ← den_matrix vsh phi_c phi_b Dsh Dqz Dc
  let v := Fluid.vels dry.1 dry.2 K0 D Kb Db phi
  let vp := if PyNum.lt phi_b phi then npnan else v.1
  let vs := if PyNum.lt phi_b phi then npnan else v.2.1
  return (vp, vs)

/-- `QI.cal_v_const`, QI.py:450-502, for one entry of the array `phi`.  (`Dc` is not used by the
source either.) -/
def cal_v_const (Dqz Kqz Gqz Dsh Ksh Gsh _Dc Kc Gc Db Kb phi_b phi_c vsh phi : α) (scheme : Int) :
    Except PyErr (α × α) := do
  let K0 := (← EM.VRH [vsh, 1 - vsh] [Ksh, Kqz]).2.2
  let G0 := (← EM.VRH [vsh, 1 - vsh] [Gsh, Gqz]).2.2
  let D0 := Dsh * vsh + Dqz * (1 - vsh)
  let Cn := Empirical.Cp phi_c
  let dry := GM.constantcement phi_b K0 G0 Kc Gc phi phi_c Cn scheme
  let v := Fluid.vels dry.1 dry.2 K0 D0 Kb Db phi
  return (v.1, v.2.1)

/-- `a[mask]` with a boolean array of another length raises `IndexError`. -/
def select (a : List α) (mask : List Bool) : Except PyErr (List α) :=
  if a.length = mask.length then .ok (Empirical.getMask a mask) else .error .IndexError

/-- Storing an array in one cell of another array: `ValueError` unless it has exactly one entry. -/
def cell : List α → Except PyErr α
  | [x] => .ok x
  | _ => .error .ValueError

/-- The loop body of `QI.estimate_cem`, QI.py:563-574: the cement estimate of one log sample `val`
from the velocities `array` of the constant cement lines.  `seedsArray` says whether the caller
passed the seeds as a numpy array; a Python list cannot be indexed by a boolean array
(`TypeError`). -/
def cem_of_row (seeds : List α) (seedsArray : Bool) (array : List α) (val : α) :
    Except PyErr α :=
  match array.head?, array.getLast? with
  | some first, some last =>
    if PyNum.le val first then .ok 0
    else if PyNum.le last val then .ok 0.1
    else do
      let big ← npmax (array.filter fun x => PyNum.lt x val)
      let small ← npmin (array.filter fun x => PyNum.lt val x)
      if !seedsArray then throw .TypeError
      let sb ← select seeds (array.map fun x => PyNum.eq x big)
      let ss ← select seeds (array.map fun x => PyNum.eq x small)
      let diff ← bzip (· - ·) sb ss
      let r ← bzip (· + ·) (diff.map fun s => (val - small) / (big - small) * s) ss
      cell r
  | _, _ => .error .IndexError

/-- The seeds with repeated values removed: columns of the data frame are named after the seed, so
a repeated seed overwrites its column. -/
def columns (seeds : List α) : List α :=
  seeds.foldl (fun acc s => if acc.any (PyNum.eq s) then acc else acc ++ [s]) []

/-- One sample of `QI.estimate_cem`, QI.py:505-575: porosity `phi`, velocity `val`.  (`Cn` is not
used by the source either.  The table of velocities is computed row by row here, column by column
in the source.  That pandas writes `df.vcem.values[i] = ...` through to the frame is assumed.) -/
def estimate_cem_entry (phi val : α) (vcem_seeds : List α) (seedsArray : Bool)
    (Kqz Gqz Ksh Gsh phi_c _Cn Kc Gc Db Kb : α) (scheme : Int) (vsh Dsh Dqz Dc : α) :
    Except PyErr α := do
  let array ← (columns vcem_seeds).mapM fun i => do
    let v ← cal_v_const Dqz Kqz Gqz Dsh Ksh Gsh Dc Kc Gc Db Kb (phi_c - i) phi_c vsh phi scheme
    return v.1
  cem_of_row vcem_seeds seedsArray array val

/-- `QI.estimate_cem`, QI.py:505-575, for logs `Vp` and `phi` of the same length. -/
def estimate_cem (Vp phi : List α) (vcem_seeds : List α) (seedsArray : Bool)
    (Kqz Gqz Ksh Gsh phi_c Cn Kc Gc Db Kb : α) (scheme : Int) (vsh Dsh Dqz Dc : α) :
    Except PyErr (List α) :=
  (List.zip Vp phi).mapM fun (val, ph) =>
    estimate_cem_entry ph val vcem_seeds seedsArray Kqz Gqz Ksh Gsh phi_c Cn Kc Gc Db Kb scheme
      vsh Dsh Dqz Dc

/-- One cell of the tables computed by `QI.plot_rpt`, QI.py:676-688: `(IP, PS)` at one porosity and
one water saturation. -/
def rpt_entry (Kdry Gdry K0 D0 Kb Db Khc Dhc phi sw : α) : α × α :=
  let Kf := inv (sw / Kb + (1 - sw) / Khc)
  let Df := sw * Db + (1 - sw) * Dhc
  let v := Fluid.vels Kdry Gdry K0 D0 Kf Df phi
  (v.1 * v.2.2, v.1 / v.2.1)

end RockPhy.QI
