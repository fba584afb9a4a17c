import Verif.Model.Utils

/-! # Model of `rockphypy/EM.py` -/

namespace RockPhy.EM

variable {α : Type} [PyNum α]

/-- `EM.VRH`, EM.py:15-40, for one dimensional inputs; returns `(M_v, M_r, M_h)`. -/
def VRH (volumes M : List α) : Except PyErr (α × α × α) := do
  let M_v ← dot volumes M
  let M_r := inv (← dot volumes (M.map (fun m => 1 / m)))
  let M_h := 0.5 * (M_r + M_v)
  return (M_v, M_r, M_h)

/-- `EM.cripor`, EM.py:43-66. -/
def cripor (K0 G0 phi phic : α) : α × α :=
  let K_dry := K0 * (1 - phi / phic)
  let G_dry := G0 * (1 - phi / phic)
  (K_dry, G_dry)

/-- `EM.cripor_reuss`, EM.py:69-99.  The source passes a 1x2 array of fractions, so numpy
returns a one-entry array; the model returns that entry.  `den = false` is the default
`False`; any other object selects the Voigt average. -/
def cripor_reuss (M0 Mf phic : α) (den : Bool) : Except PyErr α := do
  let v ← VRH [1 - phic, phic] [M0, Mf]
  if den = false then return v.2.1 else return v.1

/-- `EM.HS`, EM.py:102-136.  Any `bound` other than `'upper'` selects the lower bound. -/
def HS (f K1 K2 G1 G2 : α) (bound : String) : α × α :=
  if bound = "upper" then
    let K := K1 + (1 - f) / (inv (K2 - K1) + f * inv (K1 + 4 * G1 / 3))
    let Temp := (K1 + 2 * G1) / (5 * G1 * (K1 + 4 * G1 / 3))
    let G := G1 + (1 - f) / (inv (G2 - G1) + 2 * f * Temp)
    (K, G)
  else
    let K := K2 + f / (inv (K1 - K2) + (1 - f) * inv (K2 + 4 * G2 / 3))
    let Temp := (K2 + 2 * G2) / (5 * G2 * (K2 + 4 * G2 / 3))
    let G := G2 + f / (inv (G1 - G2) + 2 * (1 - f) * Temp)
    (K, G)

/-- The local variables `S11, S33, S12, S13, S31, S1212, S1313` of `EM.Eshelby_Cheng`. -/
structure ChengS (α : Type) where
  S11 : α
  S33 : α
  S12 : α
  S13 : α
  S31 : α
  S1212 : α
  S1313 : α

/-- `EM.Eshelby_Cheng`, EM.py:169-185: the tensor of the spheroid. -/
def Eshelby_Cheng_S (K G alpha : α) : ChengS α :=
  let sigma := (3 * K - 2 * G) / (6 * K + 2 * G)
  let R := (1 - 2 * sigma) / (8 * pi * (1 - sigma))
  let Q := 3 * R / (1 - 2 * sigma)
  let Sa := sqrt (1 - alpha ** 2)
  let Ia := 2 * pi * alpha * (arccos alpha - alpha * Sa) / Sa ** 3
  let Ic := 4 * pi - 2 * Ia
  let Iac := (Ic - Ia) / (3 * Sa ** 2)
  let Iaa := pi - 3 * Iac / 4
  let Iab := Iaa / 3
  { S11 := Q * Iaa + R * Ia
    S33 := Q * (4 * pi / 3 - 2 * Iac * alpha ** 2) + Ic * R
    S12 := Q * Iab - R * Ia
    S13 := Q * Iac * alpha ** 2 - R * Ia
    S31 := Q * Iac - R * Ic
    S1212 := Q * Iab + R * Ia
    S1313 := Q * (1 + alpha ** 2) * Iac / 2 + R * (Ia + Ic) / 2 }

/-- The five constants `[C11, C33, C13, C44, C66]` of `EM.Eshelby_Cheng` from the tensor,
EM.py:167 and 187-207. -/
def Eshelby_Cheng_moduli (K G phi Kf : α) (s : ChengS α) : α × α × α × α × α :=
  let lamda := K - 2 * G / 3
  let C := Kf / (3 * (K - Kf))
  let D := s.S33 * s.S11 + s.S33 * s.S12 - 2 * s.S31 * s.S13 - (s.S11 + s.S12 + s.S33 - 1 - 3 * C)
    - C * (s.S11 + s.S12 + 2 * (s.S33 - s.S13 - s.S31))
  let E := s.S33 * s.S11 - s.S31 * s.S13 - (s.S33 + s.S11 - 2 * C - 1)
    + C * (s.S31 + s.S13 - s.S11 - s.S33)
  let C11_1 := lamda * (s.S31 - s.S33 + 1) + 2 * G * E / (D * (s.S12 - s.S11 + 1))
  let C33_1 := ((lamda + 2 * G) * (-s.S12 - s.S11 + 1) + 2 * lamda * s.S13 + 4 * G * C) / D
  let C13_1 := ((lamda + 2 * G) * (s.S13 + s.S31) - 4 * G * C
    + lamda * (s.S13 - s.S12 - s.S11 - s.S33 + 2)) / (2 * D)
  let C44_1 := G / (1 - 2 * s.S1313)
  let C66_1 := G / (1 - 2 * s.S1212)
  let C11_0 := lamda + 2 * G
  let C13_0 := lamda
  let C33_0 := C11_0
  let C44_0 := G
  let C66_0 := G
  let C11 := C11_0 - phi * C11_1
  let C13 := C13_0 - phi * C13_1
  let C33 := C33_0 - phi * C33_1
  let C44 := C44_0 - phi * C44_1
  let C66 := C66_0 - phi * C66_1
  (C11, C33, C13, C44, C66)

/-- The five constants `[C11, C33, C13, C44, C66]` of `EM.Eshelby_Cheng`, EM.py:167-207. -/
def Eshelby_Cheng_consts (K G phi alpha Kf : α) : α × α × α × α × α :=
  Eshelby_Cheng_moduli K G phi Kf (Eshelby_Cheng_S K G alpha)

/-- `EM.Eshelby_Cheng`, EM.py:139-213: a five-entry array by default, a 6x6 VTI matrix with
`mat=True`. -/
def Eshelby_Cheng (K G phi alpha Kf : α) (mat : Bool) : (α × α × α × α × α) ⊕ Mat6 α :=
  let c := Eshelby_Cheng_consts K G phi alpha Kf
  if mat = false then .inl c
  else .inr (utils.write_VTI_matrix c.1 c.2.1 c.2.2.1 c.2.2.2.1 c.2.2.2.2)

/-- `kapa`, EM.py:251 (identical at 313, 355, 409). -/
def hudson_kapa (K G Ki Gi alpha : α) : α :=
  let lamda := K - 2 * G / 3
  (Ki + 4 * Gi / 3) * (lamda + 2 * G) / (pi * alpha * G * (lamda + G))

/-- `M`, EM.py:252 (identical at 314, 356, 410). -/
def hudson_M (K G Gi alpha : α) : α :=
  let lamda := K - 2 * G / 3
  4 * Gi * (lamda + G) / (pi * alpha * G * (3 * lamda + 4 * G))

/-- `U1`, EM.py:253 (identical at 315, 357, 411). -/
def hudson_U1 (K G Gi alpha : α) : α :=
  let lamda := K - 2 * G / 3
  16 * (lamda + 2 * G) / (3 * (3 * lamda + 4 * G) * (1 + hudson_M K G Gi alpha))

/-- `U3`, EM.py:254 (identical at 316, 358, 412). -/
def hudson_U3 (K G Ki Gi alpha : α) : α :=
  let lamda := K - 2 * G / 3
  4 * (lamda + 2 * G) / (3 * (lamda + G) * (1 + hudson_kapa K G Ki Gi alpha))

/-- The constants `(C11, C13, C33, C44, C66)` of `EM.hudson`, EM.py:249-279.  An `order` outside
{1,2} leaves them unbound. -/
def hudson_consts (K G Ki Gi alpha crd : α) (order : Int) : Except PyErr (α × α × α × α × α) :=
  let lamda := K - 2 * G / 3
  let U1 := hudson_U1 K G Gi alpha
  let U3 := hudson_U3 K G Ki Gi alpha
  let C11_1 := -lamda ** 2 * crd * U3 / G
  let C13_1 := -lamda * (lamda + 2 * G) * crd * U3 / G
  let C33_1 := -(lamda + 2 * G) ** 2 * crd * U3 / G
  let C44_1 := -G * crd * U1
  let q := 15 * lamda ** 2 / G ** 2 + 28 * lamda / G + 28
  let C11_2 := q / 15 * lamda ** 2 / (lamda + 2 * G) * (crd * U3) ** 2
  let C13_2 := q / 15 * lamda * (crd * U3) ** 2
  let C33_2 := q / 15 * (lamda + 2 * G) * (crd * U3) ** 2
  let C44_2 := 2 / 15 * G * (3 * lamda + 8 * G) / (lamda + 2 * G) * (crd * U1) ** 2
  if order = 1 then
    .ok (lamda + 2 * G + C11_1, lamda + C13_1, lamda + 2 * G + C33_1, G + C44_1, G)
  else if order = 2 then
    .ok (lamda + 2 * G + C11_1 + C11_2, lamda + C13_1 + C13_2, lamda + 2 * G + C33_1 + C33_2,
      G + C44_1 + C44_2, G)
  else .error .UnboundLocalError

/-- The matrix `EM.hudson` builds from its constants, EM.py:281-285.  An `axis` outside {1,3}
leaves it unbound. -/
def hudson_matrix (c : α × α × α × α × α) (axis : Int) : Except PyErr (Mat6 α) :=
  let (C11, C13, C33, C44, C66) := c
  if axis = 3 then .ok (utils.write_VTI_matrix C11 C33 C13 C44 C66)
  else if axis = 1 then .ok (utils.write_HTI_matrix C33 C11 C13 C66 C44)
  else .error .UnboundLocalError

/-- `EM.hudson`, EM.py:216-285. -/
def hudson (K G Ki Gi alpha crd : α) (order axis : Int) : Except PyErr (Mat6 α) := do
  hudson_matrix (← hudson_consts K G Ki Gi alpha crd order) axis

/-- `EM.hudson_rand`, EM.py:288-323; returns `(K_eff, G_eff)`. -/
def hudson_rand (K G Ki Gi alpha crd : α) : α × α :=
  let lamda := K - 2 * G / 3
  let U1 := hudson_U1 K G Gi alpha
  let U3 := hudson_U3 K G Ki Gi alpha
  let G_1 := -2 * G * crd * (3 * U1 + 2 * U3)
  let lamda_1 := 1 / 3 * (-(3 * lamda + 2 * G) ** 2 * crd * U3 / (3 * G) - 2 * G_1)
  let lamda_eff := lamda + lamda_1
  let G_eff := G + G_1
  let K_eff := lamda_eff + 2 * G_eff / 3
  (K_eff, G_eff)

/-- `EM.hudson_ortho`, EM.py:326-378, for `alpha` and `crd` with three entries each (the code
reads entries 0, 1, 2 of the entrywise results). -/
def hudson_ortho (K G Ki Gi : α) (alpha crd : Fin 3 → α) : Mat6 α :=
  let lamda := K - 2 * G / 3
  let U1 := fun i => hudson_U1 K G Gi (alpha i)
  let U3 := fun i => hudson_U3 K G Ki Gi (alpha i)
  let C11_1 := fun i => -lamda ** 2 * crd i * U3 i / G
  let C13_1 := fun i => -lamda * (lamda + 2 * G) * crd i * U3 i / G
  let C33_1 := fun i => -(lamda + 2 * G) ** 2 * crd i * U3 i / G
  let C44_1 := fun i => -G * crd i * U1 i
  let C12_1 := C11_1
  let C11 := lamda + 2 * G + C33_1 0 + C11_1 1 + C11_1 2
  let C12 := lamda + C13_1 0 + C13_1 1 + C12_1 2
  let C13 := lamda + C13_1 0 + C12_1 1 + C13_1 2
  let C22 := lamda + 2 * G + C11_1 0 + C33_1 1 + C11_1 2
  let C23 := lamda + C12_1 0 + C13_1 1 + C13_1 2
  let C33 := lamda + 2 * G + C11_1 0 + C11_1 1 + C33_1 2
  let C44 := G + C44_1 1 + C44_1 2
  let C55 := G + C44_1 0 + C44_1 2
  let C66 := G + C44_1 0 + C44_1 1
  utils.write_matrix C11 C22 C33 C12 C13 C23 C44 C55 C66

/-- `EM.hudson_cone`, EM.py:381-440. -/
def hudson_cone (K G Ki Gi alpha crd theta : α) : Mat6 α :=
  let theta := deg2rad theta
  let lamda := K - 2 * G / 3
  let U1 := hudson_U1 K G Gi alpha
  let U3 := hudson_U3 K G Ki Gi alpha
  let C11_1 := -crd / (2 * G) * (U3 * (2 * lamda ** 2 + 4 * lamda * G * sin theta ** 2
    + 3 * G ** 2 * sin theta ** 4) + U1 * G ** 2 * sin theta ** 2 * (4 - 3 * sin theta ** 2))
  let C33_1 := -crd / G * (U3 * (lamda + 2 * G * cos theta ** 2) ** 2
    + U1 * G ** 2 * 4 * cos theta ** 2 * sin theta ** 2)
  let C12_1 := -crd / (2 * G) * (U3 * (2 * lamda ** 2 + 4 * lamda * G * sin theta ** 2
    + G ** 2 * sin theta ** 4) - U1 * G ** 2 * sin theta ** 4)
  let C13_1 := -crd / G * (U3 * (lamda + G * sin theta ** 2) * (lamda + 2 * G * cos theta ** 2)
    - U1 * G ** 2 * 2 * sin theta ** 2 * cos theta ** 2)
  let C44_1 := -crd / 2 * G * (U3 * 4 * sin theta ** 2 * cos theta ** 2
    + U1 * (sin theta ** 2 + 2 * cos theta ** 2 - 4 * sin theta ** 2 * cos theta ** 2))
  let C66_1 := -crd / 2 * G * (U3 * 4 * sin theta ** 4
    + U1 * sin theta ** 2 * (2 - sin theta ** 2))
  let C11 := lamda + 2 * G + C11_1
  let C12 := lamda + C12_1
  let C13 := lamda + C13_1
  let C33 := lamda + 2 * G + C33_1
  let C44 := G + C44_1
  let C66 := G + C66_1
  utils.write_matrix C11 C11 C33 C12 C13 C13 C44 C44 C66

/-- `theta` of the spheroid, EM.py:754-757 (`PQ`) and 498-500 (`PQ_vectorize`); the branch
`alpha > 1` uses `np.cosh(alpha)**-1` as the source does. -/
def PQ_theta (alpha : α) : α :=
  if PyNum.lt alpha 1 then
    alpha / (1.0 - alpha ** 2) **. (3.0 / 2.0) * (arccos alpha - alpha * sqrt (1.0 - alpha ** 2))
  else
    alpha / (alpha ** 2 - 1) **. (3.0 / 2.0)
      * (alpha * (alpha ** 2 - 1) **. 0.5 - inv (cosh alpha))

/-- The spheroid formulas, EM.py:758-775 (`PQ`), textually the same as 502-519
(`PQ_vectorize`); returns `(P, Q)`. -/
def PQ_core (Km Gm Ki Gi alpha theta : α) : α × α :=
  let f := alpha ** 2 * (3.0 * theta - 2.0) / (1.0 - alpha ** 2)
  let A := Gi / Gm - 1.0
  let B := (Ki / Km - Gi / Gm) / 3.0
  let R := Gm / (Km + (4.0 / 3.0) * Gm)
  let F1 := 1.0 + A * (1.5 * (f + theta) - R * (1.5 * f + 2.5 * theta - 4.0 / 3.0))
  let F2 := 1.0 + A * (1.0 + 1.5 * (f + theta) - R * (1.5 * f + 2.5 * theta)) + B * (3.0 - 4.0 * R)
    + A * (A + 3.0 * B) * (1.5 - 2.0 * R) * (f + theta - R * (f - theta + 2.0 * theta ** 2))
  let F3 := 1.0 + A * (1.0 - f - 1.5 * theta + R * (f + theta))
  let F4 := 1.0 + (A / 4.0) * (f + 3.0 * theta - R * (f - theta))
  let F5 := A * (-f + R * (f + theta - 4.0 / 3.0)) + B * theta * (3.0 - 4.0 * R)
  let F6 := 1.0 + A * (1.0 + f - R * (f + theta)) + B * (1.0 - theta) * (3.0 - 4.0 * R)
  let F7 := 2.0 + (A / 4.0) * (3.0 * f + 9.0 * theta - R * (3.0 * f + 5.0 * theta))
    + B * theta * (3.0 - 4.0 * R)
  let F8 := A * (1.0 - 2.0 * R + (f / 2.0) * (R - 1.0) + (theta / 2.0) * (5.0 * R - 3.0))
    + B * (1.0 - theta) * (3.0 - 4.0 * R)
  let F9 := A * ((R - 1.0) * f - R * theta) + B * theta * (3.0 - 4.0 * R)
  let Tiijj := 3 * F1 / F2
  let Tijij := Tiijj / 3 + 2 / F3 + 1 / F4 + (F4 * F5 + F6 * F7 - F8 * F9) / (F2 * F4)
  let P := Tiijj / 3
  let Q := (Tijij - P) / 5
  (P, Q)

/-- The sphere formulas, EM.py:747-749 (`PQ`), the same as 521-523 (`PQ_vectorize`). -/
def PQ_sphere (Km Gm Ki Gi : α) : α × α :=
  let P := (Km + 4 * Gm / 3) / (Ki + 4 * Gm / 3)
  let kesai := Gm / 6 * (9 * Km + 8 * Gm) / (Km + 2 * Gm)
  let Q := (Gm + kesai) / (Gi + kesai)
  (P, Q)

/-- `EM.PQ`, EM.py:724-776. -/
def PQ (Km Gm Ki Gi alpha : α) : α × α :=
  if PyNum.eq alpha 1 then PQ_sphere Km Gm Ki Gi
  else PQ_core Km Gm Ki Gi alpha (PQ_theta alpha)

/-- The in-place write `alpha_[alpha==1]=0.999`, EM.py:495-496.  `alpha_` is the caller's
array, not a copy, and keeps its dtype. -/
def PQ_vectorize_alpha (alpha : List α) : List α :=
  alpha.map fun a => if PyNum.eq a 1 then PyNum.store a 0.999 else a

/-- One entry of `EM.PQ_vectorize`, EM.py:498-523, for the already overwritten `alpha_`. -/
def PQ_vectorize_entry (Km Gm Ki Gi alpha_ : α) : α × α :=
  if PyNum.eq alpha_ 1 then PQ_sphere Km Gm Ki Gi
  else PQ_core Km Gm Ki Gi alpha_ (PQ_theta alpha_)

/-- `EM.PQ_vectorize`, EM.py:470-524; returns `P`, `Q` and the contents of the caller's `alpha` array
after the call.  The masks of line 498 need as many aspect ratios as bulk moduli.  A single shear
modulus, or shear moduli beside a single bulk modulus, pass the arithmetic by broadcasting, but not
the masks of lines 521 and 523. -/
def PQ_vectorize (Km Gm : α) (Ki Gi alpha : List α) :
    Except PyErr (List α × List α × List α) := do
  if alpha.length ≠ Ki.length then throw .IndexError
  if Gi.length ≠ Ki.length then
    throw (if Gi.length = 1 ∨ Ki.length = 1 then .IndexError else .ValueError)
  let alpha_ := PQ_vectorize_alpha alpha
  let PQs := List.zipWith (fun (kg : α × α) a => PQ_vectorize_entry Km Gm kg.1 kg.2 a)
    (List.zip Ki Gi) alpha_
  return (PQs.map Prod.fst, PQs.map Prod.snd, alpha_)

/-- `EM.Berryman_func`, EM.py:527-553: the two residuals and the caller's `Alpha` after the
call. -/
def Berryman_func (K_sc G_sc : α) (K G X Alpha : List α) :
    Except PyErr (α × α × List α) := do
  let (P, Q, Alpha') ← PQ_vectorize K_sc G_sc K G Alpha
  let eq1 ← bzip (· * ·) (← bzip (· * ·) X (K.map (· - K_sc))) P
  let eq2 ← bzip (· * ·) (← bzip (· * ·) X (G.map (· - G_sc))) Q
  return (lsum eq1, lsum eq2, Alpha')

/-- `np.mean` of a one dimensional array. -/
def mean (l : List α) : α := lsum l / PyNum.nat l.length

/-- `EM.Berryman_sc`, EM.py:443-467.  `scipy.optimize.fsolve` is a parameter taking the
residual function and the starting point. -/
def Berryman_sc (fsolve : (α × α → Except PyErr (α × α)) → α × α → α × α)
    (K G X Alpha : List α) : α × α :=
  fsolve (fun p => (Berryman_func p.1 p.2 K G X Alpha).map fun r => (r.1, r.2.1))
    (mean K, mean G)

/-- `EM.Swiss_cheese`, EM.py:557-579, one entry of the mineral arrays and one porosity. -/
def Swiss_cheese (Ks Gs phi : α) : α × α :=
  let Kdry := inv (1 / Ks * (1 + (1 + 3 * Ks / (4 * Gs)) * phi))
  let Gdry := inv (1 / Gs * (1 + (15 * Ks + 20 * Gs) * phi / (9 * Ks + 8 * Gs)))
  (Kdry, Gdry)

/-- The loop body of `EM.SC`, EM.py:604-605; note that the new bulk modulus is used in the
shear update. -/
def SC_step (phi Ks Gs : α) (s : α × α) : α × α :=
  let K_eff := inv (1 / Ks + (1 / s.1 + 3 / (4 * s.2)) * phi)
  let G_eff := inv (1 / Gs + (15 * K_eff + 20 * s.2) / (9 * K_eff + 8 * s.2) * phi / s.2)
  (K_eff, G_eff)

/-- `EM.SC`, EM.py:582-606. -/
def SC (phi Ks Gs : α) : (iter_n : Nat) → α × α
  | 0 => (Ks, Gs)
  | n + 1 => SC_step phi Ks Gs (SC phi Ks Gs n)

/-- `EM.Dilute_crack`, EM.py:609-631. -/
def Dilute_crack (Ks Gs cd : α) : α × α :=
  let nu := (3 * Ks - 2 * Gs) / (2 * (3 * Ks + Gs))
  let K_eff := inv (1 / Ks * (1 + 16 / 9 * (1 - nu ** 2) / (1 - 2 * nu) * cd))
  let G_eff := inv (1 / Gs * (1 + 32 * (1 - nu) * (5 - nu) / (45 * (2 - nu)) * cd))
  (K_eff, G_eff)

/-- `EM.OConnell_Budiansky`, EM.py:634-657. -/
def OConnell_Budiansky (K0 G0 crd : α) : α × α :=
  let nu0 := (3 * K0 - 2 * G0) / (6 * K0 + 2 * G0)
  let nu_eff := nu0 * (1 - 16 * crd / 9)
  let K_dry := K0 * (1 - 16 * (1 - nu_eff ** 2) * crd / (9 * (1 - 2 * nu_eff)))
  let G_dry := G0 * (1 - 32 * (1 - nu_eff) * (5 - nu_eff) * crd / (45 * (2 - nu_eff)))
  (K_dry, G_dry)

/-- `EM.OC_R_funcs`, EM.py:697-721; returns the two residuals. -/
def OC_R_funcs (nu_eff D crd nu_0 w : α) : α × α :=
  let eq1 := 45 / 16 * (nu_0 - nu_eff) / (1 - nu_eff ** 2) * (2 - nu_eff)
    / (D * (1 + 3 * nu_0) * (2 - nu_eff) - 2 * (1 - 2 * nu_0)) - crd
  let eq2 := crd * D ** 2 - (crd + 9 / 16 * (1 - 2 * nu_eff) / (1 - nu_0 ** 2)
    + 3 * w / (4 * pi)) * D + 9 / 16 * (1 - 2 * nu_eff) / (1 - nu_0 ** 2)
  (eq1, eq2)

/-- `EM.OConnell_Budiansky_fl`, EM.py:661-694, with `scipy.optimize.fsolve` as a parameter. -/
def OConnell_Budiansky_fl (fsolve : (α × α → α × α) → α × α → α × α)
    (K0 G0 Kfl crd alpha : α) : α × α :=
  let nu0 := (3 * K0 - 2 * G0) / (6 * K0 + 2 * G0)
  let w := Kfl / alpha / K0
  let (nu_eff, D) := fsolve (fun p => OC_R_funcs p.1 p.2 crd nu0 w) (0.2, 0.9)
  let K_sat := K0 * (1 - 16 * (1 - nu_eff ** 2) * crd * D / (9 * (1 - 2 * nu_eff)))
  let G_sat := G0 * (1 - 32 / 45 * (1 - nu_eff) * (D + 3 / (2 - nu_eff)) * crd)
  (K_sat, G_sat)

/-- `EM.DEM`, EM.py:779-787: right-hand side of the differential equations. -/
def DEM (K_eff G_eff t Gi Ki alpha : α) : α × α :=
  let (P, Q) := PQ K_eff G_eff Ki Gi alpha
  (1 / (1 - t) * (Ki - K_eff) * P, 1 / (1 - t) * (Gi - G_eff) * Q)

/-- `np.arange(start, stop, step)`; `ceil` is `math.ceil`. -/
def arange (ceil : α → Nat) (start stop step : α) : List α :=
  (List.range (ceil ((stop - start) / step))).map fun i => start + PyNum.nat i * step

/-- `EM.Berryman_DEM`, EM.py:790-819, with `scipy.integrate.odeint` as a parameter taking the
right-hand side, the initial value and the times.  Returns `K_dry_dem`, `G_dry_dem`, `t`. -/
def Berryman_DEM (odeint : (α × α → α → α × α) → α × α → List α → List (α × α))
    (ceil : α → Nat) (Km Gm Ki Gi alpha phi : α) : List α × List α × List α :=
  let tInc := 0.01
  let t := arange ceil 0 (phi + tInc) tInc
  let psoln := odeint (fun y t => DEM y.1 y.2 t Gi Ki alpha) (Km, Gm) t
  (psoln.map Prod.fst, psoln.map Prod.snd, t)

/-- `EM.SC_dilute`, EM.py:822-859.  An unknown `mode` leaves `K`, `G` unbound. -/
def SC_dilute (Km Gm Ki Gi f : α) (mode : String) : Except PyErr (α × α) :=
  let nu := 0.5 * (3 * Km - 2 * Gm) / (3 * Km + Gm)
  let S1 := 1 / 3 * (1 + nu) / (1 - nu)
  let S2 := 2 / 15 * (4 - 5 * nu) / (1 - nu)
  if mode = "stress" then
    .ok (inv (1 + f * inv (Km / (Km - Ki) - S1)), inv (1 + f * inv (Gm / (Gm - Gi) - S2)))
  else if mode = "strain" then
    .ok (1 - f * inv (Km / (Km - Ki) - S1), 1 - f * inv (Gm / (Gm - Gi) - S2))
  else .error .UnboundLocalError

/-- The loop body of `EM.SC_flex`, EM.py:893-898. -/
def SC_flex_step (f Km Ki Gm Gi : α) (s : α × α) : α × α :=
  let nu := 0.5 * (3 * s.1 - 2 * s.2) / (3 * s.1 + s.2)
  let S1 := 1 / 3 * (1 + nu) / (1 - nu)
  let S2 := 2 / 15 * (4 - 5 * nu) / (1 - nu)
  let K_eff := (1 - f * s.1 * (Km - Ki) / (Km * (s.1 - Ki)) * inv (s.1 / (s.1 - Ki) - S1)) * Km
  let G_eff := (1 - f * s.2 * (Gm - Gi) / (Gm * (s.2 - Gi)) * inv (s.2 / (s.2 - Gi) - S2)) * Gm
  (K_eff, G_eff)

/-- `EM.SC_flex`, EM.py:862-899.  The shear modulus is initialised with `Km`, as in the
source (line 891). -/
def SC_flex (f : α) (iter_n : Nat) (Km Ki Gm Gi : α) : α × α :=
  match iter_n with
  | 0 => (Km, Km)
  | n + 1 => SC_flex_step f Km Ki Gm Gi (SC_flex f n Km Ki Gm Gi)

/-- `EM.MT_average`, EM.py:902-935. -/
def MT_average (f Kmat Gmat K1 G1 K2 G2 : α) : α × α :=
  let possion := (3 * Kmat - 2 * Gmat) / (2 * (3 * Kmat + Gmat))
  let alpha := (1 + possion) / (3 * (1 - possion))
  let beta := 2 * (4 - 5 * possion) / (15 * (1 - possion))
  let K_ave := (f * Kmat * K1 / (Kmat - (Kmat - K1) * alpha)
      + (1 - f) * Kmat * K2 / (Kmat - (Kmat - K2) * alpha))
    / (f * Kmat / (Kmat - (Kmat - K1) * alpha) + (1 - f) * Kmat / (Kmat - (Kmat - K2) * alpha))
  let G_ave := (f * Gmat * G1 / (Gmat - (Gmat - G1) * beta)
      + (1 - f) * Gmat * G2 / (Gmat - (Gmat - G2) * beta))
    / (f * Gmat / (Gmat - (Gmat - G1) * beta) + (1 - f) * Gmat / (Gmat - (Gmat - G2) * beta))
  (K_ave, G_ave)

end RockPhy.EM
