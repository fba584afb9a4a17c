import Verif.Num

/-! # Model of `rockphypy/utils.py` -/

namespace RockPhy.utils

variable {α : Type} [PyNum α]

/-- `utils.V`, utils.py:13-33.  GPa and g/cm3 in, m/s out. -/
def V (K G rho : α) : α × α :=
  let Vp := sqrt ((K + 4. / 3 * G) / rho) * 1e3
  let Vs := sqrt (G / rho) * 1e3
  (Vp, Vs)

/-- `utils.poi`, utils.py:36-53. -/
def poi (K G : α) : α := (3 * K - 2 * G) / (6 * K + 2 * G)

/-- `utils.lame`, utils.py:56-73. -/
def lame (K G : α) : α := K - 2 * G / 3

/-- `utils.M_from_V`, utils.py:76-109. -/
def M_from_V (den vp vs : α) : α × α :=
  let K := den * 1000 * (vp ** 2 - 4 * vs ** 2 / 3)
  let G := den * 1000 * vs ** 2
  let K := K / 10 ** 9
  let G := G / 10 ** 9
  (K, G)

/-- `utils.write_HTI_matrix`, utils.py:112-141. -/
def write_HTI_matrix (C11 C33 C13 C44 C55 : α) : Mat6 α :=
  let C23 := C33 - 2 * C44
  ![![C11, C13, C13, 0, 0, 0],
    ![C13, C33, C23, 0, 0, 0],
    ![C13, C23, C33, 0, 0, 0],
    ![0, 0, 0, C44, 0, 0],
    ![0, 0, 0, 0, C55, 0],
    ![0, 0, 0, 0, 0, C55]]

/-- `utils.write_VTI_compliance`, utils.py:144-175. -/
def write_VTI_compliance (S11 S12 S13 S33 S44 : α) : Mat6 α :=
  let S66 := 2 * (S11 - S12)
  ![![S11, S12, S13, 0, 0, 0],
    ![S12, S11, S13, 0, 0, 0],
    ![S13, S13, S33, 0, 0, 0],
    ![0, 0, 0, S44, 0, 0],
    ![0, 0, 0, 0, S44, 0],
    ![0, 0, 0, 0, 0, S66]]

/-- `utils.write_VTI_matrix`, utils.py:178-208. -/
def write_VTI_matrix (C11 C33 C13 C44 C66 : α) : Mat6 α :=
  let C12 := C11 - 2 * C66
  ![![C11, C12, C13, 0, 0, 0],
    ![C12, C11, C13, 0, 0, 0],
    ![C13, C13, C33, 0, 0, 0],
    ![0, 0, 0, C44, 0, 0],
    ![0, 0, 0, 0, C44, 0],
    ![0, 0, 0, 0, 0, C66]]

/-- `utils.write_matrix`, utils.py:211-247. -/
def write_matrix (C11 C22 C33 C12 C13 C23 C44 C55 C66 : α) : Mat6 α :=
  ![![C11, C12, C13, 0, 0, 0],
    ![C12, C22, C23, 0, 0, 0],
    ![C13, C23, C33, 0, 0, 0],
    ![0, 0, 0, C44, 0, 0],
    ![0, 0, 0, 0, C55, 0],
    ![0, 0, 0, 0, 0, C66]]

/-- `utils.write_iso`, utils.py:250-274. -/
def write_iso (K G : α) : Mat6 α :=
  let lamda := K - 2 * G / 3
  ![![lamda + 2 * G, lamda, lamda, 0, 0, 0],
    ![lamda, lamda + 2 * G, lamda, 0, 0, 0],
    ![lamda, lamda, lamda + 2 * G, 0, 0, 0],
    ![0, 0, 0, G, 0, 0],
    ![0, 0, 0, 0, G, 0],
    ![0, 0, 0, 0, 0, G]]

/-- `utils.crack_por`, utils.py:277-294. -/
def crack_por (crd alpha : α) : α := 4 * pi * alpha * crd / 3

/-- `utils.v_to_c_VTI`, utils.py:297-331. -/
def v_to_c_VTI (Vp0 Vp45 Vp90 Vs0 Vsh90 den : α) : Mat6 α :=
  let C11 := den * Vp90 ** 2
  let C12 := C11 - 2 * den * Vsh90 ** 2
  let C33 := den * Vp0 ** 2
  let C44 := den * Vs0 ** 2
  let M := 4 * den ** 2 * Vp45 ** 4 - 2 * den * Vp45 ** 2 * (C11 + C33 + 2 * C44)
    + (C11 + C44) * (C33 + C44)
  let C13 := -C44 + sqrt M
  let C66 := 0.5 * (C11 - C12)
  write_VTI_matrix C11 C33 C13 C44 C66

end RockPhy.utils
