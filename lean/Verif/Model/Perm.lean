import Verif.Num

/-! # Model of `rockphypy/Perm.py` -/

namespace RockPhy.Permeability

variable {α : Type} [PyNum α]

/-- `Permeability.Kozeny_Carman`, Perm.py:13-38. -/
def Kozeny_Carman (phi d : α) : α := d ** 2 / 180 * phi ** 3 / (1 - phi) ** 2

/-- `Permeability.Kozeny_Carman_Percolation`, Perm.py:41-63. -/
def Kozeny_Carman_Percolation (phi phic d B : α) : α :=
  B * d ** 2 * (phi - phic) ** 3 / (1 + phic - phi) ** 2

/-- `Permeability.Owolabi`, Perm.py:66-86. -/
def Owolabi (phi Swi : α) : α × α :=
  let k_oil := 307 + (26552 * (phi ** 2)) - (34540 * (phi * Swi) ** 2)
  let k_gas := 30.7 + (2655 * (phi ** 2)) - (3454 * (phi * Swi) ** 2)
  (k_oil, k_gas)

/-- `Permeability.Perm_logs`, Perm.py:89-119. -/
def Perm_logs (phi Swi : α) : α × α × α × α :=
  let k_tixier := 62500 * phi ** 6 / Swi ** 2
  let k_Timur := 10000 * phi **. 4.5 / Swi ** 2
  let k_coates := 10000 * phi ** 4 * (1 - Swi) ** 2 / Swi ** 2
  let k_coates_Dumanoir := 352 * phi ** 4 / Swi ** 4
  (k_tixier, k_Timur, k_coates, k_coates_Dumanoir)

/-- `Permeability.Panda_Lake`, Perm.py:122-150. -/
def Panda_Lake (d C S tau phi : α) : α :=
  d ** 2 * phi ** 3 * (C ** 3 * S + 3 * C ** 2 + 1) ** 2
    / (72 * tau * (1 - phi) ** 2 * (C ** 2 + 1) ** 2)

/-- `Permeability.Panda_Lake_cem`, Perm.py:153-170. -/
def Panda_Lake_cem (phi d : α) : α := 3.34 * (d ** 2) * ((phi ** 3) / (1 - phi) ** 2)

/-- `Permeability.Revil`, Perm.py:173-191. -/
def Revil (phi d : α) : α := 1000 * (d ** 2) * (phi **. 4.5) / 24

/-- `Permeability.Fredrich`, Perm.py:194-222. -/
def Fredrich (phi d b : α) : α :=
  let F := 2.5 / phi
  let Sv := 6 * (1 - phi) * d
  1 / (b * F) * (phi / Sv) ** 2

/-- `Permeability.Bloch`, Perm.py:225-247; returns `(phi, k)`. -/
def Bloch (S C D : α) : α × α :=
  let phi := -6.1 + (9.8 / S) + (0.17 * C)
  let k := 10 **. (-4.67 + (1.34 * D) + (4.08 / S) + 3.42 * (C / 100))
  (phi, k)

/-- `Permeability.Bernabe`, Perm.py:250-285. -/
def Bernabe (phi crf w r : α) : α :=
  let phicrack := phi * crf
  let kcrack := (w ** 2) * phicrack / 30
  let phitube := phi - phicrack
  let ktube := (r ** 2) * phitube / 20
  kcrack + ktube

end RockPhy.Permeability
