import Verif.Py.Syntax

/-! # The text of `rockphypy/Perm.py`

Written by `tools/source.py`; do not edit. -/

namespace RockPhy.Source.Permeability

open RockPhy.Py

/-- `Permeability.Kozeny_Carman`, Perm.py:12-38. -/
def Kozeny_Carman : Fun where
  params := [⟨n!"phi", .none⟩, ⟨n!"d", .none⟩]
  body :=
  (.ofList [
    set! "k" := v!"d" ** 2 / 180 * v!"phi" ** 3 / (1 - v!"phi") ** 2,
    .ret v!"k"])

/-- `Permeability.Kozeny_Carman_Percolation`, Perm.py:40-63. -/
def Kozeny_Carman_Percolation : Fun where
  params := [⟨n!"phi", .none⟩, ⟨n!"phic", .none⟩, ⟨n!"d", .none⟩, ⟨n!"B", .none⟩]
  body :=
  (.ofList [
    set! "k" := v!"B" * v!"d" ** 2 * (v!"phi" - v!"phic") ** 3 / (1 + v!"phic" - v!"phi") ** 2,
    .ret v!"k"])

/-- `Permeability.Owolabi`, Perm.py:65-86. -/
def Owolabi : Fun where
  params := [⟨n!"phi", .none⟩, ⟨n!"Swi", .none⟩]
  body :=
  (.ofList [
    set! "k_oil" := 307 + 26552 * v!"phi" ** 2 - 34540 * (v!"phi" * v!"Swi") ** 2,
    set! "k_gas" := 30.7 + 2655 * v!"phi" ** 2 - 3454 * (v!"phi" * v!"Swi") ** 2,
    .ret t![v!"k_oil", v!"k_gas"]])

/-- `Permeability.Perm_logs`, Perm.py:88-119. -/
def Perm_logs : Fun where
  params := [⟨n!"phi", .none⟩, ⟨n!"Swi", .none⟩]
  body :=
  (.ofList [
    set! "k_tixier" := 62500 * v!"phi" ** 6 / v!"Swi" ** 2,
    set! "k_Timur" := 10000 * v!"phi" ** 4.5 / v!"Swi" ** 2,
    set! "k_coates" := 10000 * v!"phi" ** 4 * (1 - v!"Swi") ** 2 / v!"Swi" ** 2,
    set! "k_coates_Dumanoir" := 352 * v!"phi" ** 4 / v!"Swi" ** 4,
    .ret t![v!"k_tixier", v!"k_Timur", v!"k_coates", v!"k_coates_Dumanoir"]])

/-- `Permeability.Panda_Lake`, Perm.py:121-150. -/
def Panda_Lake : Fun where
  params := [⟨n!"d", .none⟩, ⟨n!"C", .none⟩, ⟨n!"S", .none⟩, ⟨n!"tau", .none⟩, ⟨n!"phi", .none⟩]
  body :=
  (.ofList [
    set! "k" := v!"d" ** 2 * v!"phi" ** 3 * (v!"C" ** 3 * v!"S" + 3 * v!"C" ** 2 + 1) ** 2 / (72 *
      v!"tau" * (1 - v!"phi") ** 2 * (v!"C" ** 2 + 1) ** 2),
    .ret v!"k"])

/-- `Permeability.Panda_Lake_cem`, Perm.py:152-170. -/
def Panda_Lake_cem : Fun where
  params := [⟨n!"phi", .none⟩, ⟨n!"d", .none⟩]
  body :=
  (.ofList [
    set! "K" := 3.34 * v!"d" ** 2 * (v!"phi" ** 3 / (1 - v!"phi") ** 2),
    .ret v!"K"])

/-- `Permeability.Revil`, Perm.py:172-191. -/
def Revil : Fun where
  params := [⟨n!"phi", .none⟩, ⟨n!"d", .none⟩]
  body :=
  (.ofList [
    set! "k" := 1000 * v!"d" ** 2 * v!"phi" ** 4.5 / 24,
    .ret v!"k"])

/-- `Permeability.Fredrich`, Perm.py:193-222. -/
def Fredrich : Fun where
  params := [⟨n!"phi", .none⟩, ⟨n!"d", .none⟩, ⟨n!"b", .none⟩]
  body :=
  (.ofList [
    set! "F" := 2.5 / v!"phi",
    set! "Sv" := 6 * (1 - v!"phi") * v!"d",
    set! "k" := 1 / (v!"b" * v!"F") * (v!"phi" / v!"Sv") ** 2,
    .ret v!"k"])

/-- `Permeability.Bloch`, Perm.py:224-247. -/
def Bloch : Fun where
  params := [⟨n!"S", .none⟩, ⟨n!"C", .none⟩, ⟨n!"D", .none⟩]
  body :=
  (.ofList [
    set! "phi" := -6.1 + 9.8 / v!"S" + 0.17 * v!"C",
    set! "k" := 10 ** (-4.67 + 1.34 * v!"D" + 4.08 / v!"S" + 3.42 * (v!"C" / 100)),
    .ret t![v!"phi", v!"k"]])

/-- `Permeability.Bernabe`, Perm.py:249-285. -/
def Bernabe : Fun where
  params := [⟨n!"phi", .none⟩, ⟨n!"crf", .none⟩, ⟨n!"w", .none⟩, ⟨n!"r", .none⟩]
  body :=
  (.ofList [
    set! "phicrack" := v!"phi" * v!"crf",
    set! "kcrack" := v!"w" ** 2 * v!"phicrack" / 30,
    set! "phitube" := v!"phi" - v!"phicrack",
    set! "ktube" := v!"r" ** 2 * v!"phitube" / 20,
    set! "k" := v!"kcrack" + v!"ktube",
    .ret v!"k"])

end RockPhy.Source.Permeability
