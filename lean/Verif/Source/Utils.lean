import Verif.Py.Syntax

/-! # The text of `rockphypy/utils.py`

Written by `tools/source.py`; do not edit. -/

namespace RockPhy.Source.utils

open RockPhy.Py

/-- `utils.V`, utils.py:12-33. -/
def V : Fun where
  params := [⟨n!"K", .none⟩, ⟨n!"G", .none⟩, ⟨n!"rho", .none⟩]
  body :=
  (.ofList [
    set! "Vp" := c!"np.sqrt"[(v!"K" + 4. / 3 * v!"G") / v!"rho"] * 1e3,
    set! "Vs" := c!"np.sqrt"[v!"G" / v!"rho"] * 1e3,
    .ret t![v!"Vp", v!"Vs"]])

/-- `utils.poi`, utils.py:35-53. -/
def poi : Fun where
  params := [⟨n!"K", .none⟩, ⟨n!"G", .none⟩]
  body :=
  (.ofList [
    set! "nu" := (3 * v!"K" - 2 * v!"G") / (6 * v!"K" + 2 * v!"G"),
    .ret v!"nu"])

/-- `utils.lame`, utils.py:55-73. -/
def lame : Fun where
  params := [⟨n!"K", .none⟩, ⟨n!"G", .none⟩]
  body :=
  (.ofList [
    set! "lamda" := v!"K" - 2 * v!"G" / 3,
    .ret v!"lamda"])

/-- `utils.M_from_V`, utils.py:75-109. -/
def M_from_V : Fun where
  params := [⟨n!"den", .none⟩, ⟨n!"vp", .none⟩, ⟨n!"vs", .none⟩]
  body :=
  (.ofList [
    set! "K" := v!"den" * 1000 * (v!"vp" ** 2 - 4 * v!"vs" ** 2 / 3),
    set! "G" := v!"den" * 1000 * v!"vs" ** 2,
    set! "K" := v!"K" / 10 ** 9,
    set! "G" := v!"G" / 10 ** 9,
    .ret t![v!"K", v!"G"]])

/-- `utils.write_HTI_matrix`, utils.py:111-141. -/
def write_HTI_matrix : Fun where
  params := [⟨n!"C11", .none⟩, ⟨n!"C33", .none⟩, ⟨n!"C13", .none⟩, ⟨n!"C44", .none⟩, ⟨n!"C55",
    .none⟩]
  body :=
  (.ofList [
    set! "C23" := v!"C33" - 2 * v!"C44",
    set! "C" := c!"np.array"[l![l![v!"C11", v!"C13", v!"C13", 0, 0, 0], l![v!"C13", v!"C33",
      v!"C23", 0, 0, 0], l![v!"C13", v!"C23", v!"C33", 0, 0, 0], l![0, 0, 0, v!"C44", 0, 0], l![0,
      0, 0, 0, v!"C55", 0], l![0, 0, 0, 0, 0, v!"C55"]]],
    .ret v!"C"])

/-- `utils.write_VTI_compliance`, utils.py:143-175. -/
def write_VTI_compliance : Fun where
  params := [⟨n!"S11", .none⟩, ⟨n!"S12", .none⟩, ⟨n!"S13", .none⟩, ⟨n!"S33", .none⟩, ⟨n!"S44",
    .none⟩]
  body :=
  (.ofList [
    set! "S66" := 2 * (v!"S11" - v!"S12"),
    set! "S" := c!"np.array"[l![l![v!"S11", v!"S12", v!"S13", 0, 0, 0], l![v!"S12", v!"S11",
      v!"S13", 0, 0, 0], l![v!"S13", v!"S13", v!"S33", 0, 0, 0], l![0, 0, 0, v!"S44", 0, 0], l![0,
      0, 0, 0, v!"S44", 0], l![0, 0, 0, 0, 0, v!"S66"]]],
    .ret v!"S"])

/-- `utils.write_VTI_matrix`, utils.py:177-208. -/
def write_VTI_matrix : Fun where
  params := [⟨n!"C11", .none⟩, ⟨n!"C33", .none⟩, ⟨n!"C13", .none⟩, ⟨n!"C44", .none⟩, ⟨n!"C66",
    .none⟩]
  body :=
  (.ofList [
    set! "C12" := v!"C11" - 2 * v!"C66",
    set! "C" := c!"np.array"[l![l![v!"C11", v!"C12", v!"C13", 0, 0, 0], l![v!"C12", v!"C11",
      v!"C13", 0, 0, 0], l![v!"C13", v!"C13", v!"C33", 0, 0, 0], l![0, 0, 0, v!"C44", 0, 0], l![0,
      0, 0, 0, v!"C44", 0], l![0, 0, 0, 0, 0, v!"C66"]]],
    .ret v!"C"])

/-- `utils.write_matrix`, utils.py:210-247. -/
def write_matrix : Fun where
  params := [⟨n!"C11", .none⟩, ⟨n!"C22", .none⟩, ⟨n!"C33", .none⟩, ⟨n!"C12", .none⟩, ⟨n!"C13",
    .none⟩, ⟨n!"C23", .none⟩, ⟨n!"C44", .none⟩, ⟨n!"C55", .none⟩, ⟨n!"C66", .none⟩]
  body :=
  (.ofList [
    set! "C" := c!"np.array"[l![l![v!"C11", v!"C12", v!"C13", 0, 0, 0], l![v!"C12", v!"C22",
      v!"C23", 0, 0, 0], l![v!"C13", v!"C23", v!"C33", 0, 0, 0], l![0, 0, 0, v!"C44", 0, 0], l![0,
      0, 0, 0, v!"C55", 0], l![0, 0, 0, 0, 0, v!"C66"]]],
    .ret v!"C"])

/-- `utils.write_iso`, utils.py:249-274. -/
def write_iso : Fun where
  params := [⟨n!"K", .none⟩, ⟨n!"G", .none⟩]
  body :=
  (.ofList [
    set! "lamda" := v!"K" - 2 * v!"G" / 3,
    set! "C" := c!"np.array"[l![l![v!"lamda" + 2 * v!"G", v!"lamda", v!"lamda", 0, 0, 0],
      l![v!"lamda", v!"lamda" + 2 * v!"G", v!"lamda", 0, 0, 0], l![v!"lamda", v!"lamda", v!"lamda"
      + 2 * v!"G", 0, 0, 0], l![0, 0, 0, v!"G", 0, 0], l![0, 0, 0, 0, v!"G", 0], l![0, 0, 0, 0, 0,
      v!"G"]]],
    .ret v!"C"])

/-- `utils.crack_por`, utils.py:276-294. -/
def crack_por : Fun where
  params := [⟨n!"crd", .none⟩, ⟨n!"alpha", .none⟩]
  body :=
  (.ofList [
    set! "cpor" := 4 * v!"np.pi" * v!"alpha" * v!"crd" / 3,
    .ret v!"cpor"])

/-- `utils.v_to_c_VTI`, utils.py:296-331. -/
def v_to_c_VTI : Fun where
  params := [⟨n!"Vp0", .none⟩, ⟨n!"Vp45", .none⟩, ⟨n!"Vp90", .none⟩, ⟨n!"Vs0", .none⟩, ⟨n!"Vsh90",
    .none⟩, ⟨n!"den", .none⟩]
  body :=
  (.ofList [
    set! "C11" := v!"den" * v!"Vp90" ** 2,
    set! "C12" := v!"C11" - 2 * v!"den" * v!"Vsh90" ** 2,
    set! "C33" := v!"den" * v!"Vp0" ** 2,
    set! "C44" := v!"den" * v!"Vs0" ** 2,
    set! "M" := 4 * v!"den" ** 2 * v!"Vp45" ** 4 - 2 * v!"den" * v!"Vp45" ** 2 * (v!"C11" + v!"C33"
      + 2 * v!"C44") + (v!"C11" + v!"C44") * (v!"C33" + v!"C44"),
    set! "C13" := -v!"C44" + c!"np.sqrt"[v!"M"],
    set! "C66" := 0.5 * (v!"C11" - v!"C12"),
    set! "C" := c!"utils.write_VTI_matrix"[v!"C11", v!"C33", v!"C13", v!"C44", v!"C66"],
    .ret v!"C"])

end RockPhy.Source.utils
