import Verif.Broadcast
import Verif.Model.EM
import Verif.Model.AVO
import Verif.Model.BW

/-!
# Functions that reshape their arguments

`AVO.Aki_Richards`, `AVO.EI_ref` and `EM.Swiss_cheese` turn their logs into columns before they
compute, when the first of them is an array.
-/

namespace RockPhy

namespace Nd

variable {α : Type}

/-- `isinstance(x, np.ndarray)`.  Numbers are Python or numpy scalars; arrays without dimensions
(`np.array(1.)`) are not distinguished from them. -/
def isArray : Nd α → Bool
  | arr [] _ => false
  | arr _ _ => true
  | err => false

/-- `x[:, np.newaxis]`: a new axis of size one after the first axis.  Shapes list the last axis
first, so the new axis is the last but one of the list.  A number cannot be indexed. -/
def newaxis : Nd α → Except PyErr (Nd α)
  | arr [] _ => .error .TypeError
  | arr s g => .ok (arr (s.take (s.length - 1) ++ 1 :: s.drop (s.length - 1))
      fun i => g (i.eraseIdx (s.length - 1)))
  | err => .ok err

/-- The positions of an array of the given shape, in the order of the memory. -/
def positions : List ℕ → List (List ℕ)
  | [] => [[]]
  | d :: s => (positions s).flatMap fun i => (List.range d).map (· :: i)

/-- `np.mean` of an array, of all its entries (a number is its own mean). -/
def mean [PyNum α] : Nd α → Nd α
  | arr s g => num (AVO.mean ((positions s).map g))
  | err => err

/-- `if x == None`: `None` is, a number is not; an array is compared entry by entry, and the truth
value of the comparison is an error unless there is exactly one entry.  (For an empty array older
versions of numpy warn instead.) -/
def isNone : Option (Nd α) → Except PyErr Bool
  | none => .ok true
  | some (arr s _) => if s.prod = 1 then .ok false else .error .ValueError
  | some err => .error .ValueError

end Nd

open Nd

variable {α : Type} [PyNum α]

/-- `AVO.Aki_Richards`, AVO.py:98-154, on arrays. -/
def AVO.Aki_Richards_array (theta vp1 vp2 vs1 vs2 den1 den2 : Nd α) :
    Except PyErr (Nd α × Nd α × Nd α × Nd α) := do
  if vp1.isArray then
    let vp1 ← vp1.newaxis
    let vp2 ← vp2.newaxis
    let vs1 ← vs1.newaxis
    let vs2 ← vs2.newaxis
    let den1 ← den1.newaxis
    let den2 ← den2.newaxis
    return AVO.Aki_Richards theta vp1 vp2 vs1 vs2 den1 den2
  else return AVO.Aki_Richards theta vp1 vp2 vs1 vs2 den1 den2

/-- `EM.Swiss_cheese`, EM.py:557-579, on arrays. -/
def EM.Swiss_cheese_array (Ks Gs phi : Nd α) : Except PyErr (Nd α × Nd α) := do
  if Ks.isArray then
    let Ks ← Ks.newaxis
    let Gs ← Gs.newaxis
    return EM.Swiss_cheese Ks Gs phi
  else return EM.Swiss_cheese Ks Gs phi

/-- `AVO.EI_ref`, AVO.py:315-349, on arrays that have been reshaped. -/
def AVO.EI_ref_array_core (Vp Vs rho theta SP : Nd α) (norm : Bool) :
    Nd α × Nd α × Nd α × Nd α × Nd α :=
  let ipn := if norm then Vp.mean * rho.mean else 1
  let isn := if norm then Vs.mean * rho.mean else 1
  AVO.EI_ref_entry ipn isn Vp.mean Vs.mean rho.mean norm Vp Vs rho theta SP

/-- `AVO.EI_ref`, AVO.py:276-349, on arrays. -/
def AVO.EI_ref_array (Vp Vs rho theta SP : Nd α) (norm : Bool) :
    Except PyErr (Nd α × Nd α × Nd α × Nd α × Nd α) := do
  if Vp.isArray then
    let Vp ← Vp.newaxis
    let Vs ← Vs.newaxis
    let rho ← rho.newaxis
    return AVO.EI_ref_array_core Vp Vs rho theta SP norm
  else return AVO.EI_ref_array_core Vp Vs rho theta SP norm

/-- `BW.rho_K_go`, BW.py:156-193, on arrays. -/
def BW.rho_K_go_array (P T den G : Nd α) (Rg : Option (Nd α)) : Except PyErr (Nd α × Nd α) := do
  if (← isNone Rg) then return BW.rho_K_go P T den G none
  else return BW.rho_K_go P T den G Rg

/-- `BW.co2_brine`, BW.py:306-340, on arrays. -/
def BW.co2_brine_array (T P S Sco2 : Nd α) (brie : Option (Nd α)) (bw : Bool) :
    Except PyErr (Nd α × Nd α) := do
  if (← isNone brie) then return BW.co2_brine T P S Sco2 none bw
  else return BW.co2_brine T P S Sco2 brie bw

end RockPhy
