import Verif.Num

/-! Helpers for the executable comparisons with the expected values in `/repo/pytest`.
Nothing in `Verif/Tests` is a proof. -/

namespace RockPhy.Tests

/-- `np.allclose(a, b, rtol=1e-6, atol=1e-6)` on one number. -/
def approx (a b : Float) : Bool := Float.abs (a - b) ≤ 1e-6 + 1e-6 * Float.abs b

def approx2 (a b : Float × Float) : Bool := approx a.1 b.1 && approx a.2 b.2

def approx3 (a b : Float × Float × Float) : Bool := approx a.1 b.1 && approx2 a.2 b.2

def approxL (a b : List Float) : Bool :=
  a.length == b.length && (List.zipWith approx a b).all id

def approxM (A : Mat6 Float) (B : List (List Float)) : Bool :=
  (List.finRange 6).all fun i => (List.finRange 6).all fun j =>
    approx (A i j) ((B.getD i.val []).getD j.val 1e300)

def okAnd {β} (x : Except PyErr β) (p : β → Bool) : Bool :=
  match x with
  | .ok b => p b
  | .error _ => false

end RockPhy.Tests
