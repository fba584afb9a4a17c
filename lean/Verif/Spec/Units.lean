import Verif.Model.Complex

/-!
# Systems of units

A system of units is chosen by a unit of mass, a unit of length and a unit of time.  Passing from
one system to another multiplies the number that measures a quantity of dimension
`mass^a length^b time^c` by `μ^a λ^b τ^c`, where `μ`, `λ` and `τ` are the old units measured in the
new ones.  A relation between physical quantities holds in every system of units (Bridgman's
principle), so a function that computes one must send converted arguments to the converted result.
-/

namespace RockPhy.Spec

/-- A change of units: how many new units of mass, length and time make an old one. -/
structure Units where
  mass : ℝ
  length : ℝ
  time : ℝ
  mass_pos : 0 < mass
  length_pos : 0 < length
  time_pos : 0 < time

namespace Units

variable (U : Units)

/-- What the change of units multiplies a quantity of dimension `mass^a length^b time^c` by. -/
noncomputable def factor (a b c : ℤ) : ℝ := U.mass ^ a * U.length ^ b * U.time ^ c

/-- The number that measures in the new units what `x` measured in the old ones; an undefined value
stays undefined. -/
noncomputable def conv (a b c : ℤ) : Fl → Fl
  | .fin x => .fin (U.factor a b c * x)
  | .bad => .bad

/-- Stresses, pressures and elastic moduli. -/
noncomputable abbrev stress : Fl → Fl := U.conv 1 (-1) (-2)
/-- Compliances. -/
noncomputable abbrev compliance : Fl → Fl := U.conv (-1) 1 2
/-- Densities. -/
noncomputable abbrev density : Fl → Fl := U.conv 1 (-3) 0
/-- Velocities. -/
noncomputable abbrev velocity : Fl → Fl := U.conv 0 1 (-1)
/-- Impedances, densities times velocities. -/
noncomputable abbrev impedance : Fl → Fl := U.conv 1 (-2) (-1)
/-- Lengths. -/
noncomputable abbrev len : Fl → Fl := U.conv 0 1 0
/-- Permeabilities, which are areas. -/
noncomputable abbrev perm : Fl → Fl := U.conv 0 2 0
/-- Dynamic viscosities. -/
noncomputable abbrev viscosity : Fl → Fl := U.conv 1 (-1) (-1)
/-- Frequencies. -/
noncomputable abbrev freq : Fl → Fl := U.conv 0 0 (-1)

/-- A pair of quantities of one dimension. -/
def on2 (u : Fl → Fl) (p : Fl × Fl) : Fl × Fl := (u p.1, u p.2)
/-- Three quantities of one dimension. -/
def on3 (u : Fl → Fl) (p : Fl × Fl × Fl) : Fl × Fl × Fl := (u p.1, on2 u p.2)
/-- Five quantities of one dimension. -/
def on5 (u : Fl → Fl) (p : Fl × Fl × Fl × Fl × Fl) : Fl × Fl × Fl × Fl × Fl :=
  (u p.1, u p.2.1, on3 u p.2.2)
/-- A complex quantity. -/
noncomputable def convC (a b c : ℤ) (z : Cx Fl) : Cx Fl := ⟨U.conv a b c z.re, U.conv a b c z.im⟩
/-- A matrix of quantities of one dimension. -/
def onM (u : Fl → Fl) (C : Mat6 Fl) : Mat6 Fl := fun i j => u (C i j)

end Units

end RockPhy.Spec
