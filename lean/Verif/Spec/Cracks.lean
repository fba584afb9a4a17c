import Verif.Spec.Layered

/-!
# Specification: a rock with thin cracks, dry or filled with trapped fluid

Independent of the model.  A crack is a plane that opens under tension and slides under shear.
Dry, it feels the traction of the rock only.  Filled with fluid at high frequency, the fluid has no
time to leave: its pressure adjusts until its change of volume equals that of the crack.
-/

namespace RockPhy.Spec

open Matrix

/-- A thin crack: unit normal, opening per unit tension, sliding per unit shear traction, and pore
volume (the last three per volume of rock). -/
structure Crack where
  n : Fin 3 → ℝ
  zN : ℝ
  zT : ℝ
  vol : ℝ

/-- The normal has length one, compliances and volume are not negative. -/
structure Crack.Valid (c : Crack) : Prop where
  unit : c.n ⬝ᵥ c.n = 1
  zN_nonneg : 0 ≤ c.zN
  zT_nonneg : 0 ≤ c.zT
  vol_nonneg : 0 ≤ c.vol

/-- How far the faces of the crack move apart, opening and sliding, when the rock carries the stress
`s` (positive in tension) and the fluid in the crack the pressure `p`. -/
def Crack.jump (c : Crack) (s : Strain) (p : ℝ) : Fin 3 → ℝ :=
  let t := s *ᵥ c.n
  (c.zN * (t ⬝ᵥ c.n + p)) • c.n + c.zT • (t - (t ⬝ᵥ c.n) • c.n)

/-- The strain this adds to the rock. -/
noncomputable def Crack.strain (c : Crack) (s : Strain) (p : ℝ) : Strain :=
  (1 / 2 : ℝ) • (vecMulVec (c.jump s p) c.n + vecMulVec c.n (c.jump s p))

/-- The crack is filled with a fluid of bulk modulus `Kf` that cannot leave: the fluid expands by
`-vol * p / Kf`, which is the volume opened by the crack. -/
def Crack.Trapped (c : Crack) (Kf : ℝ) (s : Strain) (p : ℝ) : Prop :=
  Kf * (c.jump s p ⬝ᵥ c.n) = -(c.vol * p)

/-- The strain of a rock with dry cracks under the stress `s`; `B` gives the strain of the rock
without the cracks. -/
noncomputable def dryStrain {m : ℕ} (B : Strain → Strain) (c : Fin m → Crack) (s : Strain) : Strain :=
  B s + ∑ i, (c i).strain s 0

/-- `e` is the strain of the rock under the stress `s` when every crack traps its own fluid. -/
def IsWetStrain {m : ℕ} (B : Strain → Strain) (c : Fin m → Crack) (Kf : ℝ) (s e : Strain) : Prop :=
  ∃ p : Fin m → ℝ, (∀ i, (c i).Trapped Kf s (p i)) ∧ e = B s + ∑ i, (c i).strain s (p i)

/-- The strain of an isotropic solid under the stress `s`. -/
noncomputable def isoStrain (K G : ℝ) (s : Strain) : Strain :=
  (s.trace / (9 * K)) • 1 + (1 / (2 * G)) • (s - (s.trace / 3) • 1)

/-- `S = [S11 S12 S13 S33 S44]` are the compliances of a rock with vertical symmetry axis whose strain
under the stress `s` is `E s`; shear strains are engineering strains. -/
def IsTICompliance (E : Strain → Strain) (S : Fin 5 → ℝ) : Prop :=
  ∀ s : Strain, s.IsSymm → voigt (E s) =
    !![S 0, S 1, S 2, 0, 0, 0;
       S 1, S 0, S 2, 0, 0, 0;
       S 2, S 2, S 3, 0, 0, 0;
       0, 0, 0, S 4, 0, 0;
       0, 0, 0, 0, S 4, 0;
       0, 0, 0, 0, 0, 2 * (S 0 - S 1)] *ᵥ voigtStress s

/-- The published formula for squirt flow in a rock with vertical symmetry axis (Mukerji and Mavko,
1994): dry compliances `S`, compliances `H` with the cracks closed, shear compliances in the
engineering convention `S44 = 4 S2323`. -/
noncomputable def mukerjiMavko (S H : Fin 5 → ℝ) : Fin 5 → ℝ :=
  let D := fun i => S i - H i
  let Z := 2 * D 0 + 2 * D 1 + 4 * D 2 + D 3
  let d := fun i => D i / Z
  let α := (2 * d 0 + d 3 + d 4 + (d 0 - d 1) - 1) / 4
  let G : Fin 5 → ℝ :=
    ![(d 0 - 4 * α * (d 0 + d 1 + d 2)) / (1 - 4 * α), d 1 / (1 - 4 * α), d 2 / (1 - 4 * α),
      (d 3 - 4 * α * (2 * d 2 + d 3)) / (1 - 4 * α),
      (d 4 - 4 * α * (d 0 + d 1 + 3 * d 2 + d 3)) / (1 - 4 * α)]
  fun i => S i - Z * G i

end RockPhy.Spec
