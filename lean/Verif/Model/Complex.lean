import Verif.Num

/-! # Complex numbers of the Python source

numpy's `complex128` scalars and arrays, entrywise.  A real operand that meets a complex one is
first converted to a complex number, as numpy does.  Signed zeros are not distinguished: on the
negative real axis the square root is the one with non-negative imaginary part. -/

namespace RockPhy

/-- A complex number `re + im*1j`. -/
structure Cx (α : Type) where
  re : α
  im : α

namespace Cx

variable {α : Type} [PyNum α]

/-- A real number used where a complex number is expected. -/
def ofR (x : α) : Cx α := ⟨x, 0⟩
/-- `1j`. -/
def I : Cx α := ⟨0, 1⟩

instance : Add (Cx α) := ⟨fun z w => ⟨z.re + w.re, z.im + w.im⟩⟩
instance : Sub (Cx α) := ⟨fun z w => ⟨z.re - w.re, z.im - w.im⟩⟩
instance : Neg (Cx α) := ⟨fun z => ⟨-z.re, -z.im⟩⟩
instance : Mul (Cx α) := ⟨fun z w => ⟨z.re * w.re - z.im * w.im, z.re * w.im + z.im * w.re⟩⟩
instance : Div (Cx α) := ⟨fun z w =>
  ⟨(z.re * w.re + z.im * w.im) / (w.re * w.re + w.im * w.im),
   (z.im * w.re - z.re * w.im) / (w.re * w.re + w.im * w.im)⟩⟩

/-- `np.abs`. -/
def abs (z : Cx α) : α := PyNum.sqrt (z.re * z.re + z.im * z.im)
/-- `np.sqrt` (and `** (1/2)`): the principal square root. -/
def sqrt (z : Cx α) : Cx α :=
  ⟨PyNum.sqrt ((z.abs + z.re) / 2),
   if PyNum.lt z.im 0 then -PyNum.sqrt ((z.abs - z.re) / 2) else PyNum.sqrt ((z.abs - z.re) / 2)⟩
/-- `np.exp`. -/
def exp (z : Cx α) : Cx α :=
  ⟨PyNum.exp z.re * PyNum.cos z.im, PyNum.exp z.re * PyNum.sin z.im⟩

end Cx

end RockPhy
