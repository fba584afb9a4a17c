# Formal model of rockphypy: design

Source: `/repo` (yujiaxin666/rockphypy, Python, read as text, never run).
Proof assistant: Lean 4.33.0 with Mathlib. Lake project: `/verif/lean`.

## 1. What is modelled

rockphypy is a library of static methods doing closed-form real arithmetic on
scalars, numpy arrays and 6x6 stiffness matrices. The interesting content is
therefore (a) the algebra of each formula, (b) where that algebra is undefined
(division by zero, roots of negative numbers), (c) branches on option arguments
that leave a variable unbound, (d) list/array plumbing (masks, loops, aliasing,
iteration counts).

### 1.1 One generic model, several interpretations

`Verif/Num.lean` defines a class `PyNum α` with the arithmetic the Python code
uses: `+ - * /`, unary minus, literals, `x ** n` for a natural exponent,
`inv x` for `x**-1`, `rpow x y` for other exponents, `sqrt exp log sin cos tan
arcsin arccos arctan cosh pi`, and the three comparisons. Every Python function
is written once, in `Verif/Model/<module>.lean`, for an arbitrary `PyNum`; its
comment cites file and lines. It is then read at two instances:

* `Fl` = `fin r | bad`, `r : ℝ`. Exact real arithmetic where `bad` means "some
  step left the finite real numbers": division by zero, `inv 0`, `sqrt` of a
  negative, `log` of a non-positive, non-integer power of a negative, negative
  power of zero, `arcsin/arccos` outside [-1,1]. Python raises there for floats
  (ZeroDivisionError), returns a complex number, or numpy yields inf/nan. `bad`
  is absorbing. All theorems about numbers are stated at `Fl`, and say
  `... = fin (closed form)`; definedness is a conclusion, never an
  assumption, and Lean's own `x/0 = 0` convention never leaks into a statement.
* `Float`, executable. Used only in `Verif/Tests/*.lean`, where `#guard`
  commands compare the model with the expected values written in
  `/repo/pytest`. Those are tests of the transcription, not proofs.

Comparisons at `Fl` involving `bad` are `false`, as for nan.

A third instance, `Np` (`Verif/Np.lean`), keeps numpy's two infinities and nan
for the handful of cases where numpy's absorption (`1/inf = 0`) gives a finite
answer after a division by zero.

A fourth instance, `Rd A` (`Verif/Rounded.lean`), is computer arithmetic: every
operation returns the exact result with a relative error of at most `A.u`, by a
rule `A.rnd` that may depend on the operation and its operands. `binary53` rounds
to nearest with 53 significant bits. Integer literals, negation and comparisons
are exact; the range of exponents is unlimited; a sum is added up from the right
(numpy may use another order). C96 compares the model at `Fl` with the model at
`Rd A`.

A fifth instance, `Dt` (`Verif/Dtype.lean`), knows whether an array holds integers:
`int n`, `flt r`, `bad` and `err` (numpy raised `ValueError`). Sums, products and
natural powers of integers are integers, division and functions give floats, an
integer array to a negative integer power raises, and `PyNum.store a x` (the entry
left behind by `a[i] = x`) cuts `x` to an integer when `a` holds integers. Integers
are unbounded (no overflow). C99 compares the model at `Dt` with the model at `Fl`.

A sixth instance, `Nd α` (`Verif/Broadcast.lean`), is an array of any shape with
entries in `α`, or the `ValueError` of shapes that do not fit; operators broadcast as
in numpy. Its comparisons are dummies and no theorem uses them. C102 compares the
model at `Nd Fl` with the model at `Fl`.

### 1.2 Errors as values

Functions whose branches can leave a local variable unbound, or which can raise
on shapes, return `Except PyErr β` with `PyErr` listing the Python exceptions
(`UnboundLocalError`, `ValueError`, `LinAlgError`, `IndexError`, ...).

### 1.3 Arrays

Elementwise numpy formulas are modelled on one element; the vectorised call is
the entrywise map, which is what numpy broadcasting does for arithmetic. Where
the code really works with arrays (sums, masks, loops, in-place writes) the
model uses `List`. Complex arrays are pairs of the scalar type with numpy's
arithmetic (`Verif/Model/Complex.lean`); `sqrt` is the principal branch. 6x6 matrices are functions `Fin 6 → Fin 6 → α`.

### 1.4 External calls

`scipy.optimize.fsolve`, `scipy.integrate.odeint`, `numpy.roots`, Bessel
functions and `numpy.linalg.inv` are not modelled. They appear as parameters of
the model functions:

* `fsolve` takes the residual function and returns any value;
* `roots` (used by `GM.Digby`) is constrained by `RootsOracle`
  (`Verif/Spec/Roots.lean`): it returns the complex roots of the polynomial with
  multiplicity, in some order;
* `linv` is constrained by `InvOracle` (`Verif/Spec/LinAlg.lean`): it returns
  the inverse of an invertible matrix and raises `LinAlgError` for a singular
  one;
* `jv0`, `jv1` (Bessel functions in `Fluid.Biot`) are any functions that take
  finite complex numbers to finite complex numbers. C76 only needs the flow
  correction built from them to have a positive real part. C98 assumes the
  contract of the scipy functions: that they are the Bessel functions of order
  0 and 1, given by their power series in `Spec.besselJ`.

A theorem that depends on one states that contract as a hypothesis.
`odeint` (used by `EM.Berryman_DEM`) takes the right hand side `EM.DEM` and is
constrained only by the solution contract a theorem states (C82: `IsExactIntegrator`, which asks for the values of a
solution only where the solution is proved to exist and to be the only one). `numpy` broadcasting of two one-dimensional arrays is the
function `bzip` (equal lengths, or one side of length one, else `ValueError`).

### 1.5 From the text to the model

The models are written by hand. C105 ties them to the text. `tools/source.py` reads
`/repo/rockphypy/*.py` with Python's own parser and writes each function as a term of
the syntax of `Verif/Py/Syntax.lean`, line by line (`Verif/Source/*.lean`). It has no
other task: nothing is computed or simplified; docstrings and comments are
dropped. `Verif/Py/Semantics.lean` is an interpreter for that syntax. The theorems of
`Verif/Props/Source*.lean` say that running the source of a function on arbitrary
arguments gives what its model gives. What has to be trusted for C105 is the translator
(one constructor per kind of syntax node) and the interpreter. Its rules are Python's and
numpy's with these readings:

* an integer in arithmetic is the number `PyNum.nat` of it; `a ** n` and `a ** n.` with a
  literal natural `n` are `npow`, `a ** -1` is `inv`, a more negative power of an integer literal
  is a quotient (`10**-2`), every other power is `rpow`; a complex number to the power `1/2`
  is its principal square root;
* `sum` and `np.sum` of a vector add up in the order of the model's `lsum`;
* two variables are bound to one object only after a plain `x = y`; an array passed as an
  argument is a value (C103 has the effects on the caller's arrays);
* `warnings.warn` does nothing; `isinstance(x, np.ndarray)` is true of vectors, so for the three functions
  that ask (`AVO.Aki_Richards`, `AVO.EI_ref`, `EM.Swiss_cheese`) numbers are numbers and logs are vectors, also
  when `α` is itself a type of arrays;
* functions of scipy and `np.linalg` are parameters (`Lib`), which may call back into
  the package;
* what the interpreter does not cover is `stuck`, which is no result of any model.

* `z ** 2` of an array of complex numbers is `z * z`;
* an array of rank two with no rows has no number of columns.

Plots (`Py/Plot.lean`): a call of pyplot, or of a method of axes, figures or colour bars, is a command.
pyplot is a list of open figures; a figure is the list of things drawn on its axes; the handles of a
figure, its axes and its colour bar carry its position. `Plots` (`Spec/SourcePlot.lean`) says that a method
leaves the same figures open and returns, or raises, the same as the model of `Model/Plot.lean`.
Line widths, sizes, transparency and figure sizes are ignored. A method reads the attributes of its object
as variables `self.x`. `kde2d` (KDEpy) and `np.empty` are parameters with the contracts `Kde2d`, `Empties2`.

`QI.plot_rpt` is run with at least one saturation (the interpreter does not know the number of columns of
an array without rows).

Data frames (`QI.estimate_cem`): a data frame is the list of its columns; `df[c] = v` replaces the column or
adds it on the right, `df.iloc[i, :-1]` is a row without its last column, and `df.vcem.values[i] = x` writes
through to the frame. `str` of a number is a parameter (`Strs`); the theorem asks that different seeds are
printed differently and that no seed is NaN (`Distinct`), and that the two logs have the same length.
The dictionary `**kwargs` of `QI.__init__` is the tuple of its items. Every function of the package has a
theorem of C105.

### 1.6 Not modelled

Overflow and underflow, and floating-point rounding outside C96; dtype effects of integer
arrays outside C99, integer overflow; the rendering of plots (marker styles, colour maps,
figure sizes), matplotlib itself (a figure is the list of drawing commands it
received, `Model/Plot.lean`) and kernel density estimation (`kde2d` is a parameter); printing; pandas index alignment; performance.

## 2. Layout

| path | content |
|---|---|
| `Verif/Num.lean`, `Verif/Attr.lean`, `Verif/Np.lean`, `Verif/Rounded.lean`, `Verif/Dtype.lean`, `Verif/Broadcast.lean`, `Verif/NdAttr.lean` | `PyNum` and its instances, evaluation simp set |
| `Verif/Model/*.lean` | the Python functions, one file per Python module |
| `Verif/Spec/*.lean` | small independent specifications (no reference to models, except that `Plot.lean` reads the drawing commands and `Memory.lean` the arrays and the residuals of Berryman's equations) |
| `Verif/Lemmas/*.lean` | closed-form evaluation and helper lemmas |
| `Verif/Props/*.lean` | property theorems, each followed by a non-vacuity example |
| `Verif/Py/*.lean` | syntax of the Python source, its interpreter, tactics that run it |
| `Verif/Source/*.lean` | the functions of `/repo` in that syntax, generated by `tools/source.py` |
| `Verif/Tests/*.lean` | `#guard` tests of the model at `Float` against `/repo/pytest` values |
| `tools/props_list.py` | single source for `properties.jsonl` and `MANIFEST.json` |
| `seeded/LOG.jsonl` | mutation log |

## 3. Trusted base

Lean's kernel; the axioms `propext`, `Classical.choice`, `Quot.sound` (through
Mathlib's reals); the reading of Python into `Verif/Model`, which for the functions of
C105 reduces to `tools/source.py` and the interpreter of `Verif/Py` (section 1.5); the `Fl` semantics of
section 1.1; the contracts of section 1.4 where a theorem names one. No other
axioms, no `sorry`, no `native_decide`, no `bv_decide`.

## 4. Plan per property

| id | model | proof |
|---|---|---|
| C01 | `utils.V`, `utils.M_from_V` | evaluate to closed forms, `Real.sq_sqrt` / `Real.sqrt_sq` |
| C02 | `utils.poi`, `utils.lame`, `utils.V` | field algebra, sign analysis |
| C03 | matrix writers | entrywise; positive definiteness as a quadratic form on ℝ⁶ |
| C04 | `v_to_c_VTI`, `vel_azi_VTI` | Christoffel roots at 0/45/90 degrees, `sqrt` algebra |
| C05 | `EM.VRH` on lists | weighted AM-HM by induction on the list |
| C06 | `EM.VRH` | list sums under permutation / cons split |
| C07 | `cripor`, `cripor_reuss` | field algebra |
| C08 | `EM.HS`, `EM.VRH` | HS as a monotone weighted harmonic form in the auxiliary modulus |
| C09 | `EM.HS` | field algebra |
| C10 | `EM.HS` at `Fl` and at `Np` | evaluation |
| C11 | `EM.MT_average`, `EM.HS` | field algebra |
| C12-C16 | `hudson*`, `Eshelby_Cheng` | entrywise algebra; orientation average via explicit averages |
| C17-C19 | `PQ`, `PQ_vectorize`, `Berryman_func`, `DEM` | branchwise algebra, list sums, array state as value |
| C20-C21 | `Swiss_cheese`, `SC` | induction on the iteration count |
| C22-C24 | crack and dilute models | algebra, derivative at zero, iteration |
| C25-C28 | Brie, Gassmann family | Gassmann's relation as an invariant of the rock frame |
| C29-C30 | Brown-Korringa | rank-one update algebra on 6x6 matrices |
| C31-C33 | Biot/Geertsma/squirt | discriminant sign, monotonicity, witness for the defect |
| C34-C38 | anisotropy | Christoffel determinant, list sums (Cauchy-Schwarz), rotation matrices |
| C39-C47 | granular media | cube roots with `Real.rpow`, reuse of the HS lemmas, cubic analysis |
| C48-C52 | AVO | trigonometric identities |
| C53-C55 | fluids | `HasDerivAt`, algebra |
| C56-C61 | empirical, permeability, QI | list induction, algebra |
| C62 | `Fluid.Mavko_Jizba` | Gassmann lemmas, compliance algebra |
| C63-C64 | `contactcement`, `diluting` | sign of the cement polynomials, `Real.rpow` monotonicity, parity |
| C65-C66 | permeability mixtures and correlations | algebra, monotonicity of `rpow` |
| C67-C70 | empirical trends | algebra, `exp`/`log` monotonicity |
| C71-C72 | oil and water correlations | polynomial sign on the stated range |
| C73-C75 | `normalize`, `screening`, `plot_rpt` tables | lists of finite numbers, Gassmann monotonicity |
| C76 | Biot dispersion, complex arithmetic, Bessel functions as parameters | roots of the complex quadratic, limits of the complex square root |
| C77 | White and Dutta-Ode patchy saturation | energy identity of the radial diffusion equation, Taylor bounds at low and growth at high frequency |
| C78 | weak contrast limit of the Zoeppritz equations | closed form of the 4x4 systems for P and SV incidence, derivative at zero contrast |
| C79 | `PQ` against Eshelby's ellipsoid | specification: Mura's integrals and the equivalent inclusion equation (`Spec/Eshelby.lean`); closed form of the integrals for spheroids, solution of the linear system, sum over five shears |
| C80 | `Eshelby_Cheng` against the same specification | Cramer's rule for the axial block, dilute stress |
| C81 | sphere models through the concentration factors of C79 | the factors of Eshelby's problem are unique, so those of the sphere are the closed form of `PQ`; algebra |
| C82 | `Berryman_func`, `Berryman_sc`, `DEM`, `Berryman_DEM` (`fsolve`, `odeint` and `ceil` are parameters with a specification) | induction over the list of phases; sign of the weighted sum at a root; existence of a root by the theorem of Poincaré and Miranda (`Verif/Lemmas/Miranda.lean`, proved through a continuous argument on the plane); integrating factor and monotonicity for the differential equation; Picard-Lindelöf on a rectangle of moduli with barrier arguments (in the ratio of the moduli for voids) for existence, Grönwall for uniqueness; explicit solution for equal shear |
| C83 | `crack_por`, `Dilute_crack`, `hudson` (first order) against the limit of Eshelby's spheroid | limits of the shape numbers divided by the aspect ratio; all other quantities are continuous functions of them |
| C84 | `OConnell_Budiansky`, `OConnell_Budiansky_fl` (`fsolve` is a parameter) | same limits with a fluid; the two equations are solved for the self-consistency condition |
| C85 | `Backus` | `Spec/Layered.lean` states welding, equal tractions and averages; solved layer by layer, averages are linear |
| C86 | `hertzmindlin`, `Walton`, `Digby` (`roots` is a parameter) | `Spec/Contact.lean` states the averaging over directions and the law of one contact; moments of directions by integration (`Lemmas/Sphere.lean`), stiffness as a derivative |
| C87 | `contactcement` | same averaging; lens volume by integration; the fitted polynomials of Dvorkin and Nur are part of the specification |
| C88 | `Gassmann`, `Brown_Korringa_*` (matrix inverse is a parameter) | `Spec/Poro.lean` states linear response, drained and unjacketed tests and reciprocity; the response is unique, the undrained pressure is solved for |
| C89 | `Thomsen`, `Thomsen_Tsvankin`, `vel_azi_VTI` | derivatives of both velocities in the anisotropy, and in the squared sine at the vertical; Christoffel matrices in the symmetry planes entry by entry |
| C90 | `cst_vels`, `cal_v_const` | the dry line is bounded by the mineral, so Gassmann's relation has one solution; velocities are characterised by modulus and mass balance, and the two functions compared through their densities |
| C91 | `VRH` | `Spec/Composite.lean` defines composites, strain fields and effective moduli with integrals over a probability space; the bounds follow from two completed squares |
| C92 | `HS` | `Spec/Periodic.lean` defines periodic composites in equilibrium through Fourier coefficients; the bounds follow from Parseval's identity and the polarisation argument of Hashin and Shtrikman; existence of the moduli is the Lax-Milgram theorem of Mathlib. The isotropic statement is shown non-vacuous only for a one-constituent cell when the shear moduli differ; the statements on rotational means and on equal shear moduli apply to every geometry |
| C93 | `HS`, `MT_average` | `Spec/CoatedSphere.lean` states Hooke's law, momentum balance and continuity for a coated sphere; the two invariants of the radial equation give the general solution, continuity fixes the constants |
| C94 | `Kozeny_Carman`, `Panda_Lake`, `Bernabe`, `Fredrich` | `Spec/Capillary.lean` states steady viscous flow in tubes and slits, Darcy's law and grain surfaces; the flow equations are integrated, moments of the size distribution expanded |
| C95 | `AVO_HTI`, `AVO_ortho` | `Spec/Scattering.lean` states exact plane-wave reflection between anisotropic half-spaces (Christoffel's equation, welded contact, directions by energy flow); the derivative of the exact coefficient at the isotropic medium follows from energy conservation and reciprocity (`Lemmas/Scattering*.lean`, `Reflection*.lean`) and is compared with that of the program; existence and uniqueness of the exact coefficient near the background by simultaneous diagonalisation of the vertical-slowness problem (`Lemmas/Pencil.lean`, `Modes*.lean`) |
| C96 | the generic model read at `Rd A` | relative errors as powers of `1 - u` (`Spec/Rounding.lean`), one rule per operation on positive numbers, list induction for sums; for `SC` the exact step maps `k` errors to `k` errors because it is a sum of positive terms in disguise; for `M_from_V` each rounding is a factor near one |
| C97 | `GM.johnson` | `Spec/StrainedPack.lean`: a pack of spheres whose contact radii follow Hertz's law along a strain path, forces gathered by integrating the tangent stiffness along the path, stress as the average over contact directions; spherical averages with an axial weight reduce to integrals over one variable (`Lemmas/SphereWeighted.lean`), which are compared with the code's recursion for its integrals |
| C98 | `Fluid.Biot` with `jv0`, `jv1` the Bessel functions | `Spec/Oscillating.lean`: power series of the Bessel functions, equation of motion of a fluid ring, wall friction against mean velocity; Lagrange's identity with one solution gives the friction of every flow; the ratios of neighbouring Bessel functions stay in the first quadrant by downward induction on the order (three-term recurrence), which gives non-vanishing, dissipation and the error below 0.1; a Riccati equation and a fencing argument give the error above 1000 |
| C99 | the generic model read at `Dt` | `toFl` commutes with every operation except inverting an integer and an integer to a negative integer power; each formula is checked operation by operation; the in-place assignment of `PQ_vectorize` is a `store`; the factors at aspect ratio 0 are compared with Walpole's disks |
| C100 | `Mavko_Jizba`, `Squirt_anisotropic` | `Spec/Cracks.lean`: finitely many cracks with normal and tangential compliance, trapped fluid as a balance of volumes, the published anisotropic formula; a wet crack is a dry one with smaller normal compliance; the two invariants `S_aabb`, `S_abab` give the isotropic case, the fourth moments of the crack normals the anisotropic one |
| C101 | `QI.__init__`, the five plotting functions | `Model/Plot.lean`: pyplot as a state monad over the list of open figures with exceptions, a figure being its drawing commands; `Spec/Plot.lean`: what a figure shows (curves, samples, density maps, labels), `Shows`, `Abandons`, `Isolated`, sessions; each call is run symbolically from an arbitrary list of open figures, loops by induction |
| C102 | every formula without comparisons; `AVO.Aki_Richards`, `AVO.EI_ref`, `EM.Swiss_cheese` with `[:, np.newaxis]`; `== None` in `BW` | `Verif/Broadcast.lean`: the instance `Nd` of `PyNum` (arrays of any shape, numpy's broadcasting, `ValueError`); `Model/Arrays.lean`: the functions that reshape or compare; `Spec/Broadcast.lean`: `Elementwise`, logs and tables. Broadcasting is shown to be a semilattice, reading an entry commutes with every operator on arrays that fit; each formula is then evaluated symbolically, loops by induction. A statement of the source whose value is not used in a result is not evaluated in the model |
| C103 | the functions that assign to parts of arrays or return an argument | `Model/Memory.lean`: memory as a list of arrays, variables as positions in it, exceptions leave memory as it is; `np.empty` and the root finder are parameters (any content, any strategy of asking for residuals); `Spec/Memory.lean`: `Untouched`, `UntouchedBut`, `IsNew`. Each call is evaluated symbolically in an arbitrary memory; loops and the solver by induction. Temporary arrays no variable holds are left out |
| C104 | `White_Dutta_Ode` | `Spec/Cell.lean`: Biot's quasi-static equations in a sphere and a shell (`PoroCell`), `CellModulus`. Uniqueness by conserved quantities (stress constant, volume, Wronskian with a solution of `U'' = k² U`), existence by constructing the fields; then the result of the code (`Props/White.lean`) is compared with the modulus of the cell |
| C105 | all modules | `Py/Syntax.lean`, `Py/Semantics.lean` (interpreter), `Source/*.lean` (generated), `Spec/Source.lean` (`Computes`). Each theorem is a symbolic run: the kernel evaluates the interpreter on the source of the function with arbitrary arguments, after a case distinction on the conditions of its branches |
| C106 | all modules | `Spec/Calls.lean` states Python's rules (`Accepted`, `values`) without the interpreter; `Props/Calls.lean` proves by induction on the parameter lists that the interpreter's binding follows them, for every function in `Source.program` |
| C107 | `EM.SC_flex`, `EM.HS`, `EM.SC` | `Spec/SelfConsistent.lean` states self-consistency by the strains in spheres; existence from a monotone sequence, uniqueness and the rate because scaling the moduli scales the averages by less; empty inclusions: the ratio of the moduli follows a rational map, which contracts at small porosity, whose fixed point repels between 5/16 and 1/2 (Poisson ratio 1/5), and which at fraction 1/3 is never hit exactly (31 is not a square) |
| C108 | the physics formulas of every module except the regressions | `Spec/Units.lean` defines a change of units as three positive factors and the conversion of a quantity of dimension mass^a length^b time^c; the model at the converted arguments is rewritten until the conversions stand outside (`Lemmas/Units.lean`: products add exponents, sums need equal exponents, comparisons and undefined values are kept); the three exceptions are proved by a witness in one unit system and an iff on the factors |
| C109 | every formula of the package on reals (not: solver calls `fsolve`, `odeint`, `roots`, the complex valued Biot and White, `estimate_cem`, `PQ_vectorize`'s replacement of 1 by 0.999) | `Spec/Continuity.lean` says what it means that a value varies continuously with a parameter, as a logical relation over the types of arguments and results; a tactic (`Lemmas/Continuity.lean`) composes the continuity of the operations along the text of the model; the branches that meet (cement threshold, no shale) are shown to agree where they meet; the five that do not are refuted with a witness |
| C110 | every formula of the package on any number type with a `nan` (not: solver calls, complex valued Biot and White, plotting, `Backus`) | `Spec/Missing.lean` states the rules of IEEE arithmetic for `nan` as a class, with the reals extended by infinities and `nan` as an instance; per function and result, a tactic (`Lemmas/Missing.lean`) carries the `nan` through the text of the model, or the result is definitionally independent of the argument; conditional arguments, logs (by induction) and the places where a number replaces the missing value in `Props/MissingCond.lean` |
| C111 | the scalar formulas listed in the property, `EM.VRH` on lists (not: solver calls, spheroids (`C17`, `C79`), Biot and White (`C31`, `C76`, `C77`), exact reflection (`C50`)) | `Spec/Defined.lean` says what a number, a positive number and an ordered pair of numbers are; a tactic (`Lemmas/Defined.lean`) applies closure rules along the text of the model; denominators with differences are bounded by hand in `Props/DefinedCond.lean`; `Props/DefinedWide.lean` repeats the closure argument with the weakest conditions (zero porosity, zero rigidity, any number); `Props/DefinedCement.lean` adds the cemented and the patchy sands on top of `C63_positive` |
| C112 | `Thomsen`, `vel_azi_HTI`, `vel_azi_VTI`, `Bond_trans`, `hudson_cone`, the reflectivities and `EI_ref` | `Spec/Directions.lean` generates the angles of one line by mirroring and half turns; induction over this, parity of the circular functions on reals with an undefined value; the exact reflection coefficient is refuted with a witness (pi is irrational) |
| C113 | `v_water`, `rho_K_water`, `v_brine`, `rho_K_brine` on one dimensional arrays in a session (`Model/Warn.lean`: the registry and the five filter actions of the standard library's `warnings`; not: Python lists as pressures (a `TypeError`), other warning categories, threads) | `Spec/Warn.lean` says what too high and broadcasting mean; each call is a number of `warn` steps; induction over the history, also with the filter changed between any two calls |
| C114 | `ehrenberg`, `ramm_porosity`, `ramm_porosity_segment`, `empirical_StPeter`, `Hillis`, `Bloch`, `Panda_Lake`, `Bernabe`, `Sclater`, `hjelstuen`, `ThomasStieber`, `crack_por` | `Spec/Fraction.lean` says what a fraction and a percentage are, `Spec/Darcy.lean` the permeability of slits and tubes in SI units; each formula is evaluated over the reals and the range of inputs is solved for; the documented units that fail are refuted for every input |

## 5. Where the code does not do what it says

Each entry is a place where the behaviour a user would rely on is false of the
code as written. The theorem named proves the negation, or the exact deviation,
about the model. Nothing in `/repo` was changed.

| place | what happens | theorem |
|---|---|---|
| `Anisotropy.Bond_trans` | the third block of the Bond matrix lacks a factor 2, so an isotropic stiffness changes under rotation | `C38_isotropic_changes`, `C38_isotropic_violated` |
| `Anisotropy.Thomsen` SH velocity | weak-anisotropy formula, error quantified | `C34_Thomsen_SH_error` |
| `EM.HS` | phase 1 must be the stiffer one in both moduli; with mixed order 'upper' is below 'lower' | `C08_HS_mixed_order_reversed` |
| `EM.HS` | equal bulk or shear moduli divide by zero (numpy still gives a number in one case) | `C10_*` |
| `EM.hudson_rand` | shear correction lacks the factor 1/15 | `C15_rand_shear_15_times` |
| `EM.hudson_cone` | result is not transversely isotropic, C66 wrong | `C16_cone_not_VTI`, `C16_cone_violated` |
| `EM.PQ` | `np.cosh(alpha)**-1` is `1/cosh`, not the inverse function: factors of prolate inclusions are wrong: the shape number is right at one elongation only, both factors tend to zero near the sphere | `C79_prolate_wrong`, `C79_prolate_theta`, `C79_prolate_limit`, `C79_prolate_near_sphere`, and `C79_prolate_mended` for the repaired formula |
| `EM.Eshelby_Cheng` | the lambda term of `C11_1` is not divided by `D`: too large for soft fluids and empty pores, too small for stiff ones | `C80_C11_wrong`, `C80_C11` |
| `EM.Berryman_DEM` | `np.arange(0, phi+0.01, 0.01)` passes `phi` unless it is a multiple of 0.01, and reaches the pole of the equation at 1 for `phi > 0.99` | `C82_DEM_fractions` |
| `EM.hudson`, `hudson_rand`, `hudson_ortho`, `hudson_cone` | `M` has `lamda+G` in place of `lamda+2G`: wrong shear stiffness for cracks with a solid filling | `C83_hudson` |
| `EM.OC_R_funcs` | `nu_0` in place of `nu_eff` in the equation for `D`: wrong moduli for every fluid filled crack | `C84_OConnell_Budiansky_fl` |
| `EM.PQ_vectorize` | entries with aspect ratio 1 are evaluated at 0.999 and the caller's array is overwritten | `C18_PQ_vectorize_mutates` |
| `EM.SC_dilute` | returns moduli divided by the matrix modulus | `C23_returns_ratios` |
| `EM.SC_flex` | the shear modulus is initialised with the bulk modulus | `C24_SC_flex_start_violated` |
| `EM.Berryman_func`, `EM.Berryman_sc` | a single volume fraction given for several phases is broadcast and used for each of them, so the fractions need not add up to one; no error is raised | `C82_single_fraction` |
| `EM.SC_flex` | with empty inclusions the iteration does not converge at moderate porosity (proved at 1/3), although the solution exists up to 1/2 and `EM.SC` finds it; the docstring promises that more iterations help | `C107_void_no_limit`, `C107_void_negative` |
| `Fluid.Squirt_anisotropic` | isotropic input gives an anisotropic result: shear term `4*S44+4*(S11-S12)` and a wrong index in one entry | `C33_isotropic_iff`, `C33_isotropic_violated` |
| `GM.hertzmindlin` | the documentation of `f` is reversed: 0 is smooth, 1 is rough | `C39_friction_limits` |
| `GM.silty_shale` | the bulk modulus uses the shear modulus of the silt | `C45_silty_shale_violated`, `C45_silty_shale_out_of_bounds` |
| `GM.johnson` | the stiffness `C11`, for unequal strains the integrals behind every other stiffness and stress, and the horizontal stress of the isotropic-then-uniaxial path are not those of a pack of spheres; a misspelt path name is required | `C47_*_violated`, `C47_unknown_path`, `C97_code_*`, `C108_johnson_violated` |
| `GM.Digby` | three different values at zero stress depending on the root returned | `C46_zero_stress` |
| `GM.pcm` | an unknown mode silently means the soft mode | `C43_unknown_mode` |
| `GM.diluting` | grows again above the crushing stress for even exponents | `C64_above_even_violated` |
| `AVO.zoeppritz` | degrees used as radians, one factor takes the wrong S wave | `C50_no_contrast_violated`, `C50_wrong` |
| `AVO.AVO_abe` | first gradient is 0/0 whenever the intercept is zero | `C48_abe_first_gradient` |
| `BW.rho_K_co2` | 273.5 instead of 273.15 in the critical temperature | `C53_co2` |
| `Empirical.yu_segment_trend`, `Japsen` | values grouped by segment, not aligned with the depths given; depths from 5300 m are dropped | `C57_yu_aligned_iff`, `C57_yu_misaligned` |
| `Empirical.ramm_porosity` | percent, the segment function is documented as fraction | `C56_units` |
| `Empirical.esti_VS` | divides by zero near 1.1 km/s | `C68_low_velocity` |
| `Empirical.empirical_StPeter` | any sample other than 1 and 2 is an unbound local | `C70_stpeter_unknown` |
| `Permeability.Fredrich` | specific surface proportional to the diameter, so permeability falls with grain size | `C59_decreases_with_grain_size`, `C94_fredrich`, `C108_Fredrich_violated` |
| `Permeability.Kozeny_Carman_Percolation` | negative below the threshold | `C58_percolation_below` |
| `Permeability.Owolabi` | negative for large saturations | `C66_owolabi` |
| `QI.estimate_cem` | 0.1 above the last template whatever the seeds; a sample on a template is not assigned its seed; list seeds raise; repeated seeds raise; `Cn` and `Dc` ignored | `C61_outside`, `C61_on_template`, `C61_list_seeds`, `C61_repeated_seed`, `C61_ignored` |
| `Fluid.Biot` | the root called fast is fixed by a sign, so for a soft frame with a light fluid the fast and slow results are exchanged at low frequency; frequency 0 divides by zero | `C76_labels_swapped`, `C76_zero_frequency` |
| `Fluid.White_Dutta_Ode` | saturation 0 or 1 and frequency 0 give no number instead of Gassmann's result | `C77_no_number` |
| `AVO.AVO_abe` | the fourth result (converted wave coefficient) is the normal-incidence slope plus a term cubic in Vs/Vp that is not part of the slope | `C49_converted` |
| `QI.cal_v_const` | the template behind `estimate_cem` uses another solid density than `cst_vels`: `vsh` is a fraction of the solid instead of the rock, and the cement density is ignored | `C90_two_densities` |
| `EM.PQ_vectorize`, `Berryman_func`, `Berryman_sc` | with an integer array of aspect ratios every sphere becomes a disk of aspect ratio 0, without a warning, also in the caller's array | `C99_PQ_vectorize`, `C99_sphere_lost`, `C99_empty_pore`, `C99_Berryman_func` |
| `EM.HS`, `Fluid.Biot_HF`, `Fluid.Geertsma_Smit_HF`, `AVO.EI_ref`, `Fluid.Brie` | integer arrays raise `ValueError` (negative integer power) | `C99_HS`, `C99_tortuosity`, `C99_EI_ref`, `C99_Brie` |
| `Fluid.Squirt_anisotropic` | not the published formula (three wrong terms); never returns the compliances of a wet cracked rock | `C100_anisotropic`, `C100_never_right`, `C100_horizontal` |
| `QI.kde_plot` | the argument `cmap` is ignored; a `vels` other than 'Vp' or 'Vs' gives a plot without density and without a message | `C101_kde_ignored` |
| `QI.__init__` | unknown keywords are dropped silently, so a misspelt `Vsh` fails only when the plot is made, with `TypeError` | `C101_object` |
| plotting functions | a call that raises leaves its half drawn figure open | `C101_screening_plot_error`, `C101_kde_error`, `C101_cement_diag_plot` |
| `QI.plot_rpt` | the "brine line" is the line through the last saturation, whatever it is | `C101_plot_rpt`, `C101_brine_line` |
| `EM.Swiss_cheese` | three logs of n samples (as documented) give an n x n table | `C102_Swiss_cheese_logs` |
| `AVO.Aki_Richards` | a log as `vp1` with a number as another layer property raises `TypeError`; a number as `vp1` with logs as the others pairs angle k with interface k silently | `C102_Aki_Richards_number`, `C102_Aki_Richards_first_number` |
| `AVO.EI_ref` | on numbers with `norm=True` (the default) the impedance does not depend on the angle | `C102_EI_ref_numbers` |
| `AVO.EI_ref` | with `norm=False` the value depends on the units of velocity and density in a way no conversion factor repairs (the exponents add up to an angle dependent power) | `C108_EI_ref_unnormalised` |
| `Empirical.yu_segment_trend`, `Empirical.Japsen` | a missing (nan) depth is dropped, so the result is shorter than the log and shifted against it | `C110_Empirical_yu_segment_trend`, `C110_Empirical_Japsen` |
| `GM.diluting` | a missing stress or scale gives the number 0 | `C110_GM_diluting` |
| `QI.screening` | with a missing cement porosity the contact cement curve is drawn uncut | `C110_QI_screening_uncut` |
| `QI.normalize`, `AVO.EI_ref` (default `norm=True`) | one missing sample makes the whole log missing | `C110_QI_normalize`, `C110_AVO_EI_ref` |
| `Fluid.Gassmann` | an empty pore (fluid modulus 0) divides by zero: an exception for Python numbers, the dry modulus and a warning for numpy numbers | `C111_Fluid_Gassmann_violated`, `C111_Fluid_Gassmann_numpy` |
| `BW.v_water` | the warning for pressures above 100 MPa is tied to a line of the package, so with Python's own filter only the first call of a session that is out of range shows it | `C113_default` |
| `Empirical.ehrenberg` | the depth is documented in km but divided by 1000: in km every depth gives 0.48 | `C114_ehrenberg_km_violated` |
| `Empirical.ramm_porosity_segment` | returns percent, `ramm_porosity` a fraction | `C114_ramm_segment_violated` |
| `Permeability.Bloch` | documented with fractions, the regression is one of percentages | `C114_Bloch_violated` |
| `Permeability.Panda_Lake` | documented in mD like `Panda_Lake_cem`, returns square micrometres | `C114_Panda_Lake_violated` |
| `Permeability.Bernabe` | documented in mD for micrometres, returns square micrometres | `C114_Bernabe_violated` |
| `Empirical.empirical_StPeter` | documented in km/s, returns m/s | `C114_StPeter_violated` |
| `AVO.zoeppritz` | angles that differ by 360 degrees give different results (sine of degrees) | `C112_zoeppritz_violated` |
| `Fluid.Brie` | at zero water saturation the modulus is that of water at exponent 0 and that of gas at any exponent above 0 | `C109_Fluid_Brie_jump` |
| `GM.diluting` | above the crushing stress the factor jumps with the exponent (non zero at whole exponents, zero near them) | `C109_GM_diluting_jump` |
| `EM.PQ` | the factors jump at aspect ratio 1 (a sphere there, near zero for slightly elongated inclusions) | `C109_EM_PQ_jump` |
| `Empirical.yu_segment_trend`, `Empirical.Japsen` | the trend jumps by 0.43 m/s at 2630 m, by 0.2 m/s at 1393 m | `C109_Empirical_yu_jump`, `C109_Empirical_Japsen_jump` |
| `BW.rho_K_go`, `BW.co2_brine` | a gas-oil ratio or Brie exponent given as an array raises `ValueError` (`== None`) | `C102_None` |
| `EM.PQ_vectorize` | overwrites the caller's aspect ratios even when it raises; moduli held in the same array are changed before use | `C103_PQ_vectorize`, `C103_PQ_vectorize_fails` |
| `Fluid.Gassmann` | the saturated shear modulus is the caller's own array of dry shear moduli | `C103_Gassmann`, `C103_Gassmann_write` |
| `EM.SC` | with `iter_n=0` the results are the caller's own arrays | `C103_SC` |
| `QI.estimate_cem` | a velocity log shorter than the porosity log gives undefined entries silently; a longer one, or no seeds, `IndexError` | `C103_estimate_cem` |
| `Fluid.White_Dutta_Ode` | pressure diffusion uses White's uncorrected modulus `K_A Kdry / K` instead of `K_A H / H_sat` with P-wave moduli, and the flow prefactor `K` instead of `H`: the modulus is that of the spherical cell only for `Gdry = 0`; otherwise the approach to the high-frequency limit is off by a constant factor (limits are right) | `C104_fluid_frame`, `C104_high_frequency`, `C104_rigid_frame` |
| `Empirical.Hillis` | documented for kilometres and km/s, the formula takes metres and returns m/s; infinite at 6721 m and negative below | `C70_hillis`, `C70_hillis_transit`, `C114_Hillis_km_violated` |
| `QI.matrix_modulus`, `QI.den_matrix` | a number as porosity gives an array of one entry, not a number | `C105_QI_matrix_modulus_scalar`, `C105_QI_den_matrix_scalar` |
| `AVO.Aki_Richards` | two-dimensional sections do not give every sample at every angle: `[:, np.newaxis]` inserts the axis in the middle, so angles are paired with columns or raise `ValueError` | `C102_Aki_Richards_sections` |
