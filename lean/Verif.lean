import Verif.Num
import Verif.Model.Utils
import Verif.Model.Anisotropy
import Verif.Model.EM
import Verif.Tests.EM
import Verif.Spec.Elastic
import Verif.Lemmas.Elastic
import Verif.Lemmas.Utils
import Verif.Props.Utils
import Verif.Lemmas.FlAlg
import Verif.Lemmas.Anisotropy
import Verif.Props.Anisotropy
import Verif.Lemmas.Backus
import Verif.Props.Backus
import Verif.Props.Bond
import Verif.Np
import Verif.Spec.Mix
import Verif.Lemmas.Mix
import Verif.Props.EMBounds
import Verif.Lemmas.Hudson
import Verif.Props.Hudson
import Verif.Props.Inclusion
import Verif.Lemmas.Porous
import Verif.Props.Porous
import Verif.Model.Fluid
import Verif.Tests.Fluid
import Verif.Spec.Fluid
import Verif.Spec.LinAlg
import Verif.Props.Fluid
import Verif.Props.Biot
import Verif.Props.BrownKorringa
import Verif.Props.Squirt
import Verif.Model.GM
import Verif.Tests.GM
import Verif.Lemmas.GM
import Verif.Props.GM
import Verif.Props.Cement
import Verif.Props.Patchy
import Verif.Spec.Roots
import Verif.Props.Digby
import Verif.Spec.Johnson
import Verif.Props.Johnson
import Verif.Model.Emp
import Verif.Model.Perm
import Verif.Model.AVO
import Verif.Model.BW
import Verif.Model.QI
import Verif.Tests.Rest
import Verif.Spec.Trends
import Verif.Props.Perm
import Verif.Props.Emp
import Verif.Spec.Zoeppritz
import Verif.Props.Zoeppritz
import Verif.Spec.Avo
import Verif.Props.AVO
import Verif.Spec.Gas
import Verif.Props.BW
import Verif.Props.QI
import Verif.Model.Complex
import Verif.Model.Dispersion
import Verif.Lemmas.Cx
import Verif.Spec.Dispersion
import Verif.Props.BiotDispersion
import Verif.Lemmas.Diffusion
import Verif.Props.White
import Verif.Props.Weak
import Verif.Props.Shear
import Verif.Props.ShearV
import Verif.Spec.Eshelby
import Verif.Lemmas.Eshelby
import Verif.Lemmas.Spheroid
import Verif.Lemmas.Berryman
import Verif.Props.Eshelby
import Verif.Lemmas.Prolate
import Verif.Props.Prolate
import Verif.Props.Cheng
import Verif.Spec.Ode
import Verif.Props.Spheres
import Verif.Props.DEM
import Verif.Props.DEMExists
import Verif.Props.CrackLimit
import Verif.Props.CrackRoots
import Verif.Spec.Layered
import Verif.Props.Layered
import Verif.Spec.Contact
import Verif.Lemmas.Sphere
import Verif.Props.Contact
import Verif.Spec.Poro
import Verif.Props.Poro
import Verif.Props.WeakAnis
import Verif.Props.PatchyInterior
import Verif.Props.Template
import Verif.Spec.Composite
import Verif.Props.Composite
import Verif.Spec.Periodic
import Verif.Lemmas.Periodic
import Verif.Lemmas.PeriodicExists
import Verif.Props.PeriodicHS
import Verif.Props.PeriodicShear
import Verif.Props.PeriodicBounds
import Verif.Props.PeriodicHill
import Verif.Props.BiotGeertsma
import Verif.Props.CoatedSphere
import Verif.Props.Capillary
import Verif.Props.AnisoReflection
import Verif.Rounded
import Verif.Spec.Rounding
import Verif.Lemmas.Rounding
import Verif.Props.Rounding
import Verif.Lemmas.SphereWeighted
import Verif.Spec.StrainedPack
import Verif.Lemmas.StrainedPack
import Verif.Props.StrainedPack
import Verif.Spec.Oscillating
import Verif.Lemmas.Bessel
import Verif.Props.Oscillating
import Verif.Dtype
import Verif.Props.Dtype
import Verif.Spec.Cracks
import Verif.Props.Cracks
import Verif.Model.Plot
import Verif.Spec.Plot
import Verif.Props.Plot
import Verif.NdAttr
import Verif.Broadcast
import Verif.Spec.Broadcast
import Verif.Model.Arrays
import Verif.Props.Broadcast
import Verif.Props.Newaxis
import Verif.Props.Columns
import Verif.Model.Memory
import Verif.Spec.Memory
import Verif.Props.Memory
import Verif.Props.MemoryQI
import Verif.Spec.Cell
import Verif.Props.Cell
import Verif.Py.Syntax
import Verif.Py.Semantics
import Verif.Py.Tactic
import Verif.Source.Utils
import Verif.Source.EM
import Verif.Source.AVO
import Verif.Source.Anisotropy
import Verif.Source.BW
import Verif.Source.Fluid
import Verif.Source.GM
import Verif.Source.Emp
import Verif.Source.Perm
import Verif.Source.QI
import Verif.Source.Program
import Verif.Py.Plot
import Verif.Spec.Source
import Verif.Spec.SourcePlot
import Verif.Lemmas.PyDraw
import Verif.Lemmas.PyLoop
import Verif.Lemmas.PyArray
import Verif.Props.SourceUtils
import Verif.Props.SourceEM
import Verif.Props.SourceAVO
import Verif.Props.SourceAnisotropy
import Verif.Props.SourceBW
import Verif.Props.SourceFluid
import Verif.Props.SourceGM
import Verif.Props.SourceEmpirical
import Verif.Props.SourcePermeability
import Verif.Props.SourceArrays
import Verif.Props.SourceMasks
import Verif.Props.SourceTables
import Verif.Props.SourceQI
import Verif.Props.SourceSolvers
import Verif.Props.SourcePlot
import Verif.Props.SourceCst
import Verif.Props.SourceRpt
import Verif.Props.SourceEstimate
import Verif.Props.Calls
import Verif.Spec.SelfConsistent
import Verif.Lemmas.SelfConsistent
import Verif.Lemmas.Residuals
import Verif.Props.SelfConsistent
import Verif.Props.SelfConsistentVoid
import Verif.Props.SelfConsistentExists
import Verif.Spec.Units
import Verif.Lemmas.Units
import Verif.Props.Units
import Verif.Props.UnitsArrays
import Verif.Spec.Continuity
import Verif.Lemmas.Continuity
import Verif.Props.Continuity
import Verif.Props.ContinuityCond
import Verif.NanAttr
import Verif.Spec.Missing
import Verif.Lemmas.Missing
import Verif.Props.Missing
import Verif.Props.MissingCond
import Verif.Spec.Defined
import Verif.Lemmas.Defined
import Verif.Props.Defined
import Verif.Props.DefinedCond
import Verif.Props.DefinedWide
import Verif.Props.DefinedCement
import Verif.Spec.Directions
import Verif.Props.Directions
import Verif.Model.Warn
import Verif.Spec.Warn
import Verif.Lemmas.Warn
import Verif.Props.Warn
import Verif.Props.WarnMixed
import Verif.Spec.Fraction
import Verif.Spec.Darcy
import Verif.Props.Fraction
import Verif.Props.FractionDepth
import Verif.Props.FractionDarcy
