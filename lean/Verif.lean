import Verif.Props.Coord
import Verif.Props.Fourier
import Verif.Props.Consistency
import Verif.Props.Boundary
import Verif.Props.Grid
import Verif.Props.Potential
import Verif.Props.Basis
import Verif.Props.Multivalue
import Verif.Props.Extend
import Verif.Props.Run
import Verif.Props.Source
import Verif.Props.Arc
import Verif.Props.Taylor
import Verif.Props.Corner
import Verif.Props.Sides
import Verif.Props.Nodes
import Verif.Props.PolarFD
import Verif.Props.Rate
import Verif.Props.Convergence
import Verif.Props.ZAlgebra
import Verif.Props.Taper
import Verif.Props.Asympt
import Verif.Props.Ode
import Verif.Props.ABCoef
import Verif.Props.Interp
import Verif.Props.ZMethod
import Verif.Props.ZChain
import Verif.Props.SympyProblem
import Verif.Props.Problem
import Verif.Props.Smooth
import Verif.Props.Singular
import Verif.Props.ZCoef
import Verif.Props.Bessel
import Verif.Model.Boundaries
import Verif.Proofs.CurveGeom
import Verif.Proofs.ShippedCurves
import Verif.Props.Curves
import Verif.Proofs.PiTranscendental
import Verif.Props.Resonance
import Verif.Props.InhomoRun
import Verif.Props.Error
import Verif.Spec.Cauchy
import Verif.Proofs.ExtendBound
import Verif.Proofs.CauchyData
import Verif.Props.ExtendError
import Verif.Proofs.InhomoBound
import Verif.Props.InhomoError
import Verif.Props.SourceError
import Verif.Model.Debug
import Verif.Proofs.ChebFit
import Verif.Props.FitError
import Verif.Props.Residual
import Verif.Props.Edges
import Verif.Props.ResonanceScript
import Verif.Props.ScriptTests
import Verif.Props.Main
import Verif.Model.MainZ
import Verif.Spec.MainZ
import Verif.Props.MainZ
import Verif.Spec.MainZData
import Verif.Props.MainZData
import Verif.Spec.Superposition
import Verif.Spec.SourceMix
import Verif.Proofs.MinLstsq
import Verif.Proofs.SourceMix
import Verif.Proofs.RunMix
import Verif.Props.Superposition
import Verif.Model.Argparse
import Verif.Model.Command
import Verif.Spec.CommandLine
import Verif.Proofs.CommandLine
import Verif.Proofs.CommandSound
import Verif.Proofs.CommandBad
import Verif.Props.CommandLine
import Verif.Model.BasisScripts
import Verif.Spec.BasisScripts
import Verif.Props.BasisScripts
import Verif.Props.Exact
import Verif.Props.Instances
import Verif.Spec.Double
import Verif.Model.Rounded
import Verif.Proofs.Rounding
import Verif.Proofs.RoundedCoord
import Verif.Proofs.RoundedWedge
import Verif.Props.Rounding
import Verif.Model.RoundedGrid
import Verif.Proofs.RoundedEval
import Verif.Proofs.RoundedTie
import Verif.Proofs.RoundedPlace
import Verif.Props.Ties
import Verif.Proofs.RoundedDist
import Verif.Props.SecondOrder
import Verif.Model.UnitTests
import Verif.Props.UnitTests
import Verif.Proofs.RoundedDistLower
import Verif.Props.NearTies
import Verif.Model.Imports
import Verif.Spec.Imports
import Verif.Props.Imports
import Verif.Proofs.TieTable
import Verif.Proofs.RoundedNat
import Verif.Proofs.RoundedPow2
import Verif.Proofs.TieGeom
import Verif.Props.PowersOfTwo
import Verif.Spec.Study
import Verif.Model.Study
import Verif.Props.Study
import Verif.Model.Trend
import Verif.Props.Trend
import Verif.Model.BetStudy
import Verif.Props.BetStudy
import Verif.Spec.Figure
import Verif.Model.Drawing
import Verif.Props.Drawing
import Verif.Model.PolarFDScripts
import Verif.Props.PolarFDScripts
import Verif.Spec.Shell
import Verif.Model.Multirun
import Verif.Props.Multirun
import Verif.Model.Codegen
import Verif.Props.Codegen
import Verif.Proofs.BesselSign
import Verif.Props.BesselZeros
import Verif.Model.Unused
import Verif.Props.Unused
import Verif.Spec.PolarModes
import Verif.Proofs.PolarModes
import Verif.Proofs.PolarSolvable
import Verif.Proofs.FixedPoint
import Verif.Proofs.PolarCert
import Verif.Proofs.PolarCertA
import Verif.Proofs.PolarCertB
import Verif.Proofs.PolarCertAll
import Verif.Props.PolarSolvable
import Verif.Spec.PolarStability
import Verif.Proofs.PolarCoef
import Verif.Proofs.PolarStable
import Verif.Proofs.PolarBound
import Verif.Props.PolarStability
import Verif.Model.Classes
import Verif.Spec.Classes
import Verif.Proofs.Classes
import Verif.Props.Classes
import Verif.Model.Attrs
import Verif.Proofs.Attrs
import Verif.Props.Attrs
import Verif.Model.Names
import Verif.Model.NamesA
import Verif.Model.NamesB
import Verif.Model.NamesAll
import Verif.Proofs.Names
import Verif.Props.Names
import Verif.Model.Calls
import Verif.Proofs.Calls
import Verif.Props.Calls
import Verif.Model.Ranges
import Verif.Props.Ranges
import Verif.Model.FuncVals
import Verif.Props.FuncVals
import Verif.Model.Effects
import Verif.Proofs.Effects
import Verif.Props.Effects
import Verif.Proofs.Fresh
import Verif.Props.Fresh
