import Verif.Props.Reactions
import Verif.Props.Source
import Verif.Props.Special
import Verif.Props.Space
import Verif.Props.Physical
import Verif.Props.OpenMC
import Verif.Props.Ring
import Verif.Props.Constants
import Verif.Props.Mcnp
import Verif.Props.Format
import Verif.Props.Wrap
import Verif.Model.Profile
import Verif.Lemmas.Interp
import Verif.Props.Profile
import Verif.Props.Parabolic
import Verif.Model.Flux
import Verif.Model.Polygon
import Verif.Props.Flux
import Verif.Props.Resample
import Verif.Props.Polygon
import Verif.Data.CrossSections
import Verif.Model.Trapezoid
import Verif.Model.Reactivity
import Verif.Spec.Reactivity
import Verif.Lemmas.Trapezoid
import Verif.Props.Reactivity
import Verif.Data.TTSpectra
import Verif.Model.Energy
import Verif.Spec.Energy
import Verif.Lemmas.Trim
import Verif.Props.Energy
import Verif.Props.Spectra
import Verif.Model.Tools
import Verif.Props.Tools
import Verif.Props.Converge
import Verif.Props.PointInPath
import Verif.Props.Green
import Verif.Lemmas.Fausser
import Verif.Props.Fausser
import Verif.Spec.Convex
import Verif.Props.ConvexPolygon
import Verif.Lemmas.FausserPolygon
import Verif.Props.FausserSource
import Verif.Props.Rounding
import Verif.Model.SdefText
import Verif.Spec.SdefFile
import Verif.Spec.SdefRead
import Verif.Lemmas.SdefText
import Verif.Props.SdefText
import Verif.Props.TTRange
import Verif.Props.SdefRead
import Verif.Props.SdefSource
import Verif.Model.OpenMCSpectrum
import Verif.Spec.NeutronDist
import Verif.Props.OpenMCSpectrum
import Verif.Model.Workflow
import Verif.Spec.Workflow
import Verif.Props.Workflow
import Verif.Spec.Refine
import Verif.Props.FausserAxis
import Verif.Props.Refine
import Verif.Model.FluxMap
import Verif.Spec.FluxMap
import Verif.Props.Sauter
import Verif.Props.FluxMap
import Verif.Props.FausserVolume
import Verif.Props.FluxMapApi
import Verif.Props.ConvexInside
import Verif.Props.FausserSdef
import Verif.Props.Rounded
import Verif.Props.Symmetry
import Verif.Props.SymmetryMap
import Verif.Lemmas.PolyBound
import Verif.Lemmas.BoschHaleShape
import Verif.Lemmas.MaxwellRise
import Verif.Spec.Monotone
import Verif.Lemmas.XsRise
import Verif.Lemmas.XsTurn
import Verif.Props.Monotone
import Verif.Props.Hotter
import Verif.Props.SauterSource
import Verif.Data.TTSums
import Verif.Lemmas.TTChunks
import Verif.Lemmas.TTMoments
import Verif.Spec.TTMean
import Verif.Props.TTMean
import Verif.Spec.Taxicab
import Verif.Lemmas.Separation
import Verif.Lemmas.Sweep
import Verif.Props.GridError
import Verif.Model.RoundedSpace
import Verif.Lemmas.RoundedGrid
import Verif.Spec.RoundedSpace
import Verif.Props.RoundedSpace
import Verif.Spec.Moments
import Verif.Lemmas.Interpolate
import Verif.Lemmas.Bell
import Verif.Lemmas.Bells
import Verif.Props.Moments
import Verif.Spec.Agreement
import Verif.Data.BhNodes
import Verif.Lemmas.LogConvex
import Verif.Lemmas.FixedPoint
import Verif.Lemmas.NodeSums
import Verif.Lemmas.XsWeights
import Verif.Lemmas.XsCertified
import Verif.Lemmas.XsNodes
import Verif.Lemmas.BhNodes
import Verif.Lemmas.XsCompare
import Verif.Lemmas.XsLink
import Verif.Props.Agreement
import Verif.Props.AgreementSource
import Verif.Spec.FileWorkflow
import Verif.Props.FileWorkflow
import Verif.Props.World
import Verif.Spec.Exports
import Verif.Props.ExportsAgree
import Verif.Props.Strengthen
import Verif.Model.LogThreads
import Verif.Spec.LogThreads
import Verif.Props.LogThreads
import Verif.Model.Files
import Verif.Spec.Files
import Verif.Props.Files
import Verif.Model.RoundedOpenMC
import Verif.Spec.RoundedOpenMC
import Verif.Props.RoundedOpenMC
import Verif.Data.Chars
import Verif.Data.XsText
import Verif.Model.Genfromtxt
import Verif.Model.XsFile
import Verif.Spec.Genfromtxt
import Verif.Props.Genfromtxt
import Verif.Props.XsText
import Verif.Props.XsFiles
import Verif.Model.RoundedSdef
import Verif.Spec.RoundedSdef
import Verif.Lemmas.RoundedSdef
import Verif.Props.RoundedSdef
import Verif.Model.RoundedReactivity
import Verif.Spec.RoundedReactivity
import Verif.Lemmas.LogClose
import Verif.Props.RoundedReactivity
import Verif.Model.Interrupt
import Verif.Props.Interrupt
import Verif.Model.NormThreads
import Verif.Spec.NormThreads
import Verif.Props.NormThreads
import Verif.Props.NormThreadsEx
import Verif.Props.RoundedMake
import Verif.Props.RoundedMakeExact
import Verif.Model.RoundedXs
import Verif.Spec.RoundedXs
import Verif.Lemmas.Gradual
import Verif.Lemmas.InterpError
import Verif.Lemmas.InterpRound
import Verif.Lemmas.XsTable
import Verif.Lemmas.XsSigma
import Verif.Lemmas.XsGridRound
import Verif.Lemmas.XsFactor
import Verif.Lemmas.XsTrap
import Verif.Props.RoundedXs
import Verif.Props.RoundedXsSource
import Verif.Spec.RoundedExport
import Verif.Props.RoundedExport
import Verif.Spec.SourceLimit
import Verif.Props.SourceLimit
import Verif.Model.ExportThreads
import Verif.Spec.ExportThreads
import Verif.Props.ExportThreads
import Verif.Props.ExportThreadsEx
import Verif.Spec.SdefLimit
import Verif.Props.SdefLimit
import Verif.Spec.RoundedEnergy
import Verif.Model.RoundedEnergy
import Verif.Props.RoundedEnergy
import Verif.Props.RoundedEnergyGrid
import Verif.Props.RoundedEnergyPdf
import Verif.Props.RoundedSpectra
import Verif.Props.RoundedSpectraC99
import Verif.Model.RoundedProfile
import Verif.Spec.RoundedProfile
import Verif.Lemmas.ProfileErr
import Verif.Props.RoundedProfile
import Verif.Props.Conditioning
import Verif.Props.RoundedProfileC100
import Verif.Props.RoundedProfileTable
import Verif.Props.RoundedProfileOrder
import Verif.Model.RoundedFlux
import Verif.Spec.RoundedFlux
import Verif.Lemmas.PerturbPolygon
import Verif.Lemmas.FluxErr
import Verif.Lemmas.MovedSample
import Verif.Props.RoundedFlux
import Verif.Props.RoundedFluxPoints
import Verif.Props.RoundedFluxClosed
import Verif.Props.RoundedFluxRejects
import Verif.Props.RoundedFluxSample
import Verif.Props.RoundedFluxMap
import Verif.Props.RoundedFluxParam
import Verif.Model.SdefThreads
import Verif.Spec.SdefThreads
import Verif.Props.SdefThreads
import Verif.Props.SdefThreadsEx
import Verif.Props.RoundedPolygon
import Verif.Props.RoundedPolygonDot
import Verif.Props.RoundedPolygonTiny
import Verif.Props.RoundedPolygonParam
import Verif.Model.RoundedPolygon
import Verif.Spec.RoundedPolygon
import Verif.Spec.Sensitivity
import Verif.Props.Sensitivity
import Verif.Props.SensitivityExport
import Verif.Props.SensitivityXs
import Verif.Props.SensitivityRadius
import Verif.Props.SensitivityPlasma
import Verif.Props.SensitivityEx
import Verif.Spec.FileLimit
import Verif.Props.FileLimit
import Verif.Spec.FileSdef
import Verif.Props.FileSdef
import Verif.Model.RoundedTT
import Verif.Lemmas.TTGrid
import Verif.Props.RoundedTT
import Verif.Spec.RoundedTT
import Verif.Props.RoundedTTC107
import Verif.Spec.EnergyLaw
import Verif.Lemmas.EnergyLaw
import Verif.Props.EnergyLaw
import Verif.Props.EnergyLimit
import Verif.Props.Broadening
import Verif.Model.RoundedInput
import Verif.Spec.RoundedInput
import Verif.Props.RoundedInput
import Verif.Model.RoundedSdefText
import Verif.Spec.RoundedSdefText
import Verif.Props.RoundedSdefText
import Verif.Props.RoundedSdefInput
import Verif.Spec.RoundedAgree
import Verif.Props.RoundedAgree
import Verif.Spec.RoundedGridError
import Verif.Props.RoundedGridError
import Verif.Spec.RoundedMean
import Verif.Props.RoundedMean
import Verif.Spec.RoundedMcnpMean
import Verif.Props.RoundedMcnpMean
import Verif.Props.RoundedMcnpRun
import Verif.Props.RoundedCodes
import Verif.Props.RoundedPrintable
import Verif.Props.TransportPlot
