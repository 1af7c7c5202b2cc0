import Verif.Model.Py
import Verif.Model.IdxParser
import Verif.Spec.Idx
import Verif.Lemmas.Py
import Verif.Lemmas.Idx
import Verif.Props.Idx
import Verif.Model.NArr
import Verif.Lemmas.NArr
import Verif.Model.GData
import Verif.Model.Select
import Verif.Spec.Select
import Verif.Lemmas.Select
import Verif.Lemmas.GData
import Verif.Props.Select
import Verif.Model.Bytes
import Verif.Model.GkylReader
import Verif.Model.GDataFile
import Verif.Spec.GkylFormat
import Verif.Lemmas.Bytes
import Verif.Lemmas.GkylReader
import Verif.Lemmas.GkylBlock
import Verif.Lemmas.GkylData
import Verif.Lemmas.GkylMulti
import Verif.Lemmas.GkylAssemble
import Verif.Lemmas.GkylLoad
import Verif.Lemmas.GkylOfFile
import Verif.Lemmas.GkylProps
import Verif.Lemmas.GkylOpen
import Verif.Props.Gkyl
import Verif.Lemmas.GkylCut
import Verif.Props.GkylCut
import Verif.Model.DataSpace
import Verif.Model.Write
import Verif.Model.World
import Verif.Spec.DataSpace
import Verif.Spec.Hist
import Verif.Spec.Write
import Verif.Lemmas.DataSpace
import Verif.Lemmas.Store
import Verif.Lemmas.StoreProps
import Verif.Lemmas.StoreCmd
import Verif.Props.DataSpace
import Verif.Props.Hist
import Verif.Props.Write
import Verif.Model.NumOps
import Verif.Model.EvCmd
import Verif.Model.Integrate
import Verif.Model.Ev
import Verif.Spec.Ev
import Verif.Lemmas.NumOps
import Verif.Lemmas.Ev
import Verif.Lemmas.EvData
import Verif.Lemmas.EvMeta
import Verif.Lemmas.EvRun
import Verif.Lemmas.EvStore
import Verif.Lemmas.EvProps
import Verif.Props.Ev
import Verif.Lemmas.EvKeep
import Verif.Props.EvKeep
import Verif.Spec.Integrate
import Verif.Lemmas.Integrate
import Verif.Lemmas.IntegrateCore
import Verif.Lemmas.IntegrateMore
import Verif.Props.Integrate
import Verif.Model.CompOps
import Verif.Model.Tools
import Verif.Spec.Field
import Verif.Spec.Moments
import Verif.Lemmas.CompOps
import Verif.Lemmas.Tools
import Verif.Props.Tools
import Verif.Model.Collect
import Verif.Spec.Collect
import Verif.Lemmas.Collect
import Verif.Lemmas.CollectCmd
import Verif.Props.Collect
import Verif.Model.Cli
import Verif.Spec.Cli
import Verif.Lemmas.Cli
import Verif.Props.Cli
import Verif.Model.Poly
import Verif.Model.InterpTables
import Verif.Model.DerivTables
import Verif.Model.Dg
import Verif.Spec.Dg
import Verif.Lemmas.Dg
import Verif.Lemmas.DgTables
import Verif.Lemmas.DgInterp
import Verif.Lemmas.DgDeriv
import Verif.Lemmas.DgDiff
import Verif.Props.Dg
import Verif.Spec.Cube
import Verif.Lemmas.DgNodal
import Verif.Lemmas.DgBasis
import Verif.Lemmas.DgOrthoTable
import Verif.Lemmas.DgOrtho
import Verif.Lemmas.DgC2p
import Verif.Props.DgNodal
import Verif.Props.DgBasis
import Verif.Props.DgC2p
import Verif.Model.Gk
import Verif.Spec.Gk
import Verif.Lemmas.Gk
import Verif.Lemmas.GkBalance
import Verif.Props.Gk
import Verif.Props.GkDistf
import Verif.Model.Adios
import Verif.Spec.Adios
import Verif.Props.Adios
import Verif.Model.Plot
import Verif.Spec.Plot
import Verif.Props.Plot
import Verif.Props.PlotData
import Verif.Props.DgSettings
import Verif.Model.Spectral
import Verif.Spec.Spectral
import Verif.Lemmas.Spectral
import Verif.Props.Spectral
import Verif.Props.SpectralIso
import Verif.Props.Filter
import Verif.Model.Params
import Verif.Spec.Params
import Verif.Props.Params
import Verif.Model.Kinetic
import Verif.Spec.Kinetic
import Verif.Props.Kinetic
import Verif.Model.Fit
import Verif.Spec.Fit
import Verif.Props.Fit
import Verif.Model.Animate
import Verif.Spec.Animate
import Verif.Props.SetFrame
import Verif.Props.Animate
import Verif.Spec.StoreOnce
import Verif.Lemmas.StoreOnce
import Verif.Lemmas.StoreActive
import Verif.Model.Val2coord
import Verif.Spec.Val2coord
import Verif.Props.Val2coord
import Verif.Model.Multiblock
import Verif.Spec.Multiblock
import Verif.Props.Multiblock
import Verif.Model.Commands
import Verif.Spec.Commands
import Verif.Lemmas.Commands
import Verif.Props.Commands
import Verif.Spec.PairCommands
import Verif.Lemmas.PairCommands
import Verif.Props.PairCommands
import Verif.Model.DgCommands
import Verif.Spec.DgCommands
import Verif.Lemmas.DgCommands
import Verif.Props.DgCommands
import Verif.Lemmas.SelectCommands
import Verif.Props.SelectCommands
import Verif.Model.EvDiff
import Verif.Spec.EvDiff
import Verif.Lemmas.EvDiff
import Verif.Props.EvDiff
import Verif.Model.Sharing
import Verif.Spec.Sharing
import Verif.Lemmas.Sharing
import Verif.Props.Sharing
import Verif.Model.H5
import Verif.Model.Text
import Verif.Spec.H5
import Verif.Spec.Text
import Verif.Lemmas.H5
import Verif.Lemmas.Text
import Verif.Props.H5
import Verif.Props.Text
import Verif.Spec.MappedSelect
import Verif.Lemmas.MappedSelect
import Verif.Props.MappedSelect
import Verif.Model.Growth
import Verif.Spec.Growth
import Verif.Lemmas.Growth
import Verif.Props.Growth
import Verif.Model.FftCommand
import Verif.Spec.FftCommand
import Verif.Lemmas.FftCommand
import Verif.Props.FftCommand
import Verif.Model.GkDistf
import Verif.Spec.GkDistf
import Verif.Lemmas.GkDistf
import Verif.Props.LoadDistf
import Verif.Model.AdiosDiag
import Verif.Spec.AdiosDiag
import Verif.Lemmas.AdiosDiag
import Verif.Props.AdiosDiag
import Verif.Model.Info
import Verif.Spec.Info
import Verif.Lemmas.Info
import Verif.Props.Info
import Verif.Model.PlotKinds
import Verif.Spec.PlotKinds
import Verif.Props.PlotLabels
import Verif.Props.PlotKinds
import Verif.Model.PlotCmd
import Verif.Spec.PlotCmd
import Verif.Props.PlotCmd
import Verif.Lemmas.SmallIndex
import Verif.Model.GkNodes
import Verif.Spec.GkNodes
import Verif.Props.GkNodes
import Verif.Model.Enstrophy
import Verif.Spec.Enstrophy
import Verif.Props.Enstrophy
import Verif.Model.Echo
import Verif.Spec.Echo
import Verif.Props.Echo
import Verif.Model.Contour
import Verif.Spec.Contour
import Verif.Props.Contour
import Verif.Model.MappedLoad
import Verif.Spec.MappedLoad
import Verif.Spec.FileField
import Verif.Lemmas.MappedLoad
import Verif.Props.MappedLoad
import Verif.Spec.GkDistfVel
import Verif.Lemmas.GkDistfVel
import Verif.Props.LoadDistfVel
import Verif.Model.LoadCmd
import Verif.Props.LoadCmd
import Verif.Props.FileInterp
import Verif.Props.LoadFv
import Verif.Model.AdiosData
import Verif.Spec.AdiosData
import Verif.Props.AdiosData
import Verif.Spec.SelectInterp
import Verif.Props.SelectInterp
import Verif.Spec.InterpIntegral
import Verif.Lemmas.InterpIntegral
import Verif.Props.InterpIntegral
import Verif.Model.Kernel
import Verif.Model.Kernels
import Verif.Lemmas.Kernels
import Verif.Props.Kernels
import Verif.Props.CutLoad
import Verif.Spec.EvLinear
import Verif.Lemmas.EvLinear
import Verif.Lemmas.EvCommute
import Verif.Props.EvLinear
import Verif.Lemmas.Adjacent
import Verif.Props.Adjacent
import Verif.Lemmas.CollectSelect
import Verif.Props.CollectSelect
import Verif.Spec.TagCommute
import Verif.Lemmas.TagCommute
import Verif.Props.TagCommute
import Verif.Spec.SaveLoad
import Verif.Props.SaveLoad
import Verif.Props.FftIso
import Verif.Spec.SpectralEnergy
import Verif.Props.SpectralEnergy
import Verif.Props.SelectDiff
import Verif.Lemmas.SelectIntegrate
import Verif.Props.SelectIntegrate
import Verif.Props.IntegrateRoutes
import Verif.Props.CollectIntegrate
import Verif.Spec.EvOps
import Verif.Lemmas.EvOps
import Verif.Props.EvOps
import Verif.Spec.EvCommand
import Verif.Lemmas.EvPush
import Verif.Props.EvCommand
import Verif.Spec.EvNumber
import Verif.Lemmas.EvNumber
import Verif.Props.EvNumber
import Verif.Props.PlotPair
import Verif.Spec.FftAmplitudes
import Verif.Props.FftAmplitudes
import Verif.Model.PlotPanels
import Verif.Spec.PlotPanels
import Verif.Props.PlotPanels
import Verif.Model.SharedLists
import Verif.Spec.SharedLists
import Verif.Props.SharedLists
import Verif.Model.Picture
import Verif.Spec.Picture
import Verif.Lemmas.Picture
import Verif.Props.Picture
import Verif.Model.GkFigure
import Verif.Spec.GkFigure
import Verif.Props.GkFigure
import Verif.Model.AnimFrame
import Verif.Spec.AnimFrame
import Verif.Props.AnimFrame
import Verif.Model.Trajectory
import Verif.Spec.Trajectory
import Verif.Props.Trajectory
import Verif.Spec.Kept
import Verif.Lemmas.Kept
import Verif.Lemmas.KeptCommands
import Verif.Props.Kept
import Verif.Lemmas.Swap
import Verif.Props.SelectFluid
import Verif.Props.SelectDgCommands
import Verif.Model.Inputs
import Verif.Spec.Inputs
import Verif.Lemmas.Inputs
import Verif.Props.Inputs
import Verif.Model.Failing
import Verif.Spec.Failing
import Verif.Lemmas.Failing
import Verif.Props.Failing
import Verif.Model.Registered
import Verif.Spec.Registered
import Verif.Props.Registered
import Verif.Model.InputsMag
import Verif.Props.InputsMag
import Verif.Props.SelectPairs
import Verif.Model.Butter
import Verif.Spec.Butter
import Verif.Lemmas.Butter
import Verif.Props.Butter
import Verif.Props.EvAgree
import Verif.Model.NeverRun
import Verif.Props.NeverRun
import Verif.Props.CollectFluid
import Verif.Model.Options
import Verif.Model.OptionTable
import Verif.Spec.Options
import Verif.Lemmas.Options
import Verif.Props.Options
import Verif.Model.Limits
import Verif.Props.Limits
import Verif.Model.LineLoads
import Verif.Props.LineLoads
import Verif.Props.OptionsExact
import Verif.Props.LineLoadsExact
import Verif.Model.SelectLine
import Verif.Props.Order
