import Verif.Data.Props
import Verif.Data.ArithProps
import Verif.Data.ObjectProps
import Verif.Data.BinProps
import Verif.Data.AnalysisProps
import Verif.Data.ScansProps
import Verif.Data.BalanceProps
import Verif.Energy.Props
import Verif.Functions.Props
import Verif.Functions.PropsAdd
import Verif.Functions.Props2D
import Verif.Functions.PropsArea
import Verif.Crystal.PropsSystem
import Verif.Symmetry.Props
import Verif.Symmetry.PropsStrings
import Verif.Symmetry.PropsDatabase
import Verif.Structure.Props
import Verif.Structure.PropsGroup
import Verif.Structure.PropsXs
import Verif.Tools.Props
import Verif.Tools.PropsKin
import Verif.Tools.PropsProj
import Verif.Tools.PropsWidths
import Verif.Instrument.Props
import Verif.Crystal.PropsPhi
import Verif.Resolution.PropsBatch
import Verif.Resolution.PropsSide
import Verif.FileIO.InstrWhole
import Verif.FileIO.DetectProps
import Verif.FileIO.SaveRound
import Verif.Fitter.History
import Verif.Structure.PropsMore
import Verif.Data.TightProps
import Verif.Tools.PropsEllipse
import Verif.FileIO.Loaders
import Verif.FileIO.LoadersLemmas
import Verif.FileIO.LoadersProps
import Verif.FileIO.LoadersGrid
import Verif.FileIO.LoadersSpe
import Verif.FileIO.LoadersSpeLine
import Verif.Data.Fwhm
import Verif.Models.Props
import Verif.Resolution.PropsFlight
import Verif.Resolution.PropsMosaic
import Verif.Resolution.PropsIntegral
import Verif.Resolution.PropsIntegralAll
import Verif.Resolution.PropsPaths
import Verif.Resolution.PropsCylinder
import Verif.Resolution.PropsForms
import Verif.FileIO.LoadersKeys
import Verif.Angles.Model
import Verif.Angles.Props
import Verif.Angles.PropsQ
import Verif.Angles.PropsSpurion
import Verif.Resolution.Projections
import Verif.Resolution.PropsProjections
import Verif.Resolution.PropsMirror
import Verif.Resolution.PropsView
import Verif.Resolution.PropsScale
import Verif.Resolution.PropsParams
import Verif.Angles.PropsB
import Verif.Tof.Model
import Verif.Tof.Flight
import Verif.Tof.Derivs
import Verif.Tof.Lemmas
import Verif.Tof.Kin
import Verif.Tof.Props
import Verif.Tof.Bench
import Verif.Tof.PropsBeam
import Verif.Tof.PropsFlight
import Verif.Tof.PropsTriangle
import Verif.Tof.PropsCrystal
import Verif.Tof.PropsMore
import Verif.Convolution.Model
import Verif.Convolution.Grid
import Verif.Convolution.Limit
import Verif.Convolution.Spec
import Verif.Convolution.Lemmas
import Verif.Convolution.Reach
import Verif.Convolution.Props
import Verif.Convolution.PropsMore
import Verif.Convolution.PropsForm
import Verif.Convolution.PropsMC
import Verif.Convolution.Theta
import Verif.Convolution.Law
import Verif.Convolution.Mean
import Verif.Convolution.PropsMean
import Verif.Single.Model
import Verif.Single.Voigt
import Verif.Single.Lemmas
import Verif.Single.Plasma
import Verif.Single.Check
import Verif.Single.Exp
import Verif.Single.Pieces
import Verif.Single.Regions
import Verif.Single.Props
import Verif.Single.PropsCoupled
import Verif.Tof.PropsTight
import Verif.Single.Mean
import Verif.Single.PropsMean
import Verif.Convolution.Variance
import Verif.Convolution.PropsVariance
import Verif.Single.PropsVariance
import Verif.Resolution.PropsMonitor
import Verif.Resolution.PropsGuide
import Verif.Resolution.PropsGuideFalse
import Verif.Resolution.PropsSmooth
import Verif.Resolution.PropsFocus
import Verif.Resolution.PropsVmosaic
import Verif.FileIO.ParCfg
import Verif.FileIO.ParCfgProps
import Verif.Instrument.Equality
import Verif.Instrument.EqualityProps
import Verif.FileIO.Taz
import Verif.FileIO.TazProps
import Verif.Data.Contour
import Verif.Data.ContourProps
import Verif.Structure.Spurion
import Verif.Structure.SpurionProps
import Verif.Resolution.Ellipsoid
import Verif.Resolution.EllipsoidProps
import Verif.Resolution.EllipsoidOdd
import Verif.Resolution.Figure
import Verif.Resolution.FigureProps
import Verif.Resolution.Report
import Verif.Resolution.ReportProps
import Verif.Angles.Layout
import Verif.Angles.LayoutProps
import Verif.Data.Line
import Verif.Data.LineProps
import Verif.Structure.Cell
import Verif.Structure.CellProps
import Verif.Fitter.Table
import Verif.Fitter.TableProps
import Verif.Instrument.Create
import Verif.Instrument.CreateProps
import Verif.Data.ScansPlot
import Verif.Data.ScansPlotProps
import Verif.Fitter.Settings
import Verif.Fitter.SettingsProps
import Verif.Fitter.Plot
import Verif.Fitter.PlotProps
import Verif.Gui.Model
import Verif.Gui.Props
import Verif.Data.Volume
import Verif.Data.VolumeProps
import Verif.Structure.IonTable
import Verif.Structure.Ions
import Verif.Structure.IonsProps
import Verif.Structure.Magnetic
import Verif.Structure.MagneticProps
import Verif.FileIO.InstrH5
import Verif.FileIO.InstrH5Props
import Verif.Symmetry.Parts
import Verif.Symmetry.PartsProps
import Verif.FileIO.Grasp
import Verif.FileIO.GraspProps
import Verif.Fitter.Results
import Verif.Fitter.ResultsProps
import Verif.Tof.Report
import Verif.Tof.ReportProps
import Verif.Instrument.Printed
import Verif.Instrument.PrintedLemmas
import Verif.Instrument.PrintedProps
import Verif.Data.ErrorProps
import Verif.Data.Whole
import Verif.Data.WholeProps
import Verif.Instrument.Shared
import Verif.Instrument.SharedProps
import Verif.Resolution.PropsDefaults
import Verif.Resolution.PropsMonotone
import Verif.Resolution.PropsOpen
import Verif.Resolution.PropsCell
import Verif.FileIO.InstrResoProps
import Verif.Functions.PropsShape
import Verif.Functions.PropsSign
import Verif.Structure.SupercellProps
import Verif.Resolution.PropsMirrorScan
import Verif.Resolution.PropsUnits
import Verif.Resolution.PropsUnitsNamed
import Verif.Resolution.PropsReverse
import Verif.Resolution.PropsReverseVmosaic
import Verif.Resolution.PropsReverseGuide
import Verif.Resolution.PropsOpposite
import Verif.FileIO.LoadersCut
import Verif.Data.ScaleProps
import Verif.Resolution.PropsMonitorSize
import Verif.Resolution.PropsMonitorHeight
import Verif.Data.ReverseProps
import Verif.Data.BinOrder
import Verif.Structure.Arrays
import Verif.Structure.ArraysProps
import Verif.Resolution.PropsArms
import Verif.Data.StretchProps
import Verif.Data.RebinProps
import Verif.Data.BinUnits
import Verif.Structure.OrbitProps
import Verif.Resolution.PropsWavelength
import Verif.Resolution.PropsWavelengthCrystal
import Verif.Tof.PropsSize
import Verif.Tof.PropsFaster
import Verif.Tof.PropsUpside
import Verif.Convolution.PropsMonotone
import Verif.Single.PropsForm
import Verif.Data.BinScale
import Verif.Single.PropsMonotone
import Verif.Tools.PropsShadow
import Verif.Structure.OriginProps
import Verif.Structure.MultiplicityProps
import Verif.Data.PartsProps
import Verif.Data.FlatProps
import Verif.Tools.PropsPlanes
import Verif.Data.PercentProps
import Verif.Energy.ScaleProps
import Verif.Functions.PropsUnits
import Verif.Crystal.PropsUnits
import Verif.Structure.ThicknessProps
import Verif.Data.BalanceLimits
import Verif.Angles.PropsWarnings
import Verif.Models.PropsRelations
import Verif.Instrument.PropsChopper
import Verif.Tools.PropsChop
import Verif.Tools.PropsTriangle
import Verif.Tools.PropsFree
import Verif.Audit
