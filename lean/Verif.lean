import Verif.Props.Bound
import Verif.Props.ProdDiv
import Verif.Props.Params
import Verif.Props.ParamStream
import Verif.Props.Codec
import Verif.Props.Format
import Verif.Props.Transform
import Verif.Props.Kinematics
import Verif.Props.KinRad
import Verif.Props.Frame
import Verif.Props.Map
import Verif.Props.Cut
import Verif.Props.CutRad
import Verif.Props.Interp
import Verif.Props.ReadGrids
import Verif.Props.Integ
import Verif.Props.Generate
import Verif.Props.Terminal
import Verif.Props.SfMask
import Verif.Props.CrossSection
import Verif.Props.Trento
import Verif.Props.Phenom
import Verif.Props.Asymmetry
import Verif.Props.Tmd
import Verif.Props.Prokudin
import Verif.Props.Density
import Verif.Props.Dist
import Verif.Props.Main
import Verif.Props.Command
import Verif.Props.CommandSample
import Verif.Props.CommandExamples
import Verif.Props.Qed
import Verif.Props.SoftPhoton
import Verif.Props.PhotonInteg
import Verif.Props.MergeSoft
import Verif.Props.Dilog
import Verif.Props.Infrared
import Verif.Props.Positive
import Verif.Props.Sampling
import Verif.Props.SamplingXs
import Verif.Props.Random
import Verif.Props.RandomBias
import Verif.Props.ProcessEvents
import Verif.Props.BoundRnd
import Verif.Props.Total
import Verif.Props.StatsReport
import Verif.Props.Help
import Verif.Props.TakeAll
import Verif.Props.Example
import Verif.Props.Symmetry
import Verif.Props.Units
import Verif.Props.PlotPhaseSpace
import Verif.Props.SymmetryInteg
import Verif.Props.SqrtRnd
import Verif.Props.AsymmetryBound
import Verif.Props.ProkudinXs
import Verif.Props.LibSet
import Verif.Props.Integrate
import Verif.Props.PlotSsa
import Verif.Props.LoadGrids
import Verif.Props.ProkudinTables
import Verif.Props.SfLifetime
import Verif.Props.PhotonTables
import Verif.Props.SfSum
import Verif.Props.UnitsPhoton
import Verif.Props.Polarisation
import Verif.Props.AsymScale
import Verif.Props.OpenCuts
import Verif.Props.Overloads
import Verif.Props.TakeOut
import Verif.Props.BadCutoff
