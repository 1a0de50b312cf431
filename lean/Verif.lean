import Verif.Props.Pbc
import Verif.Props.Symmetry
import Verif.Props.Constants
import Verif.Props.Reference
import Verif.Props.Displace
import Verif.Props.Interpolation
import Verif.Props.InterpolationDof
import Verif.Props.InterpolationSym
import Verif.Props.Art
import Verif.Props.Dynamics
import Verif.Props.Spectrum
import Verif.Props.Convolve
import Verif.Model.Text
import Verif.Model.Poscar
import Verif.Model.Write
import Verif.Spec.Text
import Verif.Spec.PeriodicTable
import Verif.Spec.Files
import Verif.Proofs.Text
import Verif.Proofs.Poscar
import Verif.Proofs.Truncate
import Verif.Props.Poscar
import Verif.Props.PoscarErrors
import Verif.Props.PoscarExact
import Verif.Props.Xdatcar
import Verif.Props.Write
import Verif.Model.Outcar
import Verif.Spec.Outcar
import Verif.Proofs.Outcar
import Verif.Props.Outcar
import Verif.Props.OutcarSteps
import Verif.Props.OutcarErrors
import Verif.Model.Xml
import Verif.Model.Vasprun
import Verif.Spec.Vasprun
import Verif.Proofs.Vasprun
import Verif.Props.Vasprun
import Verif.Props.VasprunPhonons
import Verif.Model.Shape
import Verif.Props.Shape
import Verif.Model.Dataset
import Verif.Spec.Dataset
import Verif.Props.Dataset
import Verif.Props.DatasetFiles
import Verif.Props.DatasetErrors
import Verif.Model.Generic
import Verif.Props.Generic
import Verif.Model.TorchUtils
import Verif.Spec.Graph
import Verif.Props.Rotation
import Verif.Proofs.Batch
import Verif.Props.TorchUtils
import Verif.Props.RadiusGraph
import Verif.Model.Gnn
import Verif.Proofs.Gnn
import Verif.Proofs.GnnForward
import Verif.Spec.Gnn
import Verif.Props.EdgePol
import Verif.Props.Gnn
import Verif.Props.GnnSetup
import Verif.Model.Train
import Verif.Spec.Train
import Verif.Props.Train
import Verif.Model.Alias
import Verif.Props.Alias
import Verif.Model.PymatgenDof
import Verif.Model.Pymatgen
import Verif.Props.PymatgenDof
import Verif.Props.Pymatgen
import Verif.Proofs.AlmostOrthogonal
import Verif.Props.CrossCall
import Verif.Props.ArtSpec
import Verif.Props.DofCount
import Verif.Props.PartialSpectra
import Verif.Props.DatasetItems
import Verif.Model.Repr
import Verif.Props.Repr
import Verif.Props.Workflow
import Verif.Spec.Layout
import Verif.Proofs.Layout
import Verif.Proofs.ReaderLayout
import Verif.Props.Layout
import Verif.Props.LayoutTs
import Verif.Props.DofFiles
import Verif.Spec.Line
import Verif.Props.ArtLinear
import Verif.Spec.Equivariance
import Verif.Props.Equivariance
import Verif.Props.ArtWorkflow
import Verif.Props.MdPipeline
import Verif.Props.InvalidDof
import Verif.Props.SpglibConvention
import Verif.Spec.Network
import Verif.Props.GnnLayers
import Verif.Proofs.GnnFormula
import Verif.Props.GnnFormula
import Verif.Proofs.GnnRelabel
import Verif.Props.GnnRelabel
import Verif.Props.GnnTypes
import Verif.Props.GnnBounded
import Verif.Props.GnnRotation
import Verif.Props.RamanDifference
import Verif.Props.TrajectorySequence
import Verif.Model.GnnTrain
import Verif.Props.GnnTraining
import Verif.Props.PbcRounding
import Verif.Spec.OutcarFile
import Verif.Props.OutcarFile
import Verif.Props.VasprunFile
import Verif.Proofs.Chars
import Verif.Spec.OutcarSeries
import Verif.Props.OutcarSeries
import Verif.Props.VasprunSeries
import Verif.Model.XdatcarTrajectory
import Verif.Props.FileRoundTrip
import Verif.Spec.Orientation
import Verif.Props.Orientation
import Verif.Spec.Harmonic
import Verif.Proofs.Harmonic
import Verif.Props.Harmonic
import Verif.Proofs.Frame
import Verif.Props.Frame
import Verif.Props.GenericFiles
import Verif.Spec.Origin
import Verif.Proofs.Origin
import Verif.Props.Origin
import Verif.Props.CallOrder
import Verif.Props.Witnesses
import Verif.Props.Numbering
import Verif.Props.SelectionRules
import Verif.Props.RigidMotion
import Verif.Props.DegenerateModes
import Verif.Props.SpectrumRounding
import Verif.Props.Continuity
import Verif.Props.OperationOrder
import Verif.Props.OperationOrderRuns
import Verif.Props.Messages
import Verif.Props.TimeStep
import Verif.Props.CellChoice
import Verif.Props.PredictionRounding
import Verif.Proofs.GnnSmooth
import Verif.Props.GnnSmooth
import Verif.Proofs.Crash
import Verif.Props.Crash
import Verif.Spec.Literal
import Verif.Props.Label
import Verif.Model.Dimenet
import Verif.Props.Dimenet
import Verif.Props.GnnSetOrder
import Verif.Props.CrashXdatcar
import Verif.Props.Dtype
import Verif.Props.CrashDisplaced
import Verif.Props.Retry
import Verif.Model.DofRows
import Verif.Props.DofRows
import Verif.Model.DisplaceRows
import Verif.Props.DisplaceRows
import Verif.Props.NumberingArt
import Verif.Model.GnnModel
import Verif.Props.GnnModel
import Verif.Model.DofPaths
import Verif.Props.DofPaths
import Verif.Props.ScriptSymmetry
import Verif.Props.DynamicArgs
import Verif.Proofs.DummyRun
import Verif.Props.DummyRun
import Verif.Props.OperationOrderCalls
import Verif.Model.Undecodable
import Verif.Proofs.Undecodable
import Verif.Proofs.UndecodableEnd
import Verif.Props.Undecodable
import Verif.Props.UndecodableCut
import Verif.Model.ElementTypes
import Verif.Props.ElementTypes
import Verif.Props.LineWidth
import Verif.Props.Temperature
import Verif.Props.SumRule
import Verif.Props.ExactLimits
import Verif.Props.NonFinite
import Verif.Props.NanSpectrum
import Verif.Spec.TensorShapes
import Verif.Props.TensorShapes
import Verif.Spec.CutFile
import Verif.Props.CutOutcar
import Verif.Props.CutOutcarReaders
import Verif.Props.OutcarTail
import Verif.Props.CutPoscar
import Verif.Props.TextTimestep
import Verif.Props.PoscarTail
import Verif.Model.OneAtom
import Verif.Props.OneAtom
