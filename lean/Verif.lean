import Verif.Props.Utility
import Verif.Props.ElementMap
import Verif.Props.Settings
import Verif.Props.Scaling
import Verif.Props.Units
import Verif.Props.Dataset
import Verif.Props.Message
import Verif.Props.StructureFile
import Verif.Props.Cutoff
import Verif.Props.Geometry
import Verif.Props.NeuralNetwork
import Verif.Props.Updater
import Verif.Props.Training
import Verif.Props.TrainingUpdate
import Verif.Props.SymFnc
import Verif.Props.SymFncSetup
import Verif.Props.NetworkSetup
import Verif.Model.Mode
import Verif.Spec.Mode
import Verif.Lemma.ModeElement
import Verif.Lemma.ModeFold
import Verif.Model.SymGrp
import Verif.Spec.SymGrp
import Verif.Lemma.SymGrpConc
import Verif.Lemma.SymGrpRad
import Verif.Lemma.SymGrpExpAng
import Verif.Lemma.SymGrpCompAng
import Verif.Lemma.SymGrpEval
import Verif.Lemma.SymGrpSetup
import Verif.Lemma.SymGrpAll
import Verif.Lemma.ModeAtom
import Verif.Lemma.ModeList
import Verif.Lemma.ModeNetwork
import Verif.Lemma.ModeEnergy
import Verif.Lemma.ModeForce
import Verif.Lemma.ModeDeriv
import Verif.Lemma.ModeEval
import Verif.Lemma.ModeInvariance
import Verif.Lemma.ModeExists
import Verif.Lemma.ModeExample
import Verif.Lemma.ModeOwnImage
import Verif.Model.ModeGroups
import Verif.Lemma.ModeGroups
import Verif.Props.Mode
import Verif.Lemma.SymGrpShift
import Verif.Lemma.SymGrpExample
import Verif.Props.SymGrp
import Verif.Model.Kspace
import Verif.Model.Electrostatics
import Verif.Spec.Electrostatics
import Verif.Lemma.Kspace
import Verif.Lemma.Erf
import Verif.Lemma.ErfcBuf
import Verif.Lemma.ElecMatrix
import Verif.Lemma.Qeq
import Verif.Lemma.QeqRun
import Verif.Lemma.QeqList
import Verif.Lemma.Screening
import Verif.Lemma.QeqExample
import Verif.Lemma.ElecDeriv
import Verif.Lemma.ElecGrad
import Verif.Lemma.SameLists
import Verif.Lemma.ElecEnergyDeriv
import Verif.Lemma.ElecRun
import Verif.Props.Ewald
import Verif.Props.Qeq
import Verif.Props.QeqDeriv
import Verif.Lemma.Implicit
import Verif.Lemma.Response
import Verif.Props.QeqResponse
import Verif.Model.Mode4G
import Verif.Spec.Mode4G
import Verif.Lemma.Alike
import Verif.Lemma.ElecMotion
import Verif.Lemma.Mode4GList
import Verif.Lemma.Mode4GSymFnc
import Verif.Lemma.Mode4GNet
import Verif.Lemma.Mode4GQeq
import Verif.Lemma.Mode4GRun
import Verif.Lemma.Mode4GEnergy
import Verif.Lemma.Mode4GForce
import Verif.Lemma.Mode4GMotion
import Verif.Lemma.Mode4GResponse
import Verif.Lemma.Mode4GResult
import Verif.Lemma.Mode4GExample
import Verif.Props.Mode4G
import Verif.Model.Prediction
import Verif.Spec.Prediction
import Verif.Lemma.Reading
import Verif.Lemma.Prediction
import Verif.Props.Prediction
import Verif.Model.Lammps
import Verif.Spec.Lammps
import Verif.Lemma.LammpsAtom
import Verif.Lemma.LammpsRun
import Verif.Lemma.LammpsResult
import Verif.Props.Lammps
import Verif.Spec.LammpsDomains
import Verif.Lemma.LammpsDomains
import Verif.Props.LammpsDomains
import Verif.Model.WeightFile
import Verif.Spec.WeightFile
import Verif.Lemma.WeightFile
import Verif.Props.WeightFile
import Verif.Model.ScalingFile
import Verif.Spec.ScalingFile
import Verif.Lemma.ScalingFile
import Verif.Props.ScalingFile
import Verif.Model.LammpsTypes
import Verif.Spec.LammpsTypes
import Verif.Lemma.LammpsTypes
import Verif.Props.LammpsTypes
import Verif.Model.Normalization
import Verif.Spec.Normalization
import Verif.Lemma.Normalization
import Verif.Props.Normalization
import Verif.Spec.OwnImages
import Verif.Lemma.OwnImages
import Verif.Props.OwnImages
import Verif.Spec.LengthUnit
import Verif.Lemma.LengthUnit
import Verif.Lemma.LengthUnitExample
import Verif.Lemma.LengthUnitForce
import Verif.Props.LengthUnit
import Verif.Model.LammpsWarnings
import Verif.Spec.LammpsWarnings
import Verif.Lemma.LammpsWarnings
import Verif.Props.LammpsWarnings
import Verif.Model.DataFile
import Verif.Spec.DataFile
import Verif.Lemma.DataFile
import Verif.Props.DataFile
import Verif.Model.Select
import Verif.Spec.Select
import Verif.Lemma.Select
import Verif.Props.Select
import Verif.Model.Convert
import Verif.Spec.Convert
import Verif.Lemma.Convert
import Verif.Props.Convert
import Verif.Model.EwaldSetup
import Verif.Spec.EwaldSetup
import Verif.Lemma.Newton
import Verif.Lemma.EwaldSetup
import Verif.Props.EwaldSetup
import Verif.Model.LearningCurve
import Verif.Spec.LearningCurve
import Verif.Lemma.LearningCurve
import Verif.Lemma.ComparisonFile
import Verif.Lemma.CurveFile
import Verif.Props.LearningCurve
import Verif.Model.Cabana
import Verif.Spec.Cabana
import Verif.Lemma.CabanaSetup
import Verif.Lemma.CabanaKernel
import Verif.Lemma.CabanaExample
import Verif.Model.CabanaWeights
import Verif.Lemma.CabanaNet
import Verif.Lemma.CabanaWeights
import Verif.Props.Cabana
import Verif.Lemma.CabanaForces
import Verif.Lemma.CabanaEnergy
import Verif.Lemma.CabanaNetworks
import Verif.Lemma.CabanaOneExample
import Verif.Props.CabanaForces
import Verif.Model.SetFiles
import Verif.Spec.SetFiles
import Verif.Lemma.SetFiles
import Verif.Props.SetFiles
import Verif.Model.Histogram
import Verif.Spec.Histogram
import Verif.Lemma.Histogram
import Verif.Props.Histogram
import Verif.Model.FunctionFile
import Verif.Spec.FunctionFile
import Verif.Lemma.FunctionFile
import Verif.Props.FunctionFile
import Verif.Model.AtomEnvironment
import Verif.Spec.AtomEnvironment
import Verif.Lemma.AtomEnvironment
import Verif.Props.AtomEnvironment
import Verif.Model.NormTool
import Verif.Spec.NormTool
import Verif.Lemma.NormTool
import Verif.Props.NormTool
import Verif.Model.CheckForces
import Verif.Spec.CheckForces
import Verif.Lemma.CheckForces
import Verif.Lemma.CheckForcesCopy
import Verif.Lemma.CheckForcesRun
import Verif.Props.CheckForces
import Verif.Model.Distribution
import Verif.Spec.Distribution
import Verif.Lemma.Distribution
import Verif.Lemma.DistributionCount
import Verif.Lemma.DistributionAngles
import Verif.Lemma.DistributionRun
import Verif.Lemma.DistributionLoop
import Verif.Props.Distribution
import Verif.Model.Sensitivity
import Verif.Spec.Sensitivity
import Verif.Lemma.Sensitivity
import Verif.Props.Sensitivity
import Verif.Model.DatasetTool
import Verif.Spec.DatasetTool
import Verif.Lemma.DatasetTool
import Verif.Lemma.DatasetToolRun
import Verif.Props.DatasetTool
import Verif.Model.NeuronFile
import Verif.Spec.NeuronFile
import Verif.Lemma.NeuronFile
import Verif.Props.NeuronFile
import Verif.Model.ShapeFile
import Verif.Spec.ShapeFile
import Verif.Lemma.ShapeFile
import Verif.Props.ShapeFile
import Verif.Model.Stopwatch
import Verif.Spec.Stopwatch
import Verif.Lemma.Stopwatch
import Verif.Props.Stopwatch
import Verif.Model.Norm2Tool
import Verif.Lemma.Norm2Tool
import Verif.Props.Norm2Tool
import Verif.Model.Compare
import Verif.Spec.Compare
import Verif.Lemma.Compare
import Verif.Props.Compare
import Verif.Model.UpdaterStatus
import Verif.Spec.UpdaterStatus
import Verif.Lemma.UpdaterStatus
import Verif.Props.UpdaterStatus
