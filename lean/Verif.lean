import Verif.Props.Native
import Verif.Props.InputOrder
import Verif.Props.History
import Verif.Props.Tables
import Verif.Props.Matrix
import Verif.Props.Circuit
import Verif.Props.CircuitSize
import Verif.Props.CircuitHash
import Verif.Props.CircuitWitness
import Verif.Props.Preimage
import Verif.Props.Generator
import Verif.Props.Alpha
import Verif.Props.Transcript
import Verif.Props.Rounds
import Verif.Props.Security
import Verif.Props.SecurityV2
import Verif.Props.GenerateV1
import Verif.Props.GenerateV2
import Verif.Props.Build
import Verif.Props.CircuitGenerated
import Verif.Props.Sage
import Verif.Proofs.KnownAnswers
import Verif.Proofs.KnownAnswersGen
import Verif.Props.Panics
import Verif.Props.Machine
import Verif.Props.Trail
import Verif.Props.PaperTables
import Verif.Props.CalcRounds
import Verif.Props.CalcRoundsFields
import Verif.Props.MdsTests
import Verif.Props.Degree
import Verif.Props.Separation
import Verif.Props.Constants
import Verif.Props.Floats
import Verif.Props.ModulusArgument
import Verif.Props.Returns
import Verif.Proofs.AuthorVectors
import Verif.Props.SageSecurity
import Verif.Props.Trace
import Verif.Props.Reference
import Verif.Props.Grain
import Verif.Props.StarkMds
import Verif.Props.Symbolic
import Verif.Model.KeyShape
import Verif.Model.Groth16
import Verif.Spec.Groth16
import Verif.Proofs.R1csRows
import Verif.Proofs.R1csColumns
import Verif.Proofs.PreimageColumns
import Verif.Proofs.Domain
import Verif.Proofs.Groth16
import Verif.Proofs.Groth16Core
import Verif.Proofs.Groth16Preimage
import Verif.Props.Groth16
import Verif.Proofs.Groth16Sound
import Verif.Proofs.Groth16Strategy
import Verif.Props.ZeroKnowledge
import Verif.Props.Soundness
import Verif.Props.Key
import Verif.Model.KeyFile
import Verif.Model.KeyPoints
import Verif.Spec.KeyFile
import Verif.Proofs.KeyFile
import Verif.Proofs.KeyPoints
import Verif.Props.KeyFile
import Verif.Model.WriteParams
import Verif.Spec.WriteParams
import Verif.Proofs.WriteParams
import Verif.Props.WriteParams
import Verif.Model.RandomTests
import Verif.Proofs.RandomTests
import Verif.Props.RandomTests
import Verif.Model.Wrappers
import Verif.Spec.Wrappers
import Verif.Props.Wrappers
import Verif.Model.InPlace
import Verif.Spec.Threads
import Verif.Spec.LeftState
import Verif.Proofs.InPlace
import Verif.Proofs.LeftState
import Verif.Proofs.Threads
import Verif.Props.Threads
import Verif.Model.Arith
import Verif.Proofs.Arith
import Verif.Model.UserCircuit
import Verif.Spec.UserCircuit
import Verif.Proofs.UserCircuit
import Verif.Props.UserCircuit
import Verif.Model.UserProof
import Verif.Proofs.UserProof
import Verif.Props.UserProof
import Verif.Model.TestVectors
import Verif.Spec.TestVectors
import Verif.Props.TestVectors
import Verif.Proofs.Race
import Verif.Proofs.Mismatch
import Verif.Props.Race
import Verif.Spec.ZeroSum
import Verif.Props.ZeroSum
import Verif.Proofs.Splice
import Verif.Props.Killed
import Verif.Props.Membership
import Verif.Spec.ManyWords
import Verif.Proofs.MvDegree
import Verif.Props.ManyWords
import Verif.Model.PowerLoss
import Verif.Props.PowerLoss
import Verif.Model.Concurrent
import Verif.Proofs.Concurrent
import Verif.Props.Concurrent
import Verif.Spec.Program
import Verif.Proofs.Program
import Verif.Props.Program
import Verif.Spec.Mode
import Verif.Proofs.Mode
import Verif.Props.Mode
import Verif.Spec.Hiding
import Verif.Proofs.Hiding
import Verif.Props.Hiding
import Verif.Spec.Tree
import Verif.Props.Tree
import Verif.Spec.Keyed
import Verif.Proofs.Keyed
import Verif.Props.Keyed
import Verif.Spec.RandomFunction
import Verif.Proofs.RandomFunction
import Verif.Props.RandomFunction
import Verif.Spec.Fault
import Verif.Proofs.CircuitRun
import Verif.Proofs.Fault
import Verif.Props.Needed
import Verif.Props.NeededPreimage
import Verif.Model.CircuitState
import Verif.Spec.CircuitState
import Verif.Proofs.CircuitState
import Verif.Props.CircuitState
import Verif.Props.SquareMul
import Verif.Spec.RandomConstants
import Verif.Proofs.RandomConstants
import Verif.Props.RandomConstants
import Verif.Model.CircuitFields
import Verif.Spec.CircuitFields
import Verif.Proofs.CircuitFields
import Verif.Props.CircuitFields
import Verif.Model.Bench
import Verif.Spec.Bench
import Verif.Proofs.Bench
import Verif.Props.Bench
import Verif.Model.TornFile
import Verif.Props.TornFile
import Verif.Spec.InverseCount
import Verif.Proofs.InverseCount
import Verif.Props.InverseCount
import Verif.Proofs.InverseDiff
import Verif.Props.InverseConstants
import Verif.Proofs.ConstantChange
import Verif.Props.ConstantChange
import Verif.Props.RoundsChange
import Verif.Proofs.MatrixChange
import Verif.Props.MatrixChange
import Verif.Proofs.MdsEntry
import Verif.Props.MdsEntry
import Verif.Proofs.SameTables
import Verif.Props.SameTables
