import Verif.Model.Basic
import Verif.Model.Sqrt
import Verif.Model.Constraint
import Verif.Spec.Constraint
import Verif.Model.Geometry
import Verif.Model.Contact
import Verif.Model.Robot
import Verif.Model.Formulation
import Verif.Lemmas.Block
import Verif.Lemmas.Loop
import Verif.Lemmas.ContactShape
import Verif.Lemmas.Invariant
import Verif.Lemmas.Assemble
import Verif.Lemmas.Steps
import Verif.Spec.Formulation
import Verif.Lemmas.Decode
import Verif.Lemmas.Entries
import Verif.Example.Demo
import Verif.Props.Dynamics
import Verif.Spec.Registry
import Verif.Lemmas.Names
import Verif.Lemmas.Coherence
import Verif.Lemmas.Registry
import Verif.Lemmas.Refinement
import Verif.Lemmas.RegistryRun
import Verif.Lemmas.Lines
import Verif.Example.Tidy
import Verif.Lemmas.RoundTrip
import Verif.Props.Registry
import Verif.Spec.Problem
import Verif.Lemmas.Contents
import Verif.Lemmas.Frame
import Verif.Spec.Cycle
import Verif.Lemmas.History
import Verif.Lemmas.Transitions
import Verif.Props.Cycle
import Verif.Props.Transitions
import Verif.Props.Getters
import Verif.Spec.Sizes
import Verif.Lemmas.Sizes
import Verif.Props.Sizes
import Verif.Spec.Contact
import Verif.Lemmas.Friction
import Verif.Lemmas.ContactSetters
import Verif.Props.Contact
import Verif.Model.Solver
import Verif.Spec.Solver
import Verif.Lemmas.Solver
import Verif.Lemmas.SolverRun
import Verif.Lemmas.Convex
import Verif.Lemmas.SolverAgree
import Verif.Props.Solver
import Verif.Props.SolverCost
import Verif.Props.SolverExists
import Verif.Model.SolverSettings
import Verif.Spec.SolverSettings
import Verif.Props.SolverSettings
import Verif.Lemmas.Objects
import Verif.Spec.EndToEnd
import Verif.Props.EndToEnd
import Verif.Model.Mask
import Verif.Spec.Tasks
import Verif.Lemmas.Mask
import Verif.Model.JointTasks
import Verif.Spec.JointTasks
import Verif.Lemmas.JointBounds
import Verif.Props.JointBounds
import Verif.Model.PosVelAcc
import Verif.Spec.PosVelAcc
import Verif.Lemmas.PosVelAcc
import Verif.Lemmas.PosVelAccRun
import Verif.Props.PosVelAcc
import Verif.Lemmas.Posture
import Verif.Props.Posture
import Verif.Props.Constraint
import Verif.Model.SE3Utils
import Verif.Model.CartesianTasks
import Verif.Spec.CartesianTasks
import Verif.Lemmas.Geometry
import Verif.Lemmas.Cartesian
import Verif.Lemmas.CartesianRuns
import Verif.Props.Cartesian
import Verif.Props.CartesianMore
import Verif.Model.Trajectory
import Verif.Spec.Poses
import Verif.Props.Poses
import Verif.Props.CartesianGetters
import Verif.Model.RobotProgram
import Verif.Spec.Robot
import Verif.Props.Robot
import Verif.Model.ForceTasks
import Verif.Spec.ForceTasks
import Verif.Props.ForceTasks
import Verif.Props.ForceTracking
import Verif.Model.MathUtils
import Verif.Spec.MathUtils
import Verif.Lemmas.Svd
import Verif.Props.MathUtils
import Verif.Model.Files
import Verif.Props.Files
import Verif.Model.Timing
import Verif.Spec.Timing
import Verif.Props.Timing
import Verif.Model.MeasuredForce
import Verif.Spec.MeasuredForce
import Verif.Props.MeasuredForce
import Verif.Spec.Viability
import Verif.Props.Viability
import Verif.Lemmas.Feasible
import Verif.Spec.Feasibility
import Verif.Props.Feasibility
import Verif.Spec.Tracking
import Verif.Lemmas.Tracking
import Verif.Props.Tracking
import Verif.Model.Python
import Verif.Spec.Python
import Verif.Props.Python
import Verif.Model.SolverCopy
import Verif.Props.SolverCopy
import Verif.Model.RobotSizes
import Verif.Props.RobotSizes
import Verif.Spec.Weights
import Verif.Props.Weights
import Verif.Model.SolverOutput
import Verif.Spec.SolverOutput
import Verif.Lemmas.SolverOutput
import Verif.Props.SolverOutput
import Verif.Props.SolverCycle
import Verif.Spec.Support
import Verif.Props.Support
import Verif.Model.Program
import Verif.Spec.Program
import Verif.Lemmas.Program
import Verif.Lemmas.ProgramForm
import Verif.Lemmas.ProgramContacts
import Verif.Lemmas.ProgramInv
import Verif.Props.ProgramTasks
import Verif.Props.ProgramContacts
import Verif.Props.Program
import Verif.Spec.ProgramProgress
import Verif.Props.ProgramProgress
import Verif.Spec.ProgramCost
import Verif.Lemmas.ProgramReg
import Verif.Props.ProgramCost
import Verif.Spec.ProgramSolve
import Verif.Props.ProgramSolve
import Verif.Spec.ProgramRun
import Verif.Props.ProgramRun
import Verif.Spec.ProgramExact
import Verif.Lemmas.ProgramLimits
import Verif.Props.ProgramExact
import Verif.Spec.ControlLoop
import Verif.Lemmas.Sampled
import Verif.Props.ControlLoop
import Verif.Props.ControlLoopDemo
import Verif.Spec.ControlLimits
import Verif.Props.ControlLimits
import Verif.Props.ControlLimitsDemo
import Verif.Model.Attributes
import Verif.Spec.Attributes
import Verif.Lemmas.Attributes
import Verif.Props.Attributes
import Verif.Props.AttributesJoint
import Verif.Props.AttributesForce
import Verif.Props.ForeignRemoval
import Verif.Spec.Primitives
import Verif.Props.Primitives
import Verif.Props.Normals
import Verif.Props.SameNames
import Verif.Model.Dims
import Verif.Props.Dims
import Verif.Model.Quaternion
import Verif.Spec.Quaternion
import Verif.Props.Quaternion
import Verif.Spec.ProgramText
import Verif.Lemmas.ProgramText
import Verif.Props.ProgramText
import Verif.Props.ProgramTextExists
import Verif.Spec.Release
import Verif.Lemmas.Release
import Verif.Props.Release
import Verif.Model.PythonProblem
import Verif.Spec.PythonProblem
import Verif.Props.PythonProblem
import Verif.Spec.Story
import Verif.Lemmas.Story
import Verif.Props.Story
import Verif.Spec.Builds
import Verif.Props.Builds
import Verif.Props.LimitsKept
import Verif.Props.LimitsKeptDemo
import Verif.Spec.Disturbed
import Verif.Lemmas.Disturbed
import Verif.Props.Disturbed
import Verif.Spec.SoftLoop
import Verif.Props.SoftLoop
import Verif.Props.SoftLoopDemo
import Verif.Lemmas.ConName
import Verif.Spec.Static
import Verif.Props.Static
import Verif.Model.Biped
import Verif.Spec.Biped
import Verif.Props.Biped
import Verif.Props.BipedDemo
import Verif.Spec.Exceptions
import Verif.Spec.BipedSettings
import Verif.Props.Exceptions
import Verif.Props.BipedSettings
import Verif.Props.BipedSettingsDemo
import Verif.Spec.Gradual
import Verif.Props.Gradual
import Verif.Props.GradualDemo
import Verif.Model.Manipulator
import Verif.Spec.Manipulator
import Verif.Props.Manipulator
import Verif.Props.ManipulatorExists
import Verif.Props.ManipulatorDemo
import Verif.Model.Quadruped
import Verif.Spec.Quadruped
import Verif.Props.Quadruped
import Verif.Props.QuadrupedSolve
import Verif.Props.QuadrupedDemo
import Verif.Model.Gripper
import Verif.Spec.Gripper
import Verif.Props.Gripper
import Verif.Props.GripperSolve
import Verif.Props.GripperUnique
import Verif.Props.GripperDemo
import Verif.Model.JointControl
import Verif.Spec.JointControl
import Verif.Props.JointControl
import Verif.Props.JointControlLoop
import Verif.Props.JointControlDemo
import Verif.Props.JointControlTrack
