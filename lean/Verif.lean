import Verif.Base.Dbl
import Verif.Base.F64
import Verif.Base.Res
import Verif.Model.CheckFile
import Verif.Model.Console
import Verif.Model.Fields
import Verif.Model.FileParser
import Verif.Model.Geant
import Verif.Model.Histogram
import Verif.Model.Ini
import Verif.Model.MCTools
import Verif.Model.Main
import Verif.Model.Mpi
import Verif.Model.Multivariate
import Verif.Model.Numerics
import Verif.Model.Output
import Verif.Model.OutputMpi
import Verif.Model.Package
import Verif.Model.Particle
import Verif.Model.Processes
import Verif.Model.Program
import Verif.Model.ProgramMpi
import Verif.Model.Pushers
import Verif.Model.RunManager
import Verif.Model.SharedState
import Verif.Model.Sim
import Verif.Model.Source
import Verif.Model.Surrogate
import Verif.Model.TableFiles
import Verif.Model.Threads
import Verif.Model.ThreeVector
import Verif.Model.Units
import Verif.Spec.Arrangement
import Verif.Spec.Balance
import Verif.Spec.Budget
import Verif.Spec.Bunch
import Verif.Spec.CheckFile
import Verif.Spec.Circling
import Verif.Spec.Conjugation
import Verif.Spec.Console
import Verif.Spec.Doubles
import Verif.Spec.Example
import Verif.Spec.Extended
import Verif.Spec.Families
import Verif.Spec.FirstEmission
import Verif.Spec.FirstPair
import Verif.Spec.Flight
import Verif.Spec.Frames
import Verif.Spec.Gain
import Verif.Spec.Geant
import Verif.Spec.Generations
import Verif.Spec.Geometry
import Verif.Spec.Independence
import Verif.Spec.Ini
import Verif.Spec.IniValues
import Verif.Spec.Input
import Verif.Spec.Invariant
import Verif.Spec.LargeNumbers
import Verif.Spec.Maxwell
import Verif.Spec.Mirror
import Verif.Spec.Motion
import Verif.Spec.Motions
import Verif.Spec.Mpi
import Verif.Spec.Multivariate
import Verif.Spec.Numeral
import Verif.Spec.Output
import Verif.Spec.Outside
import Verif.Spec.Parallel
import Verif.Spec.Placement
import Verif.Spec.PlaneWave
import Verif.Spec.Pulse
import Verif.Spec.PythonExample
import Verif.Spec.PythonRows
import Verif.Spec.Quiet
import Verif.Spec.Radiation
import Verif.Spec.Rates
import Verif.Spec.Reaction
import Verif.Spec.Rest
import Verif.Spec.Rounding
import Verif.Spec.RunCalls
import Verif.Spec.RungeKutta
import Verif.Spec.SIField
import Verif.Spec.SameRun
import Verif.Spec.Selection
import Verif.Spec.Settings
import Verif.Spec.Signs
import Verif.Spec.Spectrum
import Verif.Spec.SpectrumLimit
import Verif.Spec.Speed
import Verif.Spec.Sums
import Verif.Spec.Survival
import Verif.Spec.TableFiles
import Verif.Spec.Tally
import Verif.Spec.Watching
import Verif.Spec.Work
import Verif.Data.ChiMin
import Verif.Data.ESplit
import Verif.Data.Epsilon
import Verif.Data.Example
import Verif.Data.Files
import Verif.Data.HSokolov
import Verif.Data.Ksi
import Verif.Data.LogChi
import Verif.Data.PairProd
import Verif.Data.Tok
import Verif.Lemmas.Budget
import Verif.Lemmas.Bunch
import Verif.Lemmas.Circling
import Verif.Lemmas.Conjugation
import Verif.Lemmas.ContinuousEvent
import Verif.Lemmas.Covered
import Verif.Lemmas.Draws
import Verif.Lemmas.Emission
import Verif.Lemmas.Events
import Verif.Lemmas.Example
import Verif.Lemmas.Extended
import Verif.Lemmas.F64
import Verif.Lemmas.F64Depth
import Verif.Lemmas.F64Flight
import Verif.Lemmas.F64Hist
import Verif.Lemmas.F64Reaction
import Verif.Lemmas.F64Speed
import Verif.Lemmas.F64Straight
import Verif.Lemmas.F64Stuck
import Verif.Lemmas.F64Witness
import Verif.Lemmas.Families
import Verif.Lemmas.FamilyWitness
import Verif.Lemmas.Fields
import Verif.Lemmas.FileParser
import Verif.Lemmas.FirstEmission
import Verif.Lemmas.FirstPair
import Verif.Lemmas.FirstPairLimit
import Verif.Lemmas.FocalPlane
import Verif.Lemmas.Frames
import Verif.Lemmas.Gain
import Verif.Lemmas.Geant
import Verif.Lemmas.GeantEvent
import Verif.Lemmas.GeantHeap
import Verif.Lemmas.Generations
import Verif.Lemmas.Geometry
import Verif.Lemmas.Histogram
import Verif.Lemmas.Independence
import Verif.Lemmas.Ini
import Verif.Lemmas.IniConfig
import Verif.Lemmas.Input
import Verif.Lemmas.LargeNumbers
import Verif.Lemmas.LocalMotion
import Verif.Lemmas.Loop
import Verif.Lemmas.Maxwell
import Verif.Lemmas.Means
import Verif.Lemmas.Merge
import Verif.Lemmas.Mirror
import Verif.Lemmas.MirrorF64
import Verif.Lemmas.Motions
import Verif.Lemmas.Moving
import Verif.Lemmas.Mpi
import Verif.Lemmas.MpiRun
import Verif.Lemmas.Multivariate
import Verif.Lemmas.Near
import Verif.Lemmas.NearForce
import Verif.Lemmas.NearPlane
import Verif.Lemmas.NearPush
import Verif.Lemmas.NearRun
import Verif.Lemmas.NearStep
import Verif.Lemmas.NearTrue
import Verif.Lemmas.Numeral
import Verif.Lemmas.Numerics
import Verif.Lemmas.Output
import Verif.Lemmas.OutputMpi
import Verif.Lemmas.OutputRun
import Verif.Lemmas.Outside
import Verif.Lemmas.Parallel
import Verif.Lemmas.PlaneWave
import Verif.Lemmas.Processes
import Verif.Lemmas.Program
import Verif.Lemmas.ProgramRun
import Verif.Lemmas.Prolong
import Verif.Lemmas.Pushers
import Verif.Lemmas.PythonExample
import Verif.Lemmas.Quiet
import Verif.Lemmas.Radiation
import Verif.Lemmas.RadiationEvent
import Verif.Lemmas.Rare
import Verif.Lemmas.Rates
import Verif.Lemmas.Renaming
import Verif.Lemmas.Repetition
import Verif.Lemmas.Rest
import Verif.Lemmas.Riemann
import Verif.Lemmas.RowMean
import Verif.Lemmas.RunEnds
import Verif.Lemmas.RunEvents
import Verif.Lemmas.RunManager
import Verif.Lemmas.RungeKutta
import Verif.Lemmas.RungeKuttaGlobal
import Verif.Lemmas.RungeKuttaOrder
import Verif.Lemmas.SameRun
import Verif.Lemmas.Settings
import Verif.Lemmas.SharedHist
import Verif.Lemmas.SharedRng
import Verif.Lemmas.Shipped
import Verif.Lemmas.ShippedCheck
import Verif.Lemmas.ShippedMean
import Verif.Lemmas.Signs
import Verif.Lemmas.Sim
import Verif.Lemmas.Spectrum
import Verif.Lemmas.SpectrumLimit
import Verif.Lemmas.Sums
import Verif.Lemmas.Surrogate
import Verif.Lemmas.Survival
import Verif.Lemmas.TableCurves
import Verif.Lemmas.TableFiles
import Verif.Lemmas.Tally
import Verif.Lemmas.Threads
import Verif.Lemmas.Watching
import Verif.Lemmas.Witness
import Verif.Lemmas.Work
import Verif.Props.Alone
import Verif.Props.Arrangement
import Verif.Props.Balance
import Verif.Props.BalanceShipped
import Verif.Props.Budget
import Verif.Props.Bunch
import Verif.Props.CheckFile
import Verif.Props.Circling
import Verif.Props.Clock64
import Verif.Props.Conjugation
import Verif.Props.Console
import Verif.Props.Console64
import Verif.Props.ConsoleShown
import Verif.Props.Convergence
import Verif.Props.Counts
import Verif.Props.DataSets
import Verif.Props.Depth64
import Verif.Props.Drift64
import Verif.Props.Emission
import Verif.Props.Event
import Verif.Props.Example
import Verif.Props.Families
import Verif.Props.FieldFree
import Verif.Props.Fields
import Verif.Props.FirstEmission
import Verif.Props.FirstPair
import Verif.Props.Flight64
import Verif.Props.Frames
import Verif.Props.FramesExamples
import Verif.Props.FramesRates
import Verif.Props.FramesReaction
import Verif.Props.Gain
import Verif.Props.Geant
import Verif.Props.GeantEvent
import Verif.Props.GeantFields
import Verif.Props.GeantProcess
import Verif.Props.Generations
import Verif.Props.Geometry
import Verif.Props.Grid
import Verif.Props.Histogram
import Verif.Props.Independence
import Verif.Props.Ini
import Verif.Props.IniValues
import Verif.Props.Input
import Verif.Props.Invariants
import Verif.Props.LargeNumbers
import Verif.Props.LoadedTables
import Verif.Props.MCTools
import Verif.Props.Main
import Verif.Props.Maxwell
import Verif.Props.Means
import Verif.Props.Mirror
import Verif.Props.Motion
import Verif.Props.Motions
import Verif.Props.Mpi
import Verif.Props.Multivariate
import Verif.Props.Numerics
import Verif.Props.Order
import Verif.Props.OrderFields
import Verif.Props.OrderFocus
import Verif.Props.Output
import Verif.Props.Outside
import Verif.Props.Package
import Verif.Props.PackageOthers
import Verif.Props.Pairs
import Verif.Props.Parallel
import Verif.Props.Particles
import Verif.Props.PhotonEnergy
import Verif.Props.Placement
import Verif.Props.PlaneWave
import Verif.Props.Program
import Verif.Props.Prolong
import Verif.Props.Pulse
import Verif.Props.Pushers
import Verif.Props.PythonExample
import Verif.Props.PythonShipped
import Verif.Props.Quiet
import Verif.Props.QuietGauss
import Verif.Props.Radiation
import Verif.Props.Rare
import Verif.Props.Rates
import Verif.Props.RatesShipped
import Verif.Props.Rest
import Verif.Props.Rounding
import Verif.Props.RunEnds
import Verif.Props.RunManager
import Verif.Props.RunResults
import Verif.Props.RunSettings
import Verif.Props.RunSetup
import Verif.Props.SameRun
import Verif.Props.Sampling
import Verif.Props.Satisfiable
import Verif.Props.Selection
import Verif.Props.Settings
import Verif.Props.SharedState
import Verif.Props.Shipped
import Verif.Props.ShippedEnergy
import Verif.Props.ShippedSplit
import Verif.Props.Source
import Verif.Props.Spectrum
import Verif.Props.SpectrumLimit
import Verif.Props.Speed
import Verif.Props.Sums
import Verif.Props.Surrogate
import Verif.Props.Survival
import Verif.Props.TableFiles
import Verif.Props.Tables
import Verif.Props.Tally
import Verif.Props.Threads
import Verif.Props.Timing64
import Verif.Props.Uniform
import Verif.Props.Units
import Verif.Props.Vectors
import Verif.Props.Watching
import Verif.Props.WeakField
import Verif.Props.Work
import Verif.Props.WorkOrder
