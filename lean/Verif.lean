import Verif.Props.Output
import Verif.Props.Recovery
import Verif.Props.Schedule
import Verif.Props.Setup
import Verif.Props.Json
import Verif.Props.Gravity
import Verif.Props.Leapfrog
import Verif.Props.Interp
import Verif.Props.Evolver
import Verif.Props.Tools
import Verif.Props.Orbits
import Verif.Props.Tides
import Verif.Props.Flattening
import Verif.Props.Gr
import Verif.Props.WindDisk
import Verif.Props.Config
import Verif.Props.Frame
import Verif.Lemmas.Follow
import Verif.Props.Record
import Verif.Props.WHFast
import Verif.Props.Kepler
import Verif.Lemmas.KeplerRoot
import Verif.Props.KeplerRoot
import Verif.Props.Solver
import Verif.Props.WHFastAngular
import Verif.Props.WHFastSplit
import Verif.Props.Midpoint
import Verif.Props.WHFastIterate
import Verif.Props.Ias15
import Verif.Props.Ias15Sweep
import Verif.Props.Ias15Collocation
import Verif.Props.Ias15Control
import Verif.Props.Ias15Root
import Verif.Props.Ias15Tables
import Verif.Props.Ias15Momentum
import Verif.Props.Cayley
import Verif.Props.CreepAnomaly
import Verif.Props.Creep
import Verif.Props.CreepSlow
import Verif.Props.CreepForce
import Verif.Props.KaulaLove
import Verif.Props.KaulaTables
import Verif.Props.KaulaInclination
import Verif.Props.Kaula
import Verif.Props.EvolverLoad
import Verif.Spec.TidalForce
import Verif.Lemmas.TidalForce
import Verif.Lemmas.PairFactors
import Verif.Props.TidalForce
import Verif.Lemmas.Totals
import Verif.Lemmas.Settings
import Verif.Props.Totals
import Verif.Model.Integrators
import Verif.Lemmas.Ias15Guard
import Verif.Lemmas.MidpointGuard
import Verif.Lemmas.Ias15Still
import Verif.Lemmas.Ias15Free
import Verif.Props.Integrators
import Verif.Props.WHFastUniverse
import Verif.Props.WHFastTwoBody
import Verif.Props.Symplectic
import Verif.Props.WindBraking
import Verif.Model.Builder
import Verif.Props.Builder
import Verif.Props.Simulation
import Verif.Spec.Observer
import Verif.Lemmas.Observer
import Verif.Lemmas.ObserverGr
import Verif.Lemmas.ObserverUniverse
import Verif.Props.Observer
import Verif.Spec.Relist
import Verif.Lemmas.Relist
import Verif.Lemmas.RelistUniverse
import Verif.Lemmas.RelistConfig
import Verif.Props.Relist
import Verif.Spec.TidalEnergy
import Verif.Props.TidalEnergy
import Verif.Props.FlatteningEnergy
import Verif.Spec.Units
import Verif.Lemmas.Units
import Verif.Lemmas.UnitsEffects
import Verif.Lemmas.UnitsUniverse
import Verif.Lemmas.UnitsCreep
import Verif.Model.CreepUniverse
import Verif.Props.Units
import Verif.Lemmas.LeapfrogOrder
import Verif.Props.Convergence
import Verif.Props.Anderson
import Verif.Lemmas.TrueAnomaly
import Verif.Props.PseudoSynchronous
import Verif.Lemmas.EulerOrder
import Verif.Props.RotationOrder
import Verif.Spec.WHFastReverse
import Verif.Props.WHFastReverse
import Verif.Lemmas.Splitting
import Verif.Lemmas.Strang
import Verif.Spec.WHFastAccurate
import Verif.Lemmas.WHFastForm
import Verif.Lemmas.WHFastOrder
import Verif.Props.WHFastConvergence
import Verif.Props.WHFastSymplectic
import Verif.Model.FrontEnd
import Verif.Lemmas.FrontEnd
import Verif.Props.FrontEnd
import Verif.Props.FrontEndCases
import Verif.Model.FrontEndEvolver
import Verif.Lemmas.FrontEndEvolver
import Verif.Props.FrontEndEvolver
import Verif.Model.FrontEndTools
import Verif.Lemmas.FrontEndTools
import Verif.Props.FrontEndTools
import Verif.Model.CaseJson
import Verif.Spec.CaseJson
import Verif.Lemmas.CaseJson
import Verif.Props.CaseJson
import Verif.Spec.Ellipse
import Verif.Lemmas.OrbitAverage
import Verif.Lemmas.TidalOrbit
import Verif.Props.TidalOrbit
import Verif.Model.Analysis
import Verif.Lemmas.Analysis
import Verif.Props.Analysis
import Verif.Props.AnalysisElements
import Verif.Model.Resonances
import Verif.Props.Resonances
import Verif.Props.AnalysisQuantities
import Verif.Props.Precession
import Verif.Lemmas.FlatOrbit
import Verif.Props.FlattenedOrbit
import Verif.Props.Migration
import Verif.Model.Constants
import Verif.Props.Constants
import Verif.Model.FrontEndHelpers
import Verif.Props.FrontEndHelpers
import Verif.Model.CleanJson
import Verif.Props.CleanJson
import Verif.Props.Timeline
import Verif.Props.WHFastForceless
import Verif.Props.RawHistory
import Verif.Props.SingleResonance
import Verif.Props.KeplerHalf
import Verif.Props.Ias15Prediction
import Verif.Props.Sine
import Verif.Props.KeplerApsides
import Verif.Props.Ias15Order
import Verif.Props.Ias15Units
import Verif.Props.Ias15Observer
import Verif.Props.RelistIas15
import Verif.Props.ObserverIas15
import Verif.Props.UnitsIas15
import Verif.Props.Ias15Run
import Verif.Props.KeplerUnits
import Verif.Props.WHFastUnits
import Verif.Props.WHFastObserver
import Verif.Props.WHFastOrder
import Verif.Props.WHFastFrames
