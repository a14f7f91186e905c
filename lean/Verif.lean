import Verif.Model.Json
import Verif.Ext
import Verif.Toy
import Verif.Props.Run
import Verif.Props.Phase
import Verif.Props.Steering
import Verif.Props.Json
import Verif.Props.Program
import Verif.Props.Table
import Verif.Props.State
import Verif.Props.Planet
import Verif.Props.Frames
import Verif.Props.Integrator
import Verif.Props.Time
import Verif.Props.Throttle
import Verif.Props.Unlimited
import Verif.Props.Mass
import Verif.Props.Aero
import Verif.Props.Ascent
import Verif.Props.Atmosphere
import Verif.Props.Load
import Verif.Props.Output
import Verif.Props.Defaults
import Verif.Props.Plot
import Verif.F64
import Verif.Lemmas.F64
import Verif.Lemmas.Linear
import Verif.Props.Burn
import Verif.Props.Double
import Verif.Lemmas.RKOrder
import Verif.Props.Order
import Verif.Spec.Orbit
import Verif.Lemmas.Orbit
import Verif.Props.Orbit
import Verif.Spec.Split
import Verif.Props.Split
import Verif.Spec.Rocket
import Verif.Props.Rocket
import Verif.Lemmas.F64Round
import Verif.Lemmas.F64Sign
import Verif.Props.DoubleMass
import Verif.Props.Scale
import Verif.Props.Real
import Verif.Spec.Turn
import Verif.Lemmas.UsesOnly
import Verif.Lemmas.Symmetry
import Verif.Props.Turn
import Verif.Spec.Mirror
import Verif.Lemmas.Mirror
import Verif.Props.Mirror
import Verif.Spec.DoubleTable
import Verif.Lemmas.F64Table
import Verif.Props.DoubleTable
import Verif.Lemmas.RKGlobal
import Verif.Spec.Convergence
import Verif.Props.Convergence
import Verif.Props.Conserve
import Verif.Spec.Timetable
import Verif.Props.Timetable
import Verif.Shipped
import Verif.Props.Shipped
import Verif.Spec.Handover
import Verif.Props.Handover
import Verif.Spec.Approach
import Verif.Props.Approach
import Verif.Spec.Picture
import Verif.Props.Picture
import Verif.Spec.Plan
import Verif.Props.Plan
import Verif.Spec.Rewrite
import Verif.Props.Rewrite
import Verif.Lemmas.RKExplicit
import Verif.Lemmas.Kepler
import Verif.Lemmas.Harmonics
import Verif.Spec.Accuracy
import Verif.Props.Accuracy
import Verif.Lemmas.Near
import Verif.Spec.Library
import Verif.Lemmas.GravF64
import Verif.Spec.DoubleOrbit
import Verif.Lemmas.EarthF64
import Verif.Lemmas.CoastF64
import Verif.Lemmas.StepF64
import Verif.Props.DoubleOrbit
import Verif.Lemmas.ThrottleReal
import Verif.Spec.Trig
import Verif.Lemmas.ThrottleF64
import Verif.Lemmas.AutoThrottleF64
import Verif.Props.DoubleThrottle
import Verif.Spec.DoubleBurn
import Verif.Lemmas.BurnF64
import Verif.Props.DoubleBurn
import Verif.Spec.Stages
import Verif.Lemmas.StageF64
import Verif.Props.DoubleMission
import Verif.Spec.DoubleAir
import Verif.Lemmas.Rel
import Verif.Lemmas.AirF64
import Verif.Props.DoubleAir
import Verif.Spec.DoubleAltitude
import Verif.Lemmas.AltF64
import Verif.Props.DoubleAltitude
import Verif.Model.Print
import Verif.Spec.Print
import Verif.Props.Print
import Verif.Lemmas.SpeedF64
import Verif.Props.DoubleSpeed
import Verif.Spec.DoubleTrack
import Verif.Lemmas.TrackF64
import Verif.Props.DoubleTrack
import Verif.Spec.DoubleLaunch
import Verif.Lemmas.LaunchF64
import Verif.Props.DoubleLaunch
import Verif.Spec.DoubleAttitude
import Verif.Lemmas.AttitudeF64
import Verif.Props.DoubleAttitude
import Verif.Spec.DoubleForces
import Verif.Lemmas.ForcesF64
import Verif.Props.DoubleForces
import Verif.Spec.Powered
import Verif.Lemmas.Powered
import Verif.Lemmas.ComplexTurn
import Verif.Props.Powered
import Verif.Spec.DoublePowered
import Verif.Lemmas.PoweredF64
import Verif.Lemmas.TrueFlight
import Verif.Props.DoublePowered
import Verif.Spec.Trajectory
import Verif.Props.Trajectory
import Verif.Lemmas.SurfaceGravF64
import Verif.Spec.DoubleGravity
import Verif.Props.DoubleGravity
import Verif.Lemmas.ConserveF64
import Verif.Spec.DoubleConserve
import Verif.Props.DoubleConserve
import Verif.Model.JsonText
import Verif.Spec.JsonText
import Verif.Lemmas.JsonText
import Verif.Lemmas.NumberF64
import Verif.Lemmas.NumberClose
import Verif.ShippedText
import Verif.Lemmas.ShippedText
import Verif.Props.JsonText
import Verif.Spec.JsonNotation
import Verif.Lemmas.JsonNotation
import Verif.Props.JsonNotation
import Verif.Spec.ConfigNumbers
import Verif.Props.LoadedNumbers
import Verif.Spec.Sensible
import Verif.Props.LoadedReal
import Verif.Model.JsonBytes
import Verif.Props.JsonBytes
import Verif.Props.ShippedReal
import Verif.Props.ShippedSymmetry
import Verif.Props.ShippedNumbers
