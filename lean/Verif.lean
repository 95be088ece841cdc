import Verif.Lemmas.Accuracy
import Verif.Lemmas.Aero
import Verif.Lemmas.Agree
import Verif.Lemmas.Aloft2
import Verif.Lemmas.Aloft3
import Verif.Lemmas.AloftRun
import Verif.Lemmas.Applied
import Verif.Lemmas.Approx
import Verif.Lemmas.Base
import Verif.Lemmas.Binary
import Verif.Lemmas.Config
import Verif.Lemmas.Control
import Verif.Lemmas.Converge
import Verif.Lemmas.CwhRkError
import Verif.Lemmas.Dubins
import Verif.Lemmas.F16
import Verif.Lemmas.Flight
import Verif.Lemmas.Flow
import Verif.Lemmas.Flt
import Verif.Lemmas.Heap
import Verif.Lemmas.History
import Verif.Lemmas.Inside
import Verif.Lemmas.Interp
import Verif.Lemmas.Jax
import Verif.Lemmas.JaxEnds
import Verif.Lemmas.LinSim
import Verif.Lemmas.Matrix
import Verif.Lemmas.Point
import Verif.Lemmas.Rk
import Verif.Lemmas.RkLift
import Verif.Lemmas.Rotational
import Verif.Lemmas.RoundCwh
import Verif.Lemmas.RoundCwhB64
import Verif.Lemmas.RoundCwhRk
import Verif.Lemmas.RoundDopri
import Verif.Lemmas.RoundDubins
import Verif.Lemmas.RoundDubins3
import Verif.Lemmas.RoundLinRk
import Verif.Lemmas.RoundRk
import Verif.Lemmas.RoundTumbling
import Verif.Lemmas.RoundTurning
import Verif.Lemmas.RoundUser
import Verif.Lemmas.Rounding
import Verif.Lemmas.SciPy
import Verif.Lemmas.SciPyEnds
import Verif.Lemmas.SciPyLayers
import Verif.Lemmas.SciPyNan
import Verif.Lemmas.SciPyReal
import Verif.Lemmas.SciPyStep
import Verif.Lemmas.Single
import Verif.Lemmas.SixDof
import Verif.Lemmas.Solver
import Verif.Lemmas.Spin
import Verif.Lemmas.StateDot
import Verif.Lemmas.Stops
import Verif.Lemmas.Symmetry
import Verif.Lemmas.Timed
import Verif.Lemmas.Translate
import Verif.Lemmas.TumblingDot
import Verif.Lemmas.TumblingRun
import Verif.Lemmas.Turn
import Verif.Lemmas.TurningRun
import Verif.Lemmas.UserRun
import Verif.Lemmas.Wrap
import Verif.Model.Aero
import Verif.Model.AeroUtil
import Verif.Model.Attr
import Verif.Model.Base
import Verif.Model.Binary
import Verif.Model.Classes
import Verif.Model.Config
import Verif.Model.Cwh
import Verif.Model.Dubins
import Verif.Model.F16
import Verif.Model.F16Typed
import Verif.Model.First
import Verif.Model.Flt
import Verif.Model.Formats
import Verif.Model.Heap
import Verif.Model.Integrators
import Verif.Model.Jax
import Verif.Model.Np
import Verif.Model.Orientation
import Verif.Model.Print
import Verif.Model.Rk
import Verif.Model.Rotational
import Verif.Model.SciPy
import Verif.Model.Sim
import Verif.Model.SixDof
import Verif.Model.Units
import Verif.Model.Utils
import Verif.Model.Warn
import Verif.Props.Acceleration
import Verif.Props.Accuracy
import Verif.Props.Actuators
import Verif.Props.Aero
import Verif.Props.Attainable
import Verif.Props.Attributes
import Verif.Props.Backwards
import Verif.Props.Braking
import Verif.Props.Climb
import Verif.Props.Control
import Verif.Props.Controlled
import Verif.Props.Controller
import Verif.Props.Converge
import Verif.Props.Cwh
import Verif.Props.Damped
import Verif.Props.Demo
import Verif.Props.Divide
import Verif.Props.Dubins
import Verif.Props.DubinsPrecision
import Verif.Props.DubinsPrecision3
import Verif.Props.DubinsReach
import Verif.Props.DubinsSpan
import Verif.Props.Engine
import Verif.Props.Epicycle
import Verif.Props.Equality
import Verif.Props.Euler
import Verif.Props.F16Typed
import Verif.Props.Failure
import Verif.Props.FirstStep
import Verif.Props.Flight
import Verif.Props.Freezable
import Verif.Props.Gain
import Verif.Props.Heading
import Verif.Props.Heap
import Verif.Props.Inside
import Verif.Props.Integers
import Verif.Props.Integrators
import Verif.Props.Invariance
import Verif.Props.Jax
import Verif.Props.JaxEnds
import Verif.Props.Lengths
import Verif.Props.Linear
import Verif.Props.Manoeuvre
import Verif.Props.Mission
import Verif.Props.Moments
import Verif.Props.NaNs
import Verif.Props.Orbit
import Verif.Props.Orientation
import Verif.Props.PlanarSpin
import Verif.Props.Precision
import Verif.Props.PrecisionAloft
import Verif.Props.PrecisionLinear
import Verif.Props.PrecisionRk
import Verif.Props.PrecisionTumbling
import Verif.Props.PrecisionTurning
import Verif.Props.PrecisionUser
import Verif.Props.Print
import Verif.Props.Reach
import Verif.Props.Restore
import Verif.Props.Results
import Verif.Props.Rotational
import Verif.Props.Rounding
import Verif.Props.SciPy
import Verif.Props.SciPyLayers
import Verif.Props.Separation
import Verif.Props.Sim
import Verif.Props.Single
import Verif.Props.SixDof
import Verif.Props.Slew
import Verif.Props.Solver
import Verif.Props.Spin
import Verif.Props.SpinEuler
import Verif.Props.Stalls
import Verif.Props.State
import Verif.Props.Stock
import Verif.Props.Stops
import Verif.Props.Subclass
import Verif.Props.Sun
import Verif.Props.SunPrecision
import Verif.Props.Symmetry
import Verif.Props.Tables
import Verif.Props.ThrustReach
import Verif.Props.Trim
import Verif.Props.Turn
import Verif.Props.Units
import Verif.Props.Utils
import Verif.Props.Warnings
import Verif.Props.Wrapping
import Verif.Spec.Aero
import Verif.Spec.Aloft
import Verif.Spec.Attributes
import Verif.Spec.Base
import Verif.Spec.Classes
import Verif.Spec.Craft
import Verif.Spec.ErrorControl
import Verif.Spec.F16
import Verif.Spec.Finite
import Verif.Spec.Flight
import Verif.Spec.Jax
import Verif.Spec.Legs
import Verif.Spec.Legs3
import Verif.Spec.Linear
import Verif.Spec.Rounding
import Verif.Spec.Shadows
import Verif.Spec.Stops
import Verif.Spec.Tables
import Verif.Spec.Tumbling
import Verif.Spec.Turning
import Verif.Spec.Warnings
