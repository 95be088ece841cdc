import Verif.Model.Cwh

/-!
# `safe_autonomy_dynamics/cwh/rotational_model.py`

Spacecraft with planar Clohessy-Wiltshire translation and rotation about z.
-/

namespace SAD

section
variable {K : Type} {R : Fmt K} [Field K] [LinearOrder K]

/-- constructor arguments of `CWHRotation2dDynamics` (cwh/rotational_model.py:384-397); `dyn` holds the remaining keyword
arguments, and its four limits and wrap centres are ignored in favour of the `Option` fields (`none` is `None`) -/
structure Rot2dDynArgs {K : Type} (R : Fmt K) [Field K] [LinearOrder K] where
  m : Fl R
  inertia : Fl R
  angAccLimit : Fl R
  angVelLimit : Fl R
  n : Fl R
  stateMin : Option (Arr R) := none
  stateMax : Option (Arr R) := none
  stateDotMin : Option (Arr R) := none
  stateDotMax : Option (Arr R) := none
  angleWrapCenters : Option (Vec R) := none
  dyn : DynArgs R := {}

/-- `CWHRotation2dDynamics.state_transition_system` (cwh/rotational_model.py:438-450). The `float32` casts are modelled; the
product `A @ vec` has a `float64` and a `float32` operand and is computed in `float64`. -/
def rot2dF (A : Mat R) (state : Vec R) : Py (Vec R) :=
  match state with
  | [x, y, _, xDot, yDot, thetaDot] => do
    let d ← matVec A [x.cast32, y.cast32, xDot.cast32, yDot.cast32]
    match d with
    | [d0, d1, d2, d3] => pure [d0.cast32, d1.cast32, thetaDot.cast32, d2.cast32, d3.cast32, Fl.cast32 0]
    | _ => .error .indexError
  | _ => .error .valueError

/-- `CWHRotation2dDynamics.state_transition_input` (cwh/rotational_model.py:452-465): `cos(theta) / m` is a NumPy division
(no exception), `1 / inertia` a Python one -/
def rot2dG (m inertia : Fl R) (state : Vec R) : Py (Mat R) := do
  let theta ← getIdx state 2
  let k ← pyDiv 1 inertia
  pure ⟨[[0, 0, 0], [0, 0, 0], [0, 0, 0],
    [Fl.cos theta / m, -Fl.sin theta / m, 0],
    [Fl.sin theta / m, Fl.cos theta / m, 0],
    [0, 0, k]], 3⟩

/-- `CWHRotation2dDynamics.__init__` (cwh/rotational_model.py:384-436). The shape assertions on the generated 2d matrices
always hold and are not repeated. -/
def mkRot2dDynamics (env : Env R) (p : Rot2dDynArgs R) : Py (Dyn R) := do
  let stateMin := p.stateMin.getD (.vec [.ninf, .ninf, .ninf, .ninf, .ninf, -p.angVelLimit])
  let stateMax := p.stateMax.getD (.vec [.pinf, .pinf, .pinf, .pinf, .pinf, p.angVelLimit])
  let stateDotMin := p.stateDotMin.getD (.vec [.ninf, .ninf, -p.angVelLimit, .ninf, .ninf, -p.angAccLimit])
  let stateDotMax := p.stateDotMax.getD (.vec [.pinf, .pinf, p.angVelLimit, .pinf, .pinf, p.angAccLimit])
  let centers := p.angleWrapCenters.getD [.nan, .nan, 0, .nan, .nan, .nan]
  let d ← mkOdeDyn env { p.dyn with
      stateMin := stateMin, stateMax := stateMax, stateDotMin := stateDotMin, stateDotMax := stateDotMax
      angleWrapCenters := some centers } (fun _ _ _ => .ok [])
  let (A, _B) ← generateCwhMatrices p.m p.n "2d"
  pure { d with rhs := affineRhs (rot2dF A) (rot2dG p.m p.inertia) }

/-- constructor arguments of `CWHRotation2dSpacecraft` (cwh/rotational_model.py:127-143) with the defaults of lines 34-39 -/
structure Rot2dArgs {K : Type} (R : Fmt K) [Field K] [LinearOrder K] where
  m : Fl R := 12
  inertia : Fl R := 0.0573
  angAccLimit : Fl R := 0.017453
  angVelLimit : Fl R := 0.034907
  inertiaWheel : Fl R := 4.1e-5
  accLimitWheel : Fl R := 181.3
  velLimitWheel : Fl R := 576
  n : Fl R := 0.001027
  trajectorySamples : Option Int := some 0
  integrationMethod : String := "RK45"
  useJax : Bool := false
  kwargs : List (String × CfgVal R)

/-- `CWHRotation2dSpacecraftValidator` (cwh/rotational_model.py:65-70) -/
def rot2dFields : List (CfgField R) :=
  [⟨"x", .inUnit .meters, 0⟩, ⟨"y", .inUnit .meters, 0⟩, ⟨"theta", .inUnit .radians, 0⟩,
   ⟨"x_dot", .inUnit (PUnit.meters.div .seconds), 0⟩, ⟨"y_dot", .inUnit (PUnit.meters.div .seconds), 0⟩,
   ⟨"wz", .inUnit (PUnit.radians.div .seconds), 0⟩]

/-- the effective limits computed in `CWHRotation2dSpacecraft.__init__` (cwh/rotational_model.py:154-155): angular
acceleration, then angular velocity. Python `min` and Python division. -/
def rot2dLimits (a : Rot2dArgs R) : Py (Fl R × Fl R) := do
  let wa ← pyDiv (a.inertiaWheel * a.accLimitWheel) a.inertia
  let wv ← pyDiv (a.inertiaWheel * a.velLimitWheel) a.inertia
  pure (Fl.pyMin a.angAccLimit wa, Fl.pyMin a.angVelLimit wv)

/-- `CWHRotation2dSpacecraft.__init__` (cwh/rotational_model.py:127-180) with `_build_state` (195-201) -/
def initRot2d (env : Env R) (a : Rot2dArgs R) : Py (Entity R) := do
  let (acc, vel) ← rot2dLimits a
  let d ← mkRot2dDynamics env {
    m := a.m, inertia := a.inertia, angAccLimit := acc, angVelLimit := vel, n := a.n
    dyn := { trajectorySamples := a.trajectorySamples, integrationMethod := a.integrationMethod, useJax := a.useJax } }
  baseInit rot2dFields ["x", "y", "theta", "x_dot", "y_dot", "wz"] d [0, 0, 0]
    (.vec [-1, -1, -acc * a.inertia]) (.vec [1, 1, acc * a.inertia])
    (some [("thrust_x", 0), ("thrust_y", 1), ("moment_z", 2)]) a.kwargs

/-- `CWHRotation2dSpacecraft(...)` -/
def newRot2d (env : Env R) (a : Rot2dArgs R) : Py (Entity R) := instantiate mroCWHRotation2d (initRot2d env a)

/-- `position` (cwh/rotational_model.py:286-290) -/
def rot2dPosition (e : Entity R) : Py (Vec R) := do pure [← getIdx e.state 0, ← getIdx e.state 1, 0]
/-- `velocity` (cwh/rotational_model.py:312-315) -/
def rot2dVelocity (e : Entity R) : Py (Vec R) := do pure [← getIdx e.state 3, ← getIdx e.state 4, 0]
/-- `angular_velocity` (cwh/rotational_model.py:317-319) -/
def rot2dAngularVelocity (e : Entity R) : Py (Vec R) := do pure [0, 0, ← getIdx e.state 5]
/-- `quaternion` (cwh/rotational_model.py:292-310): `Rotation.from_euler("ZYX", [theta, 0, 0]).as_quat()`, which SciPy computes
as the product of the elementary quaternions `(0, 0, sin(theta/2), cos(theta/2))`, identity, identity. Simplification: the
products with the exact identities are not repeated, and SciPy's normalisation of a quaternion already of norm 1 is omitted. -/
def rot2dQuaternion (e : Entity R) : Py (Vec R) := do
  let theta ← getIdx e.state 2
  pure [0, 0, Fl.sin (theta / 2), Fl.cos (theta / 2)]

/-- `CWHRotation2dSpacecraft.__eq__` (cwh/rotational_model.py:186-193); `other` is `none` for an object of another class. `and`
evaluates its right operand only when the left one is true. -/
def rot2dEq (self : Entity R) (other : Option (Entity R)) : Py Bool :=
  match other with
  | none => .ok false
  | some other => do
    if ← allEq (← rot2dVelocity self) (← rot2dVelocity other) then
      if ← allEq (← rot2dPosition self) (← rot2dPosition other) then
        if ← allEq (← rot2dQuaternion self) (← rot2dQuaternion other) then
          allEq (← rot2dAngularVelocity self) (← rot2dAngularVelocity other)
        else pure false
      else pure false
    else pure false

end
end SAD
